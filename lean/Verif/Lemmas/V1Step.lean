import Verif.Props.V1Mini
import Verif.Ref1

/-!
One v1 call, completely: it keeps the invariant, touches only its own window of memory, and does what the reference machines
`Ref.step1` and `Ref.miniStep1` do.
-/

namespace Crunch.V1
open Spec
open V3 (St WF Val Outs Kind abs Iso StepIs getB onMem obsRes wrapRes enc dec)
open V3.Mini (callOut onB getOut putOut)
open V2 (exec Op2)

/-! ## the calls for the reference machines -/

/-- A result as a value. -/
def Val1.toVal : Val1 → Val
  | .val v => v
  | .any (.bytes t) => .slice t
  | .any (.u16 l) => .typed .u16 l
  | .any (.u32 l) => .typed .u32 l
  | .any (.u64 l) => .typed .u64 l
  | .any .other => .unit

/-- The same for an outcome. -/
def toRes : Res Val1 → Res Val
  | .ok v => .ok v.toVal
  | .panic p => .panic p

/-- The argument of `WriteComplex` for the reference machine. -/
def argOf (s : St) : Any → Ref.Arg
  | .bytes t => .bytes (s.mem.view t) (V2.place s t)
  | .u16 l => .ints 2 (l.map (·.toNat))
  | .u32 l => .ints 4 (l.map (·.toNat))
  | .u64 l => .ints 8 (l.map (·.toNat))
  | .other => .other

/-- The reference call of a v1 method call; every call that is not a `Complex` one has a v2 counterpart. -/
def lower1 (s : St) : Op1 → Ref.Op1
  | .writeComplex p d size o => .writeComplex (p.map Int64.toInt) (argOf s d) size.toInt o
  | .readComplex p n size o => .readComplex (p.map Int64.toInt) n.toInt size.toInt o
  | op => match toV2 op with
    | some op2 => .base (V2.lower s op2)
    | none => .base .reset

/-- The argument of a call exists. -/
def Op1.Valid (m : Heap) : Op1 → Prop
  | .writeComplex _ d _ _ => d.Valid m
  | .writeBytes _ src => SliceOK m src
  | _ => True

/-- A call on a `Buffer` does what the reference machine does, and leaves the mutex locked if `k` says so. -/
structure StepSh (s : St) (q : Res Ref.Val × Ref.Ref) (k : Bool) (r : Res Val × Sh) : Prop where
  is : StepIs s q (r.1, r.2.st)
  locked : r.2.locked = k

/-! ## without a byte order -/

theorem forLoop_first (body : Int64 → α → Prog α) (n : Int64) (a : α) (h : 0 < n) {p : Panic} (hb : body 0 a = .panic p) :
    Prog.forLoop body n 0 a = .panic p := by
  rw [Prog.forLoop.eq_def, if_pos h, hb]; rfl

theorem ofNat_pos {n : Nat} (h : 0 < n) (hn : n < 2 ^ 62) : (0 : Int64) < Int64.ofNat n := by
  rw [Int64.lt_iff_toInt_lt, toInt_ofNat (by omega), toInt_zero']; omega

theorem idx_zero {l : List α} (h : l ≠ []) (hl : l.length < 2 ^ 62) : ∃ v, Prog.idx l 0 = .ret v :=
  ⟨_, prog_idx_ofNat (m := 0) (List.length_pos_iff.mpr h) (by omega)⟩

theorem bytes16_nil (o : ByteOrder) : bytes16 o [] = .ret [] := by
  unfold bytes16
  exact Prog.forLoop_stop _ _ _ _ (by decide)
theorem bytes32_nil (o : ByteOrder) : bytes32 o [] = .ret [] := by
  unfold bytes32
  exact Prog.forLoop_stop _ _ _ _ (by decide)
theorem bytes64_nil (o : ByteOrder) : bytes64 o [] = .ret [] := by
  unfold bytes64
  exact Prog.forLoop_stop _ _ _ _ (by decide)

theorem bytes16_none (l : List UInt16) (h : l ≠ []) (hl : l.length * 2 ≤ maxAlloc) : bytes16 none l = .panic .nilDeref := by
  have hM := maxAlloc_lt
  obtain ⟨v, hv⟩ := idx_zero h (by omega)
  unfold bytes16
  rw [show Prog.makeTyped 1 (0 : UInt8) (2 * Int64.ofNat l.length) = _ from make_bytes .u16 .le l hl]
  exact forLoop_first _ _ _ (ofNat_pos (List.length_pos_iff.mpr h) (by omega)) (by rw [hv]; rfl)
theorem bytes32_none (l : List UInt32) (h : l ≠ []) (hl : l.length * 4 ≤ maxAlloc) : bytes32 none l = .panic .nilDeref := by
  have hM := maxAlloc_lt
  obtain ⟨v, hv⟩ := idx_zero h (by omega)
  unfold bytes32
  rw [show Prog.makeTyped 1 (0 : UInt8) (4 * Int64.ofNat l.length) = _ from make_bytes .u32 .le l hl]
  exact forLoop_first _ _ _ (ofNat_pos (List.length_pos_iff.mpr h) (by omega)) (by rw [hv]; rfl)
theorem bytes64_none (l : List UInt64) (h : l ≠ []) (hl : l.length * 8 ≤ maxAlloc) : bytes64 none l = .panic .nilDeref := by
  have hM := maxAlloc_lt
  obtain ⟨v, hv⟩ := idx_zero h (by omega)
  unfold bytes64
  rw [show Prog.makeTyped 1 (0 : UInt8) (8 * Int64.ofNat l.length) = _ from make_bytes .u64 .le l hl]
  exact forLoop_first _ _ _ (ofNat_pos (List.length_pos_iff.mpr h) (by omega)) (by rw [hv]; rfl)

/-! ## `WriteComplex` -/

/-- What the conversions in `writeComplex` come to. -/
def Built (s : St) (off : Int64) (d : Any) (size : Int64) (o : ByteOrder) : Prop :=
  match Ref.bytesOf off.toInt (argOf s d) size.toInt o with
  | .panic p => Buffer.writeComplex off d size o = .panic p ∧ Mini.writeComplex off d size o = throwP p
  | .ok bs =>
    (∃ src, d = .bytes src ∧ size = Unsigned8 ∧ bs = Ref.echo (V2.place s src) off.toInt (s.mem.view src)) ∨
    (bs.length ≤ maxAlloc ∧ Buffer.writeComplex off d size o = Buffer.write off (.lit bs) ∧
      Mini.writeComplex off d size o = Mini.writeLit off bs)

theorem sizes {size : Int64} (h1 : size ≠ Unsigned8) (h2 : size ≠ Unsigned16) (h4 : size ≠ Unsigned32) (h8 : size ≠ Unsigned64) :
    size.toInt ≠ 1 ∧ size.toInt ≠ 2 ∧ size.toInt ≠ 4 ∧ size.toInt ≠ 8 :=
  ⟨fun h => h1 (Int64.toInt_inj.mp h), fun h => h2 (Int64.toInt_inj.mp h), fun h => h4 (Int64.toInt_inj.mp h), fun h => h8 (Int64.toInt_inj.mp h)⟩

theorem enc_map (k : Kind) (e : Endian) (l : List k.Ty) : (l.map k.pat).flatMap (encode e k.size) = enc k e l := by
  rw [List.flatMap_map]; rfl

theorem built (s : St) (off : Int64) (d : Any) (size : Int64) (o : ByteOrder) (hv : d.Valid s.mem) : Built s off d size o := by
  unfold Built
  by_cases h1 : size = Unsigned8
  · subst h1
    cases d with
    | bytes t => exact .inl ⟨t, rfl, rfl, rfl⟩
    | _ => exact ⟨rfl, rfl⟩
  by_cases h2 : size = Unsigned16
  · subst h2
    cases d with
    | u16 l =>
      change l.length * 2 ≤ maxAlloc at hv
      cases o with
      | some e =>
        have E : (l.map (·.toNat)).flatMap (encode e 2) = enc .u16 e l := enc_map .u16 e l
        refine .inr ⟨?_, ?_, ?_⟩
        · show ((l.map (·.toNat)).flatMap (encode e 2)).length ≤ _
          rw [E, V3.length_enc]; exact hv
        · show _ = Buffer.write off (.lit ((l.map (·.toNat)).flatMap (encode e 2)))
          rw [E]; exact writeComplex_u16 off l e hv
        · show _ = Mini.writeLit off ((l.map (·.toNat)).flatMap (encode e 2))
          rw [E]; exact mini_writeComplex_u16 off l e hv
      | none =>
        by_cases hl : l = []
        · subst hl
          refine .inr ⟨Nat.zero_le _, ?_, ?_⟩
          · show (bytes16 none [] >>= fun data => Buffer.write off (.lit data)) = _
            rw [bytes16_nil]; rfl
          · show (Mini.plain (bytes16 none []) >>= fun data => Mini.writeLit off data) = _
            rw [bytes16_nil]; rfl
        · have e : Ref.bytesOf off.toInt (argOf s (.u16 l)) Unsigned16.toInt none = .panic .nilDeref :=
            (show (if List.map (·.toNat) l = [] then (.ok [] : Res (List UInt8)) else .panic .nilDeref) = _ from
              if_neg (by rw [List.map_eq_nil_iff]; exact hl))
          rw [e]
          constructor
          · show (bytes16 none l >>= fun data => Buffer.write off (.lit data)) = _
            rw [bytes16_none l hl hv]; rfl
          · show (Mini.plain (bytes16 none l) >>= fun data => Mini.writeLit off data) = _
            rw [bytes16_none l hl hv]; rfl
    | _ => exact ⟨rfl, rfl⟩
  by_cases h4 : size = Unsigned32
  · subst h4
    cases d with
    | u32 l =>
      change l.length * 4 ≤ maxAlloc at hv
      cases o with
      | some e =>
        have E : (l.map (·.toNat)).flatMap (encode e 4) = enc .u32 e l := enc_map .u32 e l
        refine .inr ⟨?_, ?_, ?_⟩
        · show ((l.map (·.toNat)).flatMap (encode e 4)).length ≤ _
          rw [E, V3.length_enc]; exact hv
        · show _ = Buffer.write off (.lit ((l.map (·.toNat)).flatMap (encode e 4)))
          rw [E]; exact writeComplex_u32 off l e hv
        · show _ = Mini.writeLit off ((l.map (·.toNat)).flatMap (encode e 4))
          rw [E]; exact mini_writeComplex_u32 off l e hv
      | none =>
        by_cases hl : l = []
        · subst hl
          refine .inr ⟨Nat.zero_le _, ?_, ?_⟩
          · show (bytes32 none [] >>= fun data => Buffer.write off (.lit data)) = _
            rw [bytes32_nil]; rfl
          · show (Mini.plain (bytes32 none []) >>= fun data => Mini.writeLit off data) = _
            rw [bytes32_nil]; rfl
        · have e : Ref.bytesOf off.toInt (argOf s (.u32 l)) Unsigned32.toInt none = .panic .nilDeref :=
            (show (if List.map (·.toNat) l = [] then (.ok [] : Res (List UInt8)) else .panic .nilDeref) = _ from
              if_neg (by rw [List.map_eq_nil_iff]; exact hl))
          rw [e]
          constructor
          · show (bytes32 none l >>= fun data => Buffer.write off (.lit data)) = _
            rw [bytes32_none l hl hv]; rfl
          · show (Mini.plain (bytes32 none l) >>= fun data => Mini.writeLit off data) = _
            rw [bytes32_none l hl hv]; rfl
    | _ => exact ⟨rfl, rfl⟩
  by_cases h8 : size = Unsigned64
  · subst h8
    cases d with
    | u64 l =>
      change l.length * 8 ≤ maxAlloc at hv
      cases o with
      | some e =>
        have E : (l.map (·.toNat)).flatMap (encode e 8) = enc .u64 e l := enc_map .u64 e l
        refine .inr ⟨?_, ?_, ?_⟩
        · show ((l.map (·.toNat)).flatMap (encode e 8)).length ≤ _
          rw [E, V3.length_enc]; exact hv
        · show _ = Buffer.write off (.lit ((l.map (·.toNat)).flatMap (encode e 8)))
          rw [E]; exact writeComplex_u64 off l e hv
        · show _ = Mini.writeLit off ((l.map (·.toNat)).flatMap (encode e 8))
          rw [E]; exact mini_writeComplex_u64 off l e hv
      | none =>
        by_cases hl : l = []
        · subst hl
          refine .inr ⟨Nat.zero_le _, ?_, ?_⟩
          · show (bytes64 none [] >>= fun data => Buffer.write off (.lit data)) = _
            rw [bytes64_nil]; rfl
          · show (Mini.plain (bytes64 none []) >>= fun data => Mini.writeLit off data) = _
            rw [bytes64_nil]; rfl
        · have e : Ref.bytesOf off.toInt (argOf s (.u64 l)) Unsigned64.toInt none = .panic .nilDeref :=
            (show (if List.map (·.toNat) l = [] then (.ok [] : Res (List UInt8)) else .panic .nilDeref) = _ from
              if_neg (by rw [List.map_eq_nil_iff]; exact hl))
          rw [e]
          constructor
          · show (bytes64 none l >>= fun data => Buffer.write off (.lit data)) = _
            rw [bytes64_none l hl hv]; rfl
          · show (Mini.plain (bytes64 none l) >>= fun data => Mini.writeLit off data) = _
            rw [bytes64_none l hl hv]; rfl
    | _ => exact ⟨rfl, rfl⟩
  obtain ⟨n1, n2, n4, n8⟩ := sizes h1 h2 h4 h8
  have e : Ref.bytesOf off.toInt (argOf s d) size.toInt o = .panic (.err BufferInvalidIntegerSizeError) := by
    unfold Ref.bytesOf
    rw [if_neg n1, if_neg (by rintro (h | h | h); exact n2 h; exact n4 h; exact n8 h)]
  rw [e]
  exact ⟨writeComplex_other off d size o h1 h2 h4 h8, mini_writeComplex_other off d size o h1 h2 h4 h8⟩

/-- Is it the panic that leaves the mutex locked? -/
def atIndex : Res Ref.Val → Bool
  | .panic .index => true
  | _ => false

/-- A `Unit` outcome as a value. -/
def unitRes (r : Res Unit × Sh) : Res Val × Sh :=
  (match r.1 with
    | .ok _ => .ok .unit
    | .panic p => .panic p, r.2)

theorem step1_put {s : St} (h : WF s) (off : Int64) (bs : List UInt8) (hl : bs.length ≤ maxAlloc) {r : Res Unit × Sh}
    (hr : r = if 0 < bs.length ∧ 0 ≤ off.toInt ∧ off.toInt + bs.length ≤ s.b.buf.len then
        (.ok (), ⟨s.write off.toInt.toNat bs, false⟩)
      else (.panic (V2.writePanic off.toInt bs.length s.b.buf.len), ⟨s, (V2.writePanic off.toInt bs.length s.b.buf.len).runtime⟩)) :
    let q := Ref.put (abs s) off.toInt bs (bs ≠ []) .index
    StepSh s q (atIndex q.1) (unitRes r) := by
  intro q
  subst hr
  have hb := V3.abs_len h.ok; have hby := V3.length_bytes h.ok
  have hq : q = if 0 < bs.length ∧ 0 ≤ off.toInt ∧ off.toInt + bs.length ≤ s.b.buf.len then
      (.ok .unit, { abs s with data := patch (abs s).data off.toInt.toNat bs })
      else (.panic (V2.writePanic off.toInt bs.length s.b.buf.len), abs s) := by
    show (if _ ∧ _ ∧ _ then _ else _) = _
    rw [V3.reject_write h.ok _ _ _ hl, hb]
    simp only [List.length_pos_iff]
    rfl
  by_cases hc : 0 < bs.length ∧ 0 ≤ off.toInt ∧ off.toInt + bs.length ≤ s.b.buf.len
  · rw [if_pos hc] at hq ⊢
    rw [hq]
    refine ⟨?_, rfl⟩
    rw [V3.write_eq_put h.ok (by omega)]
    exact StepIs.content h (by rw [length_patch (by omega), hby]) rfl
  · rw [if_neg hc] at hq ⊢
    rw [hq]
    refine ⟨StepIs.same h rfl, ?_⟩
    show (V2.writePanic off.toInt bs.length s.b.buf.len).runtime = atIndex (.panic (V2.writePanic off.toInt bs.length s.b.buf.len))
    unfold V2.writePanic
    split
    · rfl
    · split <;> rfl

theorem step1_writeComplex {s : St} (h : WF s) (off : Int64) (d : Any) (size : Int64) (o : ByteOrder) (hv : d.Valid s.mem) :
    let q := Ref.writeComplex off.toInt (argOf s d) size.toInt o (abs s)
    StepSh s q (atIndex q.1) (unitRes ((Buffer.writeComplex off d size o).run ⟨s, false⟩)) := by
  intro q
  have hB := built s off d size o hv
  unfold Built at hB
  have hq : q = match Ref.bytesOf off.toInt (argOf s d) size.toInt o with
    | .ok bs => Ref.put (abs s) off.toInt bs (bs ≠ []) .index
    | .panic p => (.panic p, abs s) := rfl
  cases hb : Ref.bytesOf off.toInt (argOf s d) size.toInt o with
  | panic p =>
    rw [hb] at hB hq
    rw [hq, hB.1]
    refine ⟨StepIs.same h rfl, ?_⟩
    have : p ≠ .index := by
      intro hp
      subst hp
      revert hb
      unfold Ref.bytesOf
      split
      · split <;> exact fun h => nomatch h
      · split
        · split
          · split
            · exact fun h => nomatch h
            · split
              · exact fun h => nomatch h
              · split <;> exact fun h => nomatch h
          · exact fun h => nomatch h
        · exact fun h => nomatch h
    show false = atIndex (.panic p)
    unfold atIndex
    split
    · rename_i hp; injection hp with hp; exact absurd hp this
    · rfl
  | ok bs =>
    rw [hb] at hB hq
    rw [hq]
    rcases hB with ⟨src, hd, hs, hbs⟩ | ⟨hl, e, _⟩
    · subst hd hs hbs
      have hl := length_view (show SliceOK s.mem src from hv); have hD := (show SliceOK s.mem src from hv).len_le_max
      have he := V2.length_echo (V2.place s src) off.toInt (s.mem.view src)
      rw [writeComplex_u8]
      refine step1_put h off _ (by omega) ?_
      rw [he, hl, V2.writeBytes_run h off hv]
      by_cases hc : 0 < src.len ∧ 0 ≤ off.toInt ∧ off.toInt + src.len ≤ s.b.buf.len
      · rw [if_pos hc, if_pos hc, V2.copied_echo s hc.2.1 hv]
      · rw [if_neg hc, if_neg hc]
    · rw [e]
      exact step1_put h off bs hl (write_lit_run h off bs hl)

/-! ## `ReadComplex` -/

theorem ref_readBytes {s : St} (h : WF s) (off n : Int64) :
    Ref.readBytes off.toInt n.toInt (abs s) =
      if 0 ≤ n.toInt ∧ 0 ≤ off.toInt ∧ off.toInt + n.toInt ≤ s.b.buf.len then
        (.ok (.bytes (s.mem.view ⟨s.b.buf.arr, s.b.buf.off + off.toInt.toNat, n.toInt.toNat, s.b.buf.cap - off.toInt.toNat⟩)), abs s)
      else (.panic (V3.readBytesPanic off.toInt n.toInt s.b.buf.len), abs s) := by
  have k := (V3.step_ok h (.readBytes (some off) n) trivial).is
  have k1 := k.result
  have k2 := k.state
  simp only [V3.Op.lower, Ref.step, Option.map_some, V3.exec, V3.wrapVal_run, V3.buffer_readBytes_run h] at k1 k2
  rw [show Ref.readBytes off.toInt n.toInt (abs s) = ((Ref.readBytes off.toInt n.toInt (abs s)).1, (Ref.readBytes off.toInt n.toInt (abs s)).2) from rfl,
    ← k1, ← k2]
  by_cases hr : 0 ≤ n.toInt ∧ 0 ≤ off.toInt ∧ off.toInt + n.toInt ≤ s.b.buf.len
  · rw [if_pos hr, if_pos hr]; rfl
  · rw [if_neg hr, if_neg hr]; rfl

theorem dec_window {s : St} (h : s.OK) (kd : Kind) (e : Endian) {o n : Nat} (hc : o + n * kd.size ≤ s.b.buf.cap) :
    (dec kd e n (St.from s o)).map kd.pat =
      (List.range n).map fun i => decode e (Spec.slice ((abs s).data ++ (abs s).spare) (o + i * kd.size) kd.size) := by
  have hf := h.fits
  rw [values_dec kd e n _ (by unfold St.from; rw [List.length_drop]; omega), ← V3.window_split h]
  apply List.map_congr_left
  intro i hi
  have := V3.mul_le_of_lt (w := kd.size) (List.mem_range.mp hi)
  congr 1
  show Spec.slice (List.drop _ _) _ _ = Spec.slice (Spec.slice (s.mem.array s.b.buf.arr) s.b.buf.off s.b.buf.cap) _ _
  rw [V3.slice_slice (by omega), V3.slice_drop, Nat.add_assoc]

/-- Loading elements without a byte order. -/
theorem readElems_none {kd : Kind} {ld : Slice → Prog kd.Ty} (hld : ∀ t, ld t = .panic .nilDeref) (data : Slice) (n : Nat)
    (hn : n < 2 ^ 62) :
    readElems kd ld data (Int64.ofNat n) =
      if maxAlloc < n * kd.size then .panic .makeSlice
      else if n = 0 then .ret []
      else if kd.size ≤ data.cap then .panic .nilDeref else .panic .sliceBounds := by
  have h8 := V3.size_le kd
  have hcast : ((n : Int) * (kd.size : Int) > maxAlloc) ↔ maxAlloc < n * kd.size := by
    rw [← Int.natCast_mul]; exact Int.ofNat_lt
  unfold readElems Prog.makeTyped
  rw [toInt_ofNat (by omega)]
  by_cases h1 : maxAlloc < n * kd.size
  · rw [if_pos (.inr (hcast.mpr h1)), if_pos h1]; rfl
  rw [if_neg (by rw [hcast]; omega), if_neg h1, Int.toNat_natCast]
  show Prog.forLoop _ (Int64.ofNat n) 0 (List.replicate n kd.zero) = _
  by_cases h0 : n = 0
  · subst h0
    rw [if_pos rfl, Prog.forLoop_stop _ _ _ _ (by decide)]; rfl
  rw [if_neg h0]
  have e0 : (0 : Int64) * Int64.ofNat kd.size = Int64.ofNat 0 := (ofNat_mul 0 kd.size).symm.trans (by rw [Nat.zero_mul])
  have e1 : ((0 : Int64) + 1) * Int64.ofNat kd.size = Int64.ofNat kd.size := (ofNat_mul 1 kd.size).symm.trans (by rw [Nat.one_mul])
  by_cases hc : kd.size ≤ data.cap
  · rw [if_pos hc]
    refine forLoop_first _ _ _ (ofNat_pos (by omega) hn) ?_
    rw [e0, e1]
    unfold Prog.reslice
    rw [toInt_ofNat (by omega), toInt_ofNat (by omega), if_pos (by omega)]
    show (ld _ >>= _) = _
    rw [hld]; rfl
  · rw [if_neg hc]
    refine forLoop_first _ _ _ (ofNat_pos (by omega) hn) ?_
    rw [e0, e1]
    unfold Prog.reslice
    rw [toInt_ofNat (by omega), toInt_ofNat (by omega), if_neg (by omega)]
    rfl

/-- An `interface{}` outcome as a value. -/
def anyRes (r : Res Any × Sh) : Res Val × Sh :=
  (match r.1 with
    | .ok a => .ok (Val1.any a).toVal
    | .panic p => .panic p, r.2)

/-- What `readComplex` makes of `n` elements of kind `kd` at `off`. -/
def elemsRes (kd : Kind) (con : List kd.Ty → Any) (off n : Nat) (o : ByteOrder) (s : St) : Res Any :=
  if maxAlloc < n * kd.size then .panic .makeSlice
  else if n = 0 then .ok (con [])
  else match o with
    | some e => if off + n * kd.size ≤ s.b.buf.cap then .ok (con (dec kd e n (St.from s off))) else .panic .sliceBounds
    | none => if off + kd.size ≤ s.b.buf.cap then .panic .nilDeref else .panic .sliceBounds

theorem elemsRes_some {s : St} (h : s.OK) (kd : Kind) (e : Endian) (con : List kd.Ty → Any) {off n : Nat} (ho : off ≤ s.b.buf.cap) :
    elemsRes kd con off n (some e) s =
      if off + n * kd.size ≤ s.b.buf.cap then .ok (con (dec kd e n (St.from s off))) else .panic (elemsPanic n kd.size) := by
  have hc := h.cap_le
  unfold elemsRes elemsPanic
  by_cases h1 : maxAlloc < n * kd.size
  · rw [if_pos h1, if_neg (by omega), if_pos h1]
  rw [if_neg h1, if_neg h1]
  by_cases h0 : n = 0
  · subst h0
    rw [if_pos rfl, if_pos (by omega)]; rfl
  rw [if_neg h0]

theorem obs_elemsRes {s : St} (h : s.OK) {kd : Kind} {con : List kd.Ty → Any} (hcon : ∀ l, (Val1.any (con l)).toVal = .typed kd l)
    (off n : Nat) (o : ByteOrder) :
    obsRes s.mem (match elemsRes kd con off n o s with
      | .ok a => .ok (Val1.any a).toVal
      | .panic p => .panic p) = Ref.decodeInts off n kd.size o (abs s) := by
  have hw : (abs s).data.length + (abs s).spare.length = s.b.buf.cap := by
    rw [← List.length_append, ← V3.window_split h]
    exact V3.length_window h
  unfold elemsRes Ref.decodeInts
  rw [hw]
  by_cases h1 : maxAlloc < n * kd.size
  · rw [if_pos h1, if_pos h1]; rfl
  rw [if_neg h1, if_neg h1]
  by_cases h0 : n = 0
  · rw [if_pos h0, if_pos h0]
    show obsRes s.mem (.ok (Val1.any (con [])).toVal) = _
    rw [hcon]; rfl
  rw [if_neg h0, if_neg h0]
  cases o with
  | none => by_cases h2 : off + kd.size ≤ s.b.buf.cap <;> simp only [h2, if_true, if_false] <;> rfl
  | some e =>
    by_cases h2 : off + n * kd.size ≤ s.b.buf.cap
    · simp only [if_pos h2]
      rw [hcon, ← dec_window h kd e h2]; rfl
    · simp only [if_neg h2]; rfl

theorem read_kind_run {s : St} (h : WF s) {kd : Kind} {ld : ByteOrder → Slice → Prog kd.Ty} (hs : ∀ e, LoadsAs kd e (ld (some e)))
    (hn : ∀ t, ld none t = .panic .nilDeref) (con : List kd.Ty → Any) (off n : Int64) (o : ByteOrder) :
    (Buffer.read off n >>= fun data => readElems kd (ld o) data n >>= fun l => Prog.ret (con l)).run ⟨s, false⟩ =
      (if 0 ≤ n.toInt ∧ 0 ≤ off.toInt ∧ off.toInt + n.toInt ≤ s.b.buf.len then elemsRes kd con off.toInt.toNat n.toInt.toNat o s
        else .panic (V3.readBytesPanic off.toInt n.toInt s.b.buf.len), ⟨s, false⟩) := by
  have hL := h.len_lt; have hlc := h.ok.len_le
  cases o with
  | some e =>
    rw [readElems_complex (hs e) con h]
    unfold complexRead
    by_cases hr : 0 ≤ n.toInt ∧ 0 ≤ off.toInt ∧ off.toInt + n.toInt ≤ s.b.buf.len
    · rw [if_pos hr, if_pos hr, elemsRes_some h.ok kd e con (by omega)]
    · rw [if_neg hr, if_neg hr]
  | none =>
    rw [Prog.run_bind', bind_run, read_run h]
    by_cases hr : 0 ≤ n.toInt ∧ 0 ≤ off.toInt ∧ off.toInt + n.toInt ≤ s.b.buf.len
    · rw [if_pos hr, if_pos hr]
      show (readElems kd (ld none) _ n >>= fun l => Prog.ret (con l)).run ⟨s, false⟩ = _
      have hm : n = Int64.ofNat n.toInt.toNat := eq_ofNat n hr.1
      generalize hk : n.toInt.toNat = m at hm
      subst hm
      rw [readElems_none hn _ m (by omega)]
      unfold elemsRes
      by_cases h1 : maxAlloc < m * kd.size
      · rw [if_pos h1, if_pos h1]; rfl
      rw [if_neg h1, if_neg h1]
      by_cases h0 : m = 0
      · rw [if_pos h0, if_pos h0]; rfl
      rw [if_neg h0, if_neg h0]
      by_cases h2 : off.toInt.toNat + kd.size ≤ s.b.buf.cap
      · rw [if_pos (by simp only []; omega), if_pos h2]; rfl
      · rw [if_neg (by simp only []; omega), if_neg h2]; rfl
    · rw [if_neg hr, if_neg hr]

theorem readComplex_kind16 (off n : Int64) (o : ByteOrder) :
    (Buffer.readComplex off n Unsigned16 o).run =
      (Buffer.read off n >>= fun data => readElems .u16 (loadU16 o) data n >>= fun l => Prog.ret (.u16 l)).run := by
  show (Buffer.read off n >>= _).run = _
  rw [Prog.run_bind', Prog.run_bind']
  exact congrArg (fun k => (Buffer.read off n).run >>= k) (funext fun data => (prog_bind_assoc _ _ _).symm)
theorem readComplex_kind32 (off n : Int64) (o : ByteOrder) :
    (Buffer.readComplex off n Unsigned32 o).run =
      (Buffer.read off n >>= fun data => readElems .u32 (loadU32 o) data n >>= fun l => Prog.ret (.u32 l)).run := by
  show (Buffer.read off n >>= _).run = _
  rw [Prog.run_bind', Prog.run_bind']
  exact congrArg (fun k => (Buffer.read off n).run >>= k) (funext fun data => (prog_bind_assoc _ _ _).symm)
theorem readComplex_kind64 (off n : Int64) (o : ByteOrder) :
    (Buffer.readComplex off n Unsigned64 o).run =
      (Buffer.read off n >>= fun data => readElems .u64 (loadU64 o) data n >>= fun l => Prog.ret (.u64 l)).run := by
  show (Buffer.read off n >>= _).run = _
  rw [Prog.run_bind', Prog.run_bind']
  exact congrArg (fun k => (Buffer.read off n).run >>= k) (funext fun data => (prog_bind_assoc _ _ _).symm)

theorem ref_readComplex {s : St} (h : WF s) (off n size : Int64) (o : ByteOrder) :
    Ref.readComplex off.toInt n.toInt size.toInt o (abs s) =
      (if 0 ≤ n.toInt ∧ 0 ≤ off.toInt ∧ off.toInt + n.toInt ≤ s.b.buf.len then
        if size.toInt = 1 then
          .ok (.bytes (s.mem.view ⟨s.b.buf.arr, s.b.buf.off + off.toInt.toNat, n.toInt.toNat, s.b.buf.cap - off.toInt.toNat⟩))
        else if size.toInt = 2 ∨ size.toInt = 4 ∨ size.toInt = 8 then
          Ref.decodeInts off.toInt.toNat n.toInt.toNat size.toInt.toNat o (abs s)
        else .panic (.err BufferInvalidIntegerSizeError)
      else .panic (V3.readBytesPanic off.toInt n.toInt s.b.buf.len), abs s) := by
  unfold Ref.readComplex
  rw [ref_readBytes h]
  by_cases hr : 0 ≤ n.toInt ∧ 0 ≤ off.toInt ∧ off.toInt + n.toInt ≤ s.b.buf.len
  · rw [if_pos hr, if_pos hr]; rfl
  · rw [if_neg hr, if_neg hr]; rfl

theorem step1_read_kind {s : St} (h : WF s) {kd : Kind} {con : List kd.Ty → Any} (hcon : ∀ l, (Val1.any (con l)).toVal = .typed kd l)
    (off n : Int64) (o : ByteOrder) {q : Res Ref.Val × Ref.Ref} {r : Res Any × Sh}
    (hq : q = (if 0 ≤ n.toInt ∧ 0 ≤ off.toInt ∧ off.toInt + n.toInt ≤ s.b.buf.len then
        Ref.decodeInts off.toInt.toNat n.toInt.toNat kd.size o (abs s)
      else .panic (V3.readBytesPanic off.toInt n.toInt s.b.buf.len), abs s))
    (hr : r = (if 0 ≤ n.toInt ∧ 0 ≤ off.toInt ∧ off.toInt + n.toInt ≤ s.b.buf.len then
        elemsRes kd con off.toInt.toNat n.toInt.toNat o s
      else .panic (V3.readBytesPanic off.toInt n.toInt s.b.buf.len), ⟨s, false⟩)) :
    StepSh s q false (anyRes r) := by
  subst hr hq
  refine ⟨StepIs.same h ?_, rfl⟩
  by_cases hr : 0 ≤ n.toInt ∧ 0 ≤ off.toInt ∧ off.toInt + n.toInt ≤ s.b.buf.len
  · simp only [if_pos hr]
    rw [← obs_elemsRes h.ok hcon]; rfl
  · simp only [if_neg hr]; rfl

theorem step1_readComplex {s : St} (h : WF s) (off n size : Int64) (o : ByteOrder) :
    StepSh s (Ref.readComplex off.toInt n.toInt size.toInt o (abs s)) false
      (anyRes ((Buffer.readComplex off n size o).run ⟨s, false⟩)) := by
  have hq := ref_readComplex h off n size o
  by_cases h1 : size = Unsigned8
  · subst h1
    rw [hq, readComplex_u8 h]
    refine ⟨?_, ?_⟩
    · by_cases hr : 0 ≤ n.toInt ∧ 0 ≤ off.toInt ∧ off.toInt + n.toInt ≤ s.b.buf.len
      · rw [if_pos hr, if_pos hr]; exact StepIs.same h rfl
      · rw [if_neg hr, if_neg hr]; exact StepIs.same h rfl
    · split <;> rfl
  by_cases h2 : size = Unsigned16
  · subst h2
    rw [readComplex_kind16]
    rw [if_neg (show ¬ Unsigned16.toInt = 1 by decide), if_pos (show Unsigned16.toInt = 2 ∨ Unsigned16.toInt = 4 ∨ Unsigned16.toInt = 8 by decide), show Unsigned16.toInt.toNat = Kind.u16.size by decide] at hq
    exact step1_read_kind (kd := .u16) (con := .u16) h (fun _ => rfl) off n o hq
      (read_kind_run (kd := .u16) (ld := loadU16) h loadU16_loads (fun _ => rfl) _ _ _ _)
  by_cases h4 : size = Unsigned32
  · subst h4
    rw [readComplex_kind32]
    rw [if_neg (show ¬ Unsigned32.toInt = 1 by decide), if_pos (show Unsigned32.toInt = 2 ∨ Unsigned32.toInt = 4 ∨ Unsigned32.toInt = 8 by decide), show Unsigned32.toInt.toNat = Kind.u32.size by decide] at hq
    exact step1_read_kind (kd := .u32) (con := .u32) h (fun _ => rfl) off n o hq
      (read_kind_run (kd := .u32) (ld := loadU32) h loadU32_loads (fun _ => rfl) _ _ _ _)
  by_cases h8 : size = Unsigned64
  · subst h8
    rw [readComplex_kind64]
    rw [if_neg (show ¬ Unsigned64.toInt = 1 by decide), if_pos (show Unsigned64.toInt = 2 ∨ Unsigned64.toInt = 4 ∨ Unsigned64.toInt = 8 by decide), show Unsigned64.toInt.toNat = Kind.u64.size by decide] at hq
    exact step1_read_kind (kd := .u64) (con := .u64) h (fun _ => rfl) off n o hq
      (read_kind_run (kd := .u64) (ld := loadU64) h loadU64_loads (fun _ => rfl) _ _ _ _)
  obtain ⟨n1, n2, n4, n8⟩ := sizes h1 h2 h4 h8
  rw [hq, if_neg n1, if_neg (show ¬ (size.toInt = 2 ∨ size.toInt = 4 ∨ size.toInt = 8) from fun h => h.elim n2 fun h => h.elim n4 n8),
    readComplex_other h _ _ _ _ h1 h2 h4 h8]
  refine ⟨StepIs.same h ?_, rfl⟩
  by_cases hr : 0 ≤ n.toInt ∧ 0 ≤ off.toInt ∧ off.toInt + n.toInt ≤ s.b.buf.len
  · simp only [if_pos hr]; rfl
  · simp only [if_neg hr]; rfl

/-! ## one call on a `Buffer` -/

/-- The outcome of a call, with its result as a value. -/
def outRes (r : Res Val1 × Sh) : Res Val × Sh := (toRes r.1, r.2)

/-- A call on a `Buffer` does what the reference machine does. -/
def Step1 (s : St) (op : Op1) : Prop :=
  StepSh s (Ref.step1 (lower1 s op) (abs s)) (Ref.sticks1 (lower1 s op) (Ref.step1 (lower1 s op) (abs s)).1)
    (outRes ((exec1 op).run ⟨s, false⟩))

theorem step1_v2 {s : St} (h : WF s) {op : Op1} {op2 : Op2} (hv : op2.Valid s.mem)
    (hr : (exec1 op).run ⟨s, false⟩ = asV1 ((exec op2).run ⟨s, false⟩)) (hi : Ref.idle 0 (V2.lower s op2) (abs s) = none)
    (hl : lower1 s op = .base (V2.lower s op2)) : Step1 s op := by
  have h1 := V2.step2_ok h op2 hv
  have e := V2.exec_run op2 s
  unfold Step1
  rw [hr, hl]
  have e1 : Ref.step1 (.base (V2.lower s op2)) (abs s) = Ref.step2 (V2.lower s op2) (abs s) := by
    show (Ref.idle 0 (V2.lower s op2) (abs s)).getD _ = _
    rw [hi]; rfl
  have e2 : outRes (asV1 ((exec op2).run ⟨s, false⟩)) = (exec op2).run ⟨s, false⟩ := by
    cases (exec op2).run ⟨s, false⟩ with
    | mk r t => cases r <;> rfl
  rw [e1, e2, e]
  refine ⟨h1, ?_⟩
  show (V2.leaks op2 && (V2.seq op2 s).1.runtime) = Ref.sticks _ _
  rw [← h1.result, V2.sticks_iff]

theorem count_argOf {s : St} {d : Any} (hv : d.Valid s.mem) : (argOf s d).count = d.count := by
  cases d with
  | bytes t => exact length_view hv
  | u16 l => exact List.length_map ..
  | u32 l => exact List.length_map ..
  | u64 l => exact List.length_map ..
  | other => rfl

theorem bmod_mul (a b : Int64) : (a * b).toInt.bmod (2 ^ 64) = (a.toInt * b.toInt).bmod (2 ^ 64) := by
  rw [Int64.toInt_mul, Int.bmod_bmod]

theorem atIndex_stepCur (d : Int) (q : Res Ref.Val × Ref.Ref) : atIndex (Ref.stepCur d q).1 = atIndex q.1 := by
  rcases q with ⟨_ | _, _⟩ <;> rfl

theorem StepSh.next {s : St} {q : Res Ref.Val × Ref.Ref} {k : Bool} {r : Res Val × Sh} (d : Int64) (x : Int)
    (hx : d.toInt.bmod (2 ^ 64) = x.bmod (2 ^ 64)) (h : StepSh s q k r) : StepSh s (Ref.stepCur x q) k (thenMove d r) := by
  have h1 := StepIs.next d x hx h.is
  have h2 := h.locked
  rcases r with ⟨_ | _, t⟩ <;> exact ⟨h1, h2⟩

theorem outRes_write (p : Prog Unit) (sh : Sh) : outRes ((wrap1 (fun _ => .unit) p).run sh) = unitRes (p.run sh) := by
  unfold wrap1
  rw [Prog.run_bind, bind_run]
  cases p.run sh with
  | mk r t => cases r <;> rfl

theorem outRes_wrap (f : α → Val) (p : Prog α) (sh : Sh) : outRes ((wrap1 f p).run sh) =
    (match (p.run sh).1 with
      | .ok a => .ok (f a)
      | .panic p => .panic p, (p.run sh).2) := by
  unfold wrap1
  rw [Prog.run_bind, bind_run]
  cases p.run sh with
  | mk r t => cases r <;> rfl

theorem outRes_read (p : Prog Any) (sh : Sh) : outRes ((p.bind fun a => .ret (.any a)).run sh) = anyRes (p.run sh) := by
  rw [Prog.run_bind, bind_run]
  cases p.run sh with
  | mk r t => cases r <;> rfl

theorem unitRes_move (d : Int64) (r : Res Unit × Sh) : unitRes (thenMove d r) = thenMove d (unitRes r) := by
  rcases r with ⟨_ | _, _⟩ <;> rfl
theorem anyRes_move (d : Int64) (r : Res Any × Sh) : anyRes (thenMove d r) = thenMove d (anyRes r) := by
  rcases r with ⟨_ | _, _⟩ <;> rfl

theorem cur_abs (s : St) : (abs s).cur = s.b.off.toInt := rfl

theorem step1_complexWrite {s : St} (h : WF s) (p : Option Int64) (d : Any) (size : Int64) (o : ByteOrder) (hv : d.Valid s.mem) :
    Step1 s (.writeComplex p d size o) := by
  have hM := maxAlloc_lt
  have hsticks : ∀ p (q : Res Ref.Val), Ref.sticks1 (lower1 s (.writeComplex p d size o)) q = atIndex q := fun _ _ => rfl
  cases p with
  | some off =>
    show StepSh s (Ref.writeComplex off.toInt (argOf s d) size.toInt o (abs s)) (Ref.sticks1 _ _)
      (outRes ((wrap1 (fun _ => .unit) (Buffer.writeComplex off d size o)).run ⟨s, false⟩))
    rw [hsticks, outRes_write]
    exact step1_writeComplex h off d size o hv
  | none =>
    show StepSh s (Ref.stepCur ((argOf s d).count * size.toInt) (Ref.writeComplex s.b.off.toInt (argOf s d) size.toInt o (abs s)))
      (Ref.sticks1 _ (Ref.stepCur ((argOf s d).count * size.toInt) (Ref.writeComplex s.b.off.toInt (argOf s d) size.toInt o (abs s))).1)
      (outRes ((wrap1 (fun _ => .unit) (Buffer.WriteComplexNext d size o)).run ⟨s, false⟩))
    rw [hsticks, atIndex_stepCur, outRes_write, (C74_writeComplexNext s d size o).1, unitRes_move]
    refine StepSh.next _ _ ?_ (step1_writeComplex h s.b.off d size o hv)
    have hc : d.count < 2 ^ 62 := by
      cases d with
      | bytes t => exact Nat.lt_of_le_of_lt (show SliceOK s.mem t from hv).len_le_max (by omega)
      | u16 l => have : l.length * 2 ≤ maxAlloc := hv; show l.length < _; omega
      | u32 l => have : l.length * 4 ≤ maxAlloc := hv; show l.length < _; omega
      | u64 l => have : l.length * 8 ≤ maxAlloc := hv; show l.length < _; omega
      | other => decide
    rw [bmod_mul, count_argOf hv, toInt_ofNat (by omega)]

theorem step1_complexRead {s : St} (h : WF s) (p : Option Int64) (n size : Int64) (o : ByteOrder) :
    Step1 s (.readComplex p n size o) := by
  cases p with
  | some off =>
    show StepSh s (Ref.readComplex off.toInt n.toInt size.toInt o (abs s)) false
      (outRes (((Buffer.readComplex off n size o).bind fun a => .ret (.any a)).run ⟨s, false⟩))
    rw [outRes_read]
    exact step1_readComplex h off n size o
  | none =>
    show StepSh s (Ref.stepCur (n.toInt * size.toInt) (Ref.readComplex s.b.off.toInt n.toInt size.toInt o (abs s))) false
      (outRes (((Buffer.ReadComplexNext n size o).bind fun a => .ret (.any a)).run ⟨s, false⟩))
    rw [outRes_read, (C74_readComplexNext s n size o).1, anyRes_move]
    exact StepSh.next _ _ (bmod_mul n size) (step1_readComplex h s.b.off n size o)

/-- A call that does nothing, or only moves the bit offset. -/
theorem StepSh.idle {s : St} (h : WF s) (v : Val) : StepSh s (obsRes s.mem (.ok v), abs s) false (.ok v, ⟨s, false⟩) :=
  ⟨StepIs.same h rfl, rfl⟩

theorem abs_nil {s : St} (h : s.OK) : (abs s).data = [] ↔ s.b.buf.len = 0 := by
  rw [← List.length_eq_zero_iff, V3.abs_len h]

theorem step1_idle {s : St} {op : Op1} {op' : Ref.Op2} {v : Ref.Val} {r' : Ref.Ref} {r : Res Val × Sh} (hl : lower1 s op = .base op')
    (hi : Ref.idle 0 op' (abs s) = some (.ok v, r')) (h : StepSh s (.ok v, r') false r)
    (hr : outRes ((exec1 op).run ⟨s, false⟩) = r) : Step1 s op := by
  unfold Step1
  have e : Ref.step1 (.base op') (abs s) = (.ok v, r') := by
    show (Ref.idle 0 op' (abs s)).getD _ = _
    rw [hi]; rfl
  rw [hl, e, hr]
  exact h

theorem step1_ok {s : St} (h : WF s) (op : Op1) (hv : op.Valid s.mem) : Step1 s op := by
  have bits : ∀ (n : Int64), ¬ n.toInt ≤ 0 → (0 : Int64) < n := by
    intro n hn; rw [Int64.lt_iff_toInt_lt, toInt_zero']; omega
  have move : ∀ (n : Int64) (v : Val), StepSh s (Ref.stepBcur n.toInt (obsRes s.mem (.ok v), abs s)) false
      (.ok v, ⟨{ s with b := { s.b with boff := s.b.boff + n } }, false⟩) := fun n v =>
    ⟨StepIs.nextBit n (StepIs.same (r := .ok v) h rfl), rfl⟩
  have same : ∀ (op2 : Op2), toV2 op = some op2 → Shared op = true → (exec1 op).run ⟨s, false⟩ = asV1 ((exec op2).run ⟨s, false⟩) := by
    intro op2 e hs
    rw [exec1_v2 op op2 e hs, valOf_run]
  cases op with
  | writeComplex p d size o => exact step1_complexWrite h p d size o hv
  | readComplex p n size o => exact step1_complexRead h p n size o
  | readBits p n =>
    by_cases hn : n.toInt ≤ 0
    · cases p with
      | some off =>
        refine step1_idle rfl (if_pos hn) (StepSh.idle h (.u64 0)) ?_
        show outRes ((wrap1 .u64 (Buffer.ReadBits off n)).run ⟨s, false⟩) = _
        rw [outRes_wrap, (C70_no_bits ⟨s, false⟩ off 0 n hn).1]
      | none =>
        refine step1_idle rfl (if_pos hn) (move n (.u64 0)) ?_
        show outRes ((wrap1 .u64 (Buffer.ReadBitsNext n)).run ⟨s, false⟩) = _
        rw [outRes_wrap, (C70_no_bits_next s 0 n hn).1]
    · refine step1_v2 h (op2 := .readBits p n) trivial (same _ rfl (decide_eq_true (bits n hn))) ?_ rfl
      cases p <;> exact if_neg hn
  | setBits p d n =>
    by_cases hn : n.toInt ≤ 0
    · cases p with
      | some off =>
        refine step1_idle rfl (if_pos hn) (StepSh.idle h .unit) ?_
        show outRes ((wrap1 (fun _ => .unit) (Buffer.SetBits off d n)).run ⟨s, false⟩) = _
        rw [outRes_wrap, (C70_no_bits ⟨s, false⟩ off d n hn).2]
      | none =>
        refine step1_idle rfl (if_pos hn) (move n .unit) ?_
        show outRes ((wrap1 (fun _ => .unit) (Buffer.SetBitsNext d n)).run ⟨s, false⟩) = _
        rw [outRes_wrap, (C70_no_bits_next s d n hn).2]
    · refine step1_v2 h (op2 := .setBits p d n) trivial (same _ rfl (decide_eq_true (bits n hn))) ?_ rfl
      cases p <;> exact if_neg hn
  | clearAll =>
    by_cases he : (abs s).data = []
    · refine step1_idle rfl (if_pos he) (StepSh.idle h .unit) ?_
      show outRes ((wrap1 (fun _ => .unit) Buffer.ClearAllBits).run ⟨s, false⟩) = _
      rw [outRes_wrap, (C70_empty_buffer s ((abs_nil h.ok).mp he)).1]
    · exact step1_v2 h (op2 := .clearAll) trivial (C69_whole_buffer _ _ rfl rfl h he false) (if_neg he) rfl
  | setAll =>
    by_cases he : (abs s).data = []
    · refine step1_idle rfl (if_pos he) (StepSh.idle h .unit) ?_
      show outRes ((wrap1 (fun _ => .unit) Buffer.SetAllBits).run ⟨s, false⟩) = _
      rw [outRes_wrap, (C70_empty_buffer s ((abs_nil h.ok).mp he)).2.1]
    · exact step1_v2 h (op2 := .setAll) trivial (C69_whole_buffer _ _ rfl rfl h he false) (if_neg he) rfl
  | flipAll =>
    by_cases he : (abs s).data = []
    · refine step1_idle rfl (if_pos he) (StepSh.idle h .unit) ?_
      show outRes ((wrap1 (fun _ => .unit) Buffer.FlipAllBits).run ⟨s, false⟩) = _
      rw [outRes_wrap, (C70_empty_buffer s ((abs_nil h.ok).mp he)).2.2]
    · exact step1_v2 h (op2 := .flipAll) trivial (C69_whole_buffer _ _ rfl rfl h he false) (if_neg he) rfl
  | setBit p v =>
    refine step1_v2 h (op2 := .setBit p v) trivial (same _ rfl rfl) ?_ rfl
    simp only [V2.lower]
    by_cases h0 : v = 0
    · rw [if_pos h0]; rfl
    · rw [if_neg h0]
      by_cases h1 : v = 1
      · rw [if_pos h1]; rfl
      · rw [if_neg h1]; rfl
  | writeBytes p src => exact step1_v2 h (op2 := .writeBytes p src) hv (same _ rfl rfl) rfl rfl
  | writeByte p v => exact step1_v2 h (op2 := .writeByte p v) trivial (same _ rfl rfl) rfl rfl
  | readBytes p n => exact step1_v2 h (op2 := .readBytes p n) trivial (same _ rfl rfl) rfl rfl
  | readByte p => exact step1_v2 h (op2 := .readByte p) trivial (same _ rfl rfl) rfl rfl
  | readBit p => exact step1_v2 h (op2 := .readBit p) trivial (same _ rfl rfl) rfl rfl
  | flipBit p => exact step1_v2 h (op2 := .flipBit p) trivial (same _ rfl rfl) rfl rfl
  | seek o r => exact step1_v2 h (op2 := .seek o r) trivial (same _ rfl rfl) rfl rfl
  | seekBit o r => exact step1_v2 h (op2 := .seekBit o r) trivial (same _ rfl rfl) rfl rfl
  | after o => exact step1_v2 h (op2 := .after o) trivial (same _ rfl rfl) rfl rfl
  | afterBit o => exact step1_v2 h (op2 := .afterBit o) trivial (same _ rfl rfl) rfl rfl
  | alignByte => exact step1_v2 h (op2 := .alignByte) trivial (same _ rfl rfl) rfl rfl
  | alignBit => exact step1_v2 h (op2 := .alignBit) trivial (same _ rfl rfl) rfl rfl
  | grow n => exact step1_v2 h (op2 := .grow n) trivial (same _ rfl rfl) rfl rfl
  | refresh => exact step1_v2 h (op2 := .refresh) trivial (same _ rfl rfl) rfl rfl
  | bytes => exact step1_v2 h (op2 := .bytes) trivial (same _ rfl rfl) rfl rfl
  | capacity => exact step1_v2 h (op2 := .capacity) trivial (same _ rfl rfl) rfl rfl
  | bitCapacity => exact step1_v2 h (op2 := .bitCapacity) trivial (same _ rfl rfl) rfl rfl
  | offset => exact step1_v2 h (op2 := .offset) trivial (same _ rfl rfl) rfl rfl
  | bitOffset => exact step1_v2 h (op2 := .bitOffset) trivial (same _ rfl rfl) rfl rfl

end Crunch.V1
