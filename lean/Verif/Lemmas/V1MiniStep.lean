import Verif.Lemmas.V1Step

/-!
One call on a v1 `MiniBuffer`, completely: it keeps the invariant, touches only its own window of memory, and does what the
reference machine `Ref.miniStep1` does.
-/

namespace Crunch.V1
open Spec
open V3 (St WF Val Outs Kind abs Iso StepIs getB onMem obsRes wrapRes enc dec)
open V3.Mini (callOut onB getOut putOut)
open V2 (Op2)

/-! ## `WriteComplex` -/

theorem mstep1_writeComplex {s : St} (h : WF s) (off : Int64) (d : Any) (size : Int64) (o : ByteOrder) (hv : d.Valid s.mem) :
    StepIs s (Ref.miniWriteComplex off.toInt (argOf s d) size.toInt o (abs s)) (wrapRes (fun _ => .unit) (Mini.writeComplex off d size o s)) := by
  have hb := V3.abs_len h.ok; have hby := V3.length_bytes h.ok
  have hB := built s off d size o hv
  unfold Built at hB
  unfold Ref.miniWriteComplex
  cases hbs : Ref.bytesOf off.toInt (argOf s d) size.toInt o with
  | panic p =>
    rw [hbs] at hB
    rw [hB.2]
    exact StepIs.same h rfl
  | ok bs =>
    rw [hbs] at hB
    rcases hB with ⟨src, hd, hs, hx⟩ | ⟨hl, _, e⟩
    · subst hd hs hx
      exact V2.mstep2_writeBytes h off hv
    · rw [e, mini_writeLit_run h.ok off bs hl]
      show StepIs s (Ref.miniCopy off.toInt bs (abs s)) _
      unfold Ref.miniCopy
      rw [hb]
      by_cases h0 : bs = [] ∨ off.toInt < 0 ∨ (s.b.buf.len : Int) ≤ off.toInt
      · have h0' : bs.length = 0 ∨ off.toInt < 0 ∨ (s.b.buf.len : Int) ≤ off.toInt := h0.imp_left (by rintro rfl; rfl)
        rw [if_pos h0, if_neg (by omega), if_neg (by omega)]
        exact StepIs.same h rfl
      · have h0' : ¬ (bs.length = 0 ∨ off.toInt < 0 ∨ (s.b.buf.len : Int) ≤ off.toInt) := fun hx =>
          h0 (hx.imp_left List.length_eq_zero_iff.mp)
        rw [if_neg h0]
        by_cases hc : off.toInt + bs.length ≤ s.b.buf.len
        · rw [if_pos hc, if_pos (by omega), List.take_of_length_le (by omega), V3.write_eq_put h.ok (by omega)]
          exact StepIs.content h (by rw [length_patch (by omega), hby]) rfl
        · rw [if_neg hc, if_neg (by omega), if_pos (by omega), V3.write_eq_put h.ok (by rw [List.length_take]; omega)]
          exact StepIs.content h (by rw [length_patch (by rw [List.length_take]; omega), hby]) rfl

/-! ## `ReadComplex` -/

/-- The loop of `MiniBuffer.readComplex` without a byte order. -/
theorem miniElems_none {kd : Kind} {ld : Slice → Prog kd.Ty} (hld : ∀ t, ld t = .panic .nilDeref)
    {out : GoM (St × Any) (List kd.Ty)} {con : List kd.Ty → Any} (hout : ∀ s l, out (s, con l) = (.ok l, (s, con l)))
    (data : Slice) (s : St) (o : Any) (n : Nat) (hn : n < 2 ^ 62) :
    ∃ o', (makeTyped kd.size kd.zero (Int64.ofNat n) >>= fun made =>
      putOut (con made) >>= fun _ => forLoop (miniElem kd ld out con data) (Int64.ofNat n) 0 () : GoM (St × Any) Unit) (s, o) =
      (if maxAlloc < n * kd.size then (.panic .makeSlice, (s, o'))
        else if n = 0 then (.ok (), (s, con []))
        else if kd.size ≤ data.cap then (.panic .nilDeref, (s, o')) else (.panic .sliceBounds, (s, o'))) := by
  have h8 := V3.size_le kd
  have hcast : ((n : Int) * (kd.size : Int) > maxAlloc) ↔ maxAlloc < n * kd.size := by
    rw [← Int.natCast_mul]; exact Int.ofNat_lt
  unfold makeTyped
  rw [toInt_ofNat (by omega)]
  by_cases h1 : maxAlloc < n * kd.size
  · refine ⟨o, ?_⟩
    rw [if_pos (.inr (hcast.mpr h1)), if_pos h1]
    rfl
  refine ⟨con (List.replicate n kd.zero), ?_⟩
  rw [if_neg (by rw [hcast]; omega), if_neg h1, Int.toNat_natCast]
  show (forLoop (miniElem kd ld out con data) (Int64.ofNat n) 0 ()) (s, con (List.replicate n kd.zero)) = _
  by_cases h0 : n = 0
  · subst h0
    rw [if_pos rfl, for_stop _ (by decide)]; rfl
  rw [if_neg h0, forLoop.eq_def, if_pos (ofNat_pos (by omega) hn)]
  have e0 : (0 : Int64) * Int64.ofNat kd.size = Int64.ofNat 0 := (ofNat_mul 0 kd.size).symm.trans (by rw [Nat.zero_mul])
  have e1 : ((0 : Int64) + 1) * Int64.ofNat kd.size = Int64.ofNat kd.size := (ofNat_mul 1 kd.size).symm.trans (by rw [Nat.one_mul])
  have key : miniElem kd ld out con data 0 () (s, con (List.replicate n kd.zero)) =
      (if kd.size ≤ data.cap then (.panic .nilDeref, (s, con (List.replicate n kd.zero)))
        else (.panic .sliceBounds, (s, con (List.replicate n kd.zero)))) := by
    unfold miniElem
    rw [bind_ok (hout _ _), e0, e1]
    by_cases hc : kd.size ≤ data.cap
    · rw [if_pos hc]
      have r1 : onMem (reslice data (Int64.ofNat 0) (Int64.ofNat kd.size)) s =
          (.ok ⟨data.arr, data.off + 0, kd.size - 0, data.cap - 0⟩, s) := by
        simp only [onMem, reslice]
        rw [toInt_ofNat (by omega), toInt_ofNat (by omega), if_pos (by omega)]
        simp only [Int.toNat_natCast]
      rw [bind_ok (onB_eq _ r1), hld]
      rfl
    · rw [if_neg hc]
      have r1 : onMem (reslice data (Int64.ofNat 0) (Int64.ofNat kd.size)) s = (.panic .sliceBounds, s) := by
        simp only [onMem, reslice]
        rw [toInt_ofNat (by omega), toInt_ofNat (by omega), if_neg (by omega)]
      exact bind_panic (onB_eq _ r1)
  by_cases hc : kd.size ≤ data.cap
  · rw [if_pos hc] at key ⊢
    exact bind_panic key
  · rw [if_neg hc] at key ⊢
    exact bind_panic key

/-- What `callOut` makes of an outcome. -/
def outOf (r : Res Unit × (St × X)) : Res X × St :=
  match r with
  | (.ok _, s') => (.ok s'.2, s'.1)
  | (.panic p, s') => (.panic p, s'.1)

theorem callOut_eq (m : GoM (St × X) Unit) (x : X) (s : St) : callOut m x s = outOf (m (s, x)) := rfl

theorem mini_kind_run {kd : Kind} {ld : ByteOrder → Slice → Prog kd.Ty} (hs : ∀ e, LoadsAs kd e (ld (some e)))
    (hnone : ∀ t, ld none t = .panic .nilDeref)
    {out : GoM (St × Any) (List kd.Ty)} {con : List kd.Ty → Any} (hout : ∀ s l, out (s, con l) = (.ok l, (s, con l)))
    {s : St} (h : s.OK) (off n : Int64) (bo : ByteOrder) (o : Any) :
    callOut (onB (callOut (Mini.read off n) ⟨0, 0, 0, 0⟩) >>= fun data => (makeTyped kd.size kd.zero n >>= fun made =>
      putOut (con made) >>= fun _ => forLoop (miniElem kd (ld bo) out con data) n 0 () : GoM (St × Any) Unit)) o s =
      (if 0 ≤ n.toInt ∧ 0 ≤ off.toInt ∧ off.toInt + n.toInt ≤ s.b.buf.cap then elemsRes kd con off.toInt.toNat n.toInt.toNat bo s
        else .panic .sliceBounds, s) := by
  have hM := maxAlloc_lt; have hc := h.cap_le
  cases bo with
  | some e =>
    rw [callOut_eq, show _ = miniRead kd e con off n s o from mini_read_complex (hs e) hout h off n o]
    unfold miniRead
    by_cases hr : 0 ≤ n.toInt ∧ 0 ≤ off.toInt ∧ off.toInt + n.toInt ≤ s.b.buf.cap
    · rw [if_pos hr, if_pos hr, elemsRes_some h kd e con (by omega)]
      by_cases h2 : off.toInt.toNat + n.toInt.toNat * kd.size ≤ s.b.buf.cap
      · rw [if_pos h2, if_pos h2]; rfl
      · rw [if_neg h2, if_neg h2]
        unfold elemsPanic
        by_cases h3 : n.toInt.toNat * kd.size ≤ maxAlloc
        · rw [if_pos h3, if_neg (by omega)]; rfl
        · rw [if_neg h3, if_pos (by omega)]; rfl
    · rw [if_neg hr, if_neg hr]; rfl
  | none =>
    have key := mini_callRead_run h off n o
    by_cases hr : 0 ≤ n.toInt ∧ 0 ≤ off.toInt ∧ off.toInt + n.toInt ≤ s.b.buf.cap
    · rw [if_pos hr] at key ⊢
      rw [callOut_eq, bind_ok key]
      have hm : n = Int64.ofNat n.toInt.toNat := eq_ofNat n hr.1
      generalize hk : n.toInt.toNat = m at hm
      subst hm
      obtain ⟨o', ho'⟩ := miniElems_none hnone hout ⟨s.b.buf.arr, s.b.buf.off + off.toInt.toNat, m, s.b.buf.cap - off.toInt.toNat⟩ s o m (by omega)
      rw [ho']
      unfold elemsRes
      by_cases h1 : maxAlloc < m * kd.size
      · rw [if_pos h1, if_pos h1]; rfl
      rw [if_neg h1, if_neg h1]
      by_cases h0 : m = 0
      · rw [if_pos h0, if_pos h0]; rfl
      rw [if_neg h0, if_neg h0]
      by_cases h2 : off.toInt.toNat + kd.size ≤ s.b.buf.cap
      · rw [if_pos (by simp only []; omega)]
        simp only [if_pos h2]; rfl
      · rw [if_neg (by simp only []; omega)]
        simp only [if_neg h2]; rfl
    · rw [if_neg hr] at key ⊢
      rw [callOut_eq, bind_panic key]; rfl

theorem ref_miniReadBytes {s : St} (h : WF s) (off n : Int64) :
    Ref.miniReadBytes off.toInt n.toInt (abs s) =
      if 0 ≤ n.toInt ∧ 0 ≤ off.toInt ∧ off.toInt + n.toInt ≤ s.b.buf.cap then
        (.ok (.bytes (s.mem.view ⟨s.b.buf.arr, s.b.buf.off + off.toInt.toNat, n.toInt.toNat, s.b.buf.cap - off.toInt.toNat⟩)), abs s)
      else (.panic .sliceBounds, abs s) := by
  have k := V3.mstep_readBytes h off n ⟨0, 0, 0, 0⟩
  have k1 := k.result
  have k2 := k.state
  rw [V3.mini_readBytes_run h.ok] at k1 k2
  rw [show Ref.miniReadBytes off.toInt n.toInt (abs s) = ((Ref.miniReadBytes off.toInt n.toInt (abs s)).1, (Ref.miniReadBytes off.toInt n.toInt (abs s)).2) from rfl,
    ← k1, ← k2]
  by_cases hr : 0 ≤ n.toInt ∧ 0 ≤ off.toInt ∧ off.toInt + n.toInt ≤ s.b.buf.cap
  · rw [if_pos hr, if_pos (by omega)]; rfl
  · rw [if_neg hr, if_neg (by omega)]; rfl

theorem ref_miniReadComplex {s : St} (h : WF s) (off n size : Int64) (o : ByteOrder) :
    Ref.miniReadComplex off.toInt n.toInt size.toInt o (abs s) =
      (if 0 ≤ n.toInt ∧ 0 ≤ off.toInt ∧ off.toInt + n.toInt ≤ s.b.buf.cap then
        if size.toInt = 1 then
          .ok (.bytes (s.mem.view ⟨s.b.buf.arr, s.b.buf.off + off.toInt.toNat, n.toInt.toNat, s.b.buf.cap - off.toInt.toNat⟩))
        else if size.toInt = 2 ∨ size.toInt = 4 ∨ size.toInt = 8 then
          Ref.decodeInts off.toInt.toNat n.toInt.toNat size.toInt.toNat o (abs s)
        else .panic (.err BufferInvalidIntegerSizeError)
      else .panic .sliceBounds, abs s) := by
  unfold Ref.miniReadComplex
  rw [ref_miniReadBytes h]
  by_cases hr : 0 ≤ n.toInt ∧ 0 ≤ off.toInt ∧ off.toInt + n.toInt ≤ s.b.buf.cap
  · rw [if_pos hr, if_pos hr]; rfl
  · rw [if_neg hr, if_neg hr]; rfl

/-- An `interface{}` outcome as a value. -/
def anyM (r : Res Any × St) : Res Val × St :=
  (match r.1 with
    | .ok a => .ok (Val1.any a).toVal
    | .panic p => .panic p, r.2)

theorem mstep1_read_kind {s : St} (h : WF s) {kd : Kind} {con : List kd.Ty → Any} (hcon : ∀ l, (Val1.any (con l)).toVal = .typed kd l)
    (off n : Int64) (o : ByteOrder) {q : Res Ref.Val × Ref.Ref} {r : Res Any × St}
    (hq : q = (if 0 ≤ n.toInt ∧ 0 ≤ off.toInt ∧ off.toInt + n.toInt ≤ s.b.buf.cap then
        Ref.decodeInts off.toInt.toNat n.toInt.toNat kd.size o (abs s)
      else .panic .sliceBounds, abs s))
    (hr : r = (if 0 ≤ n.toInt ∧ 0 ≤ off.toInt ∧ off.toInt + n.toInt ≤ s.b.buf.cap then
        elemsRes kd con off.toInt.toNat n.toInt.toNat o s
      else .panic .sliceBounds, s)) : StepIs s q (anyM r) := by
  subst hr hq
  refine StepIs.same h ?_
  by_cases hr : 0 ≤ n.toInt ∧ 0 ≤ off.toInt ∧ off.toInt + n.toInt ≤ s.b.buf.cap
  · simp only [if_pos hr]
    rw [← obs_elemsRes h.ok hcon]; rfl
  · simp only [if_neg hr]; rfl

theorem mstep1_readComplex {s : St} (h : WF s) (off n size : Int64) (o : ByteOrder) (any : Any) :
    StepIs s (Ref.miniReadComplex off.toInt n.toInt size.toInt o (abs s)) (anyM (callOut (Mini.readComplex off n size o) any s)) := by
  have hq := ref_miniReadComplex h off n size o
  by_cases h1 : size = Unsigned8
  · subst h1
    rw [hq, callOut_eq, mini_readComplex_u8 h.ok]
    by_cases hr : 0 ≤ n.toInt ∧ 0 ≤ off.toInt ∧ off.toInt + n.toInt ≤ s.b.buf.cap
    · rw [if_pos hr, if_pos hr]; exact StepIs.same h rfl
    · rw [if_neg hr, if_neg hr]; exact StepIs.same h rfl
  by_cases h2 : size = Unsigned16
  · subst h2
    rw [if_neg (show ¬ Unsigned16.toInt = 1 by decide), if_pos (show Unsigned16.toInt = 2 ∨ Unsigned16.toInt = 4 ∨ Unsigned16.toInt = 8 by decide),
      show Unsigned16.toInt.toNat = Kind.u16.size by decide] at hq
    exact mstep1_read_kind (kd := .u16) (con := .u16) h (fun _ => rfl) off n o hq
      (mini_kind_run (kd := .u16) (ld := loadU16) loadU16_loads (fun _ => rfl) (out := Mini.outU16) (con := .u16) (fun _ _ => rfl) h.ok off n o any)
  by_cases h4 : size = Unsigned32
  · subst h4
    rw [if_neg (show ¬ Unsigned32.toInt = 1 by decide), if_pos (show Unsigned32.toInt = 2 ∨ Unsigned32.toInt = 4 ∨ Unsigned32.toInt = 8 by decide),
      show Unsigned32.toInt.toNat = Kind.u32.size by decide] at hq
    exact mstep1_read_kind (kd := .u32) (con := .u32) h (fun _ => rfl) off n o hq
      (mini_kind_run (kd := .u32) (ld := loadU32) loadU32_loads (fun _ => rfl) (out := Mini.outU32) (con := .u32) (fun _ _ => rfl) h.ok off n o any)
  by_cases h8 : size = Unsigned64
  · subst h8
    rw [if_neg (show ¬ Unsigned64.toInt = 1 by decide), if_pos (show Unsigned64.toInt = 2 ∨ Unsigned64.toInt = 4 ∨ Unsigned64.toInt = 8 by decide),
      show Unsigned64.toInt.toNat = Kind.u64.size by decide] at hq
    exact mstep1_read_kind (kd := .u64) (con := .u64) h (fun _ => rfl) off n o hq
      (mini_kind_run (kd := .u64) (ld := loadU64) loadU64_loads (fun _ => rfl) (out := Mini.outU64) (con := .u64) (fun _ _ => rfl) h.ok off n o any)
  obtain ⟨n1, n2, n4, n8⟩ := sizes h1 h2 h4 h8
  rw [hq, if_neg n1, if_neg (show ¬ (size.toInt = 2 ∨ size.toInt = 4 ∨ size.toInt = 8) from fun h => h.elim n2 fun h => h.elim n4 n8),
    callOut_eq, mini_readComplex_other h.ok _ _ _ _ _ h1 h2 h4 h8]
  refine StepIs.same h ?_
  by_cases hr : 0 ≤ n.toInt ∧ 0 ≤ off.toInt ∧ off.toInt + n.toInt ≤ s.b.buf.cap
  · simp only [if_pos hr]; rfl
  · simp only [if_neg hr]; rfl

/-! ## one call on a `MiniBuffer` -/

/-- The outcome of a call, with its result as a value. -/
def outM (r : Res Val1 × St) : Res Val × St := (toRes r.1, r.2)

theorem outM_wrap (f : α → Val) (m : GoM St α) (s : St) : outM (wrapG (fun a => .val (f a)) m s) = wrapRes f (m s) := by
  unfold wrapG
  rw [bind_run]
  cases m s with
  | mk r t => cases r <;> rfl

theorem outM_any (m : GoM St Any) (s : St) : outM (wrapG .any m s) = anyM (m s) := by
  unfold wrapG
  rw [bind_run]
  cases m s with
  | mk r t => cases r <;> rfl

theorem outM_val (m : GoM St Val) (s : St) : outM (wrapG .val m s) = m s := by
  unfold wrapG
  rw [bind_run]
  cases m s with
  | mk r t => cases r <;> rfl

theorem outOf_move (d : Int64) (r : Res Unit × St × Any) : anyM (outOf (thenMoveM d r)) = V3.advance d (anyM (outOf r)) := by
  rcases r with ⟨_ | _, _, _⟩ <;> rfl

theorem count_lt {s : St} {d : Any} (hv : d.Valid s.mem) : d.count < 2 ^ 62 := by
  have hM := maxAlloc_lt
  cases d with
  | bytes t => exact Nat.lt_of_le_of_lt (show SliceOK s.mem t from hv).len_le_max (by omega)
  | u16 l => have : l.length * 2 ≤ maxAlloc := hv; show l.length < _; omega
  | u32 l => have : l.length * 4 ≤ maxAlloc := hv; show l.length < _; omega
  | u64 l => have : l.length * 8 ≤ maxAlloc := hv; show l.length < _; omega
  | other => decide

theorem mini_step1_ok {s : St} (h : WF s) (o : Outs) (ho : o.Valid) (any : Any) (op : Op1) (hv : op.Valid s.mem) (m : GoM St Val1)
    (hm : miniCall1 o any op = some m) :
    StepIs s (Ref.miniStep1 o.u64.toNat (lower1 s op) (abs s)) (outM (m s)) := by
  have v2 : ∀ op2, toV2 op = some op2 → Counted op → Whole op = false → op2.Valid s.mem → V2.nums o op2 = [] →
      lower1 s op = .base (V2.lower s op2) → Ref.idle o.u64.toNat (V2.lower s op2) (abs s) = none →
      StepIs s (Ref.miniStep1 o.u64.toNat (lower1 s op) (abs s)) (outM (m s)) := by
    intro op2 e hc hw hv2 hn hl hi
    rw [C77_mini_same o any op op2 e hc hw] at hm
    cases hm2 : V2.miniCall o op2 with
    | none => rw [hm2] at hm; cases hm
    | some m2 =>
      rw [hm2] at hm
      cases hm
      have k := V2.mini_step2_ok h o ho op2 hv2 m2 hm2
      rw [hn] at k
      rw [outM_val, hl]
      show StepIs s ((Ref.idle o.u64.toNat (V2.lower s op2) (abs s)).getD _) _
      rw [hi]
      exact k
  have bits : ∀ (n : Int64), ¬ n.toInt ≤ 0 → (0 : Int64) < n := by
    intro n hn; rw [Int64.lt_iff_toInt_lt, toInt_zero']; omega
  cases op with
  | writeComplex p d size bo =>
    cases p with
    | some off => cases hm; rw [outM_wrap]; exact mstep1_writeComplex h off d size bo hv
    | none =>
      cases hm
      rw [outM_wrap, C80_mini_writeComplexNext]
      have hc := count_lt hv
      have key := StepIs.next (Int64.ofNat d.count * size) ((argOf s d).count * size.toInt)
        (by rw [bmod_mul, count_argOf hv, toInt_ofNat (by omega)]) (mstep1_writeComplex h s.b.off d size bo hv)
      show StepIs s (Ref.stepCur _ _) (wrapRes _ (match Mini.writeComplex s.b.off d size bo s with | (.ok _, t) => _ | (.panic p, t) => _))
      revert key
      cases Mini.writeComplex s.b.off d size bo s with
      | mk r t => cases r <;> exact id
  | readComplex p n size bo =>
    cases p with
    | some off => cases hm; rw [outM_any]; exact mstep1_readComplex h off n size bo any
    | none =>
      cases hm
      rw [outM_any, callOut_eq, C80_mini_readComplexNext, outOf_move]
      exact StepIs.next _ _ (bmod_mul n size) (mstep1_readComplex h s.b.off n size bo any)
  | readBits p n =>
    by_cases hn : n.toInt ≤ 0
    · cases p with
      | some off =>
        cases hm
        show StepIs s ((if n.toInt ≤ 0 then some (.ok (.num o.u64.toNat), abs s) else none).getD _) _
        rw [if_pos hn, outM_wrap, callOut_eq, (C77_mini_nothing_to_do s off n 0 o.u64 hn).1]
        exact StepIs.same h rfl
      | none =>
        cases hm
        show StepIs s ((if n.toInt ≤ 0 then some (Ref.stepBcur n.toInt (.ok (.num o.u64.toNat), abs s)) else none).getD _) _
        rw [if_pos hn, outM_wrap, callOut_eq]
        have e : Mini.ReadBitsNext n (s, o.u64) = (.ok (), ({ s with b := { s.b with boff := s.b.boff + n } }, o.u64)) := by
          show (Mini.readbits s.b.boff n >>= fun _ => onB (Mini.seekbit n true)) (s, o.u64) = _
          rw [bind_ok (show Mini.readbits s.b.boff n (s, o.u64) = _ from (C77_mini_nothing_to_do s s.b.boff n 0 o.u64 hn).1)]
          rfl
        rw [e]
        exact StepIs.nextBit n (StepIs.same (r := .ok (.u64 o.u64)) h rfl)
    · refine v2 (.readBits p n) rfl (bits n hn) rfl trivial rfl rfl ?_
      cases p <;> exact if_neg hn
  | setBits p d n =>
    by_cases hn : n.toInt ≤ 0
    · cases p with
      | some off =>
        cases hm
        show StepIs s ((if n.toInt ≤ 0 then some (.ok .unit, abs s) else none).getD _) _
        rw [if_pos hn, outM_wrap, (C77_mini_nothing_to_do s off n d 0 hn).2.1]
        exact StepIs.same h rfl
      | none =>
        cases hm
        show StepIs s ((if n.toInt ≤ 0 then some (Ref.stepBcur n.toInt (.ok .unit, abs s)) else none).getD _) _
        rw [if_pos hn, outM_wrap]
        have e : Mini.SetBitsNext d n s = (.ok (), { s with b := { s.b with boff := s.b.boff + n } }) := by
          show (Mini.setbits s.b.boff d n >>= fun _ => Mini.seekbit n true) s = _
          rw [bind_ok (show Mini.setbits s.b.boff d n s = _ from (C77_mini_nothing_to_do s s.b.boff n d 0 hn).2.1)]
          rfl
        rw [e]
        exact StepIs.nextBit n (StepIs.same (r := .ok .unit) h rfl)
    · refine v2 (.setBits p d n) rfl (bits n hn) rfl trivial rfl rfl ?_
      cases p <;> exact if_neg hn
  | clearAll =>
    cases hm
    show StepIs s ((Ref.idle _ (.base .clearAll) (abs s)).getD (Ref.miniStep2 _ [] (.base .clearAll) (abs s))) (outM (wrapG (fun _ => .val .unit) Mini.ClearAllBits s))
    by_cases he : (abs s).data = []
    · rw [show Ref.idle o.u64.toNat (.base .clearAll) (abs s) = some (.ok .unit, abs s) from if_pos he, outM_wrap,
        ((C77_mini_nothing_to_do s 0 0 0 0 (by decide)).2.2 ((abs_nil h.ok).mp he)).1]
      exact StepIs.same h rfl
    · rw [show Ref.idle o.u64.toNat (.base .clearAll) (abs s) = none from if_neg he, outM_wrap, (C77_mini_whole_buffer h.ok he).1]
      have := V2.mini_step2_ok h o ho .clearAll trivial _ rfl
      rw [V3.wrapVal_run] at this
      exact this
  | setAll =>
    cases hm
    show StepIs s ((Ref.idle _ (.base .setAll) (abs s)).getD (Ref.miniStep2 _ [] (.base .setAll) (abs s))) (outM (wrapG (fun _ => .val .unit) Mini.SetAllBits s))
    by_cases he : (abs s).data = []
    · rw [show Ref.idle o.u64.toNat (.base .setAll) (abs s) = some (.ok .unit, abs s) from if_pos he, outM_wrap,
        ((C77_mini_nothing_to_do s 0 0 0 0 (by decide)).2.2 ((abs_nil h.ok).mp he)).2.1]
      exact StepIs.same h rfl
    · rw [show Ref.idle o.u64.toNat (.base .setAll) (abs s) = none from if_neg he, outM_wrap, (C77_mini_whole_buffer h.ok he).2.1]
      have := V2.mini_step2_ok h o ho .setAll trivial _ rfl
      rw [V3.wrapVal_run] at this
      exact this
  | flipAll =>
    cases hm
    show StepIs s ((Ref.idle _ (.base .flipAll) (abs s)).getD (Ref.miniStep2 _ [] (.base .flipAll) (abs s))) (outM (wrapG (fun _ => .val .unit) Mini.FlipAllBits s))
    by_cases he : (abs s).data = []
    · rw [show Ref.idle o.u64.toNat (.base .flipAll) (abs s) = some (.ok .unit, abs s) from if_pos he, outM_wrap,
        ((C77_mini_nothing_to_do s 0 0 0 0 (by decide)).2.2 ((abs_nil h.ok).mp he)).2.2]
      exact StepIs.same h rfl
    · rw [show Ref.idle o.u64.toNat (.base .flipAll) (abs s) = none from if_neg he, outM_wrap, (C77_mini_whole_buffer h.ok he).2.2]
      have := V2.mini_step2_ok h o ho .flipAll trivial _ rfl
      rw [V3.wrapVal_run] at this
      exact this
  | setBit p v =>
    refine v2 (.setBit p v) rfl trivial rfl trivial rfl rfl ?_
    simp only [V2.lower]
    by_cases h0 : v = 0
    · rw [if_pos h0]; rfl
    · rw [if_neg h0]
      by_cases h1 : v = 1
      · rw [if_pos h1]; rfl
      · rw [if_neg h1]; rfl
  | writeBytes p src => exact v2 (.writeBytes p src) rfl trivial rfl hv rfl rfl rfl
  | writeByte p v => exact v2 (.writeByte p v) rfl trivial rfl trivial rfl rfl rfl
  | readBytes p n => exact v2 (.readBytes p n) rfl trivial rfl trivial rfl rfl rfl
  | readByte p => exact v2 (.readByte p) rfl trivial rfl trivial rfl rfl rfl
  | readBit p => exact v2 (.readBit p) rfl trivial rfl trivial rfl rfl rfl
  | flipBit p => exact v2 (.flipBit p) rfl trivial rfl trivial rfl rfl rfl
  | seek o r => exact v2 (.seek o r) rfl trivial rfl trivial rfl rfl rfl
  | seekBit o r => exact v2 (.seekBit o r) rfl trivial rfl trivial rfl rfl rfl
  | after o => exact v2 (.after o) rfl trivial rfl trivial rfl rfl rfl
  | afterBit o => exact v2 (.afterBit o) rfl trivial rfl trivial rfl rfl rfl
  | alignByte => exact v2 (.alignByte) rfl trivial rfl trivial rfl rfl rfl
  | alignBit => exact v2 (.alignBit) rfl trivial rfl trivial rfl rfl rfl
  | grow n => exact v2 (.grow n) rfl trivial rfl trivial rfl rfl rfl
  | refresh => exact v2 (.refresh) rfl trivial rfl trivial rfl rfl rfl
  | bytes => exact v2 (.bytes) rfl trivial rfl trivial rfl rfl rfl
  | capacity => exact v2 (.capacity) rfl trivial rfl trivial rfl rfl rfl
  | bitCapacity => exact v2 (.bitCapacity) rfl trivial rfl trivial rfl rfl rfl
  | offset => exact v2 (.offset) rfl trivial rfl trivial rfl rfl rfl
  | bitOffset => exact v2 (.bitOffset) rfl trivial rfl trivial rfl rfl rfl

end Crunch.V1
