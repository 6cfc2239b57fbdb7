import Verif.Lemmas.V2Exec
import Verif.Lemmas.MiniStep
import Verif.V2.MiniApi
import Verif.Ref2

/-!
One v2 call, completely: it keeps the invariant, touches only its own window of memory, and does what the reference machines
`Ref.step2` and `Ref.miniStep2` do.
-/

namespace Crunch.V2
open Spec
open V3 (St WF Val Outs abs Iso StepIs getB onMem obsRes wrapRes wrapVal_run)
open V3.Mini (callOut)

/-! ## v2 `MiniBuffer` methods that are v3 `MiniBuffer` methods -/

theorem mini_write_typed (k : UKind) (e : Endian) (o : Int64) (l : List k.kind.Ty) :
    Mini.Write k e o l = V3.Mini.Write k.kind e o l := by cases k <;> cases e <;> rfl
theorem mini_writeNext_typed (k : UKind) (e : Endian) (l : List k.kind.Ty) :
    Mini.WriteNext k e l = V3.Mini.WriteNext k.kind e l := by cases k <;> cases e <;> rfl
theorem mini_read_typed (k : UKind) (e : Endian) (o n : Int64) :
    Mini.Read k e o n = V3.Mini.Read k.kind e o n := by cases k <;> cases e <;> rfl
theorem mini_readNext_typed (k : UKind) (e : Endian) (n : Int64) :
    Mini.ReadNext k e n = V3.Mini.ReadNext k.kind e n := by cases k <;> cases e <;> rfl

theorem mini_readbit_eq (off : Int64) : Mini.readbit off = V3.Mini.ReadBit off := by
  unfold Mini.readbit V3.Mini.ReadBit
  congr 1
  funext x
  rw [atob_eq, count_eq]

theorem mini_readbits_eq (off n : Int64) : Mini.readbits off n = V3.Mini.ReadBits off n := by
  unfold Mini.readbits V3.Mini.ReadBits
  simp only [mini_readbit_eq]

theorem mini_setbits_eq (off : Int64) (data : UInt64) (n : Int64) : Mini.setbits off data n = V3.Mini.SetBits off data n := by
  unfold Mini.setbits V3.Mini.SetBits
  congr 1
  funext i _
  rcases and_one_cases (shr64 data (n - i - 1).toUInt64) with h | h <;> rw [h]
  · rfl
  · rfl

/-- The calls whose v2 rules differ from v3's. -/
def own : Op2 → Bool
  | .writeBytes .. | .grow _ | .reset => true
  | _ => false

/-- Every other v2 `MiniBuffer` method is its v3 counterpart. -/
theorem miniCall_v3 (o : Outs) (op : Op2) (op3 : V3.Op) (h : toV3 op = some op3) (hc : own op = false) :
    miniCall o op = V3.miniCall o op3 := by
  cases op with
  | write k e p d => cases h; cases p <;> simp only [miniCall, V3.miniCall, mini_write_typed, mini_writeNext_typed]
  | read k e p n => cases h; cases p <;> simp only [miniCall, V3.miniCall, mini_read_typed, mini_readNext_typed]
  | writeBytes p s => simp [own] at hc
  | grow n => simp [own] at hc
  | reset => simp [own] at hc
  | readBit p =>
    cases h
    cases p
    · simp only [miniCall, V3.miniCall, Mini.ReadBitNext, V3.Mini.ReadBitNext, mini_readbit_eq]; rfl
    · simp only [miniCall, V3.miniCall, Mini.ReadBit, mini_readbit_eq]
  | readBits p n =>
    cases h
    cases p
    · simp only [miniCall, V3.miniCall, Mini.ReadBitsNext, V3.Mini.ReadBitsNext, mini_readbits_eq]; rfl
    · simp only [miniCall, V3.miniCall, Mini.ReadBits, mini_readbits_eq]
  | setBit p v =>
    simp only [toV3] at h
    split at h
    · rename_i h0; subst h0; cases h; cases p <;> rfl
    · split at h
      · rename_i h0; subst h0; cases h; cases p <;> rfl
      · cases h
  | setBits p d n =>
    cases h
    cases p
    · simp only [miniCall, V3.miniCall, Mini.SetBitsNext, V3.Mini.SetBitsNext, mini_setbits_eq]; rfl
    · simp only [miniCall, V3.miniCall, Mini.SetBits, mini_setbits_eq]
  | readBytes p n => cases h; cases p <;> rfl
  | flipBit p => cases h; cases p <;> rfl
  | _ => cases h; rfl

/-! ## the calls for the reference machines -/

/-- The spare capacity `append` gives to the array it allocates for `n` more bytes. -/
def room (s : St) (n : Int64) : Nat :=
  min (s.b.buf.len + n.toInt.toNat + s.mem.slack s.b.buf.cap (s.b.buf.len + n.toInt.toNat)) maxAlloc - (s.b.buf.len + n.toInt.toNat)

/-- Where a source slice starts relative to the buffer. -/
def place (s : St) (src : Slice) : Option Int := if src.arr = s.b.buf.arr then some (src.off - s.b.buf.off : Int) else none

/-- The reference call of a v2 method call. -/
def lower (s : St) : Op2 → Ref.Op2
  | .write k e p d => .base (V3.Op.lower s.mem (.write k.kind e p d))
  | .read k e p n => .base (V3.Op.lower s.mem (.read k.kind e p n))
  | .writeBytes p src => .writeBytes (p.map Int64.toInt) (s.mem.view src) (place s src)
  | .writeByte p v => .writeByte (p.map Int64.toInt) v
  | .readBytes p n => .base (V3.Op.lower s.mem (.readBytes p n))
  | .readByte p => .base (V3.Op.lower s.mem (.readByte p))
  | .readBit p => .base (V3.Op.lower s.mem (.readBit p))
  | .readBits p n => .base (V3.Op.lower s.mem (.readBits p n))
  | .setBit p v =>
    if v = 0 then .base (V3.Op.lower s.mem (.clearBit p)) else if v = 1 then .base (V3.Op.lower s.mem (.setBit p))
    else .badBit (p.map Int64.toInt)
  | .flipBit p => .base (V3.Op.lower s.mem (.flipBit p))
  | .setBits p d n => .base (V3.Op.lower s.mem (.setBits p d n))
  | .clearAll => .base (V3.Op.lower s.mem .clearAll)
  | .setAll => .base (V3.Op.lower s.mem .setAll)
  | .flipAll => .base (V3.Op.lower s.mem .flipAll)
  | .seek o r => .base (V3.Op.lower s.mem (.seekByte o r))
  | .seekBit o r => .base (V3.Op.lower s.mem (.seekBit o r))
  | .after o => .base (V3.Op.lower s.mem (.afterByte o))
  | .afterBit o => .base (V3.Op.lower s.mem (.afterBit o))
  | .alignByte => .base (V3.Op.lower s.mem .alignByte)
  | .alignBit => .base (V3.Op.lower s.mem .alignBit)
  | .grow n => .grow n.toInt (room s n)
  | .refresh => .base (V3.Op.lower s.mem .refresh)
  | .reset => .reset
  | .bytes => .base (V3.Op.lower s.mem .bytes)
  | .capacity => .base (V3.Op.lower s.mem .byteCapacity)
  | .bitCapacity => .base (V3.Op.lower s.mem .bitCapacity)
  | .offset => .base (V3.Op.lower s.mem .byteOffset)
  | .bitOffset => .base (V3.Op.lower s.mem .bitOffset)

/-- The argument slice of a call is a slice of the current memory. -/
def Op2.Valid (m : Heap) : Op2 → Prop
  | .write k _ _ data => data.length * k.kind.size ≤ maxAlloc
  | .writeBytes _ src => SliceOK m src
  | _ => True

/-! ## `WriteBytes` -/

theorem copied_echo (s : St) {o : Int} (ho : 0 ≤ o) {src : Slice} (hs : SliceOK s.mem src) :
    copied s o.toNat src src.len = Ref.echo (place s src) o (s.mem.view src) := by
  have hl := length_view hs
  unfold place
  by_cases ha : src.arr = s.b.buf.arr
  · rw [if_pos ha]
    by_cases hq : (src.off : Int) - s.b.buf.off < o
    · simp only [Ref.echo, if_pos hq, hl, copied]
      apply List.map_congr_left
      intro i _
      unfold copyByte
      rw [if_pos (show src.arr = s.b.buf.arr ∧ src.off < s.b.buf.off + o.toNat from ⟨ha, by omega⟩)]
      congr 2
      omega
    · simp only [Ref.echo, if_neg hq]
      exact copied_eq_view hs (.inr (.inl (by omega)))
  · rw [if_neg ha]
    exact copied_eq_view hs (.inl ha)

theorem copied_take (s : St) (p : Nat) (src : Slice) {m n : Nat} (h : m ≤ n) : (copied s p src n).take m = copied s p src m := by
  unfold copied
  rw [← List.map_take, List.take_range, Nat.min_eq_left h]

theorem length_echo (q : Option Int) (o : Int) (bs : List UInt8) : (Ref.echo q o bs).length = bs.length := by
  unfold Ref.echo
  split
  · rfl
  · split
    · rw [List.length_map, List.length_range]
    · rfl

theorem step2_writeBytes {s : St} (h : WF s) (o : Int64) {src : Slice} (hs : SliceOK s.mem src) :
    StepIs s (Ref.put (abs s) o.toInt (Ref.echo (place s src) o.toInt (s.mem.view src)) (s.mem.view src ≠ []) .index)
      (wrapRes (fun _ => .unit) (writeSeq o src s)) := by
  have hl := length_view hs; have hD := hs.len_le_max
  have hb := V3.abs_len h.ok; have hby := V3.length_bytes h.ok
  have hne : s.mem.view src ≠ [] ↔ 0 < src.len := by rw [← hl, List.length_pos_iff]
  show StepIs s _ (wrapRes _ ((getB >>= fun b => _ : GoM St Unit) s))
  rw [write_checked_run h o hs]
  unfold Ref.put
  rw [length_echo, hl, hb]
  by_cases hc : 0 < src.len ∧ 0 ≤ o.toInt ∧ o.toInt + src.len ≤ s.b.buf.len
  · rw [if_pos hc, if_pos (by rw [hne]; exact hc), copied_echo s hc.2.1 hs,
      V3.write_eq_put h.ok (by rw [length_echo, hl]; omega)]
    exact StepIs.content h (by rw [length_patch (by rw [length_echo, hl]; omega), hby]) rfl
  · rw [if_neg hc, if_neg (by rw [hne]; exact hc), V3.reject_write h.ok _ o _ hD]
    exact StepIs.same h rfl

theorem mstep2_writeBytes {s : St} (h : WF s) (o : Int64) {src : Slice} (hs : SliceOK s.mem src) :
    StepIs s (Ref.miniCopy o.toInt (Ref.echo (place s src) o.toInt (s.mem.view src)) (abs s))
      (wrapRes (fun _ => .unit) (Mini.WriteBytes o src s)) := by
  have hl := length_view hs; have hD := hs.len_le_max
  have hb := V3.abs_len h.ok; have hby := V3.length_bytes h.ok
  have hle : (Ref.echo (place s src) o.toInt (s.mem.view src)).length = src.len := by rw [length_echo, hl]
  have hne : Ref.echo (place s src) o.toInt (s.mem.view src) = [] ↔ src.len = 0 := by
    rw [← hle]; exact List.length_eq_zero_iff.symm
  show StepIs s _ (wrapRes _ (Mini.write o src s))
  rw [mini_write_run h.ok o hs]
  unfold Ref.miniCopy
  simp only [hne, hb, hle]
  by_cases hc : src.len = 0 ∨ o.toInt < 0 ∨ s.b.buf.len ≤ o.toInt
  · rw [if_pos hc, if_pos hc]
    exact StepIs.same h rfl
  · rw [if_neg hc, if_neg hc]
    have h0 : 0 ≤ o.toInt := by omega
    by_cases hf : o.toInt + src.len ≤ s.b.buf.len
    · rw [if_pos hf, if_pos hf, copied_echo s h0 hs, List.take_of_length_le (by rw [hle]; omega),
        V3.write_eq_put h.ok (by rw [hle]; omega)]
      exact StepIs.content h (by rw [length_patch (by rw [hle]; omega), hby]) rfl
    · rw [if_neg hf, if_neg hf, ← copied_take s _ src (show s.b.buf.len - o.toInt.toNat ≤ src.len by omega),
        copied_echo s h0 hs, V3.write_eq_put h.ok (by rw [List.length_take]; omega)]
      exact StepIs.content h (by rw [length_patch (by rw [List.length_take]; omega), hby]) rfl

theorem step2_writeByte {s : St} (h : WF s) (o : Int64) (v : UInt8) :
    StepIs s (Ref.put (abs s) o.toInt [v] True .index) (wrapRes (fun _ => .unit) (writeByteSeq o v s)) := by
  have hb := V3.abs_len h.ok; have hby := V3.length_bytes h.ok
  have e := (writeByte_run h o v).symm.trans (write_lit_leaky o v s)
  have e' : writeByteSeq o v s = if 0 ≤ o.toInt ∧ o.toInt + 1 ≤ s.b.buf.len then (.ok (), s.write o.toInt.toNat [v])
      else (.panic (writePanic o.toInt 1 s.b.buf.len), s) := by
    apply Prod.ext
    · refine (congrArg Prod.fst e).symm.trans ?_
      split <;> rfl
    · refine (congrArg (fun x => x.2.st) e).symm.trans ?_
      split <;> rfl
  rw [e']
  unfold Ref.put
  simp only [List.length_singleton, true_and, hb, Int.natCast_one]
  by_cases hc : 0 ≤ o.toInt ∧ o.toInt + 1 ≤ s.b.buf.len
  · rw [if_pos hc, if_pos hc, V3.write_eq_put h.ok (by rw [List.length_singleton]; omega)]
    exact StepIs.content h (by rw [length_patch (by rw [List.length_singleton]; omega), hby]) rfl
  · rw [if_neg hc, if_neg hc, show (1 : Int) = ((1 : Nat) : Int) from rfl, V3.reject_write h.ok _ o 1 (by decide)]
    exact StepIs.same h rfl

/-! ## `SetBit` with a wrong value -/

theorem step2_badBit {s : St} (h : WF s) (o : Int64) :
    badBit o s = (.panic (if 0 ≤ o.toInt ∧ o.toInt < 8 * (abs s).data.length then .err BufferInvalidBitError
      else Ref.rejectBit BufferOverwriteError BufferUnderwriteError o.toInt), s) := by
  have hL := h.len_lt; have hM := maxAlloc_lt; have hm := h.ok.len_le_max
  have hb := V3.abs_len h.ok
  have h2 := h.bcap_toInt
  have o1 := toInt_lt' o; have o2 := le_toInt' o
  unfold badBit
  simp only [V3.getB_bind, panicIf_bind, GT.gt, Int64.lt_iff_toInt_lt, toInt_zero', Ref.rejectBit]
  rw [hb, toInt_sub, h2, toInt_one', show (8 * (s.b.buf.len : Int) - 1 + 2 ^ 63) % 2 ^ 64 - 2 ^ 63 = 8 * s.b.buf.len - 1 by omega]
  by_cases a : 8 * (s.b.buf.len : Int) - 1 < o.toInt
  · rw [if_pos a, if_neg (by omega), if_neg (by omega)]
  · rw [if_neg a]
    by_cases b : o.toInt < 0
    · rw [if_pos b, if_neg (by omega), if_pos b]
    · rw [if_neg b, if_pos (by omega)]; rfl

/-! ## `Grow` and `Reset` -/

theorem mstep2_grow {s : St} (h : WF s) (n : Int64) :
    StepIs s (Ref.grow2 n.toInt (room s n) (abs s)) (wrapRes (fun _ => .unit) (Mini.grow n s)) := by
  have hb := V3.abs_len h.ok; have hsp := V3.abs_spare h.ok
  have h1 := h.ok.len_le; have h2 := h.ok.fits; have hc := h.ok.cap_le
  unfold Ref.grow2
  rw [hb, hsp]
  by_cases hp : n.toInt < 0 ∨ (maxAlloc : Int) < s.b.buf.len + n.toInt
  · rw [mini_grow_panic h.ok n hp, if_pos hp]
    exact StepIs.same h rfl
  rw [if_neg hp]
  have hk : (List.replicate n.toInt.toNat (0 : UInt8)).length = n.toInt.toNat := List.length_replicate
  obtain ⟨t', m', e, a⟩ := V3.append_ok (extends_nil s.mem) h.ok (Nat.zero_le _) (List.replicate n.toInt.toNat 0)
    (by rw [hk]; omega)
  have er : Mini.grow n s = (.ok (), s.refit m' t') := by
    unfold Mini.grow
    simp only [V3.getB_bind, panicIf_bind]
    rw [if_neg (by omega), bind_ok (s' := { s with mem := m' }) (a := t')]
    · show V3.Buffer.Refresh ⟨m', { s.b with buf := t' }⟩ = _
      rw [V3.buffer_refresh_run]; rfl
    · simp only [onMem, e]
  rw [er]
  have hwf : WF (s.refit m' t') := V3.WF.refit a.ok
  have hab : ∀ sp, (m'.window t').drop t'.len = sp →
      abs (s.refit m' t') = { abs s with data := (abs s).data ++ List.replicate n.toInt.toNat 0, spare := sp } := by
    intro sp hs
    unfold abs
    rw [V3.refit_bytes, a.view]
    subst hs
    rfl
  unfold appendBytes at e
  simp only [hk] at e
  by_cases hin : s.b.buf.len + n.toInt.toNat ≤ s.b.buf.cap
  · rw [if_pos hin] at e
    cases e
    rw [if_pos (by omega)]
    refine ⟨hwf, ⟨Nat.le_of_eq (blit_length _ _ _ _).symm, fun c i _ hi => ?_, a.slices, .inl ⟨rfl, Nat.le_refl _, rfl⟩, rfl⟩, rfl, hab _ ?_⟩
    · show ((s.mem.blit _ _ _).array c)[i]? = _
      by_cases hca : c = s.b.buf.arr
      · subst hca
        rw [array_blit _ _ _ _ _ (by rw [hk]; omega), if_pos rfl, getElem?_patch (by rw [hk]; omega), if_neg (by rw [hk]; omega)]
      · rw [array_blit _ _ _ _ _ (by rw [hk]; omega), if_neg (Ne.symm hca)]
    · have := view_blit_self (h.ok.withLen (n := s.b.buf.cap) (Nat.le_refl _)) (p := s.b.buf.len) (bs := List.replicate n.toInt.toNat 0)
        (by simp only [Slice.withLen]; omega)
      refine (congrArg (List.drop _) this).trans ?_
      have hw := V3.length_window h.ok
      show List.drop (s.b.buf.len + n.toInt.toNat) (patch (s.mem.window s.b.buf) _ _) = ((s.mem.window s.b.buf).drop _).drop _
      unfold patch
      rw [List.drop_drop, List.append_assoc, List.drop_append, List.drop_append, hk, List.length_take, hw,
        List.drop_of_length_le (by rw [List.length_take, hw]; omega), List.drop_of_length_le (by rw [hk]; omega),
        show s.b.buf.len + n.toInt.toNat - min s.b.buf.len s.b.buf.cap - n.toInt.toNat = 0 by omega]
      rfl
  · rw [if_neg hin, if_neg (by omega)] at e
    cases e
    rw [if_neg (by omega)]
    refine ⟨hwf, ⟨?_, fun c i hc _ => ?_, a.slices, .inr (Nat.le_refl _), rfl⟩, rfl, hab _ ?_⟩
    · show _ ≤ (Heap.alloc _ _).arrays.length
      simp [Heap.alloc]
    · show ((Heap.alloc _ _).array c)[i]? = _
      rw [array_alloc_lt hc]
    · have hl : (s.mem.view s.b.buf).length = s.b.buf.len := length_view h.ok
      unfold Heap.window
      simp only [array_alloc_self, List.drop_zero]
      rw [List.take_of_length_le (by simp only [List.length_append, hl, List.length_replicate]; omega),
        List.drop_append, List.drop_of_length_le (by simp only [List.length_append, hl, List.length_replicate]; omega)]
      simp only [List.length_append, hl, List.length_replicate, Nat.sub_self]
      rfl

theorem mstep2_reset (s : St) :
    StepIs s (.ok .unit, { data := [], spare := [], cur := 0, bcur := 0 }) (wrapRes (fun _ => .unit) (Mini.reset s)) := by
  have e : Mini.reset s = (.ok (), ⟨s.mem.alloc [], ⟨⟨s.mem.arrays.length, 0, 0, 0⟩, 0, 0, 0, 0⟩⟩) := rfl
  rw [e]
  refine ⟨⟨⟨Nat.le_refl _, ?_, ?_⟩, rfl, rfl⟩, ⟨?_, fun c i hc _ => ?_, fun t ht => ht.alloc (Nat.zero_le _), .inr (Nat.le_refl _), rfl⟩, rfl, ?_⟩
  · show 0 + 0 ≤ _; omega
  · show ((Heap.alloc _ _).array s.mem.arrays.length).length ≤ _
    rw [array_alloc_self]; exact Nat.zero_le _
  · show _ ≤ (Heap.alloc _ _).arrays.length
    simp [Heap.alloc]
  · show ((Heap.alloc _ _).array c)[i]? = _
    rw [array_alloc_lt hc]
  · simp [abs, V3.St.bytes, wrapRes, Heap.view, Heap.window]

/-! ## all calls -/

theorem step2_ok {s : St} (h : WF s) (op : Op2) (hv : op.Valid s.mem) : StepIs s (Ref.step2 (lower s op) (abs s)) (seq op s) := by
  cases op with
  | write k e p d => exact (V3.step_ok h (.write k.kind e p d) hv).is
  | writeBytes p src =>
    have hD := SliceOK.len_le_max hv; have hM := maxAlloc_lt
    cases p with
    | some o => simp only [seq, wrapVal_run]; exact step2_writeBytes h o hv
    | none =>
      simp only [seq, wrapVal_run]
      rw [V3.getB_bind, V3.seek_after, V3.wrap_advance]
      refine StepIs.next _ _ ?_ (step2_writeBytes h s.b.off hv)
      rw [toInt_ofNat (by omega), length_view hv]
  | writeByte p v =>
    cases p with
    | some o => simp only [seq, wrapVal_run]; exact step2_writeByte h o v
    | none =>
      simp only [seq, wrapVal_run]
      rw [V3.getB_bind, V3.seek_after, V3.wrap_advance]
      exact StepIs.next _ _ rfl (step2_writeByte h s.b.off v)
  | setBit p v =>
    by_cases h0 : v = 0
    · subst h0; cases p with | none => exact (V3.step_ok h (.clearBit none) trivial).is | some o => exact (V3.step_ok h (.clearBit (some o)) trivial).is
    · by_cases h1 : v = 1
      · subst h1; cases p with | none => exact (V3.step_ok h (.setBit none) trivial).is | some o => exact (V3.step_ok h (.setBit (some o)) trivial).is
      · have el : lower s (.setBit p v) = .badBit (p.map Int64.toInt) := by simp only [lower, if_neg h0, if_neg h1]
        have es : ∀ o, setBitSeq o v = badBit o := fun o => by simp only [setBitSeq, if_neg h0, if_neg h1]
        rw [el]
        cases p with
        | some o =>
          simp only [seq, wrapVal_run, es]
          rw [step2_badBit h]
          exact StepIs.same h rfl
        | none =>
          simp only [seq, wrapVal_run, es]
          rw [V3.getB_bind, bind_panic (step2_badBit h s.b.boff)]
          exact StepIs.same h rfl
  | grow n => simp only [seq, wrapVal_run]; exact mstep2_grow h n
  | reset => simp only [seq, wrapVal_run]; exact mstep2_reset s
  | read k e p n => exact (V3.step_ok h (.read k.kind e p n) trivial).is
  | readBytes p n => exact (V3.step_ok h (.readBytes p n) trivial).is
  | readByte p => exact (V3.step_ok h (.readByte p) trivial).is
  | readBit p => exact (V3.step_ok h (.readBit p) trivial).is
  | readBits p n => exact (V3.step_ok h (.readBits p n) trivial).is
  | flipBit p => exact (V3.step_ok h (.flipBit p) trivial).is
  | setBits p d n => exact (V3.step_ok h (.setBits p d n) trivial).is
  | clearAll => exact (V3.step_ok h .clearAll trivial).is
  | setAll => exact (V3.step_ok h .setAll trivial).is
  | flipAll => exact (V3.step_ok h .flipAll trivial).is
  | seek o r => exact (V3.step_ok h (.seekByte o r) trivial).is
  | seekBit o r => exact (V3.step_ok h (.seekBit o r) trivial).is
  | after o => exact (V3.step_ok h (.afterByte o) trivial).is
  | afterBit o => exact (V3.step_ok h (.afterBit o) trivial).is
  | alignByte => exact (V3.step_ok h .alignByte trivial).is
  | alignBit => exact (V3.step_ok h .alignBit trivial).is
  | refresh => exact (V3.step_ok h .refresh trivial).is
  | bytes => exact (V3.step_ok h .bytes trivial).is
  | capacity => exact (V3.step_ok h .byteCapacity trivial).is
  | bitCapacity => exact (V3.step_ok h .bitCapacity trivial).is
  | offset => exact (V3.step_ok h .byteOffset trivial).is
  | bitOffset => exact (V3.step_ok h .bitOffset trivial).is

/-- What the result variables hold, for the reference machine. -/
def nums (o : Outs) : Op2 → List Nat
  | .read k _ _ _ => (o.typed k.kind).map k.kind.pat
  | _ => []

theorem mini_step2_ok {s : St} (h : WF s) (o : Outs) (ho : o.Valid) (op : Op2) (hv : op.Valid s.mem) (m : GoM St Val)
    (hm : miniCall o op = some m) :
    StepIs s (Ref.miniStep2 o.u64.toNat (nums o op) (lower s op) (abs s)) (m s) := by
  have base : ∀ op3, toV3 op = some op3 → own op = false → op3.Valid s.mem → lower s op = .base (op3.lower s.mem) →
      nums o op = o.nums op3 → StepIs s (Ref.miniStep2 o.u64.toNat (nums o op) (lower s op) (abs s)) (m s) := by
    intro op3 h3 hc hv3 hl hn
    rw [hl, hn]
    exact V3.mini_step_ok h o ho op3 hv3 m (by rw [← miniCall_v3 o op op3 h3 hc]; exact hm)
  cases op with
  | write k e p d => exact base _ rfl rfl hv rfl rfl
  | writeBytes p src =>
    have hD := SliceOK.len_le_max hv; have hM := maxAlloc_lt
    cases p with
    | some p => cases hm; rw [wrapVal_run]; exact mstep2_writeBytes h p hv
    | none =>
      cases hm
      rw [wrapVal_run]
      unfold Mini.WriteBytesNext
      rw [V3.getB_bind, show Mini.seek = V3.Mini.SeekByte from rfl, V3.mini_seek_after, V3.wrap_advance]
      refine StepIs.next _ _ ?_ (mstep2_writeBytes h s.b.off hv)
      rw [toInt_ofNat (by omega), length_view hv]
  | writeByte p v => cases hm
  | readByte p => cases hm
  | setBit p v =>
    by_cases h0 : v = 0
    · subst h0; exact base (.clearBit p) rfl rfl trivial rfl rfl
    · by_cases h1 : v = 1
      · subst h1; exact base (.setBit p) rfl rfl trivial rfl rfl
      · have el : lower s (.setBit p v) = .badBit (p.map Int64.toInt) := by simp only [lower, if_neg h0, if_neg h1]
        have es : ∀ o, Mini.setbit o v = throwP (.err BufferInvalidBitError) := fun o => by
          simp only [Mini.setbit, if_neg h0, if_neg h1]
        rw [el]
        cases p with
        | some p =>
          cases hm
          simp only [wrapVal_run, Mini.SetBit, es]
          exact StepIs.same h rfl
        | none =>
          cases hm
          simp only [wrapVal_run, Mini.SetBitNext, es]
          exact StepIs.same h rfl
  | grow n => cases hm; rw [wrapVal_run]; exact mstep2_grow h n
  | reset => cases hm; rw [wrapVal_run]; exact mstep2_reset s
  | _ => exact base _ rfl rfl trivial rfl rfl

end Crunch.V2
