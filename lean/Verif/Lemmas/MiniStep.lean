import Verif.Lemmas.MiniRun
import Verif.MiniRef

/-!
One `MiniBuffer` call, completely: it keeps the invariant, touches only its own window of memory, and does what
`Ref.miniStep` does.
-/

namespace Crunch.V3
open Spec Mini

/-- The outcome `r` of a call from `s`: invariant, isolation, and agreement with the reference outcome `q`. -/
structure StepIs (s : St) (q : Res Ref.Val × Ref.Ref) (r : Res Val × St) : Prop where
  wf : WF r.2
  iso : Iso s r.2
  result : obsRes r.2.mem r.1 = q.1
  state : abs r.2 = q.2

theorem StepOK.is {s : St} {op : Op} {r : Res Val × St} (h : StepOK s op r) : StepIs s (Ref.step (op.lower s.mem) (abs s)) r :=
  ⟨h.wf, h.iso, h.result, h.state⟩

theorem StepIs.next {s : St} {q : Res Ref.Val × Ref.Ref} {r : Res Val × St} (d : Int64) (x : Int) (hx : d.toInt.bmod (2 ^ 64) = x.bmod (2 ^ 64))
    (h : StepIs s q r) : StepIs s (Ref.stepCur x q) (advance d r) := by
  have h1 := h.result; have h2 := h.state; have h3 := h.wf; have h4 := h.iso
  rcases r with ⟨_ | p, s'⟩
  · rcases q with ⟨_ | _, q⟩
    · refine ⟨⟨h3.ok, h3.cap, h3.bcap⟩, ⟨h4.more, h4.outside, h4.slices, h4.place, h4.slack⟩, h1, ?_⟩
      simp only at h2
      subst h2
      simp only [advance, Ref.stepCur, abs, toInt_add_wrap]
      rw [show Ref.wrap64 (s'.b.off.toInt + d.toInt) = Ref.wrap64 (s'.b.off.toInt + x) by
        unfold Ref.wrap64
        rw [← Int.add_bmod_bmod, hx, Int.add_bmod_bmod]]
      rfl
    · simp [obsRes] at h1
  · rcases q with ⟨_ | _, q⟩
    · simp [obsRes] at h1
    · exact ⟨h3, h4, h1, h2⟩

theorem StepIs.nextBit {s : St} {q : Res Ref.Val × Ref.Ref} {r : Res Val × St} (d : Int64)
    (h : StepIs s q r) : StepIs s (Ref.stepBcur d.toInt q) (advanceBit d r) := by
  have h1 := h.result; have h2 := h.state; have h3 := h.wf; have h4 := h.iso
  rcases r with ⟨_ | p, s'⟩
  · rcases q with ⟨_ | _, q⟩
    · refine ⟨⟨h3.ok, h3.cap, h3.bcap⟩, ⟨h4.more, h4.outside, h4.slices, h4.place, h4.slack⟩, h1, ?_⟩
      simp only at h2
      subst h2
      simp only [advanceBit, Ref.stepBcur, abs, toInt_add_wrap]; rfl
    · simp [obsRes] at h1
  · rcases q with ⟨_ | _, q⟩
    · simp [obsRes] at h1
    · exact ⟨h3, h4, h1, h2⟩

/-- A call that changes nothing. -/
theorem StepIs.same {s : St} {r : Res Val} {q : Res Ref.Val × Ref.Ref} (h : WF s)
    (hq : q = (obsRes s.mem r, abs s)) : StepIs s q (r, s) := by
  subst hq; exact ⟨h, Iso.refl s, rfl, rfl⟩

/-- A call that replaces the content in place. -/
theorem StepIs.content {s : St} {r : Res Val} {q : Res Ref.Val × Ref.Ref} {l : List UInt8} (h : WF s)
    (hl : l.length = s.b.buf.len) (hq : q = (obsRes (s.put l).mem r, { abs s with data := l })) : StepIs s q (r, s.put l) := by
  subst hq; exact ⟨h.put l, Iso.put h.ok hl, rfl, abs_put h.ok hl⟩

/-! ## bytes -/

theorem mstep_write {s : St} (h : WF s) (k : Kind) (e : Endian) (o : Int64) (data : List k.Ty)
    (hv : data.length * k.size ≤ maxAlloc) :
    StepIs s (Ref.miniWrite k.size e o.toInt (data.map k.pat) (abs s)) (wrapRes (fun _ => .unit) (Mini.Write k e o data s)) := by
  have hl := length_enc k e data
  have hb := abs_len h.ok
  have hby := length_bytes h.ok
  have hX : (data.length : Int) * k.size = ((data.length * k.size : Nat) : Int) := (Int.natCast_mul ..).symm
  unfold Ref.miniWrite
  simp only [List.map_eq_nil_iff, List.length_map, enc_eq, hb]
  by_cases hd : data = []
  · subst hd
    rw [mini_write_nil, if_pos (.inl rfl)]
    exact StepIs.same h rfl
  · rw [mini_write_run h.ok k e o data hv hd]
    have h1 := size_pos k
    have hpos : 0 < data.length * k.size := Nat.mul_pos (List.length_pos_iff.mpr hd) h1
    by_cases hc : 0 ≤ o.toInt ∧ o.toInt + data.length * k.size ≤ s.b.buf.len
    · rw [if_pos hc, if_neg (show ¬ (data = [] ∨ o.toInt < 0 ∨ (s.b.buf.len : Int) ≤ o.toInt) from fun hh => by rcases hh with hh | hh; exact hd hh; omega),
        if_pos hc.2, write_eq_put h.ok (by omega), List.take_of_length_le (by omega)]
      refine StepIs.content h ?_ rfl
      rw [length_patch (by omega), hby]
    · rw [if_neg hc]
      by_cases h2 : 0 ≤ o.toInt ∧ o.toInt < s.b.buf.len
      · rw [if_pos h2, if_neg (show ¬ (data = [] ∨ o.toInt < 0 ∨ (s.b.buf.len : Int) ≤ o.toInt) from fun hh => by rcases hh with hh | hh; exact hd hh; omega),
          if_neg (by omega), write_eq_put h.ok (by rw [List.length_take]; omega)]
        refine StepIs.content h ?_ rfl
        rw [length_patch (by rw [List.length_take]; omega), hby]
      · rw [if_neg h2, if_pos (by omega)]
        exact StepIs.same h rfl

theorem mini_read_callOut {s : St} (h : s.OK) (k : Kind) (e : Endian) (o n : Int64) (prev : List k.Ty)
    (hp : prev.length * k.size ≤ maxAlloc) :
    callOut (Mini.Read k e o n) prev s =
      if 0 ≤ o.toInt ∧ o.toInt + loops n * k.size ≤ s.b.buf.len ∧ loops n ≤ prev.length then
        (.ok (dec k e (loops n) (s.bytes.drop o.toInt.toNat) ++ prev.drop (loops n)), s)
      else (.panic .index, s) := by
  have hM := maxAlloc_lt
  have h1 := size_pos k
  have n1 := toInt_lt' n
  have hpl : prev.length ≤ prev.length * k.size := Nat.le_mul_of_pos_right _ h1
  have en : Mini.Read k e o n = Mini.Read k e o (Int64.ofNat (loops n)) := by
    by_cases hn : n.toInt ≤ 0
    · rw [mini_read_nonpos _ _ _ _ hn, show loops n = 1 by unfold loops; omega]; rfl
    · congr 1
      apply Int64.toInt_inj.mp
      rw [toInt_ofNat (by unfold loops; omega)]; unfold loops; omega
  have hl1 : 1 ≤ loops n := by unfold loops; omega
  rw [en, callOut_run, mini_read_run h k e o (loops n) (by omega) (by unfold loops; omega) prev (by omega)]
  have key : loops n ≤ canRead k o prev.length s.b.buf.len ↔
      (0 ≤ o.toInt ∧ o.toInt + loops n * k.size ≤ s.b.buf.len ∧ loops n ≤ prev.length) := by
    unfold canRead
    have hX : (loops n : Int) * k.size = ((loops n * k.size : Nat) : Int) := (Int.natCast_mul ..).symm
    have hY : k.size ≤ loops n * k.size := Nat.le_mul_of_pos_left _ hl1
    rw [hX]
    split
    · omega
    · rw [Nat.le_min, Nat.le_div_iff_mul_le h1]; omega
  by_cases hc : 0 ≤ o.toInt ∧ o.toInt + loops n * k.size ≤ s.b.buf.len ∧ loops n ≤ prev.length
  · rw [if_pos (key.mpr hc), if_pos hc]; rfl
  · rw [if_neg (fun hh => hc (key.mp hh)), if_neg hc]; rfl

theorem mstep_read {s : St} (h : WF s) (k : Kind) (e : Endian) (o n : Int64) (prev : List k.Ty)
    (hp : prev.length * k.size ≤ maxAlloc) :
    StepIs s (Ref.miniRead (prev.map k.pat) k.size e o.toInt n.toInt (abs s))
      (wrapRes (.typed k) (callOut (Mini.Read k e o n) prev s)) := by
  have hb := abs_len h.ok
  have hl := length_bytes h.ok
  unfold Ref.miniRead
  rw [mini_read_callOut h.ok k e o n prev hp, hb, count_loops, List.length_map]
  by_cases hc : 0 ≤ o.toInt ∧ o.toInt + loops n * k.size ≤ s.b.buf.len ∧ loops n ≤ prev.length
  · rw [if_pos hc, if_pos hc]
    refine StepIs.same h ?_
    simp only [obsRes, Val.obs, List.map_append]
    have hX : (loops n : Int) * k.size = ((loops n * k.size : Nat) : Int) := (Int.natCast_mul ..).symm
    rw [pat_dec _ _ _ _ (by rw [List.length_drop]; omega), List.map_drop]
    simp only [slice_drop]; rfl
  · rw [if_neg hc, if_neg hc]
    exact StepIs.same h rfl

theorem mstep_writeBytes {s : St} (h : WF s) (o : Int64) (src : Slice) :
    StepIs s (Ref.miniWriteBytes o.toInt (s.mem.view src) (abs s)) (wrapRes (fun _ => .unit) (Mini.WriteBytes o src s)) := by
  have hb := abs_len h.ok
  have hby := length_bytes h.ok
  unfold Ref.miniWriteBytes
  rw [mini_writeBytes_run h.ok, hb]
  by_cases hc : 0 ≤ o.toInt ∧ o.toInt ≤ s.b.buf.len
  · rw [if_pos hc, if_pos hc, write_eq_put h.ok (by rw [List.length_take]; omega)]
    refine StepIs.content h ?_ rfl
    rw [length_patch (by rw [List.length_take]; omega), hby]
  · rw [if_neg hc, if_neg hc]
    exact StepIs.same h rfl

theorem mstep_readBytes {s : St} (h : WF s) (o n : Int64) (x : Slice) :
    StepIs s (Ref.miniReadBytes o.toInt n.toInt (abs s)) (wrapRes .slice (callOut (Mini.ReadBytes o n) x s)) := by
  have hb := abs_len h.ok
  have hsp := abs_spare h.ok
  have hle := h.ok.len_le; have hf := h.ok.fits
  unfold Ref.miniReadBytes
  rw [mini_readBytes_run h.ok, hb, hsp, ← window_split h.ok]
  by_cases hc : 0 ≤ o.toInt ∧ 0 ≤ n.toInt ∧ o.toInt + n.toInt ≤ s.b.buf.cap
  · rw [if_pos hc, if_pos (by omega)]
    refine StepIs.same h ?_
    simp only [obsRes, Val.obs]
    congr 3
    unfold slice Heap.window Heap.view
    simp only [List.drop_take, List.take_take, List.drop_drop]
    rw [Nat.min_eq_left (by omega)]
  · rw [if_neg hc, if_neg (by omega)]
    exact StepIs.same h rfl

/-! ## bits -/

theorem ne_nil_iff {l : List UInt8} : l ≠ [] ↔ l.length ≠ 0 := by simp

theorem startsAt_iff {s : St} (h : s.OK) (o : Int) : Ref.startsAt (abs s) o ↔ (-8 < o ∧ s.b.buf.len ≠ 0) := by
  unfold Ref.startsAt
  rw [ne_nil_iff, abs_len h]

theorem mstep_readBit {s : St} (h : WF s) (o : Int64) (x : UInt8) :
    StepIs s (Ref.miniReadBit o.toInt (abs s)) (wrapRes .u8 (callOut (Mini.ReadBit o) x s)) := by
  have hb := abs_len h.ok
  unfold Ref.miniReadBit
  rw [callOut_run, hb]
  simp only [startsAt_iff h.ok]
  by_cases h0 : 0 ≤ o.toInt
  · rw [mini_readBit_run h.ok h0]
    by_cases h1 : o.toInt < 8 * s.b.buf.len
    · rw [if_pos h1, if_pos (by omega)]
      refine StepIs.same h ?_
      simp only [obsRes, Val.obs, Ref.bitAt, if_pos h0]
      show (Res.ok (Ref.Val.num ((bit s.bytes o.toInt.toNat).toNat : Nat)), _) = _
      cases bit s.bytes o.toInt.toNat <;> rfl
    · rw [if_neg h1, if_neg (by omega)]
      exact StepIs.same h rfl
  · rw [mini_readBit_neg h.ok (by omega)]
    by_cases h1 : -8 < o.toInt ∧ s.b.buf.len ≠ 0
    · rw [if_pos h1, if_pos (by omega)]
      refine StepIs.same h ?_
      simp only [obsRes, Val.obs, Ref.bitAt, if_neg h0]; rfl
    · rw [if_neg h1, if_neg (by omega)]
      exact StepIs.same h rfl

theorem binary_zeros {f : Nat → Bool} {k c : Nat} (h : ∀ i, i < k → f i = false) :
    binary f (k + c) = binary (fun i => f (k + i)) c := by
  induction c with
  | zero =>
    simp only [binary, Nat.add_zero]
    induction k with
    | zero => rfl
    | succ k ih => rw [binary, ih (fun i hi => h i (by omega)), h k (by omega)]; rfl
  | succ c ih => rw [← Nat.add_assoc, binary, ih, binary]

theorem mini_readBits_full {s : St} (h : s.OK) (o n : Int64) (x : UInt64) :
    callOut (Mini.ReadBits o n) x s =
      if (-8 < o.toInt ∧ s.b.buf.len ≠ 0) ∧ o.toInt + loops n ≤ 8 * s.b.buf.len then
        (.ok (UInt64.ofNat (x.toNat * 2 ^ loops n + binary (fun i => Ref.bitAt s.bytes (o.toInt + i)) (loops n))), s)
      else (.panic .index, s) := by
  have hl1 : 1 ≤ loops n := by unfold loops; omega
  have pos : ∀ (o n : Int64) (x : UInt64), 0 ≤ o.toInt → callOut (Mini.ReadBits o n) x s =
      if o.toInt + loops n ≤ 8 * s.b.buf.len then
        (.ok (UInt64.ofNat (x.toNat * 2 ^ loops n + binary (fun i => bit s.bytes (o.toInt.toNat + i)) (loops n))), s)
      else (.panic .index, s) := by
    intro o n x h0
    by_cases h1 : o.toInt + loops n ≤ 8 * s.b.buf.len
    · rw [callOut_run, mini_readBits_run h o h0 n x h1, if_pos h1]; rfl
    · rw [if_neg h1]
      have a := mini_readBits_over h o h0 n x (by omega)
      have b := (ReadOnly.readBits o n) s x h
      rw [callOut_run]
      rcases hr : Mini.ReadBits o n (s, x) with ⟨r, s', x'⟩
      rw [hr] at a b
      simp only at a b
      subst a; subst b; rfl
  by_cases h0 : 0 ≤ o.toInt
  · rw [pos o n x h0]
    by_cases h1 : o.toInt + loops n ≤ 8 * s.b.buf.len
    · rw [if_pos h1, if_pos (by omega)]
      congr 4
      apply binary_congr
      intro i _
      unfold Ref.bitAt
      rw [if_pos (by omega)]
      congr 1; omega
    · rw [if_neg h1, if_neg (by omega)]
  · rw [callOut_run, mini_readBits_neg h (by omega)]
    by_cases h1 : -8 < o.toInt ∧ s.b.buf.len ≠ 0
    · rw [if_neg (fun hh => hh h1)]
      by_cases h2 : loops n ≤ (-o.toInt).toNat
      · rw [if_pos h2, if_pos (by omega)]
        have : binary (fun i : Nat => Ref.bitAt s.bytes (o.toInt + i)) (loops n) = 0 :=
          binary_zeros (k := loops n) (c := 0) (fun i hi => by unfold Ref.bitAt; rw [if_neg (by omega)])
        rw [this]; rfl
      · rw [if_neg h2, ← callOut_run, pos 0 _ _ (by decide)]
        have hl := loops_neg (by omega) h2
        rw [toInt_zero']
        by_cases h3 : o.toInt + loops n ≤ 8 * s.b.buf.len
        · rw [if_pos (by omega), if_pos ⟨h1, h3⟩]
          congr 2
          apply UInt64.toNat_inj.mp
          simp only [UInt64.toNat_ofNat']
          rw [hl, binary_zeros (k := (-o.toInt).toNat) (fun i hi => by unfold Ref.bitAt; rw [if_neg (by omega)]),
            Nat.add_mod, Nat.mod_mul_mod, ← Nat.add_mod, Nat.mul_assoc, ← Nat.pow_add]
          congr 2
          apply binary_congr
          intro i _
          unfold Ref.bitAt
          rw [if_pos (by omega)]
          congr 1; omega
        · rw [if_neg (by omega), if_neg (by omega)]
    · rw [if_pos h1, if_neg (by omega)]; rfl

theorem mstep_readBits {s : St} (h : WF s) (o n : Int64) (x : UInt64) :
    StepIs s (Ref.miniReadBits x.toNat o.toInt n.toInt (abs s)) (wrapRes .u64 (callOut (Mini.ReadBits o n) x s)) := by
  have hb := abs_len h.ok
  unfold Ref.miniReadBits
  rw [mini_readBits_full h.ok, hb, count_loops]
  simp only [startsAt_iff h.ok]
  by_cases h1 : (-8 < o.toInt ∧ s.b.buf.len ≠ 0) ∧ o.toInt + loops n ≤ 8 * s.b.buf.len
  · rw [if_pos h1, if_pos h1]
    refine StepIs.same h ?_
    simp only [obsRes, Val.obs, UInt64.toNat_ofNat']; rfl
  · rw [if_neg h1, if_neg h1]
    exact StepIs.same h rfl

theorem withBitsAt_nonneg (l : List UInt8) {o : Int} (h0 : 0 ≤ o) (f : Nat → Bool) (n : Nat) :
    Ref.withBitsAt l o f n = Ref.withBits l o.toNat f n := by
  unfold Ref.withBitsAt Ref.withBits
  congr 1
  funext j
  by_cases hj : o ≤ j ∧ (j : Int) < o + n
  · rw [if_pos hj, if_pos (by omega)]; congr 1; omega
  · rw [if_neg hj, if_neg (by omega)]

theorem withBitsAt_before (l : List UInt8) {o : Int} {f : Nat → Bool} {n : Nat} (h : o + n ≤ 0) : Ref.withBitsAt l o f n = l := by
  apply bit_ext
  · simp [Ref.withBitsAt]
  · intro j hj
    unfold Ref.withBitsAt at hj ⊢
    rw [length_ofBits] at hj
    rw [bit_ofBits hj, if_neg (by omega)]

/-- Changing bits, for every offset. -/
theorem mstep_bits {s : St} (h : WF s) (o : Int64) (f : Nat → Bool) (n : Nat) (h1 : 1 ≤ n) (m : GoM St Unit)
    (hpos : 0 ≤ o.toInt → m s =
      if o.toInt + n ≤ 8 * s.b.buf.len then (.ok (), s.put (putBits s.bytes o.toInt.toNat f n))
      else (.panic .index,
        if o.toInt < 8 * s.b.buf.len then s.put (putBits s.bytes o.toInt.toNat f (8 * s.b.buf.len - o.toInt.toNat)) else s))
    (hneg : o.toInt < 0 → m s =
      if ¬ (-8 < o.toInt ∧ s.b.buf.len ≠ 0) then (.panic .index, s)
      else if o.toInt + n ≤ 0 then (.ok (), s)
      else if o.toInt + n ≤ 8 * s.b.buf.len then
        (.ok (), s.put (putBits s.bytes 0 (fun i => f ((-o.toInt).toNat + i)) (o.toInt + n).toNat))
      else (.panic .index, s.put (putBits s.bytes 0 (fun i => f ((-o.toInt).toNat + i)) (8 * s.b.buf.len)))) :
    StepIs s (Ref.miniSetBits o.toInt f n (abs s)) (wrapRes (fun _ => .unit) (m s)) := by
  have hb := abs_len h.ok
  have hl := length_bytes h.ok
  unfold Ref.miniSetBits
  rw [hb]
  simp only [startsAt_iff h.ok]
  by_cases h0 : 0 ≤ o.toInt
  · rw [hpos h0]
    by_cases hc : o.toInt + n ≤ 8 * s.b.buf.len
    · rw [if_pos hc, if_pos (by omega), if_pos hc]
      refine StepIs.content h (by rw [length_putBits _ _ (by omega), hl]) ?_
      rw [withBitsAt_nonneg _ h0, withBits_putBits (show o.toInt.toNat + n ≤ 8 * (abs s).data.length by omega)]; rfl
    · rw [if_neg hc]
      by_cases h2 : o.toInt < 8 * s.b.buf.len
      · rw [if_pos h2, if_pos (by omega), if_neg hc]
        refine StepIs.content h (by rw [length_putBits _ _ (by omega), hl]) ?_
        rw [withBitsAt_nonneg _ h0, withBits_cut (by omega) (by omega), hb]; rfl
      · rw [if_neg h2]
        by_cases h3 : s.b.buf.len ≠ 0
        · rw [if_pos (by omega), if_neg hc, withBitsAt_nonneg _ h0, withBits_none (by omega)]
          exact StepIs.same h rfl
        · rw [if_neg (show ¬ (-8 < o.toInt ∧ s.b.buf.len ≠ 0) from fun hh => h3 hh.2), if_neg hc]
          exact StepIs.same h rfl
  · rw [hneg (by omega)]
    by_cases h2 : -8 < o.toInt ∧ s.b.buf.len ≠ 0
    · rw [if_neg (show ¬ ¬ (-8 < o.toInt ∧ s.b.buf.len ≠ 0) from fun hh => hh h2), if_pos h2]
      by_cases h3 : o.toInt + n ≤ 0
      · rw [if_pos h3, if_pos (by omega), withBitsAt_before _ h3]
        exact StepIs.same h rfl
      · rw [if_neg h3]
        have eq : Ref.withBitsAt s.bytes o.toInt f n = Ref.withBits s.bytes 0 (fun i => f ((-o.toInt).toNat + i)) (o.toInt + n).toNat := by
          unfold Ref.withBitsAt Ref.withBits
          congr 1
          funext j
          by_cases hj : o.toInt ≤ j ∧ (j : Int) < o.toInt + n
          · rw [if_pos hj, if_pos (by omega)]; congr 1; omega
          · rw [if_neg hj, if_neg (by omega)]
        by_cases h4 : o.toInt + n ≤ 8 * s.b.buf.len
        · rw [if_pos h4, if_pos h4]
          refine StepIs.content h (by rw [length_putBits _ _ (by omega), hl]) ?_
          rw [show (abs s).data = s.bytes from rfl, eq, withBits_putBits (by omega)]; rfl
        · rw [if_neg h4, if_neg h4]
          refine StepIs.content h (by rw [length_putBits _ _ (by omega), hl]) ?_
          rw [show (abs s).data = s.bytes from rfl, eq, withBits_cut (by omega) (by omega), hl]; rfl
    · rw [if_pos h2, if_neg h2]
      exact StepIs.same h rfl

theorem putBits_one (l : List UInt8) (o : Nat) (f : Nat → Bool) : putBits l o f 1 = putBit l o (f 0) := rfl

theorem mstep_bit {s : St} (h : WF s) (o : Int64) (b : Bool) (m : GoM St Unit)
    (hpos : 0 ≤ o.toInt → m s =
      if o.toInt < 8 * s.b.buf.len then (.ok (), s.put (putBit s.bytes o.toInt.toNat b)) else (.panic .index, s))
    (hneg : o.toInt < 0 → m s = if -8 < o.toInt ∧ s.b.buf.len ≠ 0 then (.ok (), s) else (.panic .index, s)) :
    StepIs s (Ref.miniSetBits o.toInt (fun _ => b) 1 (abs s)) (wrapRes (fun _ => .unit) (m s)) := by
  refine mstep_bits h o (fun _ => b) 1 (by omega) m (fun h0 => ?_) (fun h0 => ?_)
  · rw [hpos h0]
    by_cases hc : o.toInt < 8 * s.b.buf.len
    · rw [if_pos hc, if_pos (by omega)]; rfl
    · rw [if_neg hc, if_neg (by omega), if_neg hc]
  · rw [hneg h0]
    by_cases hc : -8 < o.toInt ∧ s.b.buf.len ≠ 0
    · rw [if_pos hc, if_neg (fun hh => hh hc), if_pos (by omega)]
    · rw [if_neg hc, if_pos hc]

theorem mstep_setBits {s : St} (h : WF s) (o : Int64) (d : UInt64) (n : Int64) :
    StepIs s (Ref.miniSetBits o.toInt (Ref.digit d.toNat n.toInt) (Ref.count n.toInt) (abs s))
      (wrapRes (fun _ => .unit) (Mini.SetBits o d n s)) := by
  have hl1 : 1 ≤ loops n := by unfold loops; omega
  rw [count_loops, digit_eq]
  refine mstep_bits h o (fieldBit d n) (loops n) hl1 _ (fun h0 => mini_setBits_run h.ok o h0 d n) (fun h0 => ?_)
  rw [mini_setBits_neg h.ok h0]
  by_cases hc : -8 < o.toInt ∧ s.b.buf.len ≠ 0
  · have hnn : ¬ ¬ (-8 < o.toInt ∧ s.b.buf.len ≠ 0) := fun hh => hh hc
    rw [if_neg hnn, if_neg hnn]
    by_cases h2 : loops n ≤ (-o.toInt).toNat
    · rw [if_pos h2, if_pos (by omega)]
    · have hl := loops_neg h0 h2
      have e : ∀ i, fieldBit d (n + o) i = fieldBit d n ((-o.toInt).toNat + i) := by
        intro i
        have n1 := toInt_lt' n; have n2 := le_toInt' n
        have : (n + o).toInt = n.toInt + o.toInt := by rw [toInt_add]; unfold loops at h2; omega
        unfold fieldBit
        rw [this]
        have hn : (-o.toInt).toNat < n.toInt.toNat := by unfold loops at h2; omega
        rw [decide_eq_true (by omega), decide_eq_true (by omega)]
        congr 2; omega
      rw [if_neg h2, if_neg (by omega), mini_setBits_run h.ok 0 (by decide), toInt_zero',
        show (fieldBit d (n + o)) = fun i => fieldBit d n ((-o.toInt).toNat + i) from funext e,
        show (0 : Int).toNat = 0 from rfl, show (o.toInt + loops n).toNat = loops (n + o) by omega]
      by_cases h3 : o.toInt + loops n ≤ 8 * s.b.buf.len
      · rw [if_pos (by omega), if_pos h3]
      · rw [if_neg (by omega), if_neg h3, if_pos (by omega)]; rfl
  · rw [if_pos hc, if_pos hc]

/-! ## resizing -/

theorem refit_len {s : St} (h : WF s) {m : Nat} (hm : m ≤ s.b.buf.cap) (q : Res Ref.Val × Ref.Ref)
    (hq : q = (.ok .unit, Ref.resize (abs s) m)) :
    StepIs s q (.ok .unit, s.refit s.mem (s.b.buf.withLen m)) := by
  subst hq
  have hb := abs_len h.ok
  refine ⟨WF.refit (h.ok.withLen hm), Iso.of_mem rfl ⟨rfl, Nat.le_refl _, rfl⟩, rfl, ?_⟩
  unfold Ref.resize
  rw [← window_split h.ok]
  simp only [abs, refit_bytes, refit_mem, refit_buf, refit_off, refit_boff]
  rw [view_withLen_window _ _ hm]
  rfl

theorem mstep_truncateLeft {s : St} (h : WF s) (n : Int64) :
    StepIs s (Ref.miniStep a b (.truncateLeft n.toInt) (abs s)) (wrapRes (fun _ => .unit) (Mini.TruncateLeft n s)) := by
  have hb := abs_len h.ok
  simp only [Ref.miniStep]
  rw [mini_truncateLeft_run h, hb]
  by_cases hc : 0 ≤ n.toInt ∧ n.toInt ≤ s.b.buf.len
  · rw [if_pos hc, if_pos hc]
    have := (step_truncateLeft h n).is
    simp only [exec, wrapVal_run] at this
    rw [buffer_truncateLeft_run h, if_pos hc] at this
    simp only [Op.lower, Ref.step] at this
    rw [if_neg (by omega), if_neg (by omega)] at this
    exact this
  · rw [if_neg hc, if_neg hc]
    exact StepIs.same h rfl

theorem mstep_truncateRight {s : St} (h : WF s) (n : Int64) :
    StepIs s (Ref.miniStep a b (.truncateRight n.toInt) (abs s)) (wrapRes (fun _ => .unit) (Mini.TruncateRight n s)) := by
  have hb := abs_len h.ok
  have hsp := abs_spare h.ok
  have hle := h.ok.len_le
  simp only [Ref.miniStep, Ref.miniResize]
  rw [mini_truncateRight_run h, hb, hsp]
  by_cases hc : 0 ≤ s.b.buf.len - n.toInt ∧ s.b.buf.len - n.toInt ≤ s.b.buf.cap
  · rw [if_pos hc, if_pos (by omega)]
    exact refit_len h (by omega) _ rfl
  · rw [if_neg hc, if_neg (by omega)]
    exact StepIs.same h rfl

theorem mstep_grow {s : St} (h : WF s) (n : Int64) :
    StepIs s (Ref.miniStep a b (.grow n.toInt) (abs s)) (wrapRes (fun _ => .unit) (Mini.Grow n s)) := by
  have hb := abs_len h.ok
  have hsp := abs_spare h.ok
  have hle := h.ok.len_le
  by_cases h0 : 0 ≤ n.toInt ∧ (s.b.buf.cap : Int) < s.b.buf.len + n.toInt
  · have := (step_grow h n).is
    simp only [exec, wrapVal_run, buffer_grow_mini, panicIf_bind, Int64.lt_iff_toInt_lt, toInt_zero'] at this
    rw [if_neg (by omega)] at this
    simp only [Op.lower, Ref.step] at this
    rw [if_neg (by omega), if_neg (by omega)] at this
    simp only [Ref.miniStep]
    rw [if_neg (by omega)]
    exact this
  · simp only [Ref.miniStep, Ref.miniResize]
    rw [mini_grow_run h, hb, hsp, if_pos (by omega)]
    by_cases h1 : s.b.buf.len + n.toInt < 0
    · rw [if_pos h1, if_neg (by omega)]
      exact StepIs.same h rfl
    · rw [if_neg h1, if_pos (by omega), if_pos (by omega)]
      exact refit_len h (by omega) _ rfl

/-! ## all calls -/

/-- What the result variables hold, for the reference machine. -/
def Outs.nums (o : Outs) : Op → List Nat
  | .read k _ _ _ => (o.typed k).map k.pat
  | _ => []

/-- The result slices are ones Go can make. -/
def Outs.Valid (o : Outs) : Prop := ∀ k, (o.typed k).length * k.size ≤ maxAlloc

theorem mini_step_ok {s : St} (h : WF s) (o : Outs) (ho : o.Valid) (op : Op) (hv : op.Valid s.mem) (m : GoM St Val)
    (hm : miniCall o op = some m) :
    StepIs s (Ref.miniStep o.u64.toNat (o.nums op) (op.lower s.mem) (abs s)) (m s) := by
  match op, hv with
  | .write k e (some p) data, hv => cases hm; rw [wrapVal_run]; exact mstep_write h k e p data hv
  | .write k e none data, hv =>
    cases hm
    rw [wrapVal_run, mini_writeNext_run, wrap_advance]
    refine StepIs.next _ _ ?_ (mstep_write h k e s.b.off data hv)
    rw [len_mul data k.size hv (size_pos k)]; simp only [List.length_map]
  | .read k e (some p) n, _ => cases hm; rw [wrapVal_run]; exact mstep_read h k e p n _ (ho k)
  | .read k e none n, _ =>
    cases hm
    rw [wrapVal_run, mini_readNext_run, wrap_advance]
    refine StepIs.next _ _ ?_ (mstep_read h k e s.b.off n _ (ho k))
    have h8 := size_le k
    rw [Int64.toInt_mul, toInt_ofNat (show k.size < 2 ^ 63 by omega), Int.bmod_bmod]
  | .writeBytes (some p) src, _ => cases hm; rw [wrapVal_run]; exact mstep_writeBytes h p src
  | .writeBytes none src, hv =>
    cases hm
    rw [wrapVal_run, mini_writeBytesNext_run, wrap_advance]
    refine StepIs.next _ _ ?_ (mstep_writeBytes h s.b.off src)
    have := hv.len_le_max; have := maxAlloc_lt
    rw [toInt_ofNat (by omega), length_view hv]
  | .writeByte _ _, _ => cases hm
  | .readBytes (some p) n, _ => cases hm; rw [wrapVal_run]; exact mstep_readBytes h p n _
  | .readBytes none n, _ =>
    cases hm
    rw [wrapVal_run, mini_readBytesNext_run, wrap_advance]
    exact StepIs.next _ _ rfl (mstep_readBytes h s.b.off n _)
  | .readByte _, _ => cases hm
  | .readBit (some p), _ => cases hm; rw [wrapVal_run]; exact mstep_readBit h p _
  | .readBit none, _ =>
    cases hm
    rw [wrapVal_run, mini_readBitNext_run, wrap_advanceBit]
    exact StepIs.nextBit 1 (mstep_readBit h s.b.boff _)
  | .readBits (some p) n, _ => cases hm; rw [wrapVal_run]; exact mstep_readBits h p n _
  | .readBits none n, _ =>
    cases hm
    rw [wrapVal_run, mini_readBitsNext_run, wrap_advanceBit]
    exact StepIs.nextBit n (mstep_readBits h s.b.boff n _)
  | .setBit (some p), _ =>
    cases hm; rw [wrapVal_run]
    exact mstep_bit h p true _ (fun h0 => mini_setBit_run h.ok h0) (fun h0 => mini_setBit_neg h.ok h0)
  | .setBit none, _ =>
    cases hm
    rw [wrapVal_run, mini_setBitNext_run, wrap_advanceBit]
    exact StepIs.nextBit 1 (mstep_bit h s.b.boff true _ (fun h0 => mini_setBit_run h.ok h0) (fun h0 => mini_setBit_neg h.ok h0))
  | .clearBit (some p), _ =>
    cases hm; rw [wrapVal_run]
    exact mstep_bit h p false _ (fun h0 => mini_clearBit_run h.ok h0) (fun h0 => mini_clearBit_neg h.ok h0)
  | .clearBit none, _ =>
    cases hm
    rw [wrapVal_run, mini_clearBitNext_run, wrap_advanceBit]
    exact StepIs.nextBit 1 (mstep_bit h s.b.boff false _ (fun h0 => mini_clearBit_run h.ok h0) (fun h0 => mini_clearBit_neg h.ok h0))
  | .flipBit (some p), _ =>
    cases hm; rw [wrapVal_run]
    exact mstep_bit h p (!Ref.bitAt s.bytes p.toInt) _
      (fun h0 => by rw [mini_flipBit_run h.ok h0, Ref.bitAt, if_pos h0]) (fun h0 => mini_flipBit_neg h.ok h0)
  | .flipBit none, _ =>
    cases hm
    rw [wrapVal_run, mini_flipBitNext_run, wrap_advanceBit]
    exact StepIs.nextBit 1 (mstep_bit h s.b.boff (!Ref.bitAt s.bytes s.b.boff.toInt) _
      (fun h0 => by rw [mini_flipBit_run h.ok h0, Ref.bitAt, if_pos h0]) (fun h0 => mini_flipBit_neg h.ok h0))
  | .setBits (some p) d n, _ => cases hm; rw [wrapVal_run]; exact mstep_setBits h p d n
  | .setBits none d n, _ =>
    cases hm
    rw [wrapVal_run, mini_setBitsNext_run, wrap_advanceBit]
    exact StepIs.nextBit n (mstep_setBits h s.b.boff d n)
  | .clearAll, _ => cases hm; exact (step_ok h .clearAll trivial).is
  | .setAll, _ => cases hm; exact (step_ok h .setAll trivial).is
  | .flipAll, _ => cases hm; exact (step_ok h .flipAll trivial).is
  | .seekByte p r, _ => cases hm; exact (step_ok h (.seekByte p r) trivial).is
  | .seekBit p r, _ => cases hm; exact (step_ok h (.seekBit p r) trivial).is
  | .afterByte p, _ => cases hm; cases p <;> exact (step_ok h (.afterByte _) trivial).is
  | .afterBit p, _ => cases hm; cases p <;> exact (step_ok h (.afterBit _) trivial).is
  | .alignByte, _ => cases hm; exact (step_ok h .alignByte trivial).is
  | .alignBit, _ => cases hm; exact (step_ok h .alignBit trivial).is
  | .truncateLeft n, _ => cases hm; rw [wrapVal_run]; exact mstep_truncateLeft h n
  | .truncateRight n, _ => cases hm; rw [wrapVal_run]; exact mstep_truncateRight h n
  | .grow n, _ => cases hm; rw [wrapVal_run]; exact mstep_grow h n
  | .refresh, _ => cases hm; exact (step_ok h .refresh trivial).is
  | .reset, _ => cases hm; exact (step_ok h .reset trivial).is
  | .bytes, _ => cases hm; exact (step_ok h .bytes trivial).is
  | .byteCapacity, _ => cases hm; exact (step_ok h .byteCapacity trivial).is
  | .bitCapacity, _ => cases hm; exact (step_ok h .bitCapacity trivial).is
  | .byteOffset, _ => cases hm; exact (step_ok h .byteOffset trivial).is
  | .bitOffset, _ => cases hm; exact (step_ok h .bitOffset trivial).is

end Crunch.V3
