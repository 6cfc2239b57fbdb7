import Verif.Lemmas.BitLoops

/-! Seek, align, truncate, grow, reset, refresh and the constructors: what they do, for every argument. -/

namespace Crunch.V3
open Spec

/-! ## memory that only grows -/

/-- Every array of `h` is still there, unchanged, in `k`. -/
structure Extends (h k : Heap) : Prop where
  length : h.arrays.length ≤ k.arrays.length
  array : ∀ a, a < h.arrays.length → k.array a = h.array a

theorem Extends.refl (h : Heap) : Extends h h := ⟨Nat.le_refl _, fun _ _ => rfl⟩
theorem Extends.trans {h k l : Heap} (a : Extends h k) (b : Extends k l) : Extends h l :=
  ⟨Nat.le_trans a.length b.length, fun i hi => by rw [b.array i (Nat.lt_of_lt_of_le hi a.length), a.array i hi]⟩
theorem Extends.alloc (h : Heap) (bs : List UInt8) : Extends h (h.alloc bs) :=
  ⟨by simp [Heap.alloc], fun _ ha => array_alloc_lt ha⟩
theorem Extends.view {h k : Heap} (e : Extends h k) {t : Slice} (ht : t.arr < h.arrays.length) :
    k.view t = h.view t := by
  unfold Heap.view; rw [e.array _ ht]

/-- Writing to an array that did not exist in `h`. -/
theorem Extends.blit {h k : Heap} (e : Extends h k) {a : Nat} (ha : h.arrays.length ≤ a) (p : Nat) (bs : List UInt8) :
    Extends h (k.blit a p bs) := by
  refine ⟨by rw [blit_length]; exact e.length, fun i hi => ?_⟩
  unfold Heap.blit
  rw [array_modify _ _ _ _ (by simp [putAt]), if_neg (by omega), e.array i hi]

@[simp] theorem alloc_length (h : Heap) (bs : List UInt8) : (h.alloc bs).arrays.length = h.arrays.length + 1 := by
  simp [Heap.alloc]
@[simp] theorem alloc_slack (h : Heap) (bs : List UInt8) : (h.alloc bs).slack = h.slack := rfl

theorem array_alloc_gt {h : Heap} {bs : List UInt8} {a : Nat} (ha : h.arrays.length < a) : (h.alloc bs).array a = [] :=
  array_nil_of_ge (by rw [alloc_length]; omega)

theorem _root_.Crunch.SliceOK.alloc {h : Heap} {s : Slice} (w : SliceOK h s) {bs : List UInt8} (hb : bs.length ≤ maxAlloc) :
    SliceOK (h.alloc bs) s := by
  have h1 := w.fits; have h2 := w.small
  by_cases hs : s.arr < h.arrays.length
  · exact ⟨w.len_le, by rw [array_alloc_lt hs]; exact h1, by rw [array_alloc_lt hs]; exact h2⟩
  · rw [array_nil_of_ge (by omega)] at h1
    simp at h1
    by_cases he : s.arr = h.arrays.length
    · refine ⟨w.len_le, ?_, ?_⟩ <;> rw [he, array_alloc_self] <;> omega
    · refine ⟨w.len_le, ?_, ?_⟩ <;> rw [array_alloc_gt (by omega)] <;> simp <;> omega

/-! ## Refresh -/

/-- The state with another slice (and memory), and the cached capacities that go with it. -/
def St.refit (s : St) (m : Heap) (t : Slice) : St :=
  { mem := m, b := { s.b with buf := t, cap := Int64.ofNat t.len, bcap := Int64.ofNat (8 * t.len) } }

theorem cap8 (n : Nat) : Int64.ofNat n * 8 = Int64.ofNat (8 * n) := by
  rw [Nat.mul_comm, ofNat_mul]; rfl

theorem buffer_refresh_run (s : St) : Buffer.Refresh s = (.ok (), s.refit s.mem s.b.buf) := by
  unfold Buffer.Refresh
  simp only [modB_bind, modB_run, cap8, St.refit]

theorem refit_self {s : St} (h : WF s) : s.refit s.mem s.b.buf = s := by
  unfold St.refit
  rw [← h.cap, ← h.bcap]

theorem WF.refit {s : St} {m : Heap} {t : Slice} (h : SliceOK m t) : WF (s.refit m t) := ⟨h, rfl, rfl⟩

@[simp] theorem refit_bytes (s : St) (m : Heap) (t : Slice) : (s.refit m t).bytes = m.view t := rfl
@[simp] theorem refit_mem (s : St) (m : Heap) (t : Slice) : (s.refit m t).mem = m := rfl
@[simp] theorem refit_buf (s : St) (m : Heap) (t : Slice) : (s.refit m t).b.buf = t := rfl
@[simp] theorem refit_off (s : St) (m : Heap) (t : Slice) : (s.refit m t).b.off = s.b.off := rfl
@[simp] theorem refit_boff (s : St) (m : Heap) (t : Slice) : (s.refit m t).b.boff = s.b.boff := rfl

/-- Assign the slice, then `Refresh`. -/
theorem setBuf_refresh (s : St) (m : Heap) (t : Slice) (h : s.mem = m) :
    (modB (fun b => { b with buf := t }) >>= fun _ => Buffer.Refresh) s = (.ok (), s.refit m t) := by
  rw [modB_bind, buffer_refresh_run, ← h]; rfl

/-! ## truncation -/

/-- The part of a slice from `n` on. -/
def _root_.Crunch.Slice.skip (t : Slice) (n : Nat) : Slice :=
  { arr := t.arr, off := t.off + n, len := t.len - n, cap := t.cap - n }

/-- The slice with another length. -/
def _root_.Crunch.Slice.withLen (t : Slice) (n : Nat) : Slice := { t with len := n }

theorem _root_.Crunch.SliceOK.skip {h : Heap} {t : Slice} (w : SliceOK h t) {n : Nat} (hn : n ≤ t.len) : SliceOK h (t.skip n) := by
  have h1 := w.len_le; have h2 := w.fits
  exact ⟨by simp only [Slice.skip]; omega, by simp only [Slice.skip]; omega, w.small⟩

theorem _root_.Crunch.SliceOK.withLen {h : Heap} {t : Slice} (w : SliceOK h t) {n : Nat} (hn : n ≤ t.cap) :
    SliceOK h (t.withLen n) := ⟨hn, w.fits, w.small⟩

theorem view_skip (h : Heap) (t : Slice) (n : Nat) : h.view (t.skip n) = (h.view t).drop n := by
  simp only [Heap.view, Slice.skip]
  rw [List.drop_take, List.drop_drop]

theorem view_withLen (h : Heap) (t : Slice) {n : Nat} (hn : n ≤ t.len) : h.view (t.withLen n) = (h.view t).take n := by
  simp only [Heap.view, Slice.withLen]
  rw [List.take_take, Nat.min_eq_left hn]

theorem view_withLen_window (h : Heap) (t : Slice) {n : Nat} (hn : n ≤ t.cap) :
    h.view (t.withLen n) = (h.window t).take n := by
  simp only [Heap.view, Heap.window, Slice.withLen]
  rw [List.take_take, Nat.min_eq_left hn]

theorem mini_refresh_run (s : St) : Mini.Refresh s = (.ok (), s.refit s.mem s.b.buf) := buffer_refresh_run s

theorem mini_truncateLeft_run {s : St} (h : WF s) (n : Int64) :
    Mini.TruncateLeft n s =
      if 0 ≤ n.toInt ∧ n.toInt ≤ s.b.buf.len then (.ok (), s.refit s.mem (s.b.buf.skip n.toInt.toNat))
      else (.panic .sliceBounds, s) := by
  have hc := h.ok.len_le
  unfold Mini.TruncateLeft
  rw [getB_bind]
  by_cases h1 : 0 ≤ n.toInt ∧ n.toInt ≤ s.b.buf.len
  · rw [if_pos h1]
    rw [bind_ok (s' := s) (a := s.b.buf.skip n.toInt.toNat)]
    · exact setBuf_refresh s s.mem _ rfl
    · apply onMem_eq
      simp only [reslice, h.cap_toInt]
      rw [if_pos (by omega)]; rfl
  · rw [if_neg h1]
    apply bind_panic
    apply onMem_eq
    simp only [reslice, h.cap_toInt]
    rw [if_neg (by omega)]

theorem reslice_zero {s : St} (n : Int64) (m : Nat) (hn : n.toInt = m) (hm : m ≤ s.b.buf.cap) :
    onMem (reslice s.b.buf 0 n) s = (.ok (s.b.buf.withLen m), s) := by
  apply onMem_eq
  simp only [reslice, hn, toInt_zero']
  rw [if_pos (by omega)]
  simp [Slice.withLen]

theorem mini_truncateRight_run {s : St} (h : WF s) (n : Int64) :
    Mini.TruncateRight n s =
      if 0 ≤ s.b.buf.len - n.toInt ∧ s.b.buf.len - n.toInt ≤ s.b.buf.cap then
        (.ok (), s.refit s.mem (s.b.buf.withLen (s.b.buf.len - n.toInt).toNat))
      else (.panic .sliceBounds, s) := by
  have hc := h.ok.len_le
  have hL := h.len_lt
  have hM := maxAlloc_lt
  have hcm := h.ok.cap_le
  have n1 := toInt_lt' n; have n2 := le_toInt' n
  unfold Mini.TruncateRight
  rw [getB_bind]
  have e : (s.b.cap - n).toInt = wrap (s.b.buf.len - n.toInt) := by
    rw [toInt_sub, h.cap_toInt]; rfl
  by_cases h1 : 0 ≤ s.b.buf.len - n.toInt ∧ s.b.buf.len - n.toInt ≤ s.b.buf.cap
  · rw [if_pos h1, bind_ok (reslice_zero _ (s.b.buf.len - n.toInt).toNat
      (by rw [e, wrap_id (by omega) (by omega)]; omega) (by omega))]
    exact setBuf_refresh s s.mem _ rfl
  · rw [if_neg h1]
    apply bind_panic
    apply onMem_eq
    simp only [reslice, e, toInt_zero']
    rw [if_neg (by unfold wrap; omega)]

theorem buffer_truncateLeft_mini (n : Int64) : Buffer.TruncateLeft n =
    (panicIf (n < 0) (.err BufferInvalidByteCountError) >>= fun _ => Mini.TruncateLeft n) := rfl
theorem buffer_truncateRight_mini (n : Int64) : Buffer.TruncateRight n =
    (panicIf (n < 0) (.err BufferInvalidByteCountError) >>= fun _ => Mini.TruncateRight n) := rfl
theorem buffer_grow_mini (n : Int64) : Buffer.Grow n =
    (panicIf (n < 0) (.err BufferInvalidByteCountError) >>= fun _ => Mini.Grow n) := rfl

theorem buffer_truncateLeft_run {s : St} (h : WF s) (n : Int64) :
    Buffer.TruncateLeft n s =
      if 0 ≤ n.toInt ∧ n.toInt ≤ s.b.buf.len then (.ok (), s.refit s.mem (s.b.buf.skip n.toInt.toNat))
      else (.panic (if n.toInt < 0 then .err BufferInvalidByteCountError else .sliceBounds), s) := by
  rw [buffer_truncateLeft_mini, panicIf_bind]
  simp only [Int64.lt_iff_toInt_lt, toInt_zero']
  by_cases h0 : n.toInt < 0
  · rw [if_pos h0, if_neg (by omega), if_pos h0]
  · rw [if_neg h0, if_neg h0, mini_truncateLeft_run h]

theorem buffer_truncateRight_run {s : St} (h : WF s) (n : Int64) :
    Buffer.TruncateRight n s =
      if 0 ≤ n.toInt ∧ n.toInt ≤ s.b.buf.len then
        (.ok (), s.refit s.mem (s.b.buf.withLen (s.b.buf.len - n.toInt.toNat)))
      else (.panic (if n.toInt < 0 then .err BufferInvalidByteCountError else .sliceBounds), s) := by
  have hc := h.ok.len_le
  rw [buffer_truncateRight_mini, panicIf_bind]
  simp only [Int64.lt_iff_toInt_lt, toInt_zero']
  by_cases h0 : n.toInt < 0
  · rw [if_pos h0, if_neg (by omega), if_pos h0]
  · rw [if_neg h0, if_neg h0, mini_truncateRight_run h,
      show (s.b.buf.len - n.toInt).toNat = s.b.buf.len - n.toInt.toNat by omega]
    by_cases h1 : n.toInt ≤ s.b.buf.len
    · rw [if_pos (by omega), if_pos (by omega)]
    · rw [if_neg (by omega), if_neg (by omega)]

/-! ## growth -/

/-- The memory after moving the contents of `t` to a fresh array of `c` bytes. -/
def moved (m : Heap) (t : Slice) (c : Nat) : Heap := m.alloc (m.view t ++ List.replicate (c - t.len) 0)

/-- The slice of `n` bytes at the start of the array that `moved` allocates. -/
def fresh (m : Heap) (n c : Nat) : Slice := { arr := m.arrays.length, off := 0, len := n, cap := c }

theorem modify_last (l : List α) (x : α) (f : α → α) : (l ++ [x]).modify l.length f = l ++ [f x] := by
  induction l with
  | nil => rfl
  | cons y l ih => simp [ih]

theorem alloc_copy {m : Heap} {t : Slice} (w : SliceOK m t) {n c : Nat} (h1 : t.len ≤ n) (h2 : n ≤ c) :
    copyBytes (fresh m n c) t (m.alloc (List.replicate c 0)) = (.ok (), moved m t c) := by
  have hv := length_view w
  simp only [copyBytes, fresh, view_alloc w, List.take_of_length_le (show (m.view t).length ≤ n by omega)]
  congr 1
  unfold moved Heap.blit
  refine Heap.ext' ?_ rfl
  show ((m.arrays ++ [List.replicate c 0]).modify m.arrays.length _) = _
  simp only [Heap.alloc]
  rw [modify_last, putAt_eq (by simp; omega)]
  simp [patch, hv]

theorem mini_grow_run {s : St} (h : WF s) (n : Int64) :
    Mini.Grow n s =
      if s.b.buf.len + n.toInt < 0 then (.panic .sliceBounds, s)
      else if s.b.buf.len + n.toInt ≤ s.b.buf.cap then
        (.ok (), s.refit s.mem (s.b.buf.withLen (s.b.buf.len + n.toInt).toNat))
      else if (s.b.buf.cap + n.toInt) * 2 ≤ maxAlloc then
        (.ok (), s.refit (moved s.mem s.b.buf ((s.b.buf.cap + n.toInt.toNat) * 2))
          (fresh s.mem (s.b.buf.len + n.toInt.toNat) ((s.b.buf.cap + n.toInt.toNat) * 2)))
      else (.panic .makeSlice, s) := by
  have hc := h.ok.len_le
  have hcm := h.ok.cap_le
  have hM := maxAlloc_lt
  have hL := h.len_lt
  have n1 := toInt_lt' n; have n2 := le_toInt' n
  unfold Mini.Grow
  rw [getB_bind]
  have e : (Int64.ofNat s.b.buf.cap).toInt = s.b.buf.cap := toInt_ofNat (by omega)
  have e1 : (Int64.ofNat s.b.buf.cap - s.b.cap).toInt = s.b.buf.cap - s.b.buf.len := by
    rw [toInt_sub, h.cap_toInt, e]; omega
  have e2 : (s.b.cap + n).toInt = wrap (s.b.buf.len + n.toInt) := by
    rw [toInt_add, h.cap_toInt]; rfl
  have e3 : ((Int64.ofNat s.b.buf.cap + n) * 2).toInt = wrap ((s.b.buf.cap + n.toInt) * 2) := by
    rw [toInt_mul, toInt_add, e]
    have : (2 : Int64).toInt = 2 := rfl
    rw [this]; unfold wrap; omega
  by_cases h1 : s.b.buf.len + n.toInt ≤ s.b.buf.cap
  · rw [if_pos (by rw [Int64.le_iff_toInt_le, e1]; omega)]
    by_cases h0 : s.b.buf.len + n.toInt < 0
    · rw [if_pos h0]
      apply bind_panic
      apply onMem_eq
      simp only [reslice, e2, toInt_zero']
      rw [if_neg (by unfold wrap; omega)]
    · rw [if_neg h0, if_pos h1, bind_ok (reslice_zero _ (s.b.buf.len + n.toInt).toNat
        (by rw [e2, wrap_id (by omega) (by omega)]; omega) (by omega))]
      exact setBuf_refresh s s.mem _ rfl
  · rw [if_neg (by rw [Int64.le_iff_toInt_le, e1]; omega), if_neg (by omega), if_neg h1]
    by_cases h2 : (s.b.buf.cap + n.toInt) * 2 ≤ maxAlloc
    · rw [if_pos h2]
      rw [bind_ok (s' := { s with mem := s.mem.alloc (List.replicate ((s.b.buf.cap + n.toInt.toNat) * 2) 0) })
        (a := fresh s.mem (s.b.buf.len + n.toInt.toNat) ((s.b.buf.cap + n.toInt.toNat) * 2))]
      · have hcp := alloc_copy (m := s.mem) (t := s.b.buf) h.ok (n := s.b.buf.len + n.toInt.toNat)
          (c := (s.b.buf.cap + n.toInt.toNat) * 2) (by omega) (by omega)
        rw [bind_ok (s' := { s with mem := moved s.mem s.b.buf ((s.b.buf.cap + n.toInt.toNat) * 2) }) (a := ())]
        · exact setBuf_refresh { s with mem := _ } _ _ rfl
        · simp only [onMem, hcp]
      · simp only [onMem, makeBytes, e2, e3, wrap_id (x := s.b.buf.len + n.toInt) (by omega) (by omega),
          wrap_id (x := (s.b.buf.cap + n.toInt) * 2) (by omega) (by omega)]
        rw [if_neg (by omega), show (↑s.b.buf.len + n.toInt).toNat = s.b.buf.len + n.toInt.toNat by omega,
          show ((↑s.b.buf.cap + n.toInt) * 2).toNat = (s.b.buf.cap + n.toInt.toNat) * 2 by omega]
        rfl
    · rw [if_neg h2]
      apply bind_panic
      apply onMem_eq
      simp only [makeBytes, e2, e3]
      rw [if_pos]
      by_cases h3 : s.b.buf.len + n.toInt < 2 ^ 63
      · rw [wrap_id (by omega) h3]
        by_cases h4 : s.b.buf.len + n.toInt > maxAlloc
        · omega
        · rw [wrap_id (x := (s.b.buf.cap + n.toInt) * 2) (by omega) (by omega)]; omega
      · left; unfold wrap; omega

theorem buffer_grow_run {s : St} (h : WF s) (n : Int64) :
    Buffer.Grow n s =
      if n.toInt < 0 then (.panic (.err BufferInvalidByteCountError), s)
      else if s.b.buf.len + n.toInt ≤ s.b.buf.cap then
        (.ok (), s.refit s.mem (s.b.buf.withLen (s.b.buf.len + n.toInt.toNat)))
      else if (s.b.buf.cap + n.toInt) * 2 ≤ maxAlloc then
        (.ok (), s.refit (moved s.mem s.b.buf ((s.b.buf.cap + n.toInt.toNat) * 2))
          (fresh s.mem (s.b.buf.len + n.toInt.toNat) ((s.b.buf.cap + n.toInt.toNat) * 2)))
      else (.panic .makeSlice, s) := by
  rw [buffer_grow_mini, panicIf_bind]
  simp only [Int64.lt_iff_toInt_lt, toInt_zero']
  by_cases h0 : n.toInt < 0
  · rw [if_pos h0, if_pos h0]
  · rw [if_neg h0, if_neg h0, mini_grow_run h, if_neg (by omega),
      show (s.b.buf.len + n.toInt).toNat = s.b.buf.len + n.toInt.toNat by omega]

theorem moved_view {m : Heap} {t : Slice} (w : SliceOK m t) {n c : Nat} (h1 : t.len ≤ n) (h2 : n ≤ c) :
    (moved m t c).view (fresh m n c) = m.view t ++ List.replicate (n - t.len) 0 := by
  have hv := length_view w
  unfold moved fresh Heap.view
  simp only [array_alloc_self, List.drop_zero]
  rw [List.take_append, List.take_of_length_le (by simp only [Heap.view] at hv; omega)]
  congr 1
  simp only [Heap.view] at hv
  rw [List.take_replicate, hv]
  congr 1; omega

theorem moved_ok {m : Heap} {t : Slice} (w : SliceOK m t) {n c : Nat} (h1 : t.len ≤ n) (h2 : n ≤ c)
    (h3 : c ≤ maxAlloc) : SliceOK (moved m t c) (fresh m n c) := by
  have hv := length_view w
  have : ((moved m t c).array m.arrays.length).length = c := by
    unfold moved; rw [array_alloc_self]; simp [hv]; omega
  exact ⟨h2, by simp only [fresh, this]; omega, by simp only [fresh, this]; omega⟩

/-! ## Reset, seeking -/

theorem buffer_reset_run {s : St} :
    Buffer.Reset s = (.ok (), ⟨s.mem, ⟨s.b.buf.withLen 0, 0, 0, 0, 0⟩⟩) := by
  unfold Buffer.Reset
  rw [getB_bind, bind_ok (s' := s) (a := s.b.buf.withLen 0)]
  · simp only [modB_bind, modB_run]
  · apply onMem_eq
    simp only [reslice, toInt_zero']
    rw [if_pos (by omega)]; simp [Slice.withLen]

theorem buffer_seekByte_run (s : St) (off : Int64) (rel : Bool) :
    Buffer.SeekByte off rel s =
      (.ok (), { s with b := { s.b with off := if rel then s.b.off + off else off } }) := by
  unfold Buffer.SeekByte; cases rel <;> rfl

theorem buffer_seekBit_run (s : St) (off : Int64) (rel : Bool) :
    Buffer.SeekBit off rel s =
      (.ok (), { s with b := { s.b with boff := if rel then s.b.boff + off else off } }) := by
  unfold Buffer.SeekBit; cases rel <;> rfl

end Crunch.V3
