import Verif.Lemmas.Basic
import Verif.Spec

/-! Lemmas about memory. -/

namespace Crunch
open Spec

/-- A slice header that fits its backing array. -/
structure SliceOK (h : Heap) (s : Slice) : Prop where
  len_le : s.len ≤ s.cap
  fits : s.off + s.cap ≤ (h.array s.arr).length
  small : (h.array s.arr).length ≤ maxAlloc

theorem SliceOK.cap_le {h : Heap} {s : Slice} (w : SliceOK h s) : s.cap ≤ maxAlloc := by
  have := w.fits; have := w.small; omega
theorem SliceOK.len_le_max {h : Heap} {s : Slice} (w : SliceOK h s) : s.len ≤ maxAlloc := by
  have := w.cap_le; have := w.len_le; omega

theorem maxAlloc_lt : maxAlloc < 2 ^ 50 := by decide

/-! ## patch -/

@[simp] theorem length_patch {l : List UInt8} {p : Nat} {bs : List UInt8} (h : p + bs.length ≤ l.length) :
    (patch l p bs).length = l.length := by
  simp [patch]; omega

theorem getElem?_patch {l : List UInt8} {p : Nat} {bs : List UInt8} (h : p + bs.length ≤ l.length) (i : Nat) :
    (patch l p bs)[i]? = if p ≤ i ∧ i < p + bs.length then bs[i - p]? else l[i]? := by
  unfold patch
  simp only [List.getElem?_append, List.getElem?_drop, List.getElem?_take, List.length_append,
    List.length_take]
  rw [Nat.min_eq_left (by omega)]
  by_cases h1 : i < p
  · have : ¬ p ≤ i := by omega
    have h3 : i < p + bs.length := by omega
    simp [h1, this, h3]
  · by_cases h2 : i < p + bs.length
    · have : p ≤ i := by omega
      simp [h1, h2, this]
    · simp only [h1, h2, if_false, and_false]
      congr 1; omega

theorem patch_nil (l : List UInt8) (p : Nat) : patch l p [] = l := by simp [patch]

theorem patch_patch_adj {l xs ys : List UInt8} {p : Nat} (h : p + xs.length + ys.length ≤ l.length) :
    patch (patch l p xs) (p + xs.length) ys = patch l p (xs ++ ys) := by
  apply List.ext_getElem?
  intro i
  rw [getElem?_patch (by rw [length_patch (by omega)]; omega), getElem?_patch (by omega),
    getElem?_patch (by simp; omega)]
  simp only [List.length_append, List.getElem?_append]
  repeat' split
  all_goals first | rfl | omega | (congr 1; omega)

theorem patch_same {l xs ys : List UInt8} {p : Nat} (h : p + xs.length ≤ l.length) (e : ys.length = xs.length) :
    patch (patch l p xs) p ys = patch l p ys := by
  apply List.ext_getElem?
  intro i
  rw [getElem?_patch (by rw [length_patch (by omega)]; omega), getElem?_patch (by omega),
    getElem?_patch (by omega)]
  repeat' split
  all_goals first | rfl | omega

theorem patch_comm {l xs ys : List UInt8} {p q : Nat} (hx : p + xs.length ≤ l.length)
    (hy : q + ys.length ≤ l.length) (d : p + xs.length ≤ q ∨ q + ys.length ≤ p) :
    patch (patch l p xs) q ys = patch (patch l q ys) p xs := by
  apply List.ext_getElem?
  intro i
  rw [getElem?_patch (by rw [length_patch (by omega)]; omega), getElem?_patch (by omega),
    getElem?_patch (by rw [length_patch (by omega)]; omega), getElem?_patch (by omega)]
  repeat' split
  all_goals first | rfl | omega

theorem set_eq_patch {l : List UInt8} {i : Nat} (h : i < l.length) (v : UInt8) :
    l.set i v = patch l i [v] := by
  apply List.ext_getElem?
  intro j
  rw [getElem?_patch (by simp; omega), List.getElem?_set]
  simp only [List.length_singleton]
  repeat' split
  all_goals first | rfl | omega | (subst_vars; simp)

theorem slice_patch_self {l bs : List UInt8} {p : Nat} (h : p + bs.length ≤ l.length) :
    slice (patch l p bs) p bs.length = bs := by
  unfold slice patch
  rw [List.append_assoc, List.drop_left' (by simp; omega)]; simp

theorem slice_patch_disj {l bs : List UInt8} {p q n : Nat} (h : p + bs.length ≤ l.length)
    (d : q + n ≤ p ∨ p + bs.length ≤ q) :
    slice (patch l p bs) q n = slice l q n := by
  apply List.ext_getElem?
  intro i
  simp only [slice, List.getElem?_take, List.getElem?_drop, getElem?_patch h]
  repeat' split
  all_goals first | rfl | omega

theorem length_slice {l : List UInt8} {p n : Nat} (h : p + n ≤ l.length) : (slice l p n).length = n := by
  simp [slice]; omega

theorem patch_slice {l : List UInt8} {p n : Nat} (h : p + n ≤ l.length) :
    patch l p (slice l p n) = l := by
  apply List.ext_getElem?
  intro i
  rw [getElem?_patch (by rw [length_slice h]; exact h), length_slice h]
  simp only [slice, List.getElem?_take, List.getElem?_drop]
  repeat' split
  all_goals first | rfl | omega | (congr 1; omega)

/-! ## heap -/

theorem Heap.ext' {h k : Heap} (h1 : h.arrays = k.arrays) (h2 : h.slack = k.slack) : h = k := by
  cases h; cases k; simp_all

theorem modify_congr {l : List α} {i : Nat} {f g : α → α} (h : ∀ x, l[i]? = some x → f x = g x) :
    l.modify i f = l.modify i g := by
  apply List.ext_getElem?
  intro j
  simp only [List.getElem?_modify]
  by_cases hj : i = j
  · subst hj
    cases e : l[i]? with
    | none => simp
    | some x => simp [h x e]
  · simp [hj]

theorem modify_modify {l : List α} {i : Nat} {f g : α → α} :
    (l.modify i f).modify i g = l.modify i (fun x => g (f x)) := by
  apply List.ext_getElem?
  intro j
  simp only [List.getElem?_modify]
  cases l[j]? <;> simp
  split <;> rfl

theorem array_eq {h : Heap} {a : Nat} {x : List UInt8} (e : h.arrays[a]? = some x) : h.array a = x := by
  simp [Heap.array, List.getD, e]

theorem array_modify (h : Heap) (a c : Nat) (f : List UInt8 → List UInt8) (f0 : f [] = []) :
    ({ h with arrays := h.arrays.modify a f } : Heap).array c = if a = c then f (h.array c) else h.array c := by
  simp only [Heap.array, List.getD, List.getElem?_modify]
  cases h.arrays[c]?
  · split <;> simp [f0]
  · split <;> simp

theorem putAt_eq {l : List UInt8} {p : Nat} {bs : List UInt8} (h : p + bs.length ≤ l.length) :
    putAt p bs l = patch l p bs := by
  unfold putAt patch
  rw [List.take_of_length_le]
  simp; omega

theorem set_eq_blit {h : Heap} {a i : Nat} {v : UInt8} (hi : i < (h.array a).length) :
    h.set a i v = h.blit a i [v] := by
  unfold Heap.set Heap.blit
  refine Heap.ext' ?_ rfl
  apply modify_congr
  intro x hx
  rw [array_eq hx] at hi
  rw [set_eq_patch hi, putAt_eq (by simp; omega)]

theorem array_blit (h : Heap) (a p : Nat) (bs : List UInt8) (c : Nat)
    (hp : p + bs.length ≤ (h.array a).length) :
    (h.blit a p bs).array c = if a = c then patch (h.array a) p bs else h.array c := by
  unfold Heap.blit
  rw [array_modify _ _ _ _ (by simp [putAt])]
  split
  · subst_vars
    exact putAt_eq hp
  · rfl

theorem blit_nil (h : Heap) (a p : Nat) : h.blit a p [] = h := by
  unfold Heap.blit
  refine Heap.ext' ?_ rfl
  show h.arrays.modify a _ = h.arrays
  conv => rhs; rw [← List.modify_id a h.arrays]
  apply modify_congr
  intro x _
  simp [putAt]

theorem blit_congr {h : Heap} {a p q : Nat} {bs cs : List UInt8}
    (hp : p + bs.length ≤ (h.array a).length) (hq : q + cs.length ≤ (h.array a).length)
    (e : patch (h.array a) p bs = patch (h.array a) q cs) : h.blit a p bs = h.blit a q cs := by
  unfold Heap.blit
  refine Heap.ext' ?_ rfl
  apply modify_congr
  intro x hx
  rw [array_eq hx] at *
  rw [putAt_eq hp, putAt_eq hq, e]

theorem blit_blit {h : Heap} {a p q r : Nat} {bs cs ds : List UInt8}
    (hp : p + bs.length ≤ (h.array a).length) (hq : q + cs.length ≤ (h.array a).length)
    (hr : r + ds.length ≤ (h.array a).length)
    (e : patch (patch (h.array a) p bs) q cs = patch (h.array a) r ds) :
    (h.blit a p bs).blit a q cs = h.blit a r ds := by
  unfold Heap.blit
  refine Heap.ext' ?_ rfl
  show (List.modify _ _ _).modify _ _ = _
  rw [modify_modify]
  apply modify_congr
  intro x hx
  rw [array_eq hx] at *
  rw [putAt_eq hp, putAt_eq hr, putAt_eq (by rw [length_patch hp]; exact hq), e]

theorem blit_adj {h : Heap} {a p : Nat} {xs ys : List UInt8}
    (hp : p + xs.length + ys.length ≤ (h.array a).length) :
    (h.blit a p xs).blit a (p + xs.length) ys = h.blit a p (xs ++ ys) :=
  blit_blit (by omega) (by omega) (by simp; omega) (patch_patch_adj hp)

theorem length_array_blit (h : Heap) (a p : Nat) (bs : List UInt8) (c : Nat) :
    ((h.blit a p bs).array c).length = (h.array c).length := by
  unfold Heap.blit
  rw [array_modify _ _ _ _ (by simp [putAt])]
  split
  · simp [putAt]; omega
  · rfl

@[simp] theorem blit_slack (h : Heap) (a p : Nat) (bs : List UInt8) : (h.blit a p bs).slack = h.slack := rfl
@[simp] theorem blit_length (h : Heap) (a p : Nat) (bs : List UInt8) :
    (h.blit a p bs).arrays.length = h.arrays.length := by simp [Heap.blit]

theorem SliceOK.blit {h : Heap} {s : Slice} (w : SliceOK h s) (a p : Nat) (bs : List UInt8) :
    SliceOK (h.blit a p bs) s :=
  ⟨w.len_le, by rw [length_array_blit]; exact w.fits, by rw [length_array_blit]; exact w.small⟩

theorem length_view {h : Heap} {s : Slice} (w : SliceOK h s) : (h.view s).length = s.len := by
  have := w.len_le; have := w.fits
  simp [Heap.view]; omega

/-- The fundamental frame fact: writing inside one slice is a patch of its view. -/
theorem view_blit_self {h : Heap} {s : Slice} (w : SliceOK h s) {p : Nat} {bs : List UInt8}
    (hp : p + bs.length ≤ s.len) :
    (h.blit s.arr (s.off + p) bs).view s = patch (h.view s) p bs := by
  have h1 := w.len_le; have h2 := w.fits
  unfold Heap.view
  rw [array_blit _ _ _ _ _ (by omega), if_pos rfl]
  apply List.ext_getElem?
  intro i
  rw [getElem?_patch (by simp; omega)]
  simp only [List.getElem?_take, List.getElem?_drop, getElem?_patch (show s.off + p + bs.length ≤ (h.array s.arr).length by omega)]
  by_cases hi : i < s.len
  · simp only [hi, if_true]
    by_cases h3 : p ≤ i ∧ i < p + bs.length
    · rw [if_pos h3, if_pos (by omega)]; congr 1; omega
    · rw [if_neg h3, if_neg (by omega)]
  · simp only [hi, if_false]
    rw [if_neg (by omega)]

/-- What a write does to any other slice: nothing, if the written region does not meet it. -/
theorem view_blit_disj {h : Heap} {t : Slice} {a p : Nat} {bs : List UInt8}
    (hp : p + bs.length ≤ (h.array a).length)
    (d : a ≠ t.arr ∨ p + bs.length ≤ t.off ∨ t.off + t.len ≤ p) :
    (h.blit a p bs).view t = h.view t := by
  unfold Heap.view
  rw [array_blit _ _ _ _ _ hp]
  split
  · subst_vars
    apply List.ext_getElem?
    intro i
    simp only [List.getElem?_take, List.getElem?_drop, getElem?_patch hp]
    repeat' split
    all_goals first | rfl | omega
  · rfl

theorem array_alloc_lt {h : Heap} {bs : List UInt8} {a : Nat} (ha : a < h.arrays.length) :
    (h.alloc bs).array a = h.array a := by
  simp [Heap.alloc, Heap.array, List.getD, List.getElem?_append, ha]

theorem array_alloc_self {h : Heap} {bs : List UInt8} :
    (h.alloc bs).array h.arrays.length = bs := by
  simp [Heap.alloc, Heap.array, List.getD]

/-- A slice header of the current heap (not of arrays still to be allocated). -/
theorem array_nil_of_ge {h : Heap} {a : Nat} (ha : h.arrays.length ≤ a) : h.array a = [] := by
  simp [Heap.array, List.getD, List.getElem?_eq_none ha]

theorem view_alloc {h : Heap} {s : Slice} (w : SliceOK h s) (bs : List UInt8) :
    (h.alloc bs).view s = h.view s := by
  unfold Heap.view
  by_cases hs : s.arr < h.arrays.length
  · rw [array_alloc_lt hs]
  · have e := array_nil_of_ge (h := h) (a := s.arr) (by omega)
    have := w.len_le
    have : s.len = 0 := by have := w.fits; rw [e] at this; simp at this; omega
    simp [this]

end Crunch
