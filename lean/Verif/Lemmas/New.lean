import Verif.Lemmas.Resize

/-! The constructors: what they do, for every list of slices and every append policy. -/

namespace Crunch.V3
open Spec

/-- A slice keeps its bytes when memory only grows. -/
theorem Extends.view_ok {h k : Heap} (e : Extends h k) {t : Slice} (w : SliceOK h t) : k.view t = h.view t := by
  by_cases ht : t.arr < h.arrays.length
  · exact e.view ht
  · have h1 := w.fits; have h2 := w.len_le
    rw [array_nil_of_ge (h := h) (by omega)] at h1
    simp at h1
    unfold Heap.view
    rw [show t.len = 0 by omega, List.take_zero, List.take_zero]

/-- What `append` leaves behind. -/
structure Appended (m0 m m' : Heap) (t t' : Slice) (data : List UInt8) : Prop where
  ext : Extends m0 m'
  ok : SliceOK m' t'
  new : m0.arrays.length ≤ t'.arr
  view : m'.view t' = m.view t ++ data
  len : t'.len = t.len + data.length
  slices : ∀ u, SliceOK m u → SliceOK m' u
  slack : m'.slack = m.slack

theorem append_ok {m0 m : Heap} {t : Slice} (e : Extends m0 m) (w : SliceOK m t) (ht : m0.arrays.length ≤ t.arr)
    (data : List UInt8) (hf : t.len + data.length ≤ maxAlloc) :
    ∃ t' m', appendBytes t data m = (.ok t', m') ∧ Appended m0 m m' t t' data := by
  have h1 := w.len_le; have h2 := w.fits; have h3 := w.small
  have hv := length_view w
  unfold appendBytes
  by_cases hc : t.len + data.length ≤ t.cap
  · refine ⟨{ t with len := t.len + data.length }, m.blit t.arr (t.off + t.len) data, by simp only [hc, if_true], ?_⟩
    have w' : SliceOK m { t with len := t.len + data.length } := ⟨hc, h2, h3⟩
    refine ⟨e.blit ht _ _, w'.blit _ _ _, ht, ?_, rfl, fun u hu => hu.blit _ _ _, rfl⟩
    have := view_blit_self w' (p := t.len) (bs := data) (Nat.le_refl _)
    refine this.trans ?_
    have hv' := length_view w'
    have e1 : (m.view { t with len := t.len + data.length }).take t.len = m.view t := by
      unfold Heap.view; rw [List.take_take, Nat.min_eq_left (by simp)]
    unfold patch
    rw [e1, List.drop_of_length_le (by rw [hv']; exact Nat.le_refl _), List.append_nil]
  · refine ⟨⟨m.arrays.length, 0, t.len + data.length, min (t.len + data.length + m.slack t.cap (t.len + data.length)) maxAlloc⟩,
      m.alloc (m.view t ++ data ++ List.replicate
        (min (t.len + data.length + m.slack t.cap (t.len + data.length)) maxAlloc - (t.len + data.length)) 0), ?_, ?_⟩
    · simp only [hc, if_false, show ¬ t.len + data.length > maxAlloc by omega]
    · have hl : (m.view t ++ data ++ List.replicate
        (min (t.len + data.length + m.slack t.cap (t.len + data.length)) maxAlloc - (t.len + data.length)) 0).length =
          min (t.len + data.length + m.slack t.cap (t.len + data.length)) maxAlloc := by
        rw [List.length_append, List.length_append, hv, List.length_replicate]; omega
      refine ⟨e.trans (Extends.alloc _ _), ⟨?_, ?_, ?_⟩, e.length, ?_, rfl, fun u hu => hu.alloc ?_, rfl⟩
      · show t.len + data.length ≤ min _ _; omega
      · show 0 + min _ _ ≤ _
        rw [array_alloc_self, hl]; omega
      · show ((Heap.alloc _ _).array m.arrays.length).length ≤ _
        rw [array_alloc_self, hl]; omega
      · unfold Heap.view
        simp only [array_alloc_self, List.drop_zero]
        rw [List.take_append_of_le_length (by rw [List.length_append]; unfold Heap.view at hv; omega),
          List.take_of_length_le (by rw [List.length_append]; unfold Heap.view at hv; omega)]
      · rw [hl]; omega

theorem append_panic {m : Heap} {t : Slice} (w : SliceOK m t) (data : List UInt8) (hf : maxAlloc < t.len + data.length) :
    appendBytes t data m = (.panic .makeSlice, m) := by
  have h2 := w.cap_le
  unfold appendBytes
  simp only [show ¬ t.len + data.length ≤ t.cap by omega, if_false, show t.len + data.length > maxAlloc by omega, if_true]

/-- The concatenation of some slices. -/
def cat (m : Heap) (l : List Slice) : List UInt8 := l.flatMap m.view

/-- The body of the constructor's loop. -/
def appendBody (slices : List Slice) (i : Int64) : GoM St Unit := do
  let b ← getB
  let x ← idx slices i
  let data ← onMem fun h => (.ok (h.view x), h)
  let r ← onMem (appendBytes b.buf data)
  modB fun b => { b with buf := r }

/-- What the constructor has built so far. -/
structure Built (m0 : Heap) (s : St) (content : List UInt8) : Prop where
  ext : Extends m0 s.mem
  ok : SliceOK s.mem s.b.buf
  new : m0.arrays.length ≤ s.b.buf.arr
  view : s.bytes = content
  slices : ∀ u, SliceOK m0 u → SliceOK s.mem u
  slack : s.mem.slack = m0.slack
  zero : s.b.off = 0 ∧ s.b.boff = 0

theorem appendBody_run {m0 : Heap} {s : St} {content : List UInt8} (h : Built m0 s content) (slices : List Slice)
    (hl : slices.length < 2 ^ 63) (hs : ∀ t ∈ slices, SliceOK m0 t) {i : Nat} (hi : i < slices.length) :
    (content.length + (m0.view slices[i]).length ≤ maxAlloc → ∃ s', appendBody slices (Int64.ofNat i) s = (.ok (), s') ∧
      Built m0 s' (content ++ m0.view slices[i])) ∧
    (maxAlloc < content.length + (m0.view slices[i]).length → appendBody slices (Int64.ofNat i) s = (.panic .makeSlice, s)) := by
  have hb : s.b.buf.len = content.length := by rw [← h.view]; exact (length_view h.ok).symm
  have hv : s.mem.view slices[i] = m0.view slices[i] := h.ext.view_ok (hs _ (List.getElem_mem hi))
  have e1 : appendBody slices (Int64.ofNat i) s = (onMem (appendBytes s.b.buf (m0.view slices[i])) >>= fun r =>
      modB fun b => { b with buf := r }) s := by
    unfold appendBody
    rw [idx_ofNat hi hl]
    show (onMem (appendBytes s.b.buf (s.mem.view slices[i])) >>= fun r => modB fun b => { b with buf := r }) s = _
    rw [hv]
  rw [e1]
  refine ⟨fun hf => ?_, fun hf => ?_⟩
  · obtain ⟨t', m', ha, hA⟩ := append_ok h.ext h.ok h.new (m0.view slices[i]) (by omega)
    refine ⟨{ mem := m', b := { s.b with buf := t' } }, ?_, ?_⟩
    · simp only [bind_run, onMem, ha, modB]
    · exact ⟨hA.ext, hA.ok, hA.new, hA.view.trans (by rw [show s.mem.view s.b.buf = content from h.view]),
        fun u hu => hA.slices u (h.slices u hu), hA.slack.trans h.slack, h.zero⟩
  · have ha := append_panic h.ok (m0.view slices[i]) (by omega)
    simp only [bind_run, onMem, ha]

theorem appendLoop_run {m0 : Heap} (slices : List Slice) (hl : slices.length < 2 ^ 63) (hs : ∀ t ∈ slices, SliceOK m0 t) :
    ∀ (c i : Nat) (s : St), i + c = slices.length → Built m0 s (cat m0 (slices.take i)) → (cat m0 (slices.take i)).length ≤ maxAlloc →
      ((cat m0 slices).length ≤ maxAlloc →
        ∃ s', iter (fun k _ => appendBody slices (Int64.ofNat k)) c i () s = (.ok (), s') ∧ Built m0 s' (cat m0 slices)) ∧
      (maxAlloc < (cat m0 slices).length →
        ∃ s', iter (fun k _ => appendBody slices (Int64.ofNat k)) c i () s = (.panic .makeSlice, s') ∧ Extends m0 s'.mem) := by
  intro c
  induction c with
  | zero =>
    intro i s hi hb hx
    rw [List.take_of_length_le (by omega)] at hb hx
    exact ⟨fun _ => ⟨s, rfl, hb⟩, fun h => by omega⟩
  | succ c ih =>
    intro i s hi hb hx
    have hi' : i < slices.length := by omega
    have e : cat m0 (slices.take (i + 1)) = cat m0 (slices.take i) ++ m0.view slices[i] := by
      unfold cat; rw [List.take_succ_eq_append_getElem hi', List.flatMap_append, List.flatMap_singleton]
    have hpre : (cat m0 (slices.take (i + 1))).length ≤ (cat m0 slices).length := by
      conv => rhs; rw [← List.take_append_drop (i + 1) slices]
      simp only [cat, List.flatMap_append, List.length_append]; omega
    obtain ⟨r1, r2⟩ := appendBody_run hb slices hl hs hi'
    rw [← List.length_append, ← e] at r1 r2
    unfold iter
    by_cases hf : (cat m0 (slices.take (i + 1))).length ≤ maxAlloc
    · obtain ⟨s1, h1, h2⟩ := r1 hf
      rw [bind_ok h1]
      exact ih (i + 1) s1 (by omega) h2 hf
    · rw [bind_panic (r2 (by omega))]
      exact ⟨fun h => by omega, fun _ => ⟨s, rfl, hb.ext⟩⟩

/-- The state right after the first statement of the constructors. -/
def emptyAt (m : Heap) : St :=
  { mem := m.alloc [], b := { buf := ⟨m.arrays.length, 0, 0, 0⟩, off := 0, cap := 0, boff := 0, bcap := 0 } }

theorem emptyAt_built (m : Heap) : Built m (emptyAt m) [] := by
  refine ⟨Extends.alloc _ _, ⟨Nat.le_refl _, by simp [emptyAt], ?_⟩, Nat.le_refl _, ?_, fun u hu => hu.alloc (Nat.zero_le _), rfl, ⟨rfl, rfl⟩⟩
  · show ((m.alloc []).array m.arrays.length).length ≤ _
    rw [array_alloc_self]; exact Nat.zero_le _
  · show (m.alloc []).view ⟨m.arrays.length, 0, 0, 0⟩ = []
    unfold Heap.view; simp

/-- The body of both constructors. -/
theorem newBuffer_run (s : St) (slices : List Slice) (hl : slices.length ≤ maxAlloc) (hs : ∀ t ∈ slices, SliceOK s.mem t) :
    (slices.length = 1 → ∃ (t : Slice) (s' : St), slices = [t] ∧ Buffer.NewBuffer slices s = (.ok (), s') ∧ WF s' ∧ s'.b.buf = t ∧
        Extends s.mem s'.mem ∧ (∀ u, SliceOK s.mem u → SliceOK s'.mem u) ∧ s'.bytes = s.mem.view t ∧ s'.b.off = 0 ∧ s'.b.boff = 0) ∧
    (slices.length ≠ 1 → (cat s.mem slices).length ≤ maxAlloc → ∃ s', Buffer.NewBuffer slices s = (.ok (), s') ∧ WF s' ∧
        Built s.mem s' (cat s.mem slices)) ∧
    (slices.length ≠ 1 → maxAlloc < (cat s.mem slices).length → ∃ s', Buffer.NewBuffer slices s = (.panic .makeSlice, s') ∧
        Extends s.mem s'.mem) := by
  have hM := maxAlloc_lt
  match slices, hl, hs with
  | [], _, _ =>
    refine ⟨fun h => by simp at h, fun _ _ => ?_, fun _ h => by simp [cat] at h⟩
    have hb := emptyAt_built s.mem
    refine ⟨emptyAt s.mem, ?_, ⟨hb.ok, rfl, rfl⟩, hb⟩
    show Buffer.Refresh (emptyAt s.mem) = _
    rw [buffer_refresh_run]; rfl
  | [t], _, hs =>
    refine ⟨fun _ => ?_, fun h => by simp at h, fun h => by simp at h⟩
    have hb := emptyAt_built s.mem
    have ht := hs t (List.mem_singleton.mpr rfl)
    refine ⟨t, ({ mem := (emptyAt s.mem).mem, b := { (emptyAt s.mem).b with buf := t } } : St).refit (s.mem.alloc []) t, rfl, ?_,
      WF.refit (ht.alloc (Nat.zero_le _)), rfl, hb.ext, hb.slices, hb.ext.view_ok ht, rfl, rfl⟩
    show Buffer.Refresh { mem := (emptyAt s.mem).mem, b := { (emptyAt s.mem).b with buf := t } } = _
    rw [buffer_refresh_run]; rfl
  | x :: y :: l, hl, hs =>
    refine ⟨fun h => by simp at h, fun _ hf => ?_, fun _ hf => ?_⟩
    all_goals
      have e : Buffer.NewBuffer (x :: y :: l) s =
          (doLoop (fun i _ => appendBody (x :: y :: l) i) (len (x :: y :: l)) 0 () >>= fun _ => Buffer.Refresh) (emptyAt s.mem) := rfl
      obtain ⟨r1, r2⟩ := appendLoop_run (m0 := s.mem) (x :: y :: l) (by omega) hs (x :: y :: l).length 0 (emptyAt s.mem) (by omega)
        (by simpa [cat] using emptyAt_built s.mem) (by simp [cat])
      rw [e]
      unfold len
      rw [doLoop_pos _ _ (by simp) (by omega)]
    · obtain ⟨s', h1, h2⟩ := r1 hf
      rw [bind_ok h1, buffer_refresh_run]
      exact ⟨_, rfl, WF.refit h2.ok, ⟨h2.ext, h2.ok, h2.new, h2.view, h2.slices, h2.slack, h2.zero⟩⟩
    · obtain ⟨s', h1, h2⟩ := r2 hf
      rw [bind_panic h1]
      exact ⟨s', rfl, h2⟩

end Crunch.V3
