import Verif.Props.Laws
import Verif.Lemmas.Step
import Verif.Lemmas.New

/-!
# Properties of whole histories of calls on v3 `Buffer` (C26, C34 … C36, C38, C48, C49)

`exec op` performs one public method call and `execAll` a list of them; a call that panics is
recovered and the list goes on.
-/

namespace Crunch.V3
open Spec

/-- Every argument slice exists at the time of its call. -/
def ValidAll : List Op → St → Prop
  | [], _ => True
  | op :: ops, s => op.Valid s.mem ∧ ValidAll ops (exec op s).2

/-- The outcomes of the calls, each as the caller sees it when the call returns. -/
def observed : List Op → St → List (Res Ref.Val)
  | [], _ => []
  | op :: ops, s => obsRes (exec op s).2.mem (exec op s).1 :: observed ops (exec op s).2

/-- The reference calls, the bytes of argument slices taken at the time of the call. -/
def lowerAll : List Op → St → List Ref.Op
  | [], _ => []
  | op :: ops, s => op.lower s.mem :: lowerAll ops (exec op s).2

/-- Argument slices that exist at the start still exist later. -/
theorem Op.Valid.mono {op : Op} {m m' : Heap} (h : ∀ t, SliceOK m t → SliceOK m' t) (hv : op.Valid m) : op.Valid m' := by
  cases op <;> first | exact hv | exact h _ hv

theorem history_ok {s : St} (h : WF s) (ops : List Op) (hv : ValidAll ops s) :
    WF (execAll ops s).2 ∧ Iso s (execAll ops s).2 := by
  induction ops generalizing s with
  | nil => exact ⟨h, Iso.refl s⟩
  | cons op ops ih =>
    have h1 := step_ok h op hv.1
    obtain ⟨h2, h3⟩ := ih h1.wf hv.2
    exact ⟨h2, h1.iso.trans h3⟩

theorem validAll_of_valid {s : St} (h : WF s) (ops : List Op) (hv : ∀ op ∈ ops, op.Valid s.mem) : ValidAll ops s := by
  induction ops generalizing s with
  | nil => trivial
  | cons op ops ih =>
    have h1 := step_ok h op (hv op (List.mem_cons_self ..))
    exact ⟨hv op (List.mem_cons_self ..), ih h1.wf fun o ho => (hv o (List.mem_cons_of_mem _ ho)).mono h1.iso.slices⟩

/-! ## C26 -/

/-- The states a buffer can be in: made by `NewBuffer`, then public methods called with arbitrary arguments
(they may panic), with anybody else changing memory (without unallocating anything) in between. -/
inductive Reachable : St → Prop
  | new {s s' : St} {slices : List Slice} : slices.length ≤ maxAlloc → (∀ t ∈ slices, SliceOK s.mem t) →
      Buffer.NewBuffer slices s = (.ok (), s') → Reachable s'
  | call {s : St} (op : Op) : Reachable s → op.Valid s.mem → Reachable (exec op s).2
  | environment {s : St} (m : Heap) : Reachable s → (∀ t, SliceOK s.mem t → SliceOK m t) → Reachable { s with mem := m }

theorem newBuffer_wf {s s' : St} {slices : List Slice} (hl : slices.length ≤ maxAlloc) (hs : ∀ t ∈ slices, SliceOK s.mem t)
    (h : Buffer.NewBuffer slices s = (.ok (), s')) : WF s' := by
  obtain ⟨a, b, c⟩ := newBuffer_run s slices hl hs
  by_cases h1 : slices.length = 1
  · obtain ⟨_, _, _, e, w, _⟩ := a h1
    rw [e] at h; cases h; exact w
  · by_cases h2 : (cat s.mem slices).length ≤ maxAlloc
    · obtain ⟨_, e, w, _⟩ := b h1 h2
      rw [e] at h; cases h; exact w
    · obtain ⟨_, e, _⟩ := c h1 (by omega)
      rw [e] at h; cases h

theorem reachable_wf {s : St} (h : Reachable s) : WF s := by
  induction h with
  | new a b c => exact newBuffer_wf a b c
  | call op _ hv ih => exact (step_ok ih op hv).wf
  | environment m _ hm ih => exact ⟨hm _ ih.ok, ih.cap, ih.bcap⟩

/-- C26: in every reachable state, `ByteCapacity` is the length of `Bytes` and `BitCapacity` eight times that. -/
theorem C26_cached_capacities {s : St} (h : Reachable s) :
    ∃ c d t, Buffer.ByteCapacity s = (.ok c, s) ∧ Buffer.BitCapacity s = (.ok d, s) ∧ Buffer.Bytes s = (.ok t, s) ∧
      c.toInt = (s.mem.view t).length ∧ d.toInt = 8 * c.toInt := by
  have w := reachable_wf h
  refine ⟨s.b.cap, s.b.bcap, s.b.buf, rfl, rfl, rfl, ?_, ?_⟩
  · rw [w.cap_toInt, length_view w.ok]
  · rw [w.bcap_toInt, w.cap_toInt]

/-- C26 for one history from a new buffer. -/
theorem C26_after_history {s s' : St} {slices : List Slice} (hl : slices.length ≤ maxAlloc)
    (hs : ∀ t ∈ slices, SliceOK s.mem t) (hn : Buffer.NewBuffer slices s = (.ok (), s')) (ops : List Op) (hv : ValidAll ops s') :
    (execAll ops s').2.b.cap.toInt = (execAll ops s').2.bytes.length ∧
    (execAll ops s').2.b.bcap.toInt = 8 * (execAll ops s').2.bytes.length := by
  have w := (history_ok (newBuffer_wf hl hs hn) ops hv).1
  rw [w.cap_toInt, w.bcap_toInt, length_bytes w.ok]
  exact ⟨rfl, rfl⟩

/-- The state a constructor call leaves, from the memory of `demo`. -/
def demoNew : St := (Buffer.NewBuffer [demoSrc] demo).2

theorem demoNew_run : Buffer.NewBuffer [demoSrc] demo = (.ok (), demoNew) := rfl

example : (execAll [.grow 5, .writeByte (some 9) 1, .truncateLeft 2, .reset, .grow 1] demoNew).2.b.cap = 1 ∧
    Reachable (execAll [.grow 5, .writeByte (some 9) 1, .truncateLeft 2, .reset, .grow 1] demoNew).2 :=
  ⟨by decide, .call _ (.call _ (.call _ (.call _ (.call _ (.new (slices := [demoSrc]) (by decide)
    (by intro t ht; rw [List.mem_singleton.mp ht]; exact demoSrc_ok) demoNew_run)
    trivial) trivial) trivial) trivial) trivial⟩

/-! ## C34, C35 -/

/-- C34: the content of a new buffer is the concatenation of the slices, whatever spare capacity `append` chooses
(`s.mem.slack` is arbitrary); it cannot fail unless the total does not fit in memory. -/
theorem C34_constructor_concatenates (s : St) (slices : List Slice) (hl : slices.length ≤ maxAlloc)
    (hs : ∀ t ∈ slices, SliceOK s.mem t) :
    ((slices.flatMap s.mem.view).length ≤ maxAlloc → ∃ s', Buffer.NewBuffer slices s = (.ok (), s') ∧
      s'.bytes = slices.flatMap s.mem.view ∧ s'.b.cap.toInt = (slices.flatMap s.mem.view).length ∧
      s'.b.bcap.toInt = 8 * (slices.flatMap s.mem.view).length ∧ s'.b.off = 0 ∧ s'.b.boff = 0) ∧
    (maxAlloc < (slices.flatMap s.mem.view).length → ∃ s', Buffer.NewBuffer slices s = (.panic .makeSlice, s')) := by
  obtain ⟨a, b, c⟩ := newBuffer_run s slices hl hs
  by_cases h1 : slices.length = 1
  · obtain ⟨t, s', rfl, e, w, hb, _, _, hv, h3, h4⟩ := a h1
    rw [List.flatMap_singleton]
    have ht := length_view (hs t (List.mem_singleton.mpr rfl))
    have hm := (hs t (List.mem_singleton.mpr rfl)).len_le_max
    refine ⟨fun _ => ⟨s', e, hv, ?_, ?_, h3, h4⟩, fun h => by omega⟩
    · rw [w.cap_toInt, ← hv, length_bytes w.ok]
    · rw [w.bcap_toInt, ← hv, length_bytes w.ok]
  · refine ⟨fun hf => ?_, fun hf => ?_⟩
    · obtain ⟨s', e, w, hB⟩ := b h1 hf
      have hv : s'.bytes = slices.flatMap s.mem.view := hB.view
      refine ⟨s', e, hv, ?_, ?_, hB.zero.1, hB.zero.2⟩
      · rw [w.cap_toInt, ← hv, length_bytes w.ok]
      · rw [w.bcap_toInt, ← hv, length_bytes w.ok]
    · obtain ⟨s', e, _⟩ := c h1 hf
      exact ⟨s', e⟩

example : ∃ s', Buffer.NewBuffer [demoSrc, ⟨0, 4, 2, 2⟩, demoSrc] demo = (.ok (), s') ∧
    s'.bytes = [0xAA, 0xBB, 0xCC, 5, 6, 0xAA, 0xBB, 0xCC] ∧ s'.b.cap.toInt = 8 ∧ s'.b.bcap.toInt = 64 ∧
    s'.b.off = 0 ∧ s'.b.boff = 0 :=
  (C34_constructor_concatenates demo [demoSrc, ⟨0, 4, 2, 2⟩, demoSrc] (by decide)
    (by intro t ht
        simp only [List.mem_cons, List.not_mem_nil, or_false] at ht
        rcases ht with rfl | rfl | rfl <;> exact ⟨by decide, by decide, by decide⟩)).1 (by decide)

/-- Storing bytes in an array that the buffer does not use leaves its content alone. -/
theorem store_elsewhere {s : St} {m' : Heap} {t : Slice} {i : Int64} {v : UInt8} {r : Res Unit} (hne : t.arr ≠ s.b.buf.arr)
    (h : storeAt t i v s.mem = (r, m')) : ({ s with mem := m' } : St).bytes = s.bytes := by
  unfold storeAt at h
  split at h
  · cases h
    show ((Heap.array _ _).drop _).take _ = ((Heap.array _ _).drop _).take _
    unfold Heap.set
    rw [array_modify _ _ _ _ (by simp), if_neg hne]
  · cases h; rfl

/-- C35, one slice: buffer and slice are the same memory.  A store through the slice is read by the buffer, and
after any call that does not move the buffer's content elsewhere (`C36_stays_in_place`) both still show the same bytes. -/
theorem C35_one_slice_shared (s : St) (t : Slice) (ht : SliceOK s.mem t) :
    ∃ s', Buffer.NewBuffer [t] s = (.ok (), s') ∧ s'.bytes = s'.mem.view t ∧
      (∀ (i : Int64) v, 0 ≤ i.toInt → i.toInt < t.len → ∃ m', storeAt t i v s'.mem = (.ok (), m') ∧
        ({ s' with mem := m' } : St).bytes[i.toInt.toNat]? = some v) ∧
      (∀ (i : Int64) v, 0 ≤ i.toInt → i.toInt < t.len → ∃ s'', Buffer.WriteByte i v s' = (.ok (), s'') ∧
        (s''.mem.view t)[i.toInt.toNat]? = some v) ∧
      (∀ op, op.Valid s'.mem → (exec op s').2.b.buf = s'.b.buf →
        (exec op s').2.bytes = (exec op s').2.mem.view t) := by
  obtain ⟨t', s', e, hn, w, hb, hx, _, _, _, _⟩ := (newBuffer_run s [t] (by rw [List.length_singleton]; decide)
    (by intro u hu; rw [List.mem_singleton.mp hu]; exact ht)).1 rfl
  cases e
  have hlen : s'.b.buf.len = t.len := by rw [hb]
  have hbl := length_bytes w.ok
  refine ⟨s', hn, by rw [← hb]; rfl, fun i v h0 h1 => ?_, fun i v h0 h1 => ?_, fun op _ hs => by rw [← hb, ← hs]; rfl⟩
  · have hfit := w.ok.fits; have hle := w.ok.len_le
    rw [hb] at hfit hle
    refine ⟨_, by unfold storeAt; rw [if_pos ⟨h0, h1⟩], ?_⟩
    show (((Heap.array _ _).drop _).take _)[_]? = _
    unfold Heap.set
    rw [array_modify _ _ _ _ (by simp), hb, if_pos rfl]
    rw [List.getElem?_take, if_pos (by omega), List.getElem?_drop, List.getElem?_set]
    rw [if_pos rfl, if_pos (by omega)]
  · obtain ⟨s'', h2, h3, _⟩ := C13_byte_round_trip w i v h0 (by rw [hbl, hlen]; exact h1)
    refine ⟨s'', h2, ?_⟩
    rw [buffer_writeByte_run w, if_pos ⟨h0, by rw [hlen]; exact h1⟩] at h2
    cases h2
    have wl := w.lit (bs := [v]) (by rw [List.length_singleton]; decide)
    have hl1 := length_bytes wl.ok
    have hl2 : (s'.lit [v]).b.buf = t := hb
    have hp : i.toInt.toNat + [v].length ≤ (s'.lit [v]).b.buf.len := by
      rw [List.length_singleton, hl2]; omega
    have := bytes_write wl.ok hp
    rw [← hl2]
    refine (congrArg (·[i.toInt.toNat]?) this).trans ?_
    show (patch _ _ _)[_]? = _
    rw [getElem?_patch (by omega), if_pos ⟨Nat.le_refl _, by simp⟩, Nat.sub_self]; rfl

example : ∃ s', Buffer.NewBuffer [demoSrc] demo = (.ok (), s') ∧ s'.bytes = s'.mem.view demoSrc :=
  let ⟨s', h1, h2, _⟩ := C35_one_slice_shared demo demoSrc demoSrc_ok
  ⟨s', h1, h2⟩

/-- C35, zero or several slices: nothing is shared.  No later history of calls changes any slice that existed before
the constructor (in particular the arguments), and no store through such a slice changes the buffer. -/
theorem C35_several_slices_copied (s : St) (slices : List Slice) (hl : slices.length ≤ maxAlloc)
    (hs : ∀ t ∈ slices, SliceOK s.mem t) (hne : slices.length ≠ 1) {s' : St}
    (hn : Buffer.NewBuffer slices s = (.ok (), s')) (ops : List Op) (hv : ValidAll ops s') :
    (∀ t, SliceOK s.mem t → (execAll ops s').2.mem.view t = s.mem.view t) ∧
    (∀ t, SliceOK s.mem t → ∀ i v r m', storeAt t i v (execAll ops s').2.mem = (r, m') →
      ({ (execAll ops s').2 with mem := m' } : St).bytes = (execAll ops s').2.bytes) := by
  obtain ⟨_, b, c⟩ := newBuffer_run s slices hl hs
  have hf : (cat s.mem slices).length ≤ maxAlloc := by
    rcases Nat.lt_or_ge maxAlloc (cat s.mem slices).length with h | h
    · obtain ⟨_, e, _⟩ := c hne h
      rw [e] at hn; cases hn
    · exact h
  obtain ⟨s1, e, w, hB⟩ := b hne hf
  rw [e] at hn; cases hn
  obtain ⟨_, hI⟩ := history_ok w ops hv
  have hnew : s.mem.arrays.length ≤ (execAll ops s').2.b.buf.arr := by
    have h1 := hB.new; have h2 := hB.ext.length
    rcases hI.place with ⟨p, _⟩ | p <;> omega
  have hext : Extends s.mem (execAll ops s').2.mem := by
    refine ⟨Nat.le_trans hB.ext.length hI.more, fun a ha => ?_⟩
    rw [← hB.ext.array a ha]
    apply List.ext_getElem?; intro i
    exact hI.outside a i (Nat.lt_of_lt_of_le ha hB.ext.length) (.inl (by have := hB.new; omega))
  refine ⟨fun t ht => hext.view_ok ht, fun t ht i v r m' hst => ?_⟩
  by_cases hta : t.arr < s.mem.arrays.length
  · exact store_elsewhere (by omega) hst
  · have h1 := ht.fits; have h2 := ht.len_le
    rw [array_nil_of_ge (h := s.mem) (a := t.arr) (by omega)] at h1
    simp at h1
    unfold storeAt at hst
    rw [if_neg (by omega)] at hst
    cases hst; rfl

/-! ## C36 -/

/-- Where a view lies inside a buffer: a slice of the same array, beginning and ending inside the buffer's content. -/
def Inside (t u : Slice) : Prop := t.arr = u.arr ∧ u.off ≤ t.off ∧ t.off + t.len ≤ u.off + u.len

/-- C36: what `Bytes` and `ReadBytes` return is a view into the buffer itself, showing the requested bytes. -/
theorem C36_views {s : St} (h : WF s) :
    (∃ t, Buffer.Bytes s = (.ok t, s) ∧ SliceOK s.mem t ∧ Inside t s.b.buf ∧ s.mem.view t = s.bytes) ∧
    ∀ off n t s', Buffer.ReadBytes off n s = (.ok t, s') → s' = s ∧ SliceOK s.mem t ∧ Inside t s.b.buf ∧
      s.mem.view t = slice s.bytes off.toInt.toNat n.toInt.toNat := by
  have h1 := h.ok.len_le; have h2 := h.ok.fits; have h3 := h.ok.small
  refine ⟨⟨s.b.buf, rfl, h.ok, ⟨rfl, Nat.le_refl _, Nat.le_refl _⟩, rfl⟩, fun off n t s' he => ?_⟩
  rw [buffer_readBytes_run h] at he
  split at he
  · cases he
    rename_i hc
    refine ⟨rfl, ⟨?_, ?_, h3⟩, ⟨rfl, ?_, ?_⟩, ?_⟩
    · show n.toInt.toNat ≤ s.b.buf.cap - off.toInt.toNat; omega
    · show s.b.buf.off + off.toInt.toNat + (s.b.buf.cap - off.toInt.toNat) ≤ (s.mem.array s.b.buf.arr).length; omega
    · show s.b.buf.off ≤ s.b.buf.off + off.toInt.toNat; omega
    · show s.b.buf.off + off.toInt.toNat + n.toInt.toNat ≤ s.b.buf.off + s.b.buf.len; omega
    · show _ = slice (s.mem.view s.b.buf) _ _
      unfold slice Heap.view
      simp only [List.drop_take, List.take_take, List.drop_drop]
      rw [Nat.min_eq_left (by omega)]
  · cases he

/-- C36: the only call that moves the content to other memory is a `Grow` by more than the spare capacity. -/
theorem C36_stays_in_place {s : St} (h : WF s) (op : Op) (hv : op.Valid s.mem) :
    (exec op s).2.b.buf.arr = s.b.buf.arr ∨
    (∃ n, op = .grow n ∧ (s.b.buf.cap : Int) - s.b.buf.len < n.toInt ∧ (exec op s).2.b.buf.arr = s.mem.arrays.length) := by
  have adv : ∀ (d : Int64) (r : Res Val × St), (advance d r).2.b.buf = r.2.b.buf := by
    intro d r; rcases r with ⟨_ | _, _⟩ <;> rfl
  have advB : ∀ (d : Int64) (r : Res Val × St), (advanceBit d r).2.b.buf = r.2.b.buf := by
    intro d r; rcases r with ⟨_ | _, _⟩ <;> rfl
  have hput : ∀ l, (s.put l).b.buf = s.b.buf := fun l => by rw [put_b]
  have hall : ∀ (m : GoM St Unit) (f : UInt8 → UInt8), (0 < s.b.buf.len → m s = (.ok (), s.put (s.bytes.map f))) →
      (s.b.buf.len = 0 → m s = (.panic .index, s)) → (m s).2.b.buf.arr = s.b.buf.arr := by
    intro m f h1 h2
    by_cases hc : s.b.buf.len = 0
    · rw [h2 hc]
    · rw [h1 (by omega)]; rfl
  have hw : ∀ {α : Type} (f : α → Val) (r : Res α × St), (wrapRes f r).2 = r.2 := by
    intro α f r; rcases r with ⟨_ | _, _⟩ <;> rfl
  have hbit : ∀ (o : Int64) (l : List UInt8) (p : Panic),
      (if 0 ≤ o.toInt ∧ o.toInt < 8 * s.b.buf.len then ((.ok () : Res Unit), s.put l) else (.panic p, s)).2.b.buf = s.b.buf := by
    intro o l p; split <;> rfl
  match op, hv with
  | .write k e pos data, hv =>
    left
    have : ∀ o, (Buffer.Write k e o data s).2.b.buf = s.b.buf := by
      intro o; rw [buffer_write_run h k e o data hv]; split <;> rfl
    cases pos with
    | some o => simp only [exec, wrapVal_run, hw, this]
    | none => simp only [exec, wrapVal_run, writeNext_run, wrap_advance, adv, hw, this]
  | .read k e pos n, _ =>
    left
    have : ∀ o, (Buffer.Read k e o n s).2.b.buf = s.b.buf := by
      intro o; rw [buffer_read_run h]; split <;> rfl
    cases pos with
    | some o => simp only [exec, wrapVal_run, hw, this]
    | none => simp only [exec, wrapVal_run, readNext_run, wrap_advance, adv, hw, this]
  | .writeBytes pos src, hv =>
    left
    have : ∀ o, (Buffer.WriteBytes o src s).2.b.buf = s.b.buf := by
      intro o; rw [buffer_writeBytes_run h o src (SliceOK.len_le_max hv)]; split <;> rfl
    cases pos with
    | some o => simp only [exec, wrapVal_run, hw, this]
    | none => simp only [exec, wrapVal_run, writeBytesNext_run, wrap_advance, adv, hw, this]
  | .writeByte pos v, _ =>
    left
    have : ∀ o, (Buffer.WriteByte o v s).2.b.buf = s.b.buf := by
      intro o; rw [buffer_writeByte_run h]; split <;> rfl
    cases pos with
    | some o => simp only [exec, wrapVal_run, hw, this]
    | none => simp only [exec, wrapVal_run, writeByteNext_run, wrap_advance, adv, hw, this]
  | .readBytes pos n, _ =>
    left
    have : ∀ o, (Buffer.ReadBytes o n s).2.b.buf = s.b.buf := by
      intro o; rw [buffer_readBytes_run h]; split <;> rfl
    cases pos with
    | some o => simp only [exec, wrapVal_run, hw, this]
    | none => simp only [exec, wrapVal_run, readBytesNext_run, wrap_advance, adv, hw, this]
  | .readByte pos, _ =>
    left
    have : ∀ o, (Buffer.ReadByte o s).2.b.buf = s.b.buf := by
      intro o; rw [buffer_readByte_run h]; split <;> rfl
    cases pos with
    | some o => simp only [exec, wrapVal_run, hw, this]
    | none => simp only [exec, wrapVal_run, readByteNext_run, wrap_advance, adv, hw, this]
  | .readBit pos, _ =>
    left
    have : ∀ o, (Buffer.ReadBit o s).2.b.buf = s.b.buf := by
      intro o; rw [buffer_readBit_run h]; split <;> rfl
    cases pos with
    | some o => simp only [exec, wrapVal_run, hw, this]
    | none => simp only [exec, wrapVal_run, readBitNext_run, wrap_advanceBit, advB, hw, this]
  | .readBits pos n, _ =>
    left
    have : ∀ o, (Buffer.ReadBits o n s).2.b.buf = s.b.buf := by
      intro o; rw [buffer_readBits_run h]; split <;> rfl
    cases pos with
    | some o => simp only [exec, wrapVal_run, hw, this]
    | none => simp only [exec, wrapVal_run, readBitsNext_run, wrap_advanceBit, advB, hw, this]
  | .setBit pos, _ =>
    left
    have : ∀ o, (Buffer.SetBit o s).2.b.buf = s.b.buf := by
      intro o; rw [buffer_setBit_run h]; exact hbit _ _ _
    cases pos with
    | some o => simp only [exec, wrapVal_run, hw, this]
    | none => simp only [exec, wrapVal_run, setBitNext_run, wrap_advanceBit, advB, hw, this]
  | .clearBit pos, _ =>
    left
    have : ∀ o, (Buffer.ClearBit o s).2.b.buf = s.b.buf := by
      intro o; rw [buffer_clearBit_run h]; exact hbit _ _ _
    cases pos with
    | some o => simp only [exec, wrapVal_run, hw, this]
    | none => simp only [exec, wrapVal_run, clearBitNext_run, wrap_advanceBit, advB, hw, this]
  | .flipBit pos, _ =>
    left
    have : ∀ o, (Buffer.FlipBit o s).2.b.buf = s.b.buf := by
      intro o; rw [buffer_flipBit_run h]; exact hbit _ _ _
    cases pos with
    | some o => simp only [exec, wrapVal_run, hw, this]
    | none => simp only [exec, wrapVal_run, flipBitNext_run, wrap_advanceBit, advB, hw, this]
  | .setBits pos d n, _ =>
    left
    have : ∀ o, (Buffer.SetBits o d n s).2.b.buf = s.b.buf := by
      intro o; rw [buffer_setBits_run h]; split
      · rfl
      · dsimp only; split <;> rfl
    cases pos with
    | some o => simp only [exec, wrapVal_run, hw, this]
    | none => simp only [exec, wrapVal_run, setBitsNext_run, wrap_advanceBit, advB, hw, this]
  | .clearAll, _ => left; simp only [exec, wrapVal_run, hw]; exact hall _ _ (mini_clearAll h.ok) (mini_clearAll_empty h.ok)
  | .setAll, _ => left; simp only [exec, wrapVal_run, hw]; exact hall _ _ (mini_setAll h.ok) (mini_setAll_empty h.ok)
  | .flipAll, _ => left; simp only [exec, wrapVal_run, hw]; exact hall _ _ (mini_flipAll h.ok) (mini_flipAll_empty h.ok)
  | .seekByte o r, _ => left; simp only [exec, wrapVal_run, buffer_seekByte_run]; rfl
  | .seekBit o r, _ => left; simp only [exec, wrapVal_run, buffer_seekBit_run]; rfl
  | .afterByte [], _ => left; rfl
  | .afterByte (_ :: _), _ => left; rfl
  | .afterBit [], _ => left; rfl
  | .afterBit (_ :: _), _ => left; rfl
  | .alignByte, _ => left; rfl
  | .alignBit, _ => left; rfl
  | .truncateLeft n, _ =>
    left; simp only [exec, wrapVal_run, hw, buffer_truncateLeft_run h]; split
    · rfl
    · split <;> rfl
  | .truncateRight n, _ =>
    left; simp only [exec, wrapVal_run, hw, buffer_truncateRight_run h]; split
    · rfl
    · split <;> rfl
  | .grow n, _ =>
    simp only [exec, wrapVal_run, hw, buffer_grow_run h]
    split
    · left; rfl
    · split
      · left; rfl
      · split
        · right; exact ⟨n, rfl, by omega, rfl⟩
        · left; rfl
  | .refresh, _ => left; simp only [exec, wrapVal_run, hw, buffer_refresh_run]; rfl
  | .reset, _ => left; simp only [exec, wrapVal_run, hw, buffer_reset_run]; rfl
  | .bytes, _ => left; rfl
  | .byteCapacity, _ => left; rfl
  | .bitCapacity, _ => left; rfl
  | .byteOffset, _ => left; rfl
  | .bitOffset, _ => left; rfl

/-- C36: as long as the content stays in the same array (`C36_stays_in_place`), a view shows what the buffer holds:
after any history, byte `i` of the view is the byte of the content at the same place, if that place is still part of
the content. -/
theorem C36_views_live {s : St} (h : WF s) {t : Slice} (ht : Inside t s.b.buf) (ops : List Op) (hv : ValidAll ops s)
    (hstay : (execAll ops s).2.b.buf.arr = s.b.buf.arr) (i : Nat) (hi : i < t.len)
    (h1 : (execAll ops s).2.b.buf.off ≤ t.off + i)
    (h2 : t.off + i < (execAll ops s).2.b.buf.off + (execAll ops s).2.b.buf.len) :
    ((execAll ops s).2.mem.view t)[i]? = (execAll ops s).2.bytes[t.off + i - (execAll ops s).2.b.buf.off]? := by
  have _ := history_ok h ops hv
  show (((Heap.array _ _).drop _).take _)[_]? = (((Heap.array _ _).drop _).take _)[_]?
  rw [hstay, ht.1, List.getElem?_take, List.getElem?_take, List.getElem?_drop, List.getElem?_drop, if_pos hi, if_pos (by omega)]
  congr 1; omega

/-- C36: once a `Grow` has moved the content elsewhere, no later call changes what an old slice shows, and
no store through an old slice changes the buffer. -/
theorem C36_detached {s : St} (h : WF s) {n : Int64} {s' : St} (hg : Buffer.Grow n s = (.ok (), s'))
    (hn : (s.b.buf.cap : Int) - s.b.buf.len < n.toInt) {t : Slice} (ht : SliceOK s.mem t) (ops : List Op) (hv : ValidAll ops s') :
    (execAll ops s').2.mem.view t = s.mem.view t ∧
    ∀ i v r m', storeAt t i v (execAll ops s').2.mem = (r, m') →
      ({ (execAll ops s').2 with mem := m' } : St).bytes = (execAll ops s').2.bytes := by
  have h1 := step_ok h (.grow n) trivial
  have he : exec (.grow n) s = (.ok .unit, s') := by simp only [exec, wrapVal_run, hg, wrapRes]
  rw [he] at h1
  have hext : Extends s.mem s'.mem := by
    have hle := h.ok.len_le
    rw [buffer_grow_run h, if_neg (by omega), if_neg (by omega)] at hg
    split at hg
    · cases hg
      exact Extends.alloc _ _
    · cases hg
  have hnew : s.mem.arrays.length ≤ s'.b.buf.arr := by
    have hle := h.ok.len_le
    rw [buffer_grow_run h, if_neg (by omega), if_neg (by omega)] at hg
    split at hg
    · cases hg; exact Nat.le_refl _
    · cases hg
  obtain ⟨_, hI⟩ := history_ok h1.wf ops hv
  have hI2 := h1.iso.trans hI
  have hnew' : s.mem.arrays.length ≤ (execAll ops s').2.b.buf.arr := by
    have := hext.length
    rcases hI.place with ⟨p, _⟩ | p
    · rw [p]; exact hnew
    · exact Nat.le_trans this p
  have hext' : Extends s.mem (execAll ops s').2.mem := by
    refine ⟨hI2.more, fun a ha => ?_⟩
    rw [← hext.array a ha]
    apply List.ext_getElem?; intro i
    exact hI.outside a i (Nat.lt_of_lt_of_le ha hext.length) (.inl (by show a ≠ s'.b.buf.arr; omega))
  refine ⟨hext'.view_ok ht, fun i v r m' hst => ?_⟩
  by_cases hta : t.arr < s.mem.arrays.length
  · exact store_elsewhere (by omega) hst
  · have h1 := ht.fits; have h2 := ht.len_le
    rw [array_nil_of_ge (h := s.mem) (a := t.arr) (by omega)] at h1
    simp at h1
    unfold storeAt at hst
    rw [if_neg (by omega)] at hst
    cases hst; rfl

/-- A view of bytes 2 … 5 of `demo`. -/
def demoView : Slice := (Buffer.ReadBytes 2 4 demo).1.getD demoSrc

example : ((execAll [.writeByte (some 3) 0x77, .truncateLeft 1, .flipBit (some 9)] demo).2.mem.view demoView)[1]? = some 0x77 ∧
    ((execAll [.grow 9, .writeByte (some 3) 0x77] demo).2.mem.view demoView) = demo.mem.view demoView := by decide

/-! ## C38 -/

/-- C38: for every history, the outcomes the caller sees and the final content, spare bytes and cursors are those of the
reference machine. -/
theorem C38_history {s : St} (h : WF s) (ops : List Op) (hv : ValidAll ops s) :
    observed ops s = (Ref.run (lowerAll ops s) (abs s)).1 ∧
    abs (execAll ops s).2 = (Ref.run (lowerAll ops s) (abs s)).2 := by
  induction ops generalizing s with
  | nil => exact ⟨rfl, rfl⟩
  | cons op ops ih =>
    have h1 := step_ok h op hv.1
    obtain ⟨h2, h3⟩ := ih h1.wf hv.2
    rw [h1.state] at h2 h3
    refine ⟨?_, ?_⟩
    · show _ :: _ = _ :: _
      rw [h1.result, h2]
    · exact h3

/-- A slice whose bytes no call on the buffer can change. -/
def Apart (t u : Slice) : Prop :=
  t.arr ≠ u.arr ∨ t.off + t.cap ≤ u.off ∨ u.off + u.cap ≤ t.off ∨ t.cap = 0 ∨ u.cap = 0

theorem Apart.symm {t u : Slice} (h : Apart t u) : Apart u t := by unfold Apart at *; omega

theorem Iso.apart {s s' : St} (h : Iso s s') {t : Slice} (ht : SliceOK s.mem t) (ha : Apart t s.b.buf) : Apart t s'.b.buf := by
  have h1 := ht.fits
  unfold Apart at *
  rcases h.place with ⟨p1, p2, p3⟩ | p
  · rw [p1]; omega
  · by_cases hc : t.arr < s.mem.arrays.length
    · omega
    · rw [array_nil_of_ge (h := s.mem) (a := t.arr) (by omega)] at h1
      simp at h1; omega

theorem Iso.keeps {s s' : St} (h : Iso s s') {t : Slice} (ht : SliceOK s.mem t) (ha : Apart t s.b.buf) :
    s'.mem.window t = s.mem.window t := by
  have h1 := ht.fits
  by_cases hc : t.arr < s.mem.arrays.length
  · apply List.ext_getElem?
    intro i
    unfold Heap.window
    rw [List.getElem?_take, List.getElem?_take, List.getElem?_drop, List.getElem?_drop]
    split
    · apply h.outside _ _ hc
      unfold Apart at ha
      omega
    · rfl
  · rw [array_nil_of_ge (h := s.mem) (a := t.arr) (by omega)] at h1
    simp at h1
    unfold Heap.window
    rw [show t.cap = 0 by omega, List.take_zero, List.take_zero]

theorem view_of_window {m m' : Heap} {t : Slice} (hl : t.len ≤ t.cap) (h : m'.window t = m.window t) : m'.view t = m.view t := by
  have e : ∀ k : Heap, k.view t = (k.window t).take t.len := by
    intro k; unfold Heap.view Heap.window; rw [List.take_take, Nat.min_eq_left hl]
  rw [e, e, h]

/-- The argument slice of a call lies outside the buffer. -/
def Op.Foreign (u : Slice) : Op → Prop
  | .writeBytes _ src => Apart src u
  | _ => True

theorem lower_same {op : Op} {m m' : Heap} (h : ∀ pos src, op = .writeBytes pos src → m'.view src = m.view src) :
    op.lower m' = op.lower m := by
  cases op <;> first | rfl | (simp only [Op.lower]; rw [h _ _ rfl])

/-- C38 with argument slices from elsewhere: then the reference calls are fixed in advance. -/
theorem C38_history_foreign {s : St} (h : WF s) (ops : List Op) (hv : ∀ op ∈ ops, op.Valid s.mem)
    (hf : ∀ op ∈ ops, op.Foreign s.b.buf) :
    observed ops s = (Ref.run (ops.map (Op.lower s.mem)) (abs s)).1 ∧
    abs (execAll ops s).2 = (Ref.run (ops.map (Op.lower s.mem)) (abs s)).2 := by
  have key : ∀ (ops : List Op) (s : St), WF s → (∀ op ∈ ops, op.Valid s.mem) → (∀ op ∈ ops, op.Foreign s.b.buf) →
      lowerAll ops s = ops.map (Op.lower s.mem) := by
    intro ops
    induction ops with
    | nil => intros; rfl
    | cons op ops ih =>
      intro s h hv hf
      have h1 := step_ok h op (hv op (List.mem_cons_self ..))
      have hv' : ∀ o ∈ ops, o.Valid (exec op s).2.mem := fun o ho => (hv o (List.mem_cons_of_mem _ ho)).mono h1.iso.slices
      have hf' : ∀ o ∈ ops, o.Foreign (exec op s).2.b.buf := by
        intro o ho
        have a := hv o (List.mem_cons_of_mem _ ho); have b := hf o (List.mem_cons_of_mem _ ho)
        cases o <;> first | trivial | exact h1.iso.apart a b
      show _ :: _ = _ :: _
      rw [ih _ h1.wf hv' hf']
      congr 1
      apply List.map_congr_left
      intro o ho
      apply lower_same
      intro pos src e
      subst e
      have a := hv _ (List.mem_cons_of_mem _ ho); have b := hf _ (List.mem_cons_of_mem _ ho)
      exact view_of_window (SliceOK.len_le a) (h1.iso.keeps a b)
  rw [← key ops s h hv hf]
  exact C38_history h ops (validAll_of_valid h ops hv)

/-- C38 spelled out for the final state: content, capacities and offsets. -/
theorem C38_final_state {s : St} (h : WF s) (ops : List Op) (hv : ValidAll ops s) :
    ∃ r : Ref.Ref, r = (Ref.run (lowerAll ops s) ⟨s.bytes, (s.mem.window s.b.buf).drop s.b.buf.len,
        s.b.off.toInt, s.b.boff.toInt⟩).2 ∧
      (execAll ops s).2.bytes = r.data ∧ (execAll ops s).2.b.cap.toInt = r.data.length ∧
      (execAll ops s).2.b.bcap.toInt = 8 * r.data.length ∧ (execAll ops s).2.b.off.toInt = r.cur ∧
      (execAll ops s).2.b.boff.toInt = r.bcur := by
  have h1 := (C38_history h ops hv).2
  have w := (history_ok h ops hv).1
  refine ⟨_, rfl, ?_⟩
  have e : (Ref.run (lowerAll ops s) ⟨s.bytes, (s.mem.window s.b.buf).drop s.b.buf.len,
        s.b.off.toInt, s.b.boff.toInt⟩).2 = abs (execAll ops s).2 := h1.symm
  rw [e, w.cap_toInt, w.bcap_toInt]
  have := length_bytes w.ok
  exact ⟨rfl, by rw [← this]; rfl, by rw [← this]; rfl, rfl, rfl⟩

example : ValidAll [.writeBytes (some 2) demoSrc, .setBits none 5 3, .read .u16 .be none 2, .grow 40, .readByte (some 60)] demo :=
  validAll_of_valid demo_wf _ (by
    intro op ho
    simp only [List.mem_cons, List.not_mem_nil, or_false] at ho
    rcases ho with rfl | rfl | rfl | rfl | rfl <;> first | trivial | exact demoSrc_ok)

/-! ## C48 -/

/-- C48: no history of calls changes a byte outside the window of the buffer's own backing array, or removes memory. -/
theorem C48_outside_unchanged {s : St} (h : WF s) (ops : List Op) (hv : ValidAll ops s) :
    s.mem.arrays.length ≤ (execAll ops s).2.mem.arrays.length ∧
    Untouched s.mem (execAll ops s).2.mem s.b.buf.arr s.b.buf.off (s.b.buf.off + s.b.buf.cap) ∧
    ∀ t, SliceOK s.mem t → Apart t s.b.buf → (execAll ops s).2.mem.view t = s.mem.view t := by
  have hI := (history_ok h ops hv).2
  exact ⟨hI.more, fun c i hc hi => hI.outside c i hc hi, fun t ht ha => view_of_window ht.len_le (hI.keeps ht ha)⟩

/-- Several buffers in one memory. -/
structure World where
  mem : Heap
  bufs : List Buf

/-- Buffer number `j` of a world. -/
def World.at (w : World) (j : Nat) : Option St := w.bufs[j]?.map fun b => ⟨w.mem, b⟩

/-- A call on buffer number `i` (nothing happens if there is none). -/
def World.call (w : World) (i : Nat) (op : Op) : World :=
  match w.at i with
  | none => w
  | some s => { mem := (exec op s).2.mem, bufs := w.bufs.set i (exec op s).2.b }

/-- A sequence of calls on the buffers of a world. -/
def World.calls (w : World) : List (Nat × Op) → World
  | [] => w
  | (i, op) :: l => (w.call i op).calls l

/-- All argument slices exist at the time of the call. -/
def World.ValidCalls (w : World) : List (Nat × Op) → Prop
  | [] => True
  | (i, op) :: l => op.Valid w.mem ∧ (w.call i op).ValidCalls l

/-- What the callers of buffer `j` see. -/
def World.seen (w : World) (j : Nat) : List (Nat × Op) → List (Res Ref.Val)
  | [] => []
  | (i, op) :: l =>
    match w.at i with
    | none => (w.call i op).seen j l
    | some s => if i = j then obsRes (exec op s).2.mem (exec op s).1 :: (w.call i op).seen j l else (w.call i op).seen j l

/-- The calls made on buffer `j`. -/
def World.mine (w : World) (j : Nat) : List (Nat × Op) → List Ref.Op
  | [] => []
  | (i, op) :: l => if i = j then op.lower w.mem :: (w.call i op).mine j l else (w.call i op).mine j l

/-- Every buffer is well-formed and no two have overlapping windows. -/
structure World.OK (w : World) : Prop where
  wf : ∀ j s, w.at j = some s → WF s
  apart : ∀ i j s t, i ≠ j → w.at i = some s → w.at j = some t → Apart s.b.buf t.b.buf

theorem World.at_call_self {w : World} {i : Nat} {op : Op} {s : St} (h : w.at i = some s) :
    (w.call i op).at i = some (exec op s).2 := by
  have hi : i < w.bufs.length := by
    unfold World.at at h
    rcases hx : w.bufs[i]? with _ | b
    · rw [hx] at h; cases h
    · exact (List.getElem?_eq_some_iff.mp hx).1
  unfold World.call
  rw [h]
  simp only [World.at]
  rw [List.getElem?_set, if_pos rfl, if_pos hi]; rfl

theorem World.at_call_other {w : World} {i j : Nat} {op : Op} {s : St} (h : w.at i = some s) (hne : i ≠ j) :
    (w.call i op).at j = (w.at j).map fun t => ⟨(exec op s).2.mem, t.b⟩ := by
  unfold World.call
  rw [h]
  simp only [World.at]
  rw [List.getElem?_set, if_neg hne]
  cases w.bufs[j]? <;> rfl

theorem World.at_mem {w : World} {j : Nat} {s : St} (h : w.at j = some s) : s.mem = w.mem := by
  unfold World.at at h
  cases hx : w.bufs[j]? with
  | none => rw [hx] at h; cases h
  | some b => rw [hx] at h; cases h; rfl

theorem World.call_ok {w : World} (h : w.OK) (i : Nat) (op : Op) (hv : op.Valid w.mem) : (w.call i op).OK := by
  rcases hi : w.at i with _ | s
  · have : w.call i op = w := by unfold World.call; rw [hi]
    rw [this]; exact h
  · have hs := h.wf i s hi
    have hm := World.at_mem hi
    have h1 := step_ok hs op (by rw [hm]; exact hv)
    have other : ∀ j t', i ≠ j → (w.call i op).at j = some t' → ∃ t, w.at j = some t ∧ t' = ⟨(exec op s).2.mem, t.b⟩ := by
      intro j t' hne ht
      rw [World.at_call_other hi hne] at ht
      rcases hj : w.at j with _ | t
      · rw [hj] at ht; cases ht
      · rw [hj] at ht; cases ht; exact ⟨t, rfl, rfl⟩
    refine ⟨fun j t' ht => ?_, fun j k t' u' hne ht hu => ?_⟩
    · by_cases hij : i = j
      · subst hij
        rw [World.at_call_self hi] at ht; cases ht; exact h1.wf
      · obtain ⟨t, h2, rfl⟩ := other j t' hij ht
        have w2 := h.wf j t h2
        exact ⟨h1.iso.slices _ (by rw [hm, ← World.at_mem h2]; exact w2.ok), w2.cap, w2.bcap⟩
    · by_cases hij : i = j
      · subst hij
        rw [World.at_call_self hi] at ht; cases ht
        obtain ⟨u, h2, rfl⟩ := other k u' hne hu
        have w2 := h.wf k u h2
        exact (h1.iso.apart (by rw [hm, ← World.at_mem h2]; exact w2.ok) (h.apart k i u s (fun e => hne e.symm) h2 hi)).symm
      · obtain ⟨t, h2, rfl⟩ := other j t' hij ht
        have w2 := h.wf j t h2
        by_cases hik : i = k
        · subst hik
          rw [World.at_call_self hi] at hu; cases hu
          exact h1.iso.apart (by rw [hm, ← World.at_mem h2]; exact w2.ok) (h.apart j i t s hne h2 hi)
        · obtain ⟨u, h3, rfl⟩ := other k u' hik hu
          exact h.apart j k t u hne h2 h3

/-- C48: in any interleaving of calls on buffers with disjoint windows, each buffer behaves as if it were alone: its
outcomes and final state are those of its own reference machine, fed with its own calls. -/
theorem C48_buffers_independent {w : World} (h : w.OK) (l : List (Nat × Op)) (hv : w.ValidCalls l) (j : Nat) (s : St)
    (hj : w.at j = some s) :
    w.seen j l = (Ref.run (w.mine j l) (abs s)).1 ∧
    ∃ s', (w.calls l).at j = some s' ∧ abs s' = (Ref.run (w.mine j l) (abs s)).2 := by
  induction l generalizing w s with
  | nil => exact ⟨rfl, s, hj, rfl⟩
  | cons c l ih =>
    obtain ⟨i, op⟩ := c
    have hok := World.call_ok h i op hv.1
    by_cases hij : i = j
    · subst hij
      have hm := World.at_mem hj
      have h1 := step_ok (h.wf i s hj) op (by rw [hm]; exact hv.1)
      obtain ⟨h2, s', h3, h4⟩ := ih hok hv.2 _ (World.at_call_self hj)
      have e1 : w.seen i ((i, op) :: l) = obsRes (exec op s).2.mem (exec op s).1 :: (w.call i op).seen i l := by
        show (match w.at i with | none => _ | some s => _) = _
        rw [hj]; exact if_pos rfl
      have e2 : w.mine i ((i, op) :: l) = op.lower w.mem :: (w.call i op).mine i l := if_pos rfl
      rw [h1.state] at h2 h4
      rw [e1, e2, ← hm]
      exact ⟨by rw [h1.result, h2]; rfl, s', h3, h4⟩
    · have e2 : w.mine j ((i, op) :: l) = (w.call i op).mine j l := if_neg hij
      rcases hi : w.at i with _ | t
      · have e0 : w.call i op = w := by unfold World.call; rw [hi]
        have e1 : w.seen j ((i, op) :: l) = (w.call i op).seen j l := by
          show (match w.at i with | none => _ | some s => _) = _
          rw [hi]
        rw [e1, e2]
        exact ih hok hv.2 s (by rw [e0]; exact hj)
      · have e1 : w.seen j ((i, op) :: l) = (w.call i op).seen j l := by
          show (match w.at i with | none => _ | some s => _) = _
          rw [hi]; exact if_neg hij
        rw [e1, e2]
        have hm := World.at_mem hi
        have hmj := World.at_mem hj
        have h1 := step_ok (h.wf i t hi) op (by rw [hm]; exact hv.1)
        have hs := h.wf j s hj
        have hat := World.at_call_other (op := op) hi hij
        rw [hj] at hat
        have hw := h1.iso.keeps (t := s.b.buf) (by rw [hm, ← hmj]; exact hs.ok) (h.apart j i s t (fun e => hij e.symm) hj hi)
        rw [hm, ← hmj] at hw
        have habs : abs ⟨(exec op t).2.mem, s.b⟩ = abs s := by
          unfold abs
          rw [show (⟨(exec op t).2.mem, s.b⟩ : St).bytes = s.bytes from view_of_window hs.ok.len_le hw]
          simp only [hw]
        have := ih hok hv.2 _ hat
        rw [habs] at this
        exact this

/-- Two buffers on the two arrays of `demo`. -/
def demoWorld : World := { mem := demo.mem, bufs := [demo.b, ⟨demoSrc, 0, 3, 0, 24⟩] }

example : demoWorld.OK := by
  refine ⟨fun j s h => ?_, fun i j s t hne hs ht => ?_⟩
  · match j with
    | 0 => cases h; exact demo_wf
    | 1 => cases h; exact ⟨⟨by decide, by decide, by decide⟩, by decide, by decide⟩
    | _ + 2 => cases h
  · match i, j with
    | 0, 0 => exact absurd rfl hne
    | 1, 1 => exact absurd rfl hne
    | 0, 1 => cases hs; cases ht; exact .inl (by decide)
    | 1, 0 => cases hs; cases ht; exact .inl (by decide)
    | _ + 2, _ => cases hs
    | 0, _ + 2 => cases ht
    | 1, _ + 2 => cases ht

/-! ## C49 -/

/-- C49: in a reachable state `Refresh` changes nothing. -/
theorem C49_refresh_noop {s : St} (h : Reachable s) : Buffer.Refresh s = (.ok (), s) := by
  rw [buffer_refresh_run, refit_self (reachable_wf h)]

example : Buffer.Refresh demoNew = (.ok (), demoNew) :=
  C49_refresh_noop (.new (slices := [demoSrc]) (by decide)
    (by intro t ht; rw [List.mem_singleton.mp ht]; exact demoSrc_ok) demoNew_run)

end Crunch.V3
