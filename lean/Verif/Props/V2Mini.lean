import Verif.Props.V2
import Verif.Props.Mini
import Verif.Props.Resize
import Verif.Lemmas.V2Step
import Verif.Lemmas.V2New

/-!
# v2 `MiniBuffer`, and histories of calls on the v2 buffers (C76, C78, C79)
-/

namespace Crunch.V2
open Spec
open V3 (St WF Outs Val abs obsRes Iso demo demo_wf demoSrc demoSrc_ok demoOuts)
open V3.Mini (callOut)

/-! ## C76 -/

/-- C76: every v2 `MiniBuffer` method except `WriteBytes`, `Grow` and `Reset` is, for all arguments, states and previous
contents of its result variable, the v3 `MiniBuffer` method with the same meaning. -/
theorem C76_mini_agrees (o : Outs) (op : Op2) (op3 : V3.Op) (h : toV3 op = some op3) (hw : ∀ p src, op ≠ .writeBytes p src)
    (hg : ∀ n, op ≠ .grow n) (hr : op ≠ .reset) : miniCall o op = V3.miniCall o op3 := by
  apply miniCall_v3 o op op3 h
  cases op <;> first | rfl | exact absurd rfl (hw _ _) | exact absurd rfl (hg _) | exact absurd rfl hr

example : miniCall (demoOuts 5 0) (.setBit none 1) = V3.miniCall (demoOuts 5 0) (.setBit none) :=
  C76_mini_agrees _ _ _ rfl (fun _ _ e => nomatch e) (fun _ e => nomatch e) (fun e => nomatch e)

/-- C76 for `WriteBytes`: where the bytes fit and source and destination do not overlap in the wrong way, v2 does what
v3 does; where they do not fit, v3 silently stores what fits and v2 stores the same bytes and then panics. -/
theorem C76_writeBytes {s : St} (h : WF s) (off : Int64) {src : Slice} (hs : SliceOK s.mem src) (hn : 0 < src.len)
    (ha : src.arr ≠ s.b.buf.arr ∨ s.b.buf.off + off.toInt ≤ src.off) (h0 : 0 ≤ off.toInt) (h1 : off.toInt < s.bytes.length) :
    (Mini.WriteBytes off src s).2 = (V3.Mini.WriteBytes off src s).2 ∧
    (V3.Mini.WriteBytes off src s).1 = .ok () ∧
    (Mini.WriteBytes off src s).1 = if off.toInt + src.len ≤ s.bytes.length then .ok () else .panic .index := by
  have hl := length_view hs
  have hb := V3.length_bytes h.ok
  rw [hb] at h1 ⊢
  have key : ∀ m ≤ src.len, copied s off.toInt.toNat src m = (s.mem.view src).take m := by
    intro m hm
    rw [← copied_take s _ src hm, copied_eq_view hs (by rcases ha with h | h; exact .inl h; exact .inr (.inl (by omega)))]
  rw [show Mini.WriteBytes off src = Mini.write off src from rfl, mini_write_run h.ok off hs, V3.mini_writeBytes_run h.ok,
    if_neg (show ¬ (src.len = 0 ∨ off.toInt < 0 ∨ (s.b.buf.len : Int) ≤ off.toInt) by omega), if_pos (show 0 ≤ off.toInt ∧ off.toInt ≤ (s.b.buf.len : Int) from ⟨h0, by omega⟩)]
  by_cases hc : off.toInt + src.len ≤ s.b.buf.len
  · rw [if_pos hc, if_pos hc, key _ (Nat.le_refl _), List.take_of_length_le (by omega), List.take_of_length_le (by omega)]
    exact ⟨rfl, rfl, rfl⟩
  · rw [if_neg hc, if_neg hc, key _ (by omega)]
    exact ⟨rfl, rfl, rfl⟩

/-- Three bytes at the last position: both store one, only v2 panics. -/
example : (Mini.WriteBytes 11 demoSrc demo).2 = (V3.Mini.WriteBytes 11 demoSrc demo).2 ∧
    (V3.Mini.WriteBytes 11 demoSrc demo).1 = .ok () ∧ (Mini.WriteBytes 11 demoSrc demo).1 = .panic .index ∧
    (Mini.WriteBytes 11 demoSrc demo).2.bytes = [3, 4, 5, 6, 7, 8, 9, 10, 11, 12, 13, 0xAA] := by
  obtain ⟨a, b, c⟩ := C76_writeBytes demo_wf 11 demoSrc_ok (by decide) (.inl (by decide)) (by decide) (by decide)
  exact ⟨a, b, c, by decide +kernel⟩

/-- C76 for `WriteBytesNext`: where the bytes fit v2 does what v3 does; where they do not, v3 stores what fits and advances, v2 stores
the same bytes and panics without advancing. -/
theorem C76_writeBytesNext {s : St} (h : WF s) {src : Slice} (hs : SliceOK s.mem src) (hn : 0 < src.len)
    (ha : src.arr ≠ s.b.buf.arr ∨ s.b.buf.off + s.b.off.toInt ≤ src.off) (h0 : 0 ≤ s.b.off.toInt) (h1 : s.b.off.toInt < s.bytes.length) :
    (s.b.off.toInt + src.len ≤ s.bytes.length → Mini.WriteBytesNext src s = V3.Mini.WriteBytesNext src s) ∧
    (s.bytes.length < s.b.off.toInt + src.len → Mini.WriteBytesNext src s = (.panic .index, (V3.Mini.WriteBytes s.b.off src s).2)) := by
  obtain ⟨e, e3, e2⟩ := C76_writeBytes h s.b.off hs hn ha h0 h1
  constructor
  · intro hc
    rw [if_pos hc] at e2
    show (Mini.WriteBytes s.b.off src >>= fun _ => Mini.seek (Int64.ofNat src.len) true) s =
      (V3.Mini.WriteBytes s.b.off src >>= fun _ => V3.Mini.SeekByte (Int64.ofNat src.len) true) s
    rw [bind_ok (Prod.ext e2 e), bind_ok (Prod.ext e3 rfl)]
    rfl
  · intro hc
    rw [if_neg (by omega)] at e2
    show (Mini.WriteBytes s.b.off src >>= fun _ => Mini.seek (Int64.ofNat src.len) true) s = _
    rw [bind_panic (Prod.ext e2 e)]

/-- Three bytes at position 3, and at the last position. -/
example : Mini.WriteBytesNext demoSrc demo = V3.Mini.WriteBytesNext demoSrc demo ∧ (V3.Mini.WriteBytesNext demoSrc demo).2.b.off = 6 ∧
    (Mini.WriteBytesNext demoSrc { demo with b := { demo.b with off := 11 } }).1 = .panic .index :=
  ⟨(C76_writeBytesNext demo_wf demoSrc_ok (by decide) (.inl (by decide)) (by decide) (by decide)).1 (by decide +kernel), by decide +kernel,
    congrArg Prod.fst ((C76_writeBytesNext (s := { demo with b := { demo.b with off := 11 } }) ⟨demo_wf.ok, demo_wf.cap, demo_wf.bcap⟩ demoSrc_ok (by decide)
      (.inl (by decide)) (by decide) (by decide)).2 (by decide +kernel))⟩

/-- C76 for `Reset`: in both versions the buffer is empty afterwards and all offsets and capacities are zero; v2 turns to
a new array, v3 stays in the old one with all its capacity. -/
theorem C76_reset (s : St) :
    ∃ s2 s3, Mini.Reset s = (.ok (), s2) ∧ V3.Mini.Reset s = (.ok (), s3) ∧ s2.bytes = [] ∧ s3.bytes = [] ∧
      (s2.b.off, s2.b.cap, s2.b.boff, s2.b.bcap) = (0, 0, 0, 0) ∧ (s3.b.off, s3.b.cap, s3.b.boff, s3.b.bcap) = (0, 0, 0, 0) ∧
      s2.b.buf.arr = s.mem.arrays.length ∧ s2.b.buf.cap = 0 ∧ s3.b.buf.arr = s.b.buf.arr ∧ s3.b.buf.cap = s.b.buf.cap ∧
      s3.mem = s.mem ∧ ∀ c < s.mem.arrays.length, s2.mem.array c = s.mem.array c := by
  refine ⟨_, _, rfl, V3.buffer_reset_run (s := s), ?_, ?_, rfl, rfl, rfl, rfl, rfl, rfl, rfl, ?_⟩
  · rfl
  · simp [V3.St.bytes, Heap.view, Slice.withLen]
  · intro c hc; exact array_alloc_lt hc

example : (Mini.Reset demo).2.b.buf.arr = 2 ∧ (V3.Mini.Reset demo).2.b.buf.cap = 16 := ⟨rfl, by decide +kernel⟩

/-- C76 for `Grow`: both versions succeed, keep the content and end with `n` bytes more and the same offsets and capacities.
The new bytes are zero in v2; in v3 they are whatever the spare capacity holds when that is enough. -/
theorem C76_grow {s : St} (h : WF s) (n : Int64) (hn : 0 ≤ n.toInt) (hf : 2 * (s.b.buf.cap + n.toInt) ≤ maxAlloc) :
    ∃ s2 s3, Mini.Grow n s = (.ok (), s2) ∧ V3.Mini.Grow n s = (.ok (), s3) ∧
      s2.bytes = s.bytes ++ List.replicate n.toInt.toNat 0 ∧
      (s.b.buf.cap < s.bytes.length + n.toInt → s3.bytes = s2.bytes) ∧
      (s.bytes.length + n.toInt ≤ s.b.buf.cap → s3.bytes = (s.mem.window s.b.buf).take (s.bytes.length + n.toInt.toNat)) ∧
      (s2.b.off, s2.b.cap, s2.b.boff, s2.b.bcap) = (s3.b.off, s3.b.cap, s3.b.boff, s3.b.bcap) := by
  have hb := V3.length_bytes h.ok
  have hc := h.ok.len_le
  have hM := maxAlloc_lt
  obtain ⟨s2, e2, b2, c2, d2, o2, p2⟩ := C51_mini_grow_appends_zeros h.ok n hn (by omega)
  obtain ⟨s3, e3⟩ := (V3.C31_grow_outcome h n).2.1 hn (.inr hf)
  have e3' : V3.Mini.Grow n s = (.ok (), s3) := by
    rw [V3.buffer_grow_mini, panicIf_bind, if_neg (by rw [Int64.lt_iff_toInt_lt, toInt_zero']; omega)] at e3
    exact e3
  obtain ⟨_, _, _, o3, p3, c3, d3, _⟩ := V3.C31_grow h n e3
  obtain ⟨g1, g2⟩ := V3.C32_grown_zero_partial h n e3
  refine ⟨s2, s3, e2, e3', b2, fun hx => by rw [g1 hx, b2], g2, ?_⟩
  rw [o2, o3, p2, p3, Int64.toInt_inj.mp (c2.trans c3.symm), Int64.toInt_inj.mp (d2.trans d3.symm)]

example : (Mini.Grow 2 demo).2.bytes = [3, 4, 5, 6, 7, 8, 9, 10, 11, 12, 13, 14, 0, 0] ∧
    (V3.Mini.Grow 2 demo).2.bytes = [3, 4, 5, 6, 7, 8, 9, 10, 11, 12, 13, 14, 15, 16] := by decide +kernel

/-- C76 for the constructor. -/
theorem C76_constructor (slices : List Slice) (hl : slices.length ≤ maxAlloc) : Mini.NewMiniBuffer slices = V3.Mini.NewMiniBuffer slices :=
  newMini_eq slices (by have := maxAlloc_lt; omega)

/-! ## C78 -/

/-- Calls one after another on one buffer.  A panic is recovered and the list goes on, but not after a call that leaves the
mutex locked: the next call that takes the mutex would wait for ever. -/
def execAll : List Op2 → St → List (Res Val) × Sh
  | [], s => ([], ⟨s, false⟩)
  | op :: ops, s =>
    if ((exec op).run ⟨s, false⟩).2.locked then ([((exec op).run ⟨s, false⟩).1], ((exec op).run ⟨s, false⟩).2)
    else (((exec op).run ⟨s, false⟩).1 :: (execAll ops ((exec op).run ⟨s, false⟩).2.st).1, (execAll ops ((exec op).run ⟨s, false⟩).2.st).2)

/-- Argument slices exist at the time of their call. -/
def ValidAll : List Op2 → St → Prop
  | [], _ => True
  | op :: ops, s => op.Valid s.mem ∧ (((exec op).run ⟨s, false⟩).2.locked = false → ValidAll ops ((exec op).run ⟨s, false⟩).2.st)

/-- The outcomes of the calls, each as the caller sees it when the call returns. -/
def observed : List Op2 → St → List (Res Ref.Val)
  | [], _ => []
  | op :: ops, s =>
    obsRes ((exec op).run ⟨s, false⟩).2.st.mem ((exec op).run ⟨s, false⟩).1 ::
      if ((exec op).run ⟨s, false⟩).2.locked then [] else observed ops ((exec op).run ⟨s, false⟩).2.st

/-- The calls for the reference machine. -/
def lowerAll : List Op2 → St → List Ref.Op2
  | [], _ => []
  | op :: ops, s => lower s op :: lowerAll ops ((exec op).run ⟨s, false⟩).2.st

theorem sticks_iff (op : Op2) (s : St) (m : Heap) (r : Res Val) :
    Ref.sticks (lower s op) (obsRes m r) = (leaks op && r.runtime) := by
  cases r with
  | ok v => simp [obsRes, Ref.sticks, Res.runtime]
  | panic p =>
    cases op with
    | setBit q v =>
      simp only [lower]
      split
      · cases p <;> rfl
      · split <;> cases p <;> rfl
    | _ => cases p <;> rfl

theorem history2_ok {s : St} (h : WF s) (ops : List Op2) (hv : ValidAll ops s) :
    WF (execAll ops s).2.st ∧ Iso s (execAll ops s).2.st := by
  induction ops generalizing s with
  | nil => exact ⟨h, Iso.refl s⟩
  | cons op ops ih =>
    have h1 := step2_ok h op hv.1
    have e := exec_run op s
    have h2 : WF ((exec op).run ⟨s, false⟩).2.st := by rw [e]; exact h1.wf
    have h3 : Iso s ((exec op).run ⟨s, false⟩).2.st := by rw [e]; exact h1.iso
    unfold execAll
    by_cases hl : ((exec op).run ⟨s, false⟩).2.locked = true
    · rw [if_pos hl]; exact ⟨h2, h3⟩
    · rw [if_neg hl]
      obtain ⟨h4, h5⟩ := ih h2 (hv.2 (Bool.eq_false_iff.mpr hl))
      exact ⟨h4, h3.trans h5⟩

/-- C78: every history of v2 `Buffer` calls by one goroutine, with arbitrary arguments and panics recovered, gives the results
and the final state of the reference machine, and leaves the mutex locked exactly when the machine says so. -/
theorem C78_v2_history {s : St} (h : WF s) (ops : List Op2) (hv : ValidAll ops s) :
    Ref.run2 (lowerAll ops s) (abs s) = (observed ops s, abs (execAll ops s).2.st, (execAll ops s).2.locked) := by
  induction ops generalizing s with
  | nil => rfl
  | cons op ops ih =>
    have h1 := step2_ok h op hv.1
    have e := exec_run op s
    have h2 : WF ((exec op).run ⟨s, false⟩).2.st := by rw [e]; exact h1.wf
    have hres : (Ref.step2 (lower s op) (abs s)).1 = obsRes ((exec op).run ⟨s, false⟩).2.st.mem ((exec op).run ⟨s, false⟩).1 := by
      rw [e]; exact h1.result.symm
    have hst : (Ref.step2 (lower s op) (abs s)).2 = abs ((exec op).run ⟨s, false⟩).2.st := by rw [e]; exact h1.state.symm
    have hk : Ref.sticks (lower s op) (Ref.step2 (lower s op) (abs s)).1 = ((exec op).run ⟨s, false⟩).2.locked := by
      rw [hres, sticks_iff, C55_releases_lock_partial]
    unfold lowerAll observed execAll Ref.run2
    rw [hk]
    by_cases hl : ((exec op).run ⟨s, false⟩).2.locked = true
    · rw [if_pos hl, if_pos hl, if_pos hl, hres, hst, hl]
    · rw [if_neg hl, if_neg hl, if_neg hl, hres, hst, ih h2 (hv.2 (Bool.eq_false_iff.mpr hl))]

/-- C78: what the reference state says about the buffer. -/
theorem C78_final_state {s : St} (h : WF s) (ops : List Op2) (hv : ValidAll ops s) :
    let f := (execAll ops s).2.st
    let r := (Ref.run2 (lowerAll ops s) (abs s)).2.1
    f.bytes = r.data ∧ f.b.cap.toInt = r.data.length ∧ f.b.bcap.toInt = 8 * r.data.length ∧
      f.b.off.toInt = r.cur ∧ f.b.boff.toInt = r.bcur := by
  intro f r
  have w := (history2_ok h ops hv).1
  have e : r = abs f := by show (Ref.run2 _ _).2.1 = _; rw [C78_v2_history h ops hv]
  rw [e]
  refine ⟨rfl, ?_, ?_, rfl, rfl⟩
  · rw [w.cap_toInt]; exact (congrArg Nat.cast (V3.length_bytes w.ok)).symm
  · rw [w.bcap_toInt]; congr 1; exact (congrArg Nat.cast (V3.length_bytes w.ok)).symm

/-- C78: from the constructor on, after any history of calls the cached capacities are right, and nothing outside the
window the buffer had in its first array was changed. -/
theorem C78_from_new {s s' : St} {l : Bool} {slices : List Slice} (hl : slices.length ≤ maxAlloc) (hs : ∀ t ∈ slices, SliceOK s.mem t)
    (hn : (Buffer.NewBuffer slices).run ⟨s, false⟩ = (.ok (), ⟨s', l⟩)) (ops : List Op2) (hv : ValidAll ops s') :
    l = false ∧ s'.bytes = slices.flatMap s.mem.view ∧ s'.b.off = 0 ∧ s'.b.boff = 0 ∧
    (execAll ops s').2.st.b.cap.toInt = (execAll ops s').2.st.bytes.length ∧
    (execAll ops s').2.st.b.bcap.toInt = 8 * (execAll ops s').2.st.bytes.length ∧
    ∀ a i, a < s'.mem.arrays.length → (a ≠ s'.b.buf.arr ∨ i < s'.b.buf.off ∨ s'.b.buf.off + s'.b.buf.cap ≤ i) →
      ((execAll ops s').2.st.mem.array a)[i]? = (s'.mem.array a)[i]? := by
  have hM := maxAlloc_lt
  rw [newBuffer_v3 slices s (by omega) hs] at hn
  injection hn with h1 h2
  injection h2 with h2 h3
  have e : V3.Buffer.NewBuffer slices s = (.ok (), s') := by
    rw [← h1, ← h2]
  have w0 := V3.newBuffer_wf hl hs e
  obtain ⟨w, i⟩ := history2_ok w0 ops hv
  have c : s'.bytes = slices.flatMap s.mem.view ∧ s'.b.off = 0 ∧ s'.b.boff = 0 := by
    obtain ⟨a, b⟩ := V3.C34_constructor_concatenates s slices hl hs
    by_cases hx : (slices.flatMap s.mem.view).length ≤ maxAlloc
    · obtain ⟨t, e1, e2, _, _, e3, e4⟩ := a hx
      rw [e] at e1; cases e1; exact ⟨e2, e3, e4⟩
    · obtain ⟨t, e1⟩ := b (by omega)
      rw [e] at e1; cases e1
  refine ⟨h3.symm, c.1, c.2.1, c.2.2, ?_, ?_, fun a j ha ho => i.outside a j ha ho⟩
  · rw [w.cap_toInt, V3.length_bytes w.ok]
  · rw [w.bcap_toInt, V3.length_bytes w.ok]

/-- A history with a failing call that releases the mutex and, at the end, one that does not. -/
def demoHist2 : List Op2 :=
  [.write .u32 .le (some 2) [(7 : UInt32)], .readBits none 9, .setBit (some 3) 2, .writeBytes (some 4) demoHead, .grow 3,
    .writeByte (some 40) 1, .seek 2 true, .writeBytes none noBytes, .capacity]

theorem demoHist2_valid : ValidAll demoHist2 demo := by
  refine ⟨(by decide : _ ≤ _), fun _ => ⟨trivial, fun _ => ⟨trivial, fun _ => ⟨?_, fun _ => ⟨trivial, fun _ => ⟨trivial, fun _ => ⟨trivial, fun _ => ⟨?_, fun h => ?_⟩⟩⟩⟩⟩⟩⟩⟩
  · exact ⟨by decide +kernel, by decide +kernel, by decide +kernel⟩
  · exact ⟨by decide +kernel, by decide +kernel, by decide +kernel⟩
  · exact absurd h (by decide +kernel)

example : Ref.run2 (lowerAll demoHist2 demo) (abs demo) =
    (observed demoHist2 demo, abs (execAll demoHist2 demo).2.st, (execAll demoHist2 demo).2.locked) ∧
    (execAll demoHist2 demo).2.locked = true ∧ (execAll demoHist2 demo).1.length = 8 ∧
    (execAll demoHist2 demo).2.st.bytes = [3, 4, 7, 0, 3, 4, 7, 0, 3, 12, 13, 14, 0, 0, 0] :=
  ⟨C78_v2_history demo_wf demoHist2 demoHist2_valid, by decide +kernel, by decide +kernel, by decide +kernel⟩

/-! ## C79 -/

/-- Argument and result slices exist at the time of their call. -/
def MiniValid : List (Outs × Op2) → St → Prop
  | [], _ => True
  | (o, op) :: ops, s => match miniCall o op with
    | none => MiniValid ops s
    | some m => o.Valid ∧ op.Valid s.mem ∧ MiniValid ops (m s).2

/-- The outcomes of the calls, each as the caller sees it when the call returns. -/
def miniObserved : List (Outs × Op2) → St → List (Res Ref.Val)
  | [], _ => []
  | (o, op) :: ops, s => match miniCall o op with
    | none => miniObserved ops s
    | some m => obsRes (m s).2.mem (m s).1 :: miniObserved ops (m s).2

/-- The calls for the reference machine. -/
def miniLower : List (Outs × Op2) → St → List (Nat × List Nat × Ref.Op2)
  | [], _ => []
  | (o, op) :: ops, s => match miniCall o op with
    | none => miniLower ops s
    | some m => (o.u64.toNat, nums o op, lower s op) :: miniLower ops (m s).2

theorem mini_history2_ok {s : St} (h : WF s) (ops : List (Outs × Op2)) (hv : MiniValid ops s) :
    WF (miniAll ops s).2 ∧ Iso s (miniAll ops s).2 := by
  induction ops generalizing s with
  | nil => exact ⟨h, Iso.refl s⟩
  | cons x ops ih =>
    obtain ⟨o, op⟩ := x
    unfold miniAll
    unfold MiniValid at hv
    cases hc : miniCall o op with
    | none => rw [hc] at hv; exact ih h hv
    | some m =>
      rw [hc] at hv
      have h1 := mini_step2_ok h o hv.1 op hv.2.1 m hc
      obtain ⟨h2, h3⟩ := ih h1.wf hv.2.2
      exact ⟨h2, h1.iso.trans h3⟩

/-- C79: every history of v2 `MiniBuffer` calls, with arbitrary arguments and arbitrary previous contents of the result
variables, gives the results and the final state of the reference machine. -/
theorem C79_v2_mini_history {s : St} (h : WF s) (ops : List (Outs × Op2)) (hv : MiniValid ops s) :
    Ref.miniRun2 (miniLower ops s) (abs s) = (miniObserved ops s, abs (miniAll ops s).2) := by
  induction ops generalizing s with
  | nil => rfl
  | cons x ops ih =>
    obtain ⟨o, op⟩ := x
    unfold miniAll miniLower miniObserved
    unfold MiniValid at hv
    cases hc : miniCall o op with
    | none => rw [hc] at hv; exact ih h hv
    | some m =>
      rw [hc] at hv
      have h1 := mini_step2_ok h o hv.1 op hv.2.1 m hc
      have h2 := ih h1.wf hv.2.2
      simp only [Ref.miniRun2]
      rw [← h1.state, ← h1.result, h2]

/-- C79: what the reference state says about the buffer. -/
theorem C79_final_state {s : St} (h : WF s) (ops : List (Outs × Op2)) (hv : MiniValid ops s) :
    let f := (miniAll ops s).2
    let r := (Ref.miniRun2 (miniLower ops s) (abs s)).2
    f.bytes = r.data ∧ f.b.cap.toInt = r.data.length ∧ f.b.bcap.toInt = 8 * r.data.length ∧
      f.b.off.toInt = r.cur ∧ f.b.boff.toInt = r.bcur := by
  intro f r
  have w := (mini_history2_ok h ops hv).1
  have e : r = abs f := by show (Ref.miniRun2 _ _).2 = _; rw [C79_v2_mini_history h ops hv]
  rw [e]
  refine ⟨rfl, ?_, ?_, rfl, rfl⟩
  · rw [w.cap_toInt]; exact (congrArg Nat.cast (V3.length_bytes w.ok)).symm
  · rw [w.bcap_toInt]; congr 1; exact (congrArg Nat.cast (V3.length_bytes w.ok)).symm

/-- C79: from the constructor on, after any history of calls the cached capacities are right, and nothing outside the
window the buffer had in its first array was changed. -/
theorem C79_from_new {s s' : St} {slices : List Slice} (hl : slices.length ≤ maxAlloc) (hs : ∀ t ∈ slices, SliceOK s.mem t)
    (hn : Mini.NewMiniBuffer slices s = (.ok (), s')) (ops : List (Outs × Op2)) (hv : MiniValid ops s') :
    (miniAll ops s').2.b.cap.toInt = (miniAll ops s').2.bytes.length ∧
    (miniAll ops s').2.b.bcap.toInt = 8 * (miniAll ops s').2.bytes.length ∧
    ∀ a i, a < s'.mem.arrays.length → (a ≠ s'.b.buf.arr ∨ i < s'.b.buf.off ∨ s'.b.buf.off + s'.b.buf.cap ≤ i) →
      ((miniAll ops s').2.mem.array a)[i]? = (s'.mem.array a)[i]? := by
  rw [C76_constructor slices hl, V3.C43_constructors] at hn
  obtain ⟨w, i⟩ := mini_history2_ok (V3.newBuffer_wf hl hs hn) ops hv
  refine ⟨?_, ?_, fun a j ha ho => i.outside a j ha ho⟩
  · rw [w.cap_toInt, V3.length_bytes w.ok]
  · rw [w.bcap_toInt, V3.length_bytes w.ok]

/-- A history with failing calls and a result variable that is not zero. -/
def demoMini2 : List (Outs × Op2) :=
  [(demoOuts 5 1, .readBits (some 4) 8), (demoOuts 0 1, .read .u16 .be none 1), (demoOuts 0 0, .write .u32 .le (some 10) [(7 : UInt32)]),
   (demoOuts 0 0, .grow 3), (demoOuts 0 0, .writeBytes (some 13) demoHead), (demoOuts 0 0, .setBit none 9), (demoOuts 0 0, .readByte none)]

theorem demoMini2_valid : MiniValid demoMini2 demo :=
  ⟨V3.demoOuts_valid _ _ (by decide), trivial, V3.demoOuts_valid _ _ (by decide), trivial, V3.demoOuts_valid _ _ (by decide), (by decide : _ ≤ _),
    V3.demoOuts_valid _ _ (by decide), trivial, V3.demoOuts_valid _ _ (by decide), ⟨by decide +kernel, by decide +kernel, by decide +kernel⟩,
    V3.demoOuts_valid _ _ (by decide), trivial, trivial⟩

example : Ref.miniRun2 (miniLower demoMini2 demo) (abs demo) = (miniObserved demoMini2 demo, abs (miniAll demoMini2 demo).2) ∧
    (miniAll demoMini2 demo).2.bytes = [3, 4, 5, 6, 7, 8, 9, 10, 11, 12, 7, 0, 0, 3, 4] :=
  ⟨C79_v2_mini_history demo_wf demoMini2 demoMini2_valid, by decide +kernel⟩

end Crunch.V2
