import Verif.Lemmas.V1MiniStep

/-!
# Histories of calls on the v1 buffers (C94, C95)
-/

namespace Crunch.V1
open Spec
open V3 (St WF Outs Val abs obsRes Iso Kind dec demo demo_wf demoSrc demoSrc_ok demoOuts)
open V3.Mini (callOut)
open V2 (demoHead)

deriving instance DecidableEq for Ref.Val

/-! ## C94 -/

/-- Calls one after another on one buffer.  A panic is recovered and the list goes on, but not after a call that leaves the
mutex locked: the next call that takes the mutex would wait for ever. -/
def execAll1 : List Op1 → St → List (Res Val1) × Sh
  | [], s => ([], ⟨s, false⟩)
  | op :: ops, s =>
    if ((exec1 op).run ⟨s, false⟩).2.locked then ([((exec1 op).run ⟨s, false⟩).1], ((exec1 op).run ⟨s, false⟩).2)
    else (((exec1 op).run ⟨s, false⟩).1 :: (execAll1 ops ((exec1 op).run ⟨s, false⟩).2.st).1, (execAll1 ops ((exec1 op).run ⟨s, false⟩).2.st).2)

/-- Arguments exist at the time of their call. -/
def ValidAll1 : List Op1 → St → Prop
  | [], _ => True
  | op :: ops, s => op.Valid s.mem ∧ (((exec1 op).run ⟨s, false⟩).2.locked = false → ValidAll1 ops ((exec1 op).run ⟨s, false⟩).2.st)

/-- The outcomes of the calls, each as the caller sees it when the call returns. -/
def observed1 : List Op1 → St → List (Res Ref.Val)
  | [], _ => []
  | op :: ops, s =>
    obsRes ((exec1 op).run ⟨s, false⟩).2.st.mem (toRes ((exec1 op).run ⟨s, false⟩).1) ::
      if ((exec1 op).run ⟨s, false⟩).2.locked then [] else observed1 ops ((exec1 op).run ⟨s, false⟩).2.st

/-- The calls for the reference machine. -/
def lowerAll1 : List Op1 → St → List Ref.Op1
  | [], _ => []
  | op :: ops, s => lower1 s op :: lowerAll1 ops ((exec1 op).run ⟨s, false⟩).2.st

theorem history1_ok {s : St} (h : WF s) (ops : List Op1) (hv : ValidAll1 ops s) :
    WF (execAll1 ops s).2.st ∧ Iso s (execAll1 ops s).2.st := by
  induction ops generalizing s with
  | nil => exact ⟨h, Iso.refl s⟩
  | cons op ops ih =>
    have h1 := (step1_ok h op hv.1).is
    have h2 : WF ((exec1 op).run ⟨s, false⟩).2.st := h1.wf
    have h3 : Iso s ((exec1 op).run ⟨s, false⟩).2.st := h1.iso
    unfold execAll1
    by_cases hl : ((exec1 op).run ⟨s, false⟩).2.locked = true
    · rw [if_pos hl]; exact ⟨h2, h3⟩
    · rw [if_neg hl]
      obtain ⟨h4, h5⟩ := ih h2 (hv.2 (Bool.eq_false_iff.mpr hl))
      exact ⟨h4, h3.trans h5⟩

/-- C94: every history of v1 `Buffer` calls by one goroutine, with arbitrary arguments and panics recovered, gives the results
and the final state of the reference machine, and leaves the mutex locked exactly when the machine says so. -/
theorem C94_v1_history {s : St} (h : WF s) (ops : List Op1) (hv : ValidAll1 ops s) :
    Ref.run1 (lowerAll1 ops s) (abs s) = (observed1 ops s, abs (execAll1 ops s).2.st, (execAll1 ops s).2.locked) := by
  induction ops generalizing s with
  | nil => rfl
  | cons op ops ih =>
    have h1 := step1_ok h op hv.1
    have h2 : WF ((exec1 op).run ⟨s, false⟩).2.st := h1.is.wf
    have hres : (Ref.step1 (lower1 s op) (abs s)).1 = obsRes ((exec1 op).run ⟨s, false⟩).2.st.mem (toRes ((exec1 op).run ⟨s, false⟩).1) :=
      h1.is.result.symm
    have hst : (Ref.step1 (lower1 s op) (abs s)).2 = abs ((exec1 op).run ⟨s, false⟩).2.st := h1.is.state.symm
    have hk : Ref.sticks1 (lower1 s op) (Ref.step1 (lower1 s op) (abs s)).1 = ((exec1 op).run ⟨s, false⟩).2.locked := h1.locked.symm
    unfold lowerAll1 observed1 execAll1 Ref.run1
    rw [hk]
    by_cases hl : ((exec1 op).run ⟨s, false⟩).2.locked = true
    · rw [if_pos hl, if_pos hl, if_pos hl, hres, hst, hl]
    · rw [if_neg hl, if_neg hl, if_neg hl, hres, hst, ih h2 (hv.2 (Bool.eq_false_iff.mpr hl))]

/-! ## C73, exactly -/

/-- A call with this outcome has panicked inside the locked section of a write or of `Grow`: a write or `Grow` with a panic of the
runtime; of `WriteComplex` only an index out of range, as a type assertion that fails and a nil byte order end it before it takes the
mutex. -/
def endsLocked : Op1 → Res Val1 → Bool
  | .writeComplex .., .panic .index => true
  | .writeBytes .., r => r.runtime
  | .writeByte .., r => r.runtime
  | .grow _, r => r.runtime
  | _, _ => false

/-- C73, exactly when the mutex stays taken. -/
theorem C73_exactly_partial {s : St} (h : WF s) (op : Op1) (hv : op.Valid s.mem) :
    ((exec1 op).run ⟨s, false⟩).2.locked = endsLocked op ((exec1 op).run ⟨s, false⟩).1 := by
  have h1 := step1_ok h op hv
  have hl : ((exec1 op).run ⟨s, false⟩).2.locked = _ := h1.locked
  rw [hl, ← h1.is.result]
  show Ref.sticks1 (lower1 s op) (obsRes _ (toRes ((exec1 op).run ⟨s, false⟩).1)) = _
  generalize ((exec1 op).run ⟨s, false⟩).1 = r
  cases r with
  | ok v => cases op <;> rfl
  | panic p => cases op <;> cases p <;> first | rfl | (unfold lower1 toV2 V2.lower; dsimp only; split <;> (try split) <;> rfl)

/-- Each of the four kinds of calls can end locked; and `WriteComplex` with a nil byte order panics without taking the mutex. -/
example : endsLocked (.writeComplex (some 0) (.u16 []) Unsigned16 (some .le)) ((exec1 (.writeComplex (some 0) (.u16 []) Unsigned16 (some .le))).run ⟨demo, false⟩).1 = true ∧
    endsLocked (.grow (-1)) ((exec1 (.grow (-1))).run ⟨demo, false⟩).1 = true ∧
    (((exec1 (.writeComplex (some 0) (.u16 [1]) Unsigned16 none)).run ⟨demo, false⟩).1 matches .panic .nilDeref) ∧
    endsLocked (.writeComplex (some 0) (.u16 [1]) Unsigned16 none) ((exec1 (.writeComplex (some 0) (.u16 [1]) Unsigned16 none)).run ⟨demo, false⟩).1 = false := by
  decide +kernel

/-- C94: what the reference state says about the buffer. -/
theorem C94_final_state {s : St} (h : WF s) (ops : List Op1) (hv : ValidAll1 ops s) :
    let f := (execAll1 ops s).2.st
    let r := (Ref.run1 (lowerAll1 ops s) (abs s)).2.1
    f.bytes = r.data ∧ f.b.cap.toInt = r.data.length ∧ f.b.bcap.toInt = 8 * r.data.length ∧
      f.b.off.toInt = r.cur ∧ f.b.boff.toInt = r.bcur := by
  intro f r
  have w := (history1_ok h ops hv).1
  have e : r = abs f := by show (Ref.run1 _ _).2.1 = _; rw [C94_v1_history h ops hv]
  rw [e]
  refine ⟨rfl, ?_, ?_, rfl, rfl⟩
  · rw [w.cap_toInt]; exact (congrArg Nat.cast (V3.length_bytes w.ok)).symm
  · rw [w.bcap_toInt]; congr 1; exact (congrArg Nat.cast (V3.length_bytes w.ok)).symm

/-- C94: from the constructor on, after any history of calls the cached capacities are right, and nothing outside the
window the buffer had in its first array was changed. -/
theorem C94_from_new {s s' : St} {l : Bool} {slices : List Slice} (hl : slices.length ≤ maxAlloc) (hs : ∀ t ∈ slices, SliceOK s.mem t)
    (hn : (Buffer.NewBuffer slices).run ⟨s, false⟩ = (.ok (), ⟨s', l⟩)) (ops : List Op1) (hv : ValidAll1 ops s') :
    l = false ∧ s'.bytes = slices.flatMap s.mem.view ∧ s'.b.off = 0 ∧ s'.b.boff = 0 ∧
    (execAll1 ops s').2.st.b.cap.toInt = (execAll1 ops s').2.st.bytes.length ∧
    (execAll1 ops s').2.st.b.bcap.toInt = 8 * (execAll1 ops s').2.st.bytes.length ∧
    ∀ a i, a < s'.mem.arrays.length → (a ≠ s'.b.buf.arr ∨ i < s'.b.buf.off ∨ s'.b.buf.off + s'.b.buf.cap ≤ i) →
      ((execAll1 ops s').2.st.mem.array a)[i]? = (s'.mem.array a)[i]? := by
  have hM := maxAlloc_lt
  rw [C69_constructor] at hn
  have e : V3.Buffer.NewBuffer slices s = (.ok (), s') := by
    have hn' := hn
    rw [V2.newBuffer_v3 slices s (by omega) hs] at hn'
    injection hn' with h1 h2
    injection h2 with h2 h3
    rw [← h1, ← h2]
  have w0 := V3.newBuffer_wf hl hs e
  obtain ⟨a, b, c, d, _⟩ := V2.C78_from_new hl hs hn [] trivial
  obtain ⟨w, i⟩ := history1_ok w0 ops hv
  refine ⟨a, b, c, d, ?_, ?_, fun a j ha ho => i.outside a j ha ho⟩
  · rw [w.cap_toInt, V3.length_bytes w.ok]
  · rw [w.bcap_toInt, V3.length_bytes w.ok]

theorem elemsRes_ok {kd : Kind} {con : List kd.Ty → Any} {off n : Nat} {o : ByteOrder} {s : St} {a : Any}
    (h : elemsRes kd con off n o s = .ok a) : ∃ l : List kd.Ty, a = con l ∧ l.length = n := by
  unfold elemsRes at h
  split at h
  · exact nomatch h
  · split at h
    · rename_i h0; cases h; exact ⟨[], rfl, h0.symm⟩
    · split at h
      · split at h
        · cases h; exact ⟨_, rfl, by simp [dec]⟩
        · exact nomatch h
      · split at h <;> exact nomatch h

/-- What a successful `readComplex` returns. -/
def Typed (size n : Int64) (out : Any) : Prop := out.HasSize size ∧ out.count = n.toInt.toNat

/-- C94: the value `ReadComplex` returns has the dynamic type of the size asked for, and as many elements as asked for. -/
theorem C94_result_type {s : St} (h : WF s) (off n size : Int64) (o : ByteOrder) (out : Any) (t : Sh)
    (hr : (Buffer.ReadComplex off n size o).run ⟨s, false⟩ = (.ok out, t)) : Typed size n out := by
  change (Buffer.readComplex off n size o).run ⟨s, false⟩ = _ at hr
  by_cases h1 : size = Unsigned8
  · subst h1
    rw [readComplex_u8 h] at hr
    split at hr <;> cases hr
    exact ⟨rfl, rfl⟩
  by_cases h2 : size = Unsigned16
  · subst h2
    rw [readComplex_kind16, read_kind_run (kd := .u16) (ld := loadU16) h loadU16_loads (fun _ => rfl)] at hr
    injection hr with hr _
    split at hr
    · obtain ⟨l, rfl, hl⟩ := elemsRes_ok hr; exact ⟨rfl, hl⟩
    · exact nomatch hr
  by_cases h4 : size = Unsigned32
  · subst h4
    rw [readComplex_kind32, read_kind_run (kd := .u32) (ld := loadU32) h loadU32_loads (fun _ => rfl)] at hr
    injection hr with hr _
    split at hr
    · obtain ⟨l, rfl, hl⟩ := elemsRes_ok hr; exact ⟨rfl, hl⟩
    · exact nomatch hr
  by_cases h8 : size = Unsigned64
  · subst h8
    rw [readComplex_kind64, read_kind_run (kd := .u64) (ld := loadU64) h loadU64_loads (fun _ => rfl)] at hr
    injection hr with hr _
    split at hr
    · obtain ⟨l, rfl, hl⟩ := elemsRes_ok hr; exact ⟨rfl, hl⟩
    · exact nomatch hr
  rw [readComplex_other h _ _ _ _ h1 h2 h4 h8] at hr
  exact nomatch hr

/-- A history with failing calls that release the mutex and, at the end, one that does not. -/
def demoHist1 : List Op1 :=
  [.writeComplex (some 2) (.u32 [7]) Unsigned32 (some .le), .readBits none 0, .writeComplex none (.u16 [1]) Unsigned32 (some .le),
    .setBits (some 900) 5 (-3), .writeComplex (some 4) (.bytes demoHead) Unsigned8 none, .grow 3,
    .writeComplex none (.u16 [0x0102, 0x0304]) Unsigned16 (some .be), .writeComplex none (.u64 [1]) Unsigned64 none,
    .writeByte (some 40) 1, .writeComplex (some 1) (.u16 []) Unsigned16 none, .capacity]

theorem demoHist1_valid : ValidAll1 demoHist1 demo := by
  refine ⟨(by decide : _ ≤ _), fun _ => ⟨trivial, fun _ => ⟨(by decide : _ ≤ _), fun _ => ⟨trivial, fun _ => ⟨?_, fun _ => ⟨trivial, fun _ =>
    ⟨(by decide : _ ≤ _), fun _ => ⟨(by decide : _ ≤ _), fun _ => ⟨trivial, fun _ => ⟨(by decide : _ ≤ _), fun h => ?_⟩⟩⟩⟩⟩⟩⟩⟩⟩⟩
  · exact ⟨by decide +kernel, by decide +kernel, by decide +kernel⟩
  · exact absurd h (by decide +kernel)

example : Ref.run1 (lowerAll1 demoHist1 demo) (abs demo) =
    (observed1 demoHist1 demo, abs (execAll1 demoHist1 demo).2.st, (execAll1 demoHist1 demo).2.locked) ∧
    (execAll1 demoHist1 demo).2.locked = true ∧ (execAll1 demoHist1 demo).1.length = 10 ∧
    (execAll1 demoHist1 demo).2.st.bytes = [3, 4, 7, 1, 2, 3, 4, 0, 3, 12, 13, 14, 0, 0, 0] :=
  ⟨C94_v1_history demo_wf demoHist1 demoHist1_valid, by decide +kernel, by decide +kernel, by decide +kernel⟩

/-- A history with reads: the last two integers of the first read are made of spare bytes; the second has no byte order, the
third too many bytes, the fourth a size that is none. -/
def demoReads1 : List Op1 :=
  [.seek 8 false, .readComplex none 4 Unsigned16 (some .be), .readComplex (some 0) 2 Unsigned16 none,
   .readComplex (some 0) 3 Unsigned64 (some .le), .readComplex (some 0) 3 3 (some .le), .offset]

example : observed1 demoReads1 demo =
    [.ok .unit, .ok (.nums [0x0B0C, 0x0D0E, 0x0F10, 0x1112]), .panic .nilDeref, .panic .sliceBounds,
     .panic (.err BufferInvalidIntegerSizeError), .ok (.num 16)] := by
  have h := C94_v1_history demo_wf demoReads1
    ⟨trivial, fun _ => ⟨trivial, fun _ => ⟨trivial, fun _ => ⟨trivial, fun _ => ⟨trivial, fun _ => ⟨trivial, fun _ => trivial⟩⟩⟩⟩⟩⟩
  refine (congrArg Prod.fst h).symm.trans ?_
  decide +kernel

/-! ## C95 -/

/-- Calls one after another on one `MiniBuffer`, each with the previous contents of the variables for its result; a call of a
method `MiniBuffer` does not have is left out. -/
def miniAll1 : List (Outs × Any × Op1) → St → List (Res Val1) × St
  | [], s => ([], s)
  | (o, any, op) :: ops, s => match miniCall1 o any op with
    | none => miniAll1 ops s
    | some m => ((m s).1 :: (miniAll1 ops (m s).2).1, (miniAll1 ops (m s).2).2)

/-- Argument and result slices exist at the time of their call. -/
def MiniValid1 : List (Outs × Any × Op1) → St → Prop
  | [], _ => True
  | (o, any, op) :: ops, s => match miniCall1 o any op with
    | none => MiniValid1 ops s
    | some m => o.Valid ∧ op.Valid s.mem ∧ MiniValid1 ops (m s).2

/-- The outcomes of the calls, each as the caller sees it when the call returns. -/
def miniObserved1 : List (Outs × Any × Op1) → St → List (Res Ref.Val)
  | [], _ => []
  | (o, any, op) :: ops, s => match miniCall1 o any op with
    | none => miniObserved1 ops s
    | some m => obsRes (m s).2.mem (toRes (m s).1) :: miniObserved1 ops (m s).2

/-- The calls for the reference machine. -/
def miniLower1 : List (Outs × Any × Op1) → St → List (Nat × Ref.Op1)
  | [], _ => []
  | (o, any, op) :: ops, s => match miniCall1 o any op with
    | none => miniLower1 ops s
    | some m => (o.u64.toNat, lower1 s op) :: miniLower1 ops (m s).2

theorem mini_history1_ok {s : St} (h : WF s) (ops : List (Outs × Any × Op1)) (hv : MiniValid1 ops s) :
    WF (miniAll1 ops s).2 ∧ Iso s (miniAll1 ops s).2 := by
  induction ops generalizing s with
  | nil => exact ⟨h, Iso.refl s⟩
  | cons x ops ih =>
    obtain ⟨o, any, op⟩ := x
    unfold miniAll1
    unfold MiniValid1 at hv
    cases hc : miniCall1 o any op with
    | none => rw [hc] at hv; exact ih h hv
    | some m =>
      rw [hc] at hv
      have h1 := mini_step1_ok h o hv.1 any op hv.2.1 m hc
      obtain ⟨h2, h3⟩ := ih h1.wf hv.2.2
      exact ⟨h2, h1.iso.trans h3⟩

/-- C95: every history of v1 `MiniBuffer` calls, with arbitrary arguments and arbitrary previous contents of the result
variables, gives the results and the final state of the reference machine. -/
theorem C95_v1_mini_history {s : St} (h : WF s) (ops : List (Outs × Any × Op1)) (hv : MiniValid1 ops s) :
    Ref.miniRun1 (miniLower1 ops s) (abs s) = (miniObserved1 ops s, abs (miniAll1 ops s).2) := by
  induction ops generalizing s with
  | nil => rfl
  | cons x ops ih =>
    obtain ⟨o, any, op⟩ := x
    unfold miniAll1 miniLower1 miniObserved1
    unfold MiniValid1 at hv
    cases hc : miniCall1 o any op with
    | none => rw [hc] at hv; exact ih h hv
    | some m =>
      rw [hc] at hv
      have h1 := mini_step1_ok h o hv.1 any op hv.2.1 m hc
      have h2 := ih h1.wf hv.2.2
      simp only [Ref.miniRun1]
      rw [← h1.state, ← h1.result]
      exact congrArg (fun p => (_ :: p.1, p.2)) h2

/-- C95: what the reference state says about the buffer. -/
theorem C95_final_state {s : St} (h : WF s) (ops : List (Outs × Any × Op1)) (hv : MiniValid1 ops s) :
    let f := (miniAll1 ops s).2
    let r := (Ref.miniRun1 (miniLower1 ops s) (abs s)).2
    f.bytes = r.data ∧ f.b.cap.toInt = r.data.length ∧ f.b.bcap.toInt = 8 * r.data.length ∧
      f.b.off.toInt = r.cur ∧ f.b.boff.toInt = r.bcur := by
  intro f r
  have w := (mini_history1_ok h ops hv).1
  have e : r = abs f := by show (Ref.miniRun1 _ _).2 = _; rw [C95_v1_mini_history h ops hv]
  rw [e]
  refine ⟨rfl, ?_, ?_, rfl, rfl⟩
  · rw [w.cap_toInt]; exact (congrArg Nat.cast (V3.length_bytes w.ok)).symm
  · rw [w.bcap_toInt]; congr 1; exact (congrArg Nat.cast (V3.length_bytes w.ok)).symm

/-- C95: from the constructor on, after any history of calls the cached capacities are right, and nothing outside the
window the buffer had in its first array was changed. -/
theorem C95_from_new {s s' : St} {slices : List Slice} (hl : slices.length ≤ maxAlloc) (hs : ∀ t ∈ slices, SliceOK s.mem t)
    (hn : Mini.NewMiniBuffer slices s = (.ok (), s')) (ops : List (Outs × Any × Op1)) (hv : MiniValid1 ops s') :
    (miniAll1 ops s').2.b.cap.toInt = (miniAll1 ops s').2.bytes.length ∧
    (miniAll1 ops s').2.b.bcap.toInt = 8 * (miniAll1 ops s').2.bytes.length ∧
    ∀ a i, a < s'.mem.arrays.length → (a ≠ s'.b.buf.arr ∨ i < s'.b.buf.off ∨ s'.b.buf.off + s'.b.buf.cap ≤ i) →
      ((miniAll1 ops s').2.mem.array a)[i]? = (s'.mem.array a)[i]? := by
  rw [C77_mini_constructor, V2.C76_constructor slices hl, V3.C43_constructors] at hn
  obtain ⟨w, i⟩ := mini_history1_ok (V3.newBuffer_wf hl hs hn) ops hv
  refine ⟨?_, ?_, fun a j ha ho => i.outside a j ha ho⟩
  · rw [w.cap_toInt, V3.length_bytes w.ok]
  · rw [w.bcap_toInt, V3.length_bytes w.ok]

/-- C95: what `ReadComplex` has stored in the variable when it succeeds has the dynamic type of the size asked for and as many
elements as asked for, whatever the variable held before. -/
theorem C95_result_type {s : St} (h : WF s) (off n size : Int64) (o : ByteOrder) (any out : Any) (t : St)
    (hr : callOut (Mini.ReadComplex off n size o) any s = (.ok out, t)) : Typed size n out := by
  change callOut (Mini.readComplex off n size o) any s = _ at hr
  by_cases h1 : size = Unsigned8
  · subst h1
    rw [callOut_eq, mini_readComplex_u8 h.ok] at hr
    split at hr <;> cases hr
    exact ⟨rfl, rfl⟩
  by_cases h2 : size = Unsigned16
  · subst h2
    have k := mini_kind_run (kd := .u16) (ld := loadU16) loadU16_loads (fun _ => rfl) (out := Mini.outU16) (con := .u16) (fun _ _ => rfl) h.ok off n o any
    have hr := k.symm.trans hr
    injection hr with hr _
    split at hr
    · obtain ⟨l, rfl, hl⟩ := elemsRes_ok hr; exact ⟨rfl, hl⟩
    · exact nomatch hr
  by_cases h4 : size = Unsigned32
  · subst h4
    have k := mini_kind_run (kd := .u32) (ld := loadU32) loadU32_loads (fun _ => rfl) (out := Mini.outU32) (con := .u32) (fun _ _ => rfl) h.ok off n o any
    have hr := k.symm.trans hr
    injection hr with hr _
    split at hr
    · obtain ⟨l, rfl, hl⟩ := elemsRes_ok hr; exact ⟨rfl, hl⟩
    · exact nomatch hr
  by_cases h8 : size = Unsigned64
  · subst h8
    have k := mini_kind_run (kd := .u64) (ld := loadU64) loadU64_loads (fun _ => rfl) (out := Mini.outU64) (con := .u64) (fun _ _ => rfl) h.ok off n o any
    have hr := k.symm.trans hr
    injection hr with hr _
    split at hr
    · obtain ⟨l, rfl, hl⟩ := elemsRes_ok hr; exact ⟨rfl, hl⟩
    · exact nomatch hr
  rw [callOut_eq, mini_readComplex_other h.ok _ _ _ _ _ h1 h2 h4 h8] at hr
  exact nomatch hr

/-- A history with failing calls and a result variable that is not zero. -/
def demoMini1 : List (Outs × Any × Op1) :=
  [(demoOuts 5 1, .other, .readBits (some 4) 0), (demoOuts 0 0, .other, .writeComplex (some 10) (.u32 [7]) Unsigned32 (some .le)),
   (demoOuts 0 0, .other, .writeComplex none (.u16 [1]) Unsigned16 none), (demoOuts 0 0, .other, .readByte none), (demoOuts 0 0, .other, .grow 3),
   (demoOuts 0 0, .other, .writeComplex (some 13) (.bytes demoHead) Unsigned8 none), (demoOuts 0 0, .other, .setBit none 9)]

theorem demoMini1_valid : MiniValid1 demoMini1 demo :=
  ⟨V3.demoOuts_valid _ _ (by decide), trivial, V3.demoOuts_valid _ _ (by decide), (by decide : _ ≤ _), V3.demoOuts_valid _ _ (by decide), (by decide : _ ≤ _),
    V3.demoOuts_valid _ _ (by decide), trivial, V3.demoOuts_valid _ _ (by decide), ⟨by decide +kernel, by decide +kernel, by decide +kernel⟩,
    V3.demoOuts_valid _ _ (by decide), trivial, trivial⟩

example : Ref.miniRun1 (miniLower1 demoMini1 demo) (abs demo) = (miniObserved1 demoMini1 demo, abs (miniAll1 demoMini1 demo).2) ∧
    (miniAll1 demoMini1 demo).2.bytes = [3, 4, 5, 6, 7, 8, 9, 10, 11, 12, 7, 0, 0, 3, 4] :=
  ⟨C95_v1_mini_history demo_wf demoMini1 demoMini1_valid, by decide +kernel⟩

/-- Reads: past the end into the spare bytes, without a byte order, too many, of a size that is none. -/
def demoMiniReads1 : List (Outs × Any × Op1) :=
  [(demoOuts 0 0, .other, .seek 12 false), (demoOuts 0 0, .u64 [1], .readComplex none 2 Unsigned16 (some .be)),
   (demoOuts 0 0, .other, .readComplex (some 0) 2 Unsigned16 none), (demoOuts 0 0, .other, .readComplex (some 0) 3 Unsigned64 (some .le)),
   (demoOuts 0 0, .other, .readComplex (some 0) 3 3 (some .le)), (demoOuts 0 0, .other, .offset)]

example : miniObserved1 demoMiniReads1 demo =
    [.ok .unit, .ok (.nums [0x0F10, 0x1112]), .panic .nilDeref, .panic .sliceBounds,
     .panic (.err BufferInvalidIntegerSizeError), .ok (.num 16)] := by
  have v := fun a b h => V3.demoOuts_valid a b h
  have h := C95_v1_mini_history demo_wf demoMiniReads1
    ⟨v _ _ (by decide), trivial, v _ _ (by decide), trivial, v _ _ (by decide), trivial, v _ _ (by decide), trivial,
     v _ _ (by decide), trivial, v _ _ (by decide), trivial, trivial⟩
  refine (congrArg Prod.fst h).symm.trans ?_
  decide +kernel

end Crunch.V1
