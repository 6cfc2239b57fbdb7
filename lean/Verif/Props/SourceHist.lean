import Verif.Props.SourceV3
import Verif.Props.SourceV2
import Verif.Props.SourceV2Buffer
import Verif.Props.SourceV1
import Verif.Props.SourceV1Buffer
import Verif.Props.V1Hist

/-!
# Histories run from the text (C96)

C83 says that every history of v3 `Buffer` calls, run from the text, follows a reference machine.  Here is the same for the other
five buffers: v3 `MiniBuffer` (the machine of C64), v2 `Buffer` and `MiniBuffer` (C78, C79), v1 `Buffer` and `MiniBuffer` (C94, C95).
-/

namespace Crunch.Src

/-- One call of a v3 `MiniBuffer` method after another, each run from the text; a panic is recovered by the caller.  Calls that
`MiniBuffer` does not have are left out. -/
def textMini3 (p : Pkg) (fuel depth : Nat) : List (V3.Outs × V3.Op) → V3.St → List (Res Ref.Val) × V3.St
  | [], s => ([], s)
  | (o, op) :: ops, s =>
    match V3.miniCall o op with
    | none => textMini3 p fuel depth ops s
    | some _ =>
      let r := p.callMini fuel depth (goName op) (goArgs op) (goOut o op) (s, .unit)
      (seenRes r.2.1.mem r.1 :: (textMini3 p fuel depth ops r.2.1).1, (textMini3 p fuel depth ops r.2.1).2)

/-- C96: every history of v3 `MiniBuffer` calls, run from the text of v3/minibuf.generated.go, follows the reference machine of C64. -/
theorem C96_v3_mini_text :
    ∃ funs, compileAll V3Mini.text = some funs ∧
    ∀ (fuel depth : Nat), 2 ^ 64 < fuel → 3 ≤ depth → ∀ {s : V3.St}, V3.WF s → ∀ (ops : List (V3.Outs × V3.Op)),
    (∀ x ∈ ops, Fits x.2) → V3.MiniValid ops s →
    (textMini3 ⟨funs, V3Mini.errs⟩ fuel depth ops s).1 = (Ref.miniRun (V3.miniLower ops s) (V3.abs s)).1 ∧
    V3.abs (textMini3 ⟨funs, V3Mini.errs⟩ fuel depth ops s).2 = (Ref.miniRun (V3.miniLower ops s) (V3.abs s)).2 ∧
    V3.WF (textMini3 ⟨funs, V3Mini.errs⟩ fuel depth ops s).2 := by
  obtain ⟨funs, hc, hcall⟩ := C82_mini_text
  refine ⟨funs, hc, fun fuel depth hf hd {s} h ops ho hv => ?_⟩
  have key : ∀ (ops : List (V3.Outs × V3.Op)) (s : V3.St), (∀ x ∈ ops, Fits x.2) →
      textMini3 ⟨funs, V3Mini.errs⟩ fuel depth ops s = (V3.miniObserved ops s, (V3.miniAll ops s).2) := by
    intro ops
    induction ops with
    | nil => intros; rfl
    | cons x ops ih =>
      obtain ⟨o, op⟩ := x
      intro s ho
      have ih' := fun s => ih s fun x h => ho x (List.mem_cons_of_mem _ h)
      unfold textMini3 V3.miniObserved V3.miniAll
      cases hm : V3.miniCall o op with
      | none => exact ih' s
      | some m => simp only [hcall fuel depth hf hd o op (ho _ (List.mem_cons_self ..)) m hm, seenRes_goRes, ih']
  rw [key ops s ho, V3.C64_mini_history h ops hv]
  exact ⟨rfl, rfl, (V3.mini_history_ok h ops hv).1⟩

/-- The same for v2. -/
def textMini2 (p : Pkg) (fuel depth : Nat) : List (V3.Outs × V2.Op2) → V3.St → List (Res Ref.Val) × V3.St
  | [], s => ([], s)
  | (o, op) :: ops, s =>
    match V2.miniCall o op with
    | none => textMini2 p fuel depth ops s
    | some _ =>
      let r := p.callMini fuel depth (Two.goName op) (Two.goArgs op) (Two.goOut o op) (s, .unit)
      (seenRes r.2.1.mem r.1 :: (textMini2 p fuel depth ops r.2.1).1, (textMini2 p fuel depth ops r.2.1).2)

/-- C96: every history of v2 `MiniBuffer` calls, run from the text of v2/minibuf.go and v2/utils.go, follows the reference machine of
C79. -/
theorem C96_v2_mini_text :
    ∃ funs, compileAll (V2Utils.text ++ V2Mini.text) = some funs ∧
    ∀ (fuel depth : Nat), 2 ^ 64 < fuel → 4 ≤ depth → ∀ {s : V3.St}, V3.WF s → ∀ (ops : List (V3.Outs × V2.Op2)),
    (∀ x ∈ ops, Two.Fits x.2) → V2.MiniValid ops s →
    (textMini2 ⟨funs, V2Mini.errs⟩ fuel depth ops s).1 = (Ref.miniRun2 (V2.miniLower ops s) (V3.abs s)).1 ∧
    V3.abs (textMini2 ⟨funs, V2Mini.errs⟩ fuel depth ops s).2 = (Ref.miniRun2 (V2.miniLower ops s) (V3.abs s)).2 ∧
    V3.WF (textMini2 ⟨funs, V2Mini.errs⟩ fuel depth ops s).2 := by
  obtain ⟨funs, hc, hcall⟩ := C84_mini_text
  refine ⟨funs, hc, fun fuel depth hf hd {s} h ops ho hv => ?_⟩
  have key : ∀ (ops : List (V3.Outs × V2.Op2)) (s : V3.St), (∀ x ∈ ops, Two.Fits x.2) →
      textMini2 ⟨funs, V2Mini.errs⟩ fuel depth ops s = (V2.miniObserved ops s, (V2.miniAll ops s).2) := by
    intro ops
    induction ops with
    | nil => intros; rfl
    | cons x ops ih =>
      obtain ⟨o, op⟩ := x
      intro s ho
      have ih' := fun s => ih s fun x h => ho x (List.mem_cons_of_mem _ h)
      unfold textMini2 V2.miniObserved V2.miniAll
      cases hm : V2.miniCall o op with
      | none => exact ih' s
      | some m => simp only [hcall fuel depth hf hd o op (ho _ (List.mem_cons_self ..)) m hm, seenRes_goRes, ih']
  rw [key ops s ho, V2.C79_v2_mini_history h ops hv]
  exact ⟨rfl, rfl, (V2.mini_history2_ok h ops hv).1⟩

theorem seenRes_goRes1 (m : Heap) (r : Res V1.Val1) : seenRes m (goRes1 r) = V3.obsRes m (V1.toRes r) := by
  rcases r with v | p
  · cases v with
    | val v => exact seenRes_goRes m (.ok v)
    | any a => cases a <;> (unfold goRes1 goVal1 goAny; rfl)
  · rfl

/-- The same for v1; a call also has the previous contents of the variable for the result of `ReadComplex`. -/
def textMini1 (p : Pkg) (fuel depth : Nat) : List (V3.Outs × V1.Any × V1.Op1) → V3.St → List (Res Ref.Val) × V3.St
  | [], s => ([], s)
  | (o, any, op) :: ops, s =>
    match V1.miniCall1 o any op with
    | none => textMini1 p fuel depth ops s
    | some _ =>
      let r := p.callMini fuel depth (One.goName op) (One.goArgs op) (One.goOut o any op) (s, .unit)
      (seenRes r.2.1.mem r.1 :: (textMini1 p fuel depth ops r.2.1).1, (textMini1 p fuel depth ops r.2.1).2)

/-- C96: every history of v1 `MiniBuffer` calls, run from the text of v1/minibuf.go and v1/utils.go, follows the reference machine of
C95. -/
theorem C96_v1_mini_text :
    ∃ funs, compileAll (V1Utils.text ++ V1Mini.text) = some funs ∧
    ∀ (fuel depth : Nat), 2 ^ 64 < fuel → 4 ≤ depth → ∀ {s : V3.St}, V3.WF s → ∀ (ops : List (V3.Outs × V1.Any × V1.Op1)),
    (∀ x ∈ ops, One.Fits x.2.2) → V1.MiniValid1 ops s →
    (textMini1 ⟨funs, V1Mini.errs⟩ fuel depth ops s).1 = (Ref.miniRun1 (V1.miniLower1 ops s) (V3.abs s)).1 ∧
    V3.abs (textMini1 ⟨funs, V1Mini.errs⟩ fuel depth ops s).2 = (Ref.miniRun1 (V1.miniLower1 ops s) (V3.abs s)).2 ∧
    V3.WF (textMini1 ⟨funs, V1Mini.errs⟩ fuel depth ops s).2 := by
  obtain ⟨funs, hc, hcall⟩ := C85_mini_text
  refine ⟨funs, hc, fun fuel depth hf hd {s} h ops ho hv => ?_⟩
  have key : ∀ (ops : List (V3.Outs × V1.Any × V1.Op1)) (s : V3.St), (∀ x ∈ ops, One.Fits x.2.2) →
      textMini1 ⟨funs, V1Mini.errs⟩ fuel depth ops s = (V1.miniObserved1 ops s, (V1.miniAll1 ops s).2) := by
    intro ops
    induction ops with
    | nil => intros; rfl
    | cons x ops ih =>
      obtain ⟨o, any, op⟩ := x
      intro s ho
      have ih' := fun s => ih s fun x h => ho x (List.mem_cons_of_mem _ h)
      unfold textMini1 V1.miniObserved1 V1.miniAll1
      cases hm : V1.miniCall1 o any op with
      | none => exact ih' s
      | some m => simp only [hcall fuel depth hf hd o any op (ho _ (List.mem_cons_self ..)) m hm, seenRes_goRes1, ih']
  rw [key ops s ho, V1.C95_v1_mini_history h ops hv]
  exact ⟨rfl, rfl, (V1.mini_history1_ok h ops hv).1⟩

/-- Calls of one goroutine on a `Buffer` with a mutex, `run` being a call; a panic is recovered by the caller.  After a call that
leaves the mutex locked there are no more: the next one that takes the mutex would wait for ever. -/
def textHist {ω : Type} (run : ω → Prog V) : List ω → V3.St → List (Res Ref.Val) × Sh
  | [], s => ([], ⟨s, false⟩)
  | op :: ops, s =>
    let r := (run op).run ⟨s, false⟩
    if r.2.locked then ([seenRes r.2.st.mem r.1], r.2)
    else (seenRes r.2.st.mem r.1 :: (textHist run ops r.2.st).1, (textHist run ops r.2.st).2)

/-- C96: every history of v2 `Buffer` calls of one goroutine, run from the text of v2/buffer.go and v2/utils.go, follows the reference
machine of C78 and leaves the mutex locked exactly when that says so. -/
theorem C96_v2_text :
    ∃ funs, compileAll (V2Utils.text ++ V2Buffer.text) = some funs ∧
    ∀ (fuel depth : Nat), 2 ^ 64 < fuel → 4 ≤ depth → ∀ {s : V3.St}, V3.WF s → ∀ (ops : List V2.Op2),
    (∀ op ∈ ops, Two.Fits op) → V2.ValidAll ops s →
    (textHist (textCall ⟨funs, V2Buffer.errs⟩ fuel depth) ops s).1 = (Ref.run2 (V2.lowerAll ops s) (V3.abs s)).1 ∧
    V3.abs (textHist (textCall ⟨funs, V2Buffer.errs⟩ fuel depth) ops s).2.st = (Ref.run2 (V2.lowerAll ops s) (V3.abs s)).2.1 ∧
    (textHist (textCall ⟨funs, V2Buffer.errs⟩ fuel depth) ops s).2.locked = (Ref.run2 (V2.lowerAll ops s) (V3.abs s)).2.2 ∧
    V3.WF (textHist (textCall ⟨funs, V2Buffer.errs⟩ fuel depth) ops s).2.st := by
  obtain ⟨funs, hc, hcall⟩ := C86_alone_text
  refine ⟨funs, hc, fun fuel depth hf hd {s} h ops ho hv => ?_⟩
  have key : ∀ (ops : List V2.Op2) (s : V3.St), (∀ op ∈ ops, Two.Fits op) →
      textHist (textCall ⟨funs, V2Buffer.errs⟩ fuel depth) ops s = (V2.observed ops s, (V2.execAll ops s).2) := by
    intro ops
    induction ops with
    | nil => intros; rfl
    | cons op ops ih =>
      intro s ho
      have ih' := fun s => ih s fun x h => ho x (List.mem_cons_of_mem _ h)
      unfold textHist V2.observed V2.execAll
      simp only [hcall fuel depth hf hd op (ho _ (List.mem_cons_self ..)), seenRes_goRes, ih']
      split <;> rfl
  rw [key ops s ho, V2.C78_v2_history h ops hv]
  exact ⟨rfl, rfl, rfl, (V2.history2_ok h ops hv).1⟩

/-- C96: every history of v1 `Buffer` calls of one goroutine, run from the text of v1/buffer.go and v1/utils.go, follows the reference
machine of C94 and leaves the mutex locked exactly when that says so. -/
theorem C96_v1_text :
    ∃ funs, compileAll (V1Utils.text ++ V1Buffer.text) = some funs ∧
    ∀ (fuel depth : Nat), 2 ^ 64 < fuel → 4 ≤ depth → ∀ {s : V3.St}, V3.WF s → ∀ (ops : List V1.Op1),
    (∀ op ∈ ops, One.Fits op) → V1.ValidAll1 ops s →
    (textHist (textCall1 ⟨funs, V1Buffer.errs⟩ fuel depth) ops s).1 = (Ref.run1 (V1.lowerAll1 ops s) (V3.abs s)).1 ∧
    V3.abs (textHist (textCall1 ⟨funs, V1Buffer.errs⟩ fuel depth) ops s).2.st = (Ref.run1 (V1.lowerAll1 ops s) (V3.abs s)).2.1 ∧
    (textHist (textCall1 ⟨funs, V1Buffer.errs⟩ fuel depth) ops s).2.locked = (Ref.run1 (V1.lowerAll1 ops s) (V3.abs s)).2.2 ∧
    V3.WF (textHist (textCall1 ⟨funs, V1Buffer.errs⟩ fuel depth) ops s).2.st := by
  obtain ⟨funs, hc, hcall⟩ := C87_alone_text
  refine ⟨funs, hc, fun fuel depth hf hd {s} h ops ho hv => ?_⟩
  have key : ∀ (ops : List V1.Op1) (s : V3.St), (∀ op ∈ ops, One.Fits op) →
      textHist (textCall1 ⟨funs, V1Buffer.errs⟩ fuel depth) ops s = (V1.observed1 ops s, (V1.execAll1 ops s).2) := by
    intro ops
    induction ops with
    | nil => intros; rfl
    | cons op ops ih =>
      intro s ho
      have ih' := fun s => ih s fun x h => ho x (List.mem_cons_of_mem _ h)
      unfold textHist V1.observed1 V1.execAll1
      simp only [hcall fuel depth hf hd op (ho _ (List.mem_cons_self ..)), seenRes_goRes1, ih']
      split <;> rfl
  rw [key ops s ho, V1.C94_v1_history h ops hv]
  exact ⟨rfl, rfl, rfl, (V1.history1_ok h ops hv).1⟩

/-! The interpreter does run the histories, and the histories of the other examples meet the hypotheses. -/

example : (textMini3 V3Mini.P 20 3 [(V3.demoOuts 5 1, .readBits (some 4) 8), (V3.demoOuts 0 1, .read .u16 .be none 1)] V3.demo).1 =
    (Ref.miniRun (V3.miniLower [(V3.demoOuts 5 1, .readBits (some 4) 8), (V3.demoOuts 0 1, .read .u16 .be none 1)] V3.demo) (V3.abs V3.demo)).1 := by
  decide +kernel

example : (∀ x ∈ V3.demoMini, Fits x.2) ∧ V3.MiniValid V3.demoMini V3.demo :=
  ⟨by simp [V3.demoMini, Fits], V3.demoMini_valid⟩

example : (textMini2 V2Mini.P 20 4 [(V3.demoOuts 0 0, .setBit (some 0) 1), (V3.demoOuts 5 1, .readBits (some 0) 4)] V3.demo).1 =
    [.ok .unit, .ok (.num (5 * 16 + 8))] := by decide +kernel

example : (∀ x ∈ V2.demoMini2, Two.Fits x.2) ∧ V2.MiniValid V2.demoMini2 V3.demo :=
  ⟨by simp [V2.demoMini2, Two.Fits], V2.demoMini2_valid⟩

example : (textMini1 V1Mini.P 20 4 [(V3.demoOuts 0 0, .other, .readComplex (some 0) 2 2 (some .be)), (V3.demoOuts 0 0, .other, .readComplex (some 0) 2 2 none)]
    V3.demo).1 = [.ok (.nums [0x0304, 0x0506]), .panic .nilDeref] := by decide +kernel

example : (textHist (textCall V2Buffer.P 20 4) V2.demoHist2 V3.demo).2.locked = true := by decide +kernel

example : (∀ op ∈ V2.demoHist2, Two.Fits op) ∧ V2.ValidAll V2.demoHist2 V3.demo :=
  ⟨by simp [V2.demoHist2, Two.Fits], V2.demoHist2_valid⟩

example : (textHist (textCall1 V1Buffer.P 20 4) V1.demoHist1 V3.demo).2.locked = true ∧
    (textHist (textCall1 V1Buffer.P 20 4) V1.demoHist1 V3.demo).1.length = 10 := by decide +kernel

example : (∀ op ∈ V1.demoHist1, One.Fits op) ∧ V1.ValidAll1 V1.demoHist1 V3.demo :=
  ⟨by simp [V1.demoHist1, One.Fits, V1.toV2, Two.Fits], V1.demoHist1_valid⟩

end Crunch.Src
