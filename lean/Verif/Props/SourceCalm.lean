import Verif.Props.SourceFoot
import Verif.Props.Calm

/-!
# Goroutines that run the text: calls that are not disturbed (C117)

C117 for the text of v2/buffer.go and v1/buffer.go, run by the interpreter.
-/

namespace Crunch.Src
open V3 (WF)

/-! ## v2 -/

/-- C117: the calm call, for goroutines that run the text of v2/buffer.go. -/
theorem C117_calm_text :
    ∃ funs, compileAll (V2Utils.text ++ V2Buffer.text) = some funs ∧
    ∀ (fuel depth : Nat), 2 ^ 64 < fuel → 4 ≤ depth → ∀ {c0 c c' : Conf V2.Op2 V} {τ0 τ : Trace V2.Op2 V} {i : Nat} {P : Loc → Prop} {op : V2.Op2} {r : Res V},
    Quiet c0 → Exec (textCall ⟨funs, V2Buffer.errs⟩ fuel depth) Two.Fits c0 τ0 c → WF c.sh.st → Two.Fits op → V2.inPlace op = true →
    (∀ l, V2.mayRead c.sh.st.b op l → P l) → CalmCall (textCall ⟨funs, V2Buffer.errs⟩ fuel depth) Two.Fits i P c op τ r c' →
    r = ((textCall ⟨funs, V2Buffer.errs⟩ fuel depth op).run ⟨c.sh.st, false⟩).1 ∧
      ∀ l, P l → l.same c'.sh.st ((textCall ⟨funs, V2Buffer.errs⟩ fuel depth op).run ⟨c.sh.st, false⟩).2.st := by
  obtain ⟨funs, hc, h⟩ := C86_buffer_text
  refine ⟨funs, hc, fun fuel depth hf hd c0 c c' τ0 τ i P op r q e hw ho hp hP d => ?_⟩
  have hb : ∀ op, Two.Fits op → Brk false false (textCall ⟨funs, V2Buffer.errs⟩ fuel depth op) := fun op ho => by
    rw [h fuel depth hf hd op ho]
    exact (V2.exec_brk op).bind fun _ => rfl
  refine calm (W := V2.mayWrite c.sh.st.b op) hb q e ?_ hP d
  rw [h fuel depth hf hd op ho]
  exact (V2.C113_footprint (s := ⟨c.sh.st, false⟩) hw op hp).map goVal

/-- C117: the moment of `ReadByte`, for goroutines that run the text of v2/buffer.go. -/
theorem C117_moment_text :
    ∃ funs, compileAll (V2Utils.text ++ V2Buffer.text) = some funs ∧
    ∀ (fuel depth : Nat), 2 ^ 64 < fuel → 4 ≤ depth → ∀ {c0 c c' : Conf V2.Op2 V} {τ0 τ : Trace V2.Op2 V} {i : Nat} {o : Int64} {r : Res V},
    Quiet c0 → Exec (textCall ⟨funs, V2Buffer.errs⟩ fuel depth) Two.Fits c0 τ0 c →
    CalmCall (textCall ⟨funs, V2Buffer.errs⟩ fuel depth) Two.Fits i Loc.shape c (.readByte (some o)) τ r c' →
    ∃ m, DuringCall (textCall ⟨funs, V2Buffer.errs⟩ fuel depth) Two.Fits i Loc.shape c (.readByte (some o)) τ r m ∧
      r = ((textCall ⟨funs, V2Buffer.errs⟩ fuel depth (.readByte (some o))).run ⟨m.sh.st, false⟩).1 := by
  obtain ⟨funs, hc, h⟩ := C86_buffer_text
  refine ⟨funs, hc, fun fuel depth hf hd c0 c c' τ0 τ i o r q e d => ?_⟩
  have hb : ∀ op, Two.Fits op → Brk false false (textCall ⟨funs, V2Buffer.errs⟩ fuel depth op) := fun op ho => by
    rw [h fuel depth hf hd op ho]
    exact (V2.exec_brk op).bind fun _ => rfl
  refine late hb q e ?_ d
  rw [h fuel depth hf hd (.readByte (some o)) True.intro]
  exact ((V2.late_ReadByte o _).map _).map goVal

/-- C117's case from the text. -/
example :
    ∃ funs, compileAll (V2Utils.text ++ V2Buffer.text) = some funs ∧
    ∀ (fuel depth : Nat), 2 ^ 64 < fuel → 4 ≤ depth → ∃ τ r c', CalmCall (textCall ⟨funs, V2Buffer.errs⟩ fuel depth) Two.Fits 0
      (· ∈ V2.demoCalmP) (rest _ _ V3.demo) (.readByte (some 0)) τ r c' ∧
      r = ((textCall ⟨funs, V2Buffer.errs⟩ fuel depth (.readByte (some 0))).run ⟨V3.demo, false⟩).1 := by
  obtain ⟨funs, hc, h⟩ := C117_calm_text
  obtain ⟨funs', hc', h'⟩ := C86_buffer_text
  cases hc.symm.trans hc'
  refine ⟨funs, hc, fun fuel depth hf hd => ?_⟩
  obtain ⟨τ, r, c', d, _⟩ := calmCall_sound (allowed := Two.Fits) (exe := V2.exec) (c := rest V2.Op2 V3.Val V3.demo) (i := 0) (ps := V2.demoCalmP)
    (op := (.readByte (some 0))) (l := V2.demoCalm) (fun _ _ => true) True.intro
    (allowed_of fun op ho => by
      rcases (by simpa [V2.demoCalm, steps, List.filterMap_cons, List.filterMap_append, List.filterMap_replicate_of_none] using ho : op = _) with rfl
      first | exact True.intro | (intro op2 h2; cases h2; done) | (intro op2 h2; cases h2; exact True.intro)) (by decide +kernel)
  have d' := d.map fun op ho => h' fuel depth hf hd op ho
  exact ⟨_, _, _, d', (h fuel depth hf hd (op := (.readByte (some 0))) (rest_quiet V3.demo) .nil V3.demo_wf True.intro rfl V2.demoCalm_reads d').1⟩

/-! ## v1 -/

/-- C117: the calm call, for goroutines that run the text of v1/buffer.go. -/
theorem C117_v1_calm_text :
    ∃ funs, compileAll (V1Utils.text ++ V1Buffer.text) = some funs ∧
    ∀ (fuel depth : Nat), 2 ^ 64 < fuel → 4 ≤ depth → ∀ {c0 c c' : Conf V1.Op1 V} {τ0 τ : Trace V1.Op1 V} {i : Nat} {P : Loc → Prop} {op : V1.Op1} {r : Res V},
    Quiet c0 → Exec (textCall1 ⟨funs, V1Buffer.errs⟩ fuel depth) One.Fits c0 τ0 c → WF c.sh.st → One.Fits op → V1.inPlace1 op = true →
    (∀ l, V1.mayRead1 c.sh.st.b op l → P l) → CalmCall (textCall1 ⟨funs, V1Buffer.errs⟩ fuel depth) One.Fits i P c op τ r c' →
    r = ((textCall1 ⟨funs, V1Buffer.errs⟩ fuel depth op).run ⟨c.sh.st, false⟩).1 ∧
      ∀ l, P l → l.same c'.sh.st ((textCall1 ⟨funs, V1Buffer.errs⟩ fuel depth op).run ⟨c.sh.st, false⟩).2.st := by
  obtain ⟨funs, hc, h⟩ := C87_buffer_text
  refine ⟨funs, hc, fun fuel depth hf hd c0 c c' τ0 τ i P op r q e hw ho hp hP d => ?_⟩
  have hb : ∀ op, One.Fits op → Brk false false (textCall1 ⟨funs, V1Buffer.errs⟩ fuel depth op) := fun op ho => by
    rw [h fuel depth hf hd op ho]
    exact (V1.exec1_brk op).bind fun _ => rfl
  refine calm (W := V1.mayWrite1 c.sh.st.b op) hb q e ?_ hP d
  rw [h fuel depth hf hd op ho]
  exact (V1.C113_v1_footprint (s := ⟨c.sh.st, false⟩) hw op hp).map goVal1

/-- C117: the moment of `ReadByte`, for goroutines that run the text of v1/buffer.go. -/
theorem C117_v1_moment_text :
    ∃ funs, compileAll (V1Utils.text ++ V1Buffer.text) = some funs ∧
    ∀ (fuel depth : Nat), 2 ^ 64 < fuel → 4 ≤ depth → ∀ {c0 c c' : Conf V1.Op1 V} {τ0 τ : Trace V1.Op1 V} {i : Nat} {o : Int64} {r : Res V},
    Quiet c0 → Exec (textCall1 ⟨funs, V1Buffer.errs⟩ fuel depth) One.Fits c0 τ0 c →
    CalmCall (textCall1 ⟨funs, V1Buffer.errs⟩ fuel depth) One.Fits i Loc.shape c (.readByte (some o)) τ r c' →
    ∃ m, DuringCall (textCall1 ⟨funs, V1Buffer.errs⟩ fuel depth) One.Fits i Loc.shape c (.readByte (some o)) τ r m ∧
      r = ((textCall1 ⟨funs, V1Buffer.errs⟩ fuel depth (.readByte (some o))).run ⟨m.sh.st, false⟩).1 := by
  obtain ⟨funs, hc, h⟩ := C87_buffer_text
  refine ⟨funs, hc, fun fuel depth hf hd c0 c c' τ0 τ i o r q e d => ?_⟩
  have hb : ∀ op, One.Fits op → Brk false false (textCall1 ⟨funs, V1Buffer.errs⟩ fuel depth op) := fun op ho => by
    rw [h fuel depth hf hd op ho]
    exact (V1.exec1_brk op).bind fun _ => rfl
  refine late hb q e ?_ d
  rw [h fuel depth hf hd (.readByte (some o)) fun op2 h2 => by cases h2; exact True.intro]
  exact ((V1.late_ReadByte o _).map _).map goVal1

/-- C117's case from the text. -/
example :
    ∃ funs, compileAll (V1Utils.text ++ V1Buffer.text) = some funs ∧
    ∀ (fuel depth : Nat), 2 ^ 64 < fuel → 4 ≤ depth → ∃ τ r c', CalmCall (textCall1 ⟨funs, V1Buffer.errs⟩ fuel depth) One.Fits 0
      (· ∈ V1.demoCalmP) (rest _ _ V3.demo) (.readComplex (some 0) 1 V1.Unsigned16 (some .be)) τ r c' ∧
      r = ((textCall1 ⟨funs, V1Buffer.errs⟩ fuel depth (.readComplex (some 0) 1 V1.Unsigned16 (some .be))).run ⟨V3.demo, false⟩).1 := by
  obtain ⟨funs, hc, h⟩ := C117_v1_calm_text
  obtain ⟨funs', hc', h'⟩ := C87_buffer_text
  cases hc.symm.trans hc'
  refine ⟨funs, hc, fun fuel depth hf hd => ?_⟩
  obtain ⟨τ, r, c', d, _⟩ := calmCall_sound (allowed := One.Fits) (exe := V1.exec1) (c := rest V1.Op1 V1.Val1 V3.demo) (i := 0) (ps := V1.demoCalmP)
    (op := (.readComplex (some 0) 1 V1.Unsigned16 (some .be))) (l := V1.demoCalm) (fun _ _ => true) (fun op2 h2 => nomatch h2)
    (allowed_of fun op ho => by
      rcases (by simpa [V1.demoCalm, steps, List.filterMap_cons, List.filterMap_append, List.filterMap_replicate_of_none] using ho : op = _) with rfl
      first | exact True.intro | (intro op2 h2; cases h2; done) | (intro op2 h2; cases h2; exact True.intro)) (by decide +kernel)
  have d' := d.map fun op ho => h' fuel depth hf hd op ho
  exact ⟨_, _, _, d', (h fuel depth hf hd (op := (.readComplex (some 0) 1 V1.Unsigned16 (some .be))) (rest_quiet V3.demo) .nil V3.demo_wf (fun op2 h2 => nomatch h2) rfl V1.demoCalm_reads d').1⟩

end Crunch.Src
