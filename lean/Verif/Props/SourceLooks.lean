import Verif.Props.SourceNexts
import Verif.Props.Looks

/-!
# Goroutines that run the text: calls that look after their section (C118)

C118 for the text of v2/buffer.go and v1/buffer.go, run by the interpreter.
-/

namespace Crunch.Src
open V3 (WF)

/-! ## v2 -/

/-- C118: goroutines that run the text of v2/buffer.go. -/
theorem C118_linear_text :
    ∃ funs, compileAll (V2Utils.text ++ V2Buffer.text) = some funs ∧
    ∀ (fuel depth : Nat), 2 ^ 64 < fuel → 4 ≤ depth → ∀ {c0 c : Conf V2.Op2 V} {τ : Trace V2.Op2 V}, Quiet c0 → WF c0.sh.st →
    Exec (textCall ⟨funs, V2Buffer.errs⟩ fuel depth) (fun op => V2.Settled c0.sh.st.b.buf.len op ∧ Two.Fits op) c0 τ c →
    Linear (textCall ⟨funs, V2Buffer.errs⟩ fuel depth) c0 τ c := by
  obtain ⟨funs, hc, h⟩ := C86_buffer_text
  exact ⟨funs, hc, fun fuel depth hf hd c0 c τ q h0 e => linear_of_mixed q (fun op ho => (V2.exec_mixed h0 op ho.1).map goVal (h fuel depth hf hd op ho.2)) e⟩

/-- C118's case from the text. -/
example : ∃ funs, compileAll (V2Utils.text ++ V2Buffer.text) = some funs ∧ ∀ (fuel depth : Nat), 2 ^ 64 < fuel → 4 ≤ depth →
    ∃ (τ : Trace V2.Op2 V) (c : Conf V2.Op2 V),
      Exec (textCall ⟨funs, V2Buffer.errs⟩ fuel depth) (fun op => V2.Settled V3.demo.b.buf.len op ∧ Two.Fits op) (rest _ _ V3.demo) τ c ∧ (∀ i, c.thr i = .idle) ∧
      finished 0 τ = [(.readByte (some 2), .ok (.u8 5))] ∧ finished 1 τ = [(.readByte (some 1), .ok (.u8 0xAA))] := by
  obtain ⟨funs, hc, h⟩ := C86_goroutines_text
  refine ⟨funs, hc, fun fuel depth hf hd => ?_⟩
  obtain ⟨τ, c, e, hi, h1, h2⟩ := V2.demoGlance_runs Two.Fits trivial trivial trivial
  refine ⟨Trace.map goVal τ, c.map goVal, (h fuel depth hf hd _ (fun _ o => o.2) (rest _ _ V3.demo) _ _).2 ⟨τ, c, e, rfl, rfl⟩, (idle_map _ _).2 hi, ?_, ?_⟩
  · rw [finished_map, h1]; rfl
  · rw [finished_map, h2]; rfl

/-! ## v1 -/

/-- C118: goroutines that run the text of v1/buffer.go. -/
theorem C118_v1_linear_text :
    ∃ funs, compileAll (V1Utils.text ++ V1Buffer.text) = some funs ∧
    ∀ (fuel depth : Nat), 2 ^ 64 < fuel → 4 ≤ depth → ∀ {c0 c : Conf V1.Op1 V} {τ : Trace V1.Op1 V}, Quiet c0 → WF c0.sh.st →
    Exec (textCall1 ⟨funs, V1Buffer.errs⟩ fuel depth) (fun op => V1.Settled1 c0.sh.st.b.buf.len op ∧ One.Fits op) c0 τ c →
    Linear (textCall1 ⟨funs, V1Buffer.errs⟩ fuel depth) c0 τ c := by
  obtain ⟨funs, hc, h⟩ := C87_buffer_text
  exact ⟨funs, hc, fun fuel depth hf hd c0 c τ q h0 e => linear_of_mixed q (fun op ho => (V1.exec1_mixed h0 op ho.1).map goVal1 (h fuel depth hf hd op ho.2)) e⟩

/-- C118's case from the text. -/
example : ∃ funs, compileAll (V1Utils.text ++ V1Buffer.text) = some funs ∧ ∀ (fuel depth : Nat), 2 ^ 64 < fuel → 4 ≤ depth →
    ∃ (τ : Trace V1.Op1 V) (c : Conf V1.Op1 V),
      Exec (textCall1 ⟨funs, V1Buffer.errs⟩ fuel depth) (fun op => V1.Settled1 V3.demo.b.buf.len op ∧ One.Fits op) (rest _ _ V3.demo) τ c ∧ (∀ i, c.thr i = .idle) ∧
      finished 0 τ = [(.readByte (some 2), .ok (.u8 5))] ∧ finished 1 τ = [(.readByte (some 1), .ok (.u8 0x11))] := by
  obtain ⟨funs, hc, h⟩ := C87_goroutines_text
  refine ⟨funs, hc, fun fuel depth hf hd => ?_⟩
  obtain ⟨τ, c, e, hi, h1, h2⟩ := V1.demoGlance1_runs One.Fits (fun _ h => by cases h; trivial) (fun _ h => by cases h; trivial) (fun _ h => nomatch h)
  refine ⟨Trace.map goVal1 τ, c.map goVal1, (h fuel depth hf hd _ (fun _ o => o.2) (rest _ _ V3.demo) _ _).2 ⟨τ, c, e, rfl, rfl⟩, (idle_map _ _).2 hi, ?_, ?_⟩
  · rw [finished_map, h1]; rfl
  · rw [finished_map, h2]; rfl

end Crunch.Src
