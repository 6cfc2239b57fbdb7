import Verif.Src.Decls
import Verif.Src.Core
import Verif.Src.Text.V3Errors
import Verif.Src.Text.V2Errors
import Verif.Src.Text.V1Errors
import Verif.Src.Text.V1Crunch
import Verif.Src.V3Buffer
import Verif.Src.V3Mini
import Verif.Src.V2Buffer
import Verif.Src.V2Mini
import Verif.Src.V1Buffer
import Verif.Src.V1Mini
import Verif.Props.Errors

/-!
# The errors and constants, from their texts (C89)
-/

namespace Crunch.Src

open Crunch.Gen (Str)

theorem bytesOf_append (a b : String) : bytesOf (a ++ b) = bytesOf a ++ bytesOf b := by
  simp [bytesOf]

/-- A file whose method `Error` has this format and these arguments. -/
theorem error_of {f : ErrFile} (hf : f.format = str% "crunch: %s: %s") (ha : f.args = [str% "scope", str% "error"]) (e : GoError) :
    f.error e = some (bytesOf ("crunch: " ++ e.scope ++ ": " ++ e.msg)) := by
  unfold ErrFile.error
  rw [hf, ha, bytesOf_append, bytesOf_append, bytesOf_append, show bytesOf "crunch: " = str% "crunch: " by decide +kernel,
    show bytesOf ": " = str% ": " by decide +kernel]
  simp [errField, sprintf]

/-- C89: the text of v3/errors.go declares exactly the error values the model and the interpreter of the buffers use, and its
method `Error` formats every error value as the model does. -/
theorem C89_errors_v3_text :
    ∃ f, parseErrors V3Errors.text = some f ∧ f.table = some V3Buffer.errs ∧ f.table = some V3Mini.errs ∧
      V3Buffer.errs.map (·.2) = V3.errors ∧ ∀ e, f.error e = some (bytesOf (V3.errorString e)) := by
  refine ⟨(parseErrors V3Errors.text).get (by decide +kernel), (Option.some_get _).symm, by decide +kernel, by decide +kernel, rfl,
    error_of (by decide +kernel) (by decide +kernel)⟩

/-- C89: the same for v2/errors.go. -/
theorem C89_errors_v2_text :
    ∃ f, parseErrors V2Errors.text = some f ∧ f.table = some V2Buffer.errs ∧ f.table = some V2Mini.errs ∧
      V2Buffer.errs.map (·.2) = V2.errors ∧ ∀ e, f.error e = some (bytesOf (V2.errorString e)) := by
  refine ⟨(parseErrors V2Errors.text).get (by decide +kernel), (Option.some_get _).symm, by decide +kernel, by decide +kernel, rfl,
    error_of (by decide +kernel) (by decide +kernel)⟩

/-- C89: the same for v1/errors.go. -/
theorem C89_errors_v1_text :
    ∃ f, parseErrors V1Errors.text = some f ∧ f.table = some V1Buffer.errs ∧ f.table = some V1Mini.errs ∧
      V1Buffer.errs.map (·.2) = V1.errors ∧ ∀ e, f.error e = some (bytesOf (V1.errorString e)) := by
  refine ⟨(parseErrors V1Errors.text).get (by decide +kernel), (Option.some_get _).symm, by decide +kernel, by decide +kernel, rfl,
    error_of (by decide +kernel) (by decide +kernel)⟩

example : V3Buffer.errs.lookup (str% "BufferOverreadError") = some ⟨"buffer", "read exceeds buffer capacity"⟩ ∧
    bytesOf (V3.errorString V3.BufferOverreadError) = str% "crunch: buffer: read exceeds buffer capacity" := by
  decide +kernel

/-- C89: the text of v1/crunch.go declares exactly the constants that name resolution knows, and the two byte orders. -/
theorem C89_constants_text :
    ∃ c, parseConsts V1Crunch.text = some c ∧ (∀ s, constant s = c.consts.lookup s) ∧
      c.aliases = [(str% "LittleEndian", str% "binary", str% "LittleEndian"), (str% "BigEndian", str% "binary", str% "BigEndian")] ∧
      c.type = (str% "IntegerSize", .named (str% "int")) := by
  refine ⟨(parseConsts V1Crunch.text).get (by decide +kernel), (Option.some_get _).symm, fun s => ?_, by decide +kernel, by decide +kernel⟩
  rw [show ((parseConsts V1Crunch.text).get (by decide +kernel)).consts =
    [(str% "Unsigned8", 1), (str% "Unsigned16", 2), (str% "Unsigned32", 4), (str% "Unsigned64", 8)] by decide +kernel]
  unfold constant
  simp only [List.lookup_cons, List.lookup_nil]
  split
  · next h => simp [h]
  split
  · next h => simp [h]
  split
  · next h => simp [h]
  split
  · next h => simp [h]
  · next h1 h2 h3 h4 => simp [beq_eq_false_iff_ne.mpr h1, beq_eq_false_iff_ne.mpr h2, beq_eq_false_iff_ne.mpr h3, beq_eq_false_iff_ne.mpr h4]

example : constant (str% "Unsigned32") = some 4 ∧ constant (str% "Signed32") = none := by decide +kernel

end Crunch.Src
