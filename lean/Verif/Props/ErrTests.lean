import Verif.Src.ErrTest
import Verif.Src.Text.ErrorsTest
import Verif.Props.Decls

/-!
# The tests of the error values, from their texts (C134)
-/

namespace Crunch.Src

open Crunch.Gen (Str)

/-- C134 (/repo/v3/errors_test.go): a test of the error values passes exactly if it names an error value of the package and
expects `crunch: `, its scope, `: ` and its message; the one in the file does. -/
theorem C134_v3_errors :
    ∃ f, parseErrors V3Errors.text = some f ∧
      (∀ t : ErrTest, t.Passes f ↔
        ∃ e, V3Buffer.errs.lookup t.error = some e ∧ t.expected = bytesOf ("crunch: " ++ e.scope ++ ": " ++ e.msg)) ∧
      ∃ t, parseErrTest ErrorsTest.v3 = some t ∧ t.Passes f := by
  obtain ⟨f, hf, ht, -, -, he⟩ := C89_errors_v3_text
  have h : ∀ t : ErrTest, t.Passes f ↔
      ∃ e, V3Buffer.errs.lookup t.error = some e ∧ t.expected = bytesOf ("crunch: " ++ e.scope ++ ": " ++ e.msg) := by
    intro t
    constructor
    · rintro ⟨es, e, h1, h2, h3⟩
      cases ht.symm.trans h1
      exact ⟨e, h2, (Option.some.inj ((he e).symm.trans h3)).symm⟩
    · rintro ⟨e, h2, h3⟩
      exact ⟨_, e, ht, h2, (he e).trans (congrArg some h3.symm)⟩
  exact ⟨f, hf, h, ⟨str% "crunch: buffer: read exceeds buffer capacity", str% "BufferOverreadError"⟩, by decide +kernel,
    (h _).mpr ⟨⟨"buffer", "read exceeds buffer capacity"⟩, by decide +kernel, by decide +kernel⟩⟩

/-- C134 (/repo/v2/errors_test.go): the same for v2. -/
theorem C134_v2_errors :
    ∃ f, parseErrors V2Errors.text = some f ∧
      (∀ t : ErrTest, t.Passes f ↔
        ∃ e, V2Buffer.errs.lookup t.error = some e ∧ t.expected = bytesOf ("crunch: " ++ e.scope ++ ": " ++ e.msg)) ∧
      ∃ t, parseErrTest ErrorsTest.v2 = some t ∧ t.Passes f := by
  obtain ⟨f, hf, ht, -, -, he⟩ := C89_errors_v2_text
  have h : ∀ t : ErrTest, t.Passes f ↔
      ∃ e, V2Buffer.errs.lookup t.error = some e ∧ t.expected = bytesOf ("crunch: " ++ e.scope ++ ": " ++ e.msg) := by
    intro t
    constructor
    · rintro ⟨es, e, h1, h2, h3⟩
      cases ht.symm.trans h1
      exact ⟨e, h2, (Option.some.inj ((he e).symm.trans h3)).symm⟩
    · rintro ⟨e, h2, h3⟩
      exact ⟨_, e, ht, h2, (he e).trans (congrArg some h3.symm)⟩
  exact ⟨f, hf, h, ⟨str% "crunch: buffer: read exceeds buffer capacity", str% "BufferOverreadError"⟩, by decide +kernel,
    (h _).mpr ⟨⟨"buffer", "read exceeds buffer capacity"⟩, by decide +kernel, by decide +kernel⟩⟩

/-- C134 (/repo/v1/errors_test.go): the same for v1. -/
theorem C134_v1_errors :
    ∃ f, parseErrors V1Errors.text = some f ∧
      (∀ t : ErrTest, t.Passes f ↔
        ∃ e, V1Buffer.errs.lookup t.error = some e ∧ t.expected = bytesOf ("crunch: " ++ e.scope ++ ": " ++ e.msg)) ∧
      ∃ t, parseErrTest ErrorsTest.v1 = some t ∧ t.Passes f := by
  obtain ⟨f, hf, ht, -, -, he⟩ := C89_errors_v1_text
  have h : ∀ t : ErrTest, t.Passes f ↔
      ∃ e, V1Buffer.errs.lookup t.error = some e ∧ t.expected = bytesOf ("crunch: " ++ e.scope ++ ": " ++ e.msg) := by
    intro t
    constructor
    · rintro ⟨es, e, h1, h2, h3⟩
      cases ht.symm.trans h1
      exact ⟨e, h2, (Option.some.inj ((he e).symm.trans h3)).symm⟩
    · rintro ⟨e, h2, h3⟩
      exact ⟨_, e, ht, h2, (he e).trans (congrArg some h3.symm)⟩
  exact ⟨f, hf, h, ⟨str% "crunch: buffer: read exceeds buffer capacity", str% "BufferOverreadError"⟩, by decide +kernel,
    (h _).mpr ⟨⟨"buffer", "read exceeds buffer capacity"⟩, by decide +kernel, by decide +kernel⟩⟩

/-- A test that names no error value of the package does not pass, nor does one that expects the message alone. -/
example : ∃ f, parseErrors V3Errors.text = some f ∧ ¬ ErrTest.Passes ⟨str% "crunch: buffer: x", str% "NoSuchError"⟩ f ∧
    ¬ ErrTest.Passes ⟨str% "read exceeds buffer capacity", str% "BufferOverreadError"⟩ f := by
  obtain ⟨f, hf, h, -⟩ := C134_v3_errors
  refine ⟨f, hf, fun hp => ?_, fun hp => ?_⟩
  · obtain ⟨e, h1, -⟩ := (h _).mp hp
    rw [show V3Buffer.errs.lookup (str% "NoSuchError") = none by decide +kernel] at h1
    cases h1
  · obtain ⟨e, h1, h2⟩ := (h _).mp hp
    rw [show V3Buffer.errs.lookup (str% "BufferOverreadError") = some ⟨"buffer", "read exceeds buffer capacity"⟩ by decide +kernel] at h1
    cases h1
    exact absurd h2 (by decide +kernel)

end Crunch.Src
