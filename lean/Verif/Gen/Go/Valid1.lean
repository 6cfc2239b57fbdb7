import Verif.Gen.Go.Valid

/-!
# The function literal of generation/complex.go: `Buffer`, `Read`
-/

namespace Crunch.Gen.Go.Complex

theorem right1I16BE : Right (str% "Buffer") (str% "Read") (str% "I") (str% "16") (str% "BE") := by run_text
theorem right1I16LE : Right (str% "Buffer") (str% "Read") (str% "I") (str% "16") (str% "LE") := by run_text
theorem right1I32BE : Right (str% "Buffer") (str% "Read") (str% "I") (str% "32") (str% "BE") := by run_text
theorem right1I32LE : Right (str% "Buffer") (str% "Read") (str% "I") (str% "32") (str% "LE") := by run_text
theorem right1I64BE : Right (str% "Buffer") (str% "Read") (str% "I") (str% "64") (str% "BE") := by run_text
theorem right1I64LE : Right (str% "Buffer") (str% "Read") (str% "I") (str% "64") (str% "LE") := by run_text
theorem right1U16BE : Right (str% "Buffer") (str% "Read") (str% "U") (str% "16") (str% "BE") := by run_text
theorem right1U16LE : Right (str% "Buffer") (str% "Read") (str% "U") (str% "16") (str% "LE") := by run_text
theorem right1U32BE : Right (str% "Buffer") (str% "Read") (str% "U") (str% "32") (str% "BE") := by run_text
theorem right1U32LE : Right (str% "Buffer") (str% "Read") (str% "U") (str% "32") (str% "LE") := by run_text
theorem right1U64BE : Right (str% "Buffer") (str% "Read") (str% "U") (str% "64") (str% "BE") := by run_text
theorem right1U64LE : Right (str% "Buffer") (str% "Read") (str% "U") (str% "64") (str% "LE") := by run_text
theorem right1F16BE : Right (str% "Buffer") (str% "Read") (str% "F") (str% "16") (str% "BE") := by run_text
theorem right1F16LE : Right (str% "Buffer") (str% "Read") (str% "F") (str% "16") (str% "LE") := by run_text
theorem right1F32BE : Right (str% "Buffer") (str% "Read") (str% "F") (str% "32") (str% "BE") := by run_text
theorem right1F32LE : Right (str% "Buffer") (str% "Read") (str% "F") (str% "32") (str% "LE") := by run_text
theorem right1F64BE : Right (str% "Buffer") (str% "Read") (str% "F") (str% "64") (str% "BE") := by run_text
theorem right1F64LE : Right (str% "Buffer") (str% "Read") (str% "F") (str% "64") (str% "LE") := by run_text

theorem right1 : RightFor (str% "Buffer") (str% "Read") :=
  .intro right1I16BE right1I16LE right1I32BE right1I32LE right1I64BE right1I64LE right1U16BE right1U16LE right1U32BE
    right1U32LE right1U64BE right1U64LE right1F16BE right1F16LE right1F32BE right1F32LE right1F64BE right1F64LE

end Crunch.Gen.Go.Complex
