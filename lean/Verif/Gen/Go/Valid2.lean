import Verif.Gen.Go.Valid

/-!
# The function literal of generation/complex.go: `Buffer`, `Write`
-/

namespace Crunch.Gen.Go.Complex

theorem right2I16BE : Right (str% "Buffer") (str% "Write") (str% "I") (str% "16") (str% "BE") := by run_text
theorem right2I16LE : Right (str% "Buffer") (str% "Write") (str% "I") (str% "16") (str% "LE") := by run_text
theorem right2I32BE : Right (str% "Buffer") (str% "Write") (str% "I") (str% "32") (str% "BE") := by run_text
theorem right2I32LE : Right (str% "Buffer") (str% "Write") (str% "I") (str% "32") (str% "LE") := by run_text
theorem right2I64BE : Right (str% "Buffer") (str% "Write") (str% "I") (str% "64") (str% "BE") := by run_text
theorem right2I64LE : Right (str% "Buffer") (str% "Write") (str% "I") (str% "64") (str% "LE") := by run_text
theorem right2U16BE : Right (str% "Buffer") (str% "Write") (str% "U") (str% "16") (str% "BE") := by run_text
theorem right2U16LE : Right (str% "Buffer") (str% "Write") (str% "U") (str% "16") (str% "LE") := by run_text
theorem right2U32BE : Right (str% "Buffer") (str% "Write") (str% "U") (str% "32") (str% "BE") := by run_text
theorem right2U32LE : Right (str% "Buffer") (str% "Write") (str% "U") (str% "32") (str% "LE") := by run_text
theorem right2U64BE : Right (str% "Buffer") (str% "Write") (str% "U") (str% "64") (str% "BE") := by run_text
theorem right2U64LE : Right (str% "Buffer") (str% "Write") (str% "U") (str% "64") (str% "LE") := by run_text
theorem right2F16BE : Right (str% "Buffer") (str% "Write") (str% "F") (str% "16") (str% "BE") := by run_text
theorem right2F16LE : Right (str% "Buffer") (str% "Write") (str% "F") (str% "16") (str% "LE") := by run_text
theorem right2F32BE : Right (str% "Buffer") (str% "Write") (str% "F") (str% "32") (str% "BE") := by run_text
theorem right2F32LE : Right (str% "Buffer") (str% "Write") (str% "F") (str% "32") (str% "LE") := by run_text
theorem right2F64BE : Right (str% "Buffer") (str% "Write") (str% "F") (str% "64") (str% "BE") := by run_text
theorem right2F64LE : Right (str% "Buffer") (str% "Write") (str% "F") (str% "64") (str% "LE") := by run_text

theorem right2 : RightFor (str% "Buffer") (str% "Write") :=
  .intro right2I16BE right2I16LE right2I32BE right2I32LE right2I64BE right2I64LE right2U16BE right2U16LE right2U32BE
    right2U32LE right2U64BE right2U64LE right2F16BE right2F16LE right2F32BE right2F32LE right2F64BE right2F64LE

end Crunch.Gen.Go.Complex
