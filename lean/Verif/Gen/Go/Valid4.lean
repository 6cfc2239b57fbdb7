import Verif.Gen.Go.Valid

/-!
# The function literal of generation/complex.go: `MiniBuffer`, `Write`
-/

namespace Crunch.Gen.Go.Complex

theorem right4I16BE : Right (str% "MiniBuffer") (str% "Write") (str% "I") (str% "16") (str% "BE") := by run_text
theorem right4I16LE : Right (str% "MiniBuffer") (str% "Write") (str% "I") (str% "16") (str% "LE") := by run_text
theorem right4I32BE : Right (str% "MiniBuffer") (str% "Write") (str% "I") (str% "32") (str% "BE") := by run_text
theorem right4I32LE : Right (str% "MiniBuffer") (str% "Write") (str% "I") (str% "32") (str% "LE") := by run_text
theorem right4I64BE : Right (str% "MiniBuffer") (str% "Write") (str% "I") (str% "64") (str% "BE") := by run_text
theorem right4I64LE : Right (str% "MiniBuffer") (str% "Write") (str% "I") (str% "64") (str% "LE") := by run_text
theorem right4U16BE : Right (str% "MiniBuffer") (str% "Write") (str% "U") (str% "16") (str% "BE") := by run_text
theorem right4U16LE : Right (str% "MiniBuffer") (str% "Write") (str% "U") (str% "16") (str% "LE") := by run_text
theorem right4U32BE : Right (str% "MiniBuffer") (str% "Write") (str% "U") (str% "32") (str% "BE") := by run_text
theorem right4U32LE : Right (str% "MiniBuffer") (str% "Write") (str% "U") (str% "32") (str% "LE") := by run_text
theorem right4U64BE : Right (str% "MiniBuffer") (str% "Write") (str% "U") (str% "64") (str% "BE") := by run_text
theorem right4U64LE : Right (str% "MiniBuffer") (str% "Write") (str% "U") (str% "64") (str% "LE") := by run_text
theorem right4F16BE : Right (str% "MiniBuffer") (str% "Write") (str% "F") (str% "16") (str% "BE") := by run_text
theorem right4F16LE : Right (str% "MiniBuffer") (str% "Write") (str% "F") (str% "16") (str% "LE") := by run_text
theorem right4F32BE : Right (str% "MiniBuffer") (str% "Write") (str% "F") (str% "32") (str% "BE") := by run_text
theorem right4F32LE : Right (str% "MiniBuffer") (str% "Write") (str% "F") (str% "32") (str% "LE") := by run_text
theorem right4F64BE : Right (str% "MiniBuffer") (str% "Write") (str% "F") (str% "64") (str% "BE") := by run_text
theorem right4F64LE : Right (str% "MiniBuffer") (str% "Write") (str% "F") (str% "64") (str% "LE") := by run_text

theorem right4 : RightFor (str% "MiniBuffer") (str% "Write") :=
  .intro right4I16BE right4I16LE right4I32BE right4I32LE right4I64BE right4I64LE right4U16BE right4U16LE right4U32BE
    right4U32LE right4U64BE right4U64LE right4F16BE right4F16LE right4F32BE right4F32LE right4F64BE right4F64LE

end Crunch.Gen.Go.Complex
