import Verif.Gen.Go.Valid

/-!
# The function literal of generation/complex.go: `MiniBuffer`, `Read`
-/

namespace Crunch.Gen.Go.Complex

theorem right3I16BE : Right (str% "MiniBuffer") (str% "Read") (str% "I") (str% "16") (str% "BE") := by run_text
theorem right3I16LE : Right (str% "MiniBuffer") (str% "Read") (str% "I") (str% "16") (str% "LE") := by run_text
theorem right3I32BE : Right (str% "MiniBuffer") (str% "Read") (str% "I") (str% "32") (str% "BE") := by run_text
theorem right3I32LE : Right (str% "MiniBuffer") (str% "Read") (str% "I") (str% "32") (str% "LE") := by run_text
theorem right3I64BE : Right (str% "MiniBuffer") (str% "Read") (str% "I") (str% "64") (str% "BE") := by run_text
theorem right3I64LE : Right (str% "MiniBuffer") (str% "Read") (str% "I") (str% "64") (str% "LE") := by run_text
theorem right3U16BE : Right (str% "MiniBuffer") (str% "Read") (str% "U") (str% "16") (str% "BE") := by run_text
theorem right3U16LE : Right (str% "MiniBuffer") (str% "Read") (str% "U") (str% "16") (str% "LE") := by run_text
theorem right3U32BE : Right (str% "MiniBuffer") (str% "Read") (str% "U") (str% "32") (str% "BE") := by run_text
theorem right3U32LE : Right (str% "MiniBuffer") (str% "Read") (str% "U") (str% "32") (str% "LE") := by run_text
theorem right3U64BE : Right (str% "MiniBuffer") (str% "Read") (str% "U") (str% "64") (str% "BE") := by run_text
theorem right3U64LE : Right (str% "MiniBuffer") (str% "Read") (str% "U") (str% "64") (str% "LE") := by run_text
theorem right3F16BE : Right (str% "MiniBuffer") (str% "Read") (str% "F") (str% "16") (str% "BE") := by run_text
theorem right3F16LE : Right (str% "MiniBuffer") (str% "Read") (str% "F") (str% "16") (str% "LE") := by run_text
theorem right3F32BE : Right (str% "MiniBuffer") (str% "Read") (str% "F") (str% "32") (str% "BE") := by run_text
theorem right3F32LE : Right (str% "MiniBuffer") (str% "Read") (str% "F") (str% "32") (str% "LE") := by run_text
theorem right3F64BE : Right (str% "MiniBuffer") (str% "Read") (str% "F") (str% "64") (str% "BE") := by run_text
theorem right3F64LE : Right (str% "MiniBuffer") (str% "Read") (str% "F") (str% "64") (str% "LE") := by run_text

theorem right3 : RightFor (str% "MiniBuffer") (str% "Read") :=
  .intro right3I16BE right3I16LE right3I32BE right3I32LE right3I64BE right3I64LE right3U16BE right3U16LE right3U32BE
    right3U32LE right3U64BE right3U64LE right3F16BE right3F16LE right3F32BE right3F32LE right3F64BE right3F64LE

end Crunch.Gen.Go.Complex
