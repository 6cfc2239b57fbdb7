import Verif.Gen.Text

/-!
# examples/floating-point/main.go

Written by tools/src_embed.py.
-/

namespace Crunch.Src.FloatingPoint

open Crunch.Gen (Str)

/-- examples/floating-point/main.go:1-37 -/
def text : List Str := [
  str% "package main",
  str% "",
  str% "import (",
  str% "\t\"fmt\"",
  str% "",
  str% "\tcrunch \"github.com/superwhiskers/crunch/v3\"",
  str% ")",
  str% "",
  str% "func main() {",
  str% "",
  str% "\t// create a new (empty) buffer",
  str% "\tbuf := crunch.NewBuffer()",
  str% "",
  str% "\t// make it bigger (the size of four 64-bit floating point numbers)",
  str% "\t//",
  str% "\t//       | the size of a 64-bit floating point number (in bytes)",
  str% "\t//       |",
  str% "\t//       |   | four integers",
  str% "\t//       |   |",
  str% "\t//       v   v",
  str% "\tbuf.Grow(8 * 4)",
  str% "",
  str% "\t// write four float64s to the buffer (in big-endian, a different endianness",
  str% "\t// that i'm using to exemplify the control that crunch gives you)",
  str% "\tbuf.WriteF64BENext([]float64{69.0, -21.0, -42.42, 3.621})",
  str% "",
  str% "\t// output the buffer",
  str% "\tfmt.Println(buf.Bytes())",
  str% "",
  str% "\t// seek to the beginning again",
  str% "\tbuf.SeekByte(0x00, false)",
  str% "",
  str% "\t// read out the floats to ensure validity",
  str% "\tfmt.Println(buf.ReadF64BENext(4))",
  str% "",
  str% "}",
  str% ""]

end Crunch.Src.FloatingPoint
