import Verif.Gen.Text

/-!
# examples/signed-integers/main.go

Written by tools/src_embed.py.
-/

namespace Crunch.Src.SignedIntegers

open Crunch.Gen (Str)

/-- examples/signed-integers/main.go:1-36 -/
def text : List Str := [
  str% "package main",
  str% "",
  str% "import (",
  str% "\t\"fmt\"",
  str% "",
  str% "\tcrunch \"github.com/superwhiskers/crunch/v3\"",
  str% ")",
  str% "",
  str% "func main() {",
  str% "",
  str% "\t// create a new (empty) buffer",
  str% "\tbuf := crunch.NewBuffer()",
  str% "",
  str% "\t// make it bigger (the size of two 32-bit signed integers)",
  str% "\t//",
  str% "\t//       | the size of a 32-bit signed integer (in bytes)",
  str% "\t//       |",
  str% "\t//       |   | two integers",
  str% "\t//       |   |",
  str% "\t//       v   v",
  str% "\tbuf.Grow(4 * 2)",
  str% "",
  str% "\t// write two int32s to the buffer (in little-endian, the most common endianness)",
  str% "\tbuf.WriteI32LENext([]int32{-42, 69})",
  str% "",
  str% "\t// output the buffer",
  str% "\tfmt.Println(buf.Bytes())",
  str% "",
  str% "\t// seek to the beginning again",
  str% "\tbuf.SeekByte(0x00, false)",
  str% "",
  str% "\t// read out the integers to ensure validity",
  str% "\tfmt.Println(buf.ReadI32LENext(2))",
  str% "",
  str% "}",
  str% ""]

end Crunch.Src.SignedIntegers
