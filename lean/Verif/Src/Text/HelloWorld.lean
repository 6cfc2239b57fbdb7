import Verif.Gen.Text

/-!
# examples/helloworld/main.go

Written by tools/src_embed.py.
-/

namespace Crunch.Src.HelloWorld

open Crunch.Gen (Str)

/-- examples/helloworld/main.go:1-24 -/
def text : List Str := [
  str% "package main",
  str% "",
  str% "import (",
  str% "\t\"fmt\"",
  str% "",
  str% "\tcrunch \"github.com/superwhiskers/crunch/v3\"",
  str% ")",
  str% "",
  str% "func main() {",
  str% "",
  str% "\t// create a new empty buffer",
  str% "\tbuf := crunch.NewBuffer()",
  str% "",
  str% "\t// expand it to have 12 null bytes",
  str% "\tbuf.Grow(12)",
  str% "",
  str% "\t// write \"hello, world\" to it",
  str% "\tbuf.WriteBytesNext([]byte(\"hello, world\"))",
  str% "",
  str% "\t// output the buffer to the console",
  str% "\tfmt.Println(string(buf.Bytes()))",
  str% "",
  str% "}",
  str% ""]

end Crunch.Src.HelloWorld
