import Verif.Gen.Text

/-!
# v3/errors.go

Written by tools/src_embed.py.
-/

namespace Crunch.Src.V3Errors

open Crunch.Gen (Str)

/-- v3/errors.go:1-72 -/
def text : List Str := [
  str% "/*",
  str% "",
  str% "crunch - utilities for taking bytes out of things",
  str% "Copyright (c) 2019-2020 superwhiskers <whiskerdev@protonmail.com>",
  str% "",
  str% "This Source Code Form is subject to the terms of the Mozilla Public",
  str% "License, v. 2.0. If a copy of the MPL was not distributed with this",
  str% "file, You can obtain one at https://mozilla.org/MPL/2.0/.",
  str% "",
  str% "*/",
  str% "",
  str% "package v3",
  str% "",
  str% "import \"fmt\"",
  str% "",
  str% "// Error implements a custom error type used in crunch",
  str% "type Error struct {",
  str% "\tscope string",
  str% "\terror string",
  str% "}",
  str% "",
  str% "// Error formats the error held in a Error as a string",
  str% "func (e Error) Error() string {",
  str% "",
  str% "\treturn fmt.Sprintf(\"crunch: %s: %s\", e.scope, e.error)",
  str% "",
  str% "}",
  str% "",
  str% "var (",
  str% "\t// BufferOverreadError represents an instance in which a read",
  str% "\t// attempted to read past the buffer itself",
  str% "\tBufferOverreadError = Error{",
  str% "\t\tscope: \"buffer\",",
  str% "\t\terror: \"read exceeds buffer capacity\",",
  str% "\t}",
  str% "",
  str% "\t// BufferUnderreadError represents an instance in which a read",
  str% "\t// attempted to read before the buffer itself",
  str% "\tBufferUnderreadError = Error{",
  str% "\t\tscope: \"buffer\",",
  str% "\t\terror: \"read offset is less than zero\",",
  str% "\t}",
  str% "",
  str% "\t// BufferOverwriteError represents an instance in which a write",
  str% "\t// attempted to write past the buffer itself",
  str% "\tBufferOverwriteError = Error{",
  str% "\t\tscope: \"buffer\",",
  str% "\t\terror: \"write offset exceeds buffer capacity\",",
  str% "\t}",
  str% "",
  str% "\t// BufferUnderwriteError represents an instance in which a write",
  str% "\t// attempted to write before the buffer itself",
  str% "\tBufferUnderwriteError = Error{",
  str% "\t\tscope: \"buffer\",",
  str% "\t\terror: \"write offset is less than zero\",",
  str% "\t}",
  str% "",
  str% "\t// BufferInvalidByteCountError represents an instance in which an",
  str% "\t// invalid byte count was passed to one of the buffer's methods",
  str% "\tBufferInvalidByteCountError = Error{",
  str% "\t\tscope: \"buffer\",",
  str% "\t\terror: \"invalid byte count requested\",",
  str% "\t}",
  str% "",
  str% "\t// BytesBufNegativeReadError represents an instance in which a",
  str% "\t// reader returned a negative count from its Read method",
  str% "\tBytesBufNegativeReadError = Error{",
  str% "\t\tscope: \"bytesbuf\",",
  str% "\t\terror: \"reader returned negative count from Read\",",
  str% "\t}",
  str% ")",
  str% ""]

end Crunch.Src.V3Errors
