import Verif.Gen.Text

/-!
# v2/errors.go

Written by tools/src_embed.py.
-/

namespace Crunch.Src.V2Errors

open Crunch.Gen (Str)

/-- v2/errors.go:1-72 -/
def text : List Str := [
  str% "/*",
  str% "",
  str% "crunch - utilities for taking bytes out of things",
  str% "Copyright (c) 2019-2020 superwhiskers <whiskerdev@protonmail.com>",
  str% "",
  str% "This Source Code Form is subject to the terms of the Mozilla Public",
  str% "License, v. 2.0. If a copy of the MPL was not distributed with this",
  str% "file, You can obtain one at https://mozilla.org/MPL/2.0/.",
  str% "",
  str% "*/",
  str% "",
  str% "package v2",
  str% "",
  str% "import \"fmt\"",
  str% "",
  str% "// Error implements a custom error type used in crunch",
  str% "type Error struct {",
  str% "\tscope string",
  str% "\terror string",
  str% "}",
  str% "",
  str% "// Error formats the error held in a Error as a string",
  str% "func (e Error) Error() string {",
  str% "",
  str% "\treturn fmt.Sprintf(\"crunch: %s: %s\", e.scope, e.error)",
  str% "",
  str% "}",
  str% "",
  str% "var (",
  str% "\t// BufferOverreadError represents an instance in which a read attempted to",
  str% "\t// read past the buffer itself",
  str% "\tBufferOverreadError = Error{",
  str% "\t\tscope: \"buffer\",",
  str% "\t\terror: \"read exceeds buffer capacity\",",
  str% "\t}",
  str% "",
  str% "\t// BufferUnderreadError represents an instance in which a read attempted to",
  str% "\t// read before the buffer itself",
  str% "\tBufferUnderreadError = Error{",
  str% "\t\tscope: \"buffer\",",
  str% "\t\terror: \"read offset is less than zero\",",
  str% "\t}",
  str% "",
  str% "\t// BufferOverwriteError represents an instance in which a write attempted to",
  str% "\t// write past the buffer itself",
  str% "\tBufferOverwriteError = Error{",
  str% "\t\tscope: \"buffer\",",
  str% "\t\terror: \"write offset exceeds buffer capacity\",",
  str% "\t}",
  str% "",
  str% "\t// BufferUnderwriteError represents an instance in which a write attempted to",
  str% "\t// write before the buffer itself",
  str% "\tBufferUnderwriteError = Error{",
  str% "\t\tscope: \"buffer\",",
  str% "\t\terror: \"write offset is less than zero\",",
  str% "\t}",
  str% "",
  str% "\t// BufferInvalidByteCountError represents an instance in which an invalid byte",
  str% "\t// count was passed to one of the buffer's methods",
  str% "\tBufferInvalidByteCountError = Error{",
  str% "\t\tscope: \"buffer\",",
  str% "\t\terror: \"invalid byte count requested\",",
  str% "\t}",
  str% "",
  str% "\t// BufferInvalidBitError represents an instance in which an invalid bit was",
  str% "\t// passed to one of the buffer's methods",
  str% "\tBufferInvalidBitError = Error{",
  str% "\t\tscope: \"buffer\",",
  str% "\t\terror: \"invalid bit value specified\",",
  str% "\t}",
  str% ")",
  str% ""]

end Crunch.Src.V2Errors
