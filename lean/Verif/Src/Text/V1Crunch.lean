import Verif.Gen.Text

/-!
# v1/crunch.go

Written by tools/src_embed.py.
-/

namespace Crunch.Src.V1Crunch

open Crunch.Gen (Str)

/-- v1/crunch.go:1-41 -/
def text : List Str := [
  str% "/*",
  str% "",
  str% "crunch - utilities for taking bytes out of things",
  str% "Copyright (c) 2019-2020 superwhiskers <whiskerdev@protonmail.com>",
  str% "",
  str% "This Source Code Form is subject to the terms of the Mozilla Public",
  str% "License, v. 2.0. If a copy of the MPL was not distributed with this",
  str% "file, You can obtain one at https://mozilla.org/MPL/2.0/.",
  str% "",
  str% "*/",
  str% "",
  str% "// Package v1 provides various utilities for manipulating bytes and bits easily",
  str% "package v1",
  str% "",
  str% "import \"encoding/binary\"",
  str% "",
  str% "var (",
  str% "\t// LittleEndian represents the little-endian byte order",
  str% "\tLittleEndian = binary.LittleEndian",
  str% "",
  str% "\t// BigEndian represents the big-endian byte order",
  str% "\tBigEndian = binary.BigEndian",
  str% ")",
  str% "",
  str% "// IntegerSize represents the size of the integer read or written (in bytes)",
  str% "type IntegerSize int",
  str% "",
  str% "const (",
  str% "\t// Unsigned8 represents the 8-bit unsigned integer size",
  str% "\tUnsigned8 = 1",
  str% "",
  str% "\t// Unsigned16 represents the 16-bit unsigned integer size",
  str% "\tUnsigned16 = 2",
  str% "",
  str% "\t// Unsigned32 represents the 32-bit unsigned integer size",
  str% "\tUnsigned32 = 4",
  str% "",
  str% "\t// Unsigned64 represents the 64-bit unsigned integer size",
  str% "\tUnsigned64 = 8",
  str% ")",
  str% ""]

end Crunch.Src.V1Crunch
