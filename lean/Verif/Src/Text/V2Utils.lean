import Verif.Src.Sem

/-!
# v2/utils.go

Written by tools/src_embed.py.
-/

namespace Crunch.Src.V2Utils

open Crunch.Gen (Str)

/-- v2/utils.go:1-24 -/
def text_atob : List Str := [
  str% "/*",
  str% "",
  str% "crunch - utilities for taking bytes out of things",
  str% "Copyright (c) 2019-2020 superwhiskers <whiskerdev@protonmail.com>",
  str% "",
  str% "This Source Code Form is subject to the terms of the Mozilla Public",
  str% "License, v. 2.0. If a copy of the MPL was not distributed with this",
  str% "file, You can obtain one at https://mozilla.org/MPL/2.0/.",
  str% "",
  str% "*/",
  str% "",
  str% "package v2",
  str% "",
  str% "// atob converts a boolean to a byte",
  str% "func atob(b bool) byte {",
  str% "",
  str% "\tif b {",
  str% "",
  str% "\t\treturn 1",
  str% "",
  str% "\t}",
  str% "\treturn 0",
  str% "",
  str% "}",
  str% ""]

/-- v2/utils.go:1-24 -/
def fun_atob : Fun := ⟨(str% "atob"), [none], some .u8, 1, (.cons (.ifs (.var 0) (.cons (.ret (.lit 1)) .nil) .nil) (.cons (.ret (.lit 0)) .nil))⟩

/-- The text, in parts. -/
def text : List (List Str) := [text_atob]

/-- The functions. -/
def funs : List Fun := [fun_atob]

end Crunch.Src.V2Utils
