import Lean.Elab.Term

/-!
# Go strings and byte slices as lists of bytes

The generator (`/repo/generation`) works on file contents and names, which are byte strings.
-/

namespace Crunch.Gen

/-- A Go `string` or the contents of a `[]byte`. -/
abbrev Str := List UInt8

open Lean Elab Term in
/-- `str% "abc"` is the list of the bytes of `abc`, written out. -/
elab "str% " s:str : term => return toExpr (s.getString.toUTF8.toList)

/-- The byte `\n`. -/
def nl : UInt8 := 10

/-- `strings.Join(parts, sep)` -/
def join (sep : Str) : List Str → Str
  | [] => []
  | [a] => a
  | a :: b :: l => a ++ sep ++ join sep (b :: l)

end Crunch.Gen
