import Verif.Src.Tests
import Verif.Src.Decls

/-!
# Go source texts: the tests of the error values

v1/errors_test.go, v2/errors_test.go and v3/errors_test.go hold one test each.  It compares a string with what the method
`Error` of an error value returns.  A text that is not of this form is not parsed at all.
-/

namespace Crunch.Src

open Crunch.Gen

/-- A test of the method `Error`: the string expected, and the error value it is called on. -/
structure ErrTest where
  expected : Str
  error : Str
deriving DecidableEq, Repr

/-- The form of v1/errors_test.go:22-33, v2/errors_test.go:22-33 and v3/errors_test.go:22-33. -/
def parseErrTest (ls : List Str) : Option ErrTest := do
  let ts := noComments (lexLines false ls)
  let (_, ts) ← tok (isId (str% "func")) ts
  let (_, ts) ← name ts
  let (_, ts) ← toks [isOp (str% "("), isId (str% "t"), isOp (str% "*"), isId (str% "testing"), isOp (str% "."), isId (str% "T"),
    isOp (str% ")"), isOp (str% "{")] ts
  let (x, ts) ← name ts
  let (_, ts) ← tok (isOp (str% ":=")) ts
  let (e, ts) ← strLit ts
  let (_, ts) ← semi ts
  let (y, ts) ← name ts
  let (_, ts) ← tok (isOp (str% ":=")) ts
  let (v, ts) ← name ts
  let (_, ts) ← toks [isOp (str% "."), isId (str% "Error"), isOp (str% "("), isOp (str% ")")] ts
  let (_, ts) ← semi ts
  let (_, ts) ← toks [isId (str% "if"), isId y, isOp (str% "!="), isId x, isOp (str% "{")] ts
  let (_, ts) ← Tests.pFatal ts
  let (_, ts) ← tok (isOp (str% "}")) ts
  let (_, ts) ← semi ts
  if ts = [] ∧ x ≠ y ∧ v ≠ x then return ⟨e, v⟩ else none

/-- The test passes in a package with this file of errors: the error value is declared, and `Error` returns the string expected. -/
def ErrTest.Passes (t : ErrTest) (f : ErrFile) : Prop :=
  ∃ es e, f.table = some es ∧ es.lookup t.error = some e ∧ f.error e = some t.expected

end Crunch.Src
