import Verif.Src.Tests

/-!
# Go source texts: the benchmarks of the project

A parser for the benchmark functions of /repo (v1, v2, v3: buffer_test.go and minibuf_test.go), and what it means that one of them comes to
its end when the calls are run from the texts of the package.  A text that is not of this form is not parsed at all.
-/

namespace Crunch.Src.Tests

open Crunch.Gen

/-- A benchmark function: what stands before the loop, in the loop, and behind it. -/
structure Bench where
  name : Str
  before : List Stmt
  body : List Stmt
  after : List Stmt
deriving DecidableEq, Repr

/-- `for n := 0; n < b.N; n++ {` -/
def pLoop : P Unit := fun ts => do
  let (_, ts) ← toks [isId (str% "for"), isId (str% "n"), isOp (str% ":=")] ts
  let (z, ts) ← pConst ts
  if z = ⟨false, 0, 0⟩ then pure () else none
  let (_, ts) ← semi ts
  let (_, ts) ← toks [isId (str% "n"), isOp (str% "<"), isId (str% "b"), isOp (str% "."), isId (str% "N")] ts
  let (_, ts) ← semi ts
  toks [isId (str% "n"), isOp (str% "++"), isOp (str% "{")] ts |>.map fun (_, ts) => ((), ts)

/-- Statements up to the head of the loop. -/
def pBefore (ty : Str) : Nat → P (List Stmt)
  | 0, _ => none
  | n + 1, ts =>
    match pLoop ts with
    | some (_, ts) => some ([], ts)
    | none => do
      let (s, ts) ← pStmt ty ts
      (pBefore ty n ts).map fun (l, ts) => (s ++ l, ts)

/-- A benchmark function; `b.ReportAllocs()`, with which it begins, does nothing to the buffers. -/
def parseBench (ty : Str) (ls : List Str) : Option Bench := do
  let ts := noComments (lexLines false ls)
  let (_, ts) ← tok (isId (str% "func")) ts
  let (f, ts) ← name ts
  let (_, ts) ← toks [isOp (str% "("), isId (str% "b"), isOp (str% "*"), isId (str% "testing"), isOp (str% "."), isId (str% "B"), isOp (str% ")"),
    isOp (str% "{")] ts
  let (_, ts) ← toks [isId (str% "b"), isOp (str% "."), isId (str% "ReportAllocs"), isOp (str% "("), isOp (str% ")")] ts
  let (_, ts) ← semi ts
  let (l, ts) ← pBefore ty stFuel ts
  let (b, ts) ← pBody ty stFuel ts
  let (a, ts) ← pBody ty stFuel ts
  if ts = [] then return ⟨f, l, b, a⟩ else none

/-- The benchmark with `b.N = n`: the statements that are run.  None of those in a loop uses `n`, and a variable that is declared before the
loop is the same in every round. -/
def Bench.rounds (b : Bench) (n : Nat) : Test := ⟨b.name, b.before ++ ((List.replicate n b.body).flatten ++ b.after)⟩

end Crunch.Src.Tests
