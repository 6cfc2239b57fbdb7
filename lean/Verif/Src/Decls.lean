import Verif.Src.Syntax
import Verif.Go

/-!
# Go source texts: the files of error values and constants

v1/errors.go, v2/errors.go and v3/errors.go declare a struct of strings, a method that formats it with `fmt.Sprintf`, and
variables of that type; v1/crunch.go declares constants.  As in `Verif/Src/Syntax.lean`, a text that is not of this form is
not parsed at all.
-/

namespace Crunch.Src

open Crunch.Gen

/-- A string literal without escapes, as its contents. -/
def strLit : P Str
  | .str s :: ts => if s.contains 92 then none else some (s.drop 1 |>.dropLast, ts)
  | _ => none

/-- `key: "value",` up to the closing brace. -/
def pKeys : Nat → P (List (Str × Str))
  | 0, _ => none
  | n + 1, ts =>
    match tok (isOp (str% "}")) ts with
    | some (_, ts) => some ([], ts)
    | none => do
      let (x, ts) ← name ts
      let (_, ts) ← tok (isOp (str% ":")) ts
      let (v, ts) ← strLit ts
      let (_, ts) ← tok (isOp (str% ",")) ts
      let (l, ts) ← pKeys n ts
      return ((x, v) :: l, ts)

/-- `name = T{ … }` up to the closing parenthesis of `var ( … )`. -/
def pErrors (t : Str) : Nat → P (List (Str × List (Str × Str)))
  | 0, _ => none
  | n + 1, ts =>
    match tok (isOp (str% ")")) ts with
    | some (_, ts) => some ([], ts)
    | none => do
      let (x, ts) ← name ts
      let (_, ts) ← tok (isOp (str% "=")) ts
      let (_, ts) ← tok (isId t) ts
      let (_, ts) ← tok (isOp (str% "{")) ts
      let (l, ts) ← pKeys exFuel ts
      let (_, ts) ← semi ts
      let (r, ts) ← pErrors t n ts
      return ((x, l) :: r, ts)

/-- `, e.field` up to the closing parenthesis. -/
def pFieldArgs (e : Str) : Nat → P (List Str)
  | 0, _ => none
  | n + 1, ts =>
    match tok (isOp (str% ")")) ts with
    | some (_, ts) => some ([], ts)
    | none => do
      let (_, ts) ← tok (isOp (str% ",")) ts
      let (_, ts) ← tok (isId e) ts
      let (_, ts) ← tok (isOp (str% ".")) ts
      let (x, ts) ← name ts
      let (l, ts) ← pFieldArgs e n ts
      return (x :: l, ts)

/-- What a file of errors declares. -/
structure ErrFile where
  /-- the fields of the struct, all of type `string` -/
  fields : List Str
  /-- the format of the method `Error` and the fields it is given -/
  format : Str
  args : List Str
  /-- the variables, with the fields that are given -/
  vars : List (Str × List (Str × Str))
deriving DecidableEq, Repr

/-- Several tokens. -/
def toks : List (Tok → Bool) → P Unit
  | [], ts => some ((), ts)
  | p :: ps, ts => do
    let (_, ts) ← tok p ts
    toks ps ts

/-- A file of errors, from its lines. -/
def parseErrors (ls : List Str) : Option ErrFile := do
  let ts := noComments (lexLines false ls)
  let (_, ts) ← tok (isId (str% "package")) ts
  let (_, ts) ← name ts
  let (_, ts) ← semi ts
  let (_, ts) ← tok (isId (str% "import")) ts
  let (i, ts) ← strLit ts
  if i ≠ str% "fmt" then none else pure ()
  let (_, ts) ← semi ts
  let (_, ts) ← tok (isId (str% "type")) ts
  let (t, ts) ← name ts
  let (_, ts) ← toks [isId (str% "struct"), isOp (str% "{")] ts
  let (fs, ts) ← pFields exFuel ts
  if fs.all (fun f => f.2 == .named (str% "string")) then pure () else none
  let (_, ts) ← semi ts
  let (_, ts) ← toks [isId (str% "func"), isOp (str% "(")] ts
  let (e, ts) ← name ts
  let (_, ts) ← toks [isId t, isOp (str% ")"), isId (str% "Error"), isOp (str% "("), isOp (str% ")"), isId (str% "string"),
    isOp (str% "{"), isId (str% "return"), isId (str% "fmt"), isOp (str% "."), isId (str% "Sprintf"), isOp (str% "(")] ts
  let (f, ts) ← strLit ts
  let (as, ts) ← pFieldArgs e exFuel ts
  let (_, ts) ← semi ts
  let (_, ts) ← tok (isOp (str% "}")) ts
  let (_, ts) ← semi ts
  let (_, ts) ← toks [isId (str% "var"), isOp (str% "(")] ts
  let (vs, ts) ← pErrors t exFuel ts
  let (_, ts) ← semi ts
  if ts = [] then return ⟨fs.map (·.1), f, as, vs⟩ else none

/-- `fmt.Sprintf` for formats with no verb but `%s`, given as many strings as the format has verbs. -/
def sprintf : Str → List Str → Option Str
  | [], [] => some []
  | [], _ :: _ => none
  | 37 :: 115 :: f, a :: as => (sprintf f as).map (a ++ ·)
  | c :: f, as => if c = 37 then none else (sprintf f as).map (c :: ·)

/-- The bytes of a string. -/
def bytesOf (s : String) : Str := s.toUTF8.data.toList

/-- The string of ASCII bytes. -/
def stringOf (s : Str) : String := String.ofList (s.map fun c => Char.ofNat c.toNat)

/-- An error value with the given fields; a field that is not given is empty. -/
def ErrFile.value (f : ErrFile) (l : List (Str × Str)) : Option GoError :=
  if f.fields = [str% "scope", str% "error"] ∧ (l.map (·.1)).all f.fields.contains ∧ (l.map (·.1)).Nodup then
    some ⟨stringOf ((l.lookup (str% "scope")).getD []), stringOf ((l.lookup (str% "error")).getD [])⟩
  else none

/-- The error values by name; a name is declared once. -/
def ErrFile.table (f : ErrFile) : Option (List (Str × GoError)) :=
  if (f.vars.map (·.1)).Nodup then f.vars.mapM fun (x, l) => (f.value l).map (x, ·) else none

/-- The field of an error value. -/
def errField (e : GoError) (x : Str) : Option Str :=
  if x = str% "scope" then some (bytesOf e.scope) else if x = str% "error" then some (bytesOf e.msg) else none

/-- The method `Error`. -/
def ErrFile.error (f : ErrFile) (e : GoError) : Option Str := do
  sprintf f.format (← f.args.mapM (errField e))

/-- `name = number` up to the closing parenthesis of `const ( … )`. -/
def pConsts : Nat → P (List (Str × Nat))
  | 0, _ => none
  | n + 1, ts =>
    match tok (isOp (str% ")")) ts with
    | some (_, ts) => some ([], ts)
    | none => do
      let (x, ts) ← name ts
      let (_, ts) ← tok (isOp (str% "=")) ts
      match ts with
      | .num v :: ts => do
        let (_, ts) ← semi ts
        let (l, ts) ← pConsts n ts
        return ((x, numVal v) :: l, ts)
      | _ => none

/-- `name = pkg.name` up to the closing parenthesis of `var ( … )`. -/
def pAliases : Nat → P (List (Str × Str × Str))
  | 0, _ => none
  | n + 1, ts =>
    match tok (isOp (str% ")")) ts with
    | some (_, ts) => some ([], ts)
    | none => do
      let (x, ts) ← name ts
      let (_, ts) ← tok (isOp (str% "=")) ts
      let (p, ts) ← name ts
      let (_, ts) ← tok (isOp (str% ".")) ts
      let (y, ts) ← name ts
      let (_, ts) ← semi ts
      let (l, ts) ← pAliases n ts
      return ((x, p, y) :: l, ts)

/-- What v1/crunch.go declares. -/
structure ConstFile where
  /-- names for variables of another package -/
  aliases : List (Str × Str × Str)
  /-- the type of integer sizes: its name and what it is -/
  type : Str × Ty
  consts : List (Str × Nat)
deriving DecidableEq, Repr

/-- A file of constants, from its lines. -/
def parseConsts (ls : List Str) : Option ConstFile := do
  let ts := noComments (lexLines false ls)
  let (_, ts) ← tok (isId (str% "package")) ts
  let (_, ts) ← name ts
  let (_, ts) ← semi ts
  let (_, ts) ← tok (isId (str% "import")) ts
  let (i, ts) ← strLit ts
  if i ≠ str% "encoding/binary" then none else pure ()
  let (_, ts) ← semi ts
  let (_, ts) ← toks [isId (str% "var"), isOp (str% "(")] ts
  let (al, ts) ← pAliases exFuel ts
  let (_, ts) ← semi ts
  let (_, ts) ← tok (isId (str% "type")) ts
  let (t, ts) ← name ts
  let (u, ts) ← pTy exFuel ts
  let (_, ts) ← semi ts
  let (_, ts) ← toks [isId (str% "const"), isOp (str% "(")] ts
  let (cs, ts) ← pConsts exFuel ts
  let (_, ts) ← semi ts
  if ts = [] then return ⟨al, (t, u), cs⟩ else none

end Crunch.Src
