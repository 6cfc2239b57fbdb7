import Verif.Gen.Text

/-!
# The part of `github.com/dave/jennifer/jen` the generator uses

A piece of code under construction is the list of the texts it renders to, written with spaces between them.  jennifer then runs
`go/format` over the result, which changes only white space; that step is not modelled, and neither is the failure of
`Render` on code that does not parse.
-/

namespace Crunch.Gen.Jen

/-- Code under construction. -/
abbrev Code := List Str

/-- `jen.Id(s)`, `.Id(s)` -/
def Id (s : Str) : Code := [s]
/-- `.Op(s)` -/
def Op (s : Str) : Code := [s]
/-- `.Dot(s)` -/
def Dot (s : Str) : Code := [str% ".", s]
/-- Decimal digits of a number. -/
def digits (n : Nat) : Str := (Nat.toDigits 10 n).map fun c => c.toNat.toUInt8
/-- `jen.Lit(n)` of an `int` -/
def Lit (n : Nat) : Code := [digits n]
/-- `jen.Lit(true)` -/
def LitTrue : Code := [str% "true"]
/-- Several codes with a comma between them. -/
def commas : List Code → Code
  | [] => []
  | [c] => c
  | c :: d :: l => c ++ [str% ","] ++ commas (d :: l)
/-- `jen.Parens(c)` -/
def Parens (c : Code) : Code := [str% "("] ++ c ++ [str% ")"]
/-- `.Call(args...)` -/
def Call (args : List Code) : Code := [str% "("] ++ commas args ++ [str% ")"]
/-- `.Params(params...)` -/
def Params (ps : List Code) : Code := [str% "("] ++ commas ps ++ [str% ")"]
/-- `.Index(c)` -/
def Index (c : Code) : Code := [str% "["] ++ c ++ [str% "]"]
/-- `.Block(statements...)` -/
def Block (ss : List Code) : Code := [str% "{", [nl]] ++ ss.flatMap (· ++ [[nl]]) ++ [str% "}"]
/-- `jen.If(c)` -/
def If (c : Code) : Code := [str% "if"] ++ c
/-- `jen.Panic(c)` -/
def Panic (c : Code) : Code := [str% "panic", str% "("] ++ c ++ [str% ")"]
/-- `jen.Len(c)` -/
def Len (c : Code) : Code := [str% "len", str% "("] ++ c ++ [str% ")"]
/-- `.Func()` -/
def Func : Code := [str% "func"]
/-- `.Return()` -/
def Return : Code := [str% "return"]
/-- `jen.Goto()` -/
def Goto : Code := [str% "goto"]
/-- `.Var()` -/
def Var : Code := [str% "var"]
/-- `.Comment(s)` of a text that starts with `//` -/
def Comment (s : Str) : Code := [s]

/-- `builder.Render`, before `go/format` -/
def render (c : Code) : Str := c.flatMap (· ++ str% " ")

end Crunch.Gen.Jen
