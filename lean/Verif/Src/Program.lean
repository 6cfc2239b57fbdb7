import Verif.Src.Calls
import Verif.Src.Decls

/-!
# Go source texts: programs that use a v3 `Buffer`

The programs under /repo/examples make a buffer, call its methods with constants, and print results.  Here: a parser for such programs,
what they do when the calls are run from the text of v3, and what they print.  As in `Verif/Src/Syntax.lean`, a text that is not of
this form is not parsed at all.
-/

namespace Crunch.Src.Program

open Crunch.Gen

/-! ## syntax -/

/-- A constant, `num / 10 ^ scale` or its negative. -/
structure Const where
  neg : Bool
  num : Nat
  scale : Nat
deriving DecidableEq, Repr

/-- An argument. -/
inductive Arg where
  | const (c : Const)
  | flag (b : Bool)
  /-- `[]byte("…")` -/
  | str (s : Str)
  /-- `[]T{…}` for a type of numbers -/
  | list (k : K) (l : List Const)
deriving DecidableEq, Repr

/-- `buf.name(args)` -/
structure Call where
  name : Str
  args : List Arg
deriving DecidableEq, Repr

/-- A statement. -/
inductive Line where
  | call (c : Call)
  /-- `fmt.Println(buf.name(args))` -/
  | print (c : Call)
  /-- `fmt.Println(string(buf.name(args)))` -/
  | printStr (c : Call)
deriving DecidableEq, Repr

/-- `-`? digits (`.` digits)? -/
def pConst : P Const := fun ts =>
  let (neg, ts) := match ts with
    | .op o :: ts' => if o = str% "-" then (true, ts') else (false, ts)
    | ts => (false, ts)
  match ts with
  | .num a :: .op o :: .num b :: ts =>
    if o = str% "." then some (⟨neg, numVal a * 10 ^ b.length + numVal b, b.length⟩, ts)
    else some (⟨neg, numVal a, 0⟩, .op o :: .num b :: ts)
  | .num a :: ts => some (⟨neg, numVal a, 0⟩, ts)
  | _ => none

/-- A product of constants. -/
def pProduct : Nat → P Const
  | 0, _ => none
  | n + 1, ts => do
    let (a, ts) ← pConst ts
    match ts with
    | .op o :: ts' =>
      if o = str% "*" then do
        let (b, ts) ← pProduct n ts'
        return (⟨a.neg != b.neg, a.num * b.num, a.scale + b.scale⟩, ts)
      else return (a, ts)
    | ts => return (a, ts)

/-- Constants up to the closing brace. -/
def pConsts : Nat → P (List Const)
  | 0, _ => none
  | n + 1, ts => do
    let (c, ts) ← pProduct exFuel ts
    match ts with
    | .op o :: ts =>
      if o = str% "}" then return ([c], ts)
      else if o = str% "," then (pConsts n ts).map fun (l, ts) => (c :: l, ts)
      else none
    | _ => none

/-- The types of numbers by name. -/
def numType (s : Str) : Option K :=
  if s = str% "byte" || s = str% "uint8" then some .u8
  else if s = str% "uint16" then some .u16 else if s = str% "uint32" then some .u32 else if s = str% "uint64" then some .u64
  else if s = str% "int16" then some .i16 else if s = str% "int32" then some .i32 else if s = str% "int64" then some .i64
  else if s = str% "float32" then some .f32 else if s = str% "float64" then some .f64
  else none

/-- An argument. -/
def pArg : P Arg := fun ts =>
  match ts with
  | .id b :: ts' =>
    if b = str% "true" then some (.flag true, ts') else if b = str% "false" then some (.flag false, ts') else none
  | .op o :: ts' =>
    if o = str% "[" then do
      let (_, ts) ← tok (isOp (str% "]")) ts'
      let (t, ts) ← name ts
      let k ← numType t
      match ts with
      | .op o :: ts =>
        if o = str% "(" then
          if k = .u8 then do
            let (s, ts) ← strLit ts
            let (_, ts) ← tok (isOp (str% ")")) ts
            return (.str s, ts)
          else none
        else if o = str% "{" then (pConsts exFuel ts).map fun (l, ts) => (.list k l, ts)
        else none
      | _ => none
    else (pProduct exFuel ts).map fun (c, ts) => (.const c, ts)
  | ts => (pProduct exFuel ts).map fun (c, ts) => (.const c, ts)

/-- Arguments up to the closing parenthesis. -/
def pArgs : Nat → P (List Arg)
  | 0, _ => none
  | n + 1, ts =>
    match tok (isOp (str% ")")) ts with
    | some (_, ts) => some ([], ts)
    | none => do
      let (a, ts) ← pArg ts
      match ts with
      | .op o :: ts =>
        if o = str% ")" then return ([a], ts)
        else if o = str% "," then (pArgs n ts).map fun (l, ts) => (a :: l, ts)
        else none
      | _ => none

/-- `x.name(args)` -/
def pCall (x : Str) : P Call := fun ts => do
  let (_, ts) ← toks [isId x, isOp (str% ".")] ts
  let (f, ts) ← Src.name ts
  let (_, ts) ← tok (isOp (str% "(")) ts
  let (l, ts) ← pArgs exFuel ts
  return (⟨f, l⟩, ts)

/-- A statement; `x` is the buffer. -/
def pLine (x : Str) : P Line := fun ts =>
  match toks [isId (str% "fmt"), isOp (str% "."), isId (str% "Println"), isOp (str% "(")] ts with
  | some (_, ts) =>
    match toks [isId (str% "string"), isOp (str% "(")] ts with
    | some (_, ts) => do
      let (c, ts) ← pCall x ts
      let (_, ts) ← toks [isOp (str% ")"), isOp (str% ")")] ts
      let (_, ts) ← semi ts
      return (.printStr c, ts)
    | none => do
      let (c, ts) ← pCall x ts
      let (_, ts) ← tok (isOp (str% ")")) ts
      let (_, ts) ← semi ts
      return (.print c, ts)
  | none => do
    let (c, ts) ← pCall x ts
    let (_, ts) ← semi ts
    return (.call c, ts)

/-- Statements up to the closing brace. -/
def pLines (x : Str) : Nat → P (List Line)
  | 0, _ => none
  | n + 1, ts =>
    match tok (isOp (str% "}")) ts with
    | some (_, ts) => some ([], ts)
    | none => do
      let (l, ts) ← pLine x ts
      let (r, ts) ← pLines x n ts
      return (l :: r, ts)

/-- A program, from its lines: what follows the statement that makes the buffer.  The names `fmt` and `crunch` must be free for the packages. -/
def parseMain (ls : List Str) : Option (List Line) := do
  let ts := noComments (lexLines false ls)
  let (_, ts) ← toks [isId (str% "package"), isId (str% "main")] ts
  let (_, ts) ← semi ts
  let (_, ts) ← toks [isId (str% "import"), isOp (str% "(")] ts
  let (f, ts) ← strLit ts
  let (_, ts) ← semi ts
  let (_, ts) ← tok (isId (str% "crunch")) ts
  let (i, ts) ← strLit ts
  if f = str% "fmt" ∧ i = str% "github.com/superwhiskers/crunch/v3" then pure () else none
  let (_, ts) ← semi ts
  let (_, ts) ← tok (isOp (str% ")")) ts
  let (_, ts) ← semi ts
  let (_, ts) ← toks [isId (str% "func"), isId (str% "main"), isOp (str% "("), isOp (str% ")"), isOp (str% "{")] ts
  let (x, ts) ← name ts
  if x = str% "fmt" ∨ x = str% "string" then none else pure ()
  let (_, ts) ← toks [isOp (str% ":="), isId (str% "crunch"), isOp (str% "."), isId (str% "NewBuffer"), isOp (str% "("), isOp (str% ")")] ts
  let (_, ts) ← semi ts
  let (l, ts) ← pLines x stFuel ts
  let (_, ts) ← semi ts
  if ts = [] then return l else none

/-! ## constants -/

/-- `p / q` rounded to the nearest integer, halves to the even one. -/
def nearest (p q : Nat) : Nat :=
  if 2 * (p % q) < q ∨ (2 * (p % q) = q ∧ p / q % 2 = 0) then p / q else p / q + 1

/-- The pattern of the floating-point number nearest to `p / q`, with `m` bits of fraction and `e` bits of exponent (IEEE 754, round half to
even); `none` if it is too large. -/
def toFloat (m e p q : Nat) : Option Nat :=
  if p = 0 then some 0
  else
    let bias := 2 ^ (e - 1) - 1
    -- the largest `k` with `2 ^ k ≤ p / q`
    let k0 : Int := (p.log2 : Int) - q.log2
    let k : Int := if 2 ^ k0.toNat * q ≤ p * 2 ^ (-k0).toNat then k0 else k0 - 1
    -- the unit in the last place is `2 ^ u`
    let k' := max k (1 - (bias : Int))
    let u := k' - m
    let n := nearest (p * 2 ^ (-u).toNat) (q * 2 ^ u.toNat)
    -- a carry out of the fraction moves into the exponent, as it should
    let r := ((k' + bias - 1).toNat) * 2 ^ m + n
    if r < (2 ^ e - 1) * 2 ^ m then some r else none

/-- The constant as an integer from `lo` to `hi`. -/
def Const.int (c : Const) (lo hi : Int) : Option Int :=
  if c.num % 10 ^ c.scale = 0 then
    let n : Int := if c.neg then -((c.num / 10 ^ c.scale : Nat) : Int) else (c.num / 10 ^ c.scale : Nat)
    if lo ≤ n ∧ n ≤ hi then some n else none
  else none

/-- The constant as a number with `m` bits of fraction and `e` bits of exponent.  There is no negative zero among the constants of Go. -/
def Const.float (c : Const) (m e : Nat) : Option Nat :=
  (toFloat m e c.num (10 ^ c.scale)).map fun r => if c.neg ∧ c.num ≠ 0 then r + 2 ^ (m + e) else r

def Const.i16 (c : Const) : Option Int16 := (c.int (-2 ^ 15) (2 ^ 15 - 1)).map Int16.ofInt
def Const.i32 (c : Const) : Option Int32 := (c.int (-2 ^ 31) (2 ^ 31 - 1)).map Int32.ofInt
def Const.i64 (c : Const) : Option Int64 := (c.int (-2 ^ 63) (2 ^ 63 - 1)).map Int64.ofInt
def Const.u8 (c : Const) : Option UInt8 := (c.int 0 (2 ^ 8 - 1)).map fun n => UInt8.ofNat n.toNat
def Const.u16 (c : Const) : Option UInt16 := (c.int 0 (2 ^ 16 - 1)).map fun n => UInt16.ofNat n.toNat
def Const.u32 (c : Const) : Option UInt32 := (c.int 0 (2 ^ 32 - 1)).map fun n => UInt32.ofNat n.toNat
def Const.u64 (c : Const) : Option UInt64 := (c.int 0 (2 ^ 64 - 1)).map fun n => UInt64.ofNat n.toNat
def Const.f32 (c : Const) : Option F32 := (c.float 23 8).map fun n => ⟨UInt32.ofNat n⟩
def Const.f64 (c : Const) : Option F64 := (c.float 52 11).map fun n => ⟨UInt64.ofNat n⟩

/-- The constant as a value of a type of numbers. -/
def Const.val (c : Const) : K → Option V
  | .i16 => c.i16.map .i16 | .i32 => c.i32.map .i32 | .i64 => c.i64.map .i64
  | .u8 => c.u8.map .u8 | .u16 => c.u16.map .u16 | .u32 => c.u32.map .u32 | .u64 => c.u64.map .u64
  | .f32 => c.f32.map .f32 | .f64 => c.f64.map .f64

/-- An argument that has its type: a value, or bytes that get an array of their own when the argument is evaluated. -/
inductive TArg where
  | val (v : V)
  | bytes (l : List UInt8)

/-- The argument for a parameter; `k` is the type of the parameter if it is a number. -/
def Arg.typed (k : Option K) : Arg → Option TArg
  | .const c => do
    let k ← k
    (c.val k).map .val
  | .flag b => some (.val (.bool b))
  | .str s => some (.bytes s)
  | .list .u8 l => (l.mapM Const.u8).map .bytes
  | .list .u16 l => (l.mapM Const.u16).map fun l => .val (.lu16 l)
  | .list .u32 l => (l.mapM Const.u32).map fun l => .val (.lu32 l)
  | .list .u64 l => (l.mapM Const.u64).map fun l => .val (.lu64 l)
  | .list .i16 l => (l.mapM Const.i16).map fun l => .val (.li16 l)
  | .list .i32 l => (l.mapM Const.i32).map fun l => .val (.li32 l)
  | .list .i64 l => (l.mapM Const.i64).map fun l => .val (.li64 l)
  | .list .f32 l => (l.mapM Const.f32).map fun l => .val (.lf32 l)
  | .list .f64 l => (l.mapM Const.f64).map fun l => .val (.lf64 l)

/-- As many arguments as parameters. -/
def typedArgs : List (Option K) → List Arg → Option (List TArg)
  | [], [] => some []
  | k :: ks, a :: as => do
    let v ← a.typed k
    let vs ← typedArgs ks as
    return v :: vs
  | _, _ => none

/-- A call whose arguments have their types. -/
structure TCall where
  name : Str
  args : List TArg

/-- The call, by the declaration of the method in the package. -/
def Call.typed (p : Pkg) (c : Call) : Option TCall := do
  let f ← p.funs.find? (·.name == c.name)
  (typedArgs f.params c.args).map fun l => ⟨c.name, l⟩

/-- What is done with the result of a call. -/
inductive Use where
  | drop | print | printStr
deriving DecidableEq, Repr

/-- The statement. -/
def Line.typed (p : Pkg) : Line → Option (Use × TCall)
  | .call c => (c.typed p).map (.drop, ·)
  | .print c => (c.typed p).map (.print, ·)
  | .printStr c => (c.typed p).map (.printStr, ·)

/-! ## printing -/

/-- How `fmt` writes floating-point numbers (`strconv`, shortest form that reads back the same): not modelled, any functions. -/
structure Floats where
  f32 : F32 → Str
  f64 : F64 → Str

/-- A number in decimal. -/
def decimal (n : Nat) : Str := (Nat.toDigits 10 n).map fun c => UInt8.ofNat c.toNat

/-- An integer in decimal. -/
def decimalInt (n : Int) : Str := if n < 0 then str% "-" ++ decimal n.natAbs else decimal n.natAbs

/-- Elements of a list with a space between them. -/
def spaced : List Str → Str
  | [] => []
  | [a] => a
  | a :: l => a ++ str% " " ++ spaced l

/-- A slice: its elements in brackets. -/
def bracketed (l : List Str) : Str := str% "[" ++ spaced l ++ str% "]"

/-- What `fmt.Println` writes for a value, without the newline. -/
def shown (F : Floats) (m : Heap) : V → Option Str
  | .u8 x => some (decimal x.toNat)
  | .u64 x => some (decimal x.toNat)
  | .i64 x => some (decimalInt x.toInt)
  | .bytes (.mem t) => some (bracketed ((m.view t).map fun x => decimal x.toNat))
  | .lu16 l => some (bracketed (l.map fun x => decimal x.toNat))
  | .lu32 l => some (bracketed (l.map fun x => decimal x.toNat))
  | .lu64 l => some (bracketed (l.map fun x => decimal x.toNat))
  | .li16 l => some (bracketed (l.map fun x => decimalInt x.toInt))
  | .li32 l => some (bracketed (l.map fun x => decimalInt x.toInt))
  | .li64 l => some (bracketed (l.map fun x => decimalInt x.toInt))
  | .lf32 l => some (bracketed (l.map F.f32))
  | .lf64 l => some (bracketed (l.map F.f64))
  | _ => none

/-- What is written for a result. -/
def output (F : Floats) (m : Heap) : Use → V → Option Str
  | .drop, _ => some []
  | .print, v => (shown F m v).map (· ++ str% "\n")
  | .printStr, .bytes (.mem t) => some (m.view t ++ str% "\n")
  | .printStr, _ => none

/-! ## running -/

/-- The values of arguments.  Nothing in v3 looks at the capacity of a slice of bytes it is given, so it does not matter that here it is the length. -/
def evalArgs : List TArg → Heap → List V × Heap
  | [], m => ([], m)
  | .val v :: l, m => (v :: (evalArgs l m).1, (evalArgs l m).2)
  | .bytes bs :: l, m =>
    (.bytes (.mem ⟨m.arrays.length, 0, bs.length, bs.length⟩) :: (evalArgs l (m.alloc bs)).1, (evalArgs l (m.alloc bs)).2)

/-- What is written to the standard output, and how the program ends. -/
abbrev Outcome := Str × Res Unit

/-- The statements, on a buffer that has been made; `none` if the program is not one (a value is printed that is none). -/
def runLines (p : Pkg) (fuel depth : Nat) (F : Floats) : List (Use × TCall) → V3.St → Option Outcome
  | [], _ => some ([], .ok ())
  | (u, c) :: l, s =>
    match p.callBuf fuel depth c.name (evalArgs c.args s.mem).1 ({ s with mem := (evalArgs c.args s.mem).2 }, .unit) with
    | (.panic e, _) => some ([], .panic e)
    | (.ok v, t) => do
      let o ← output F t.1.mem u v
      let r ← runLines p fuel depth F l t.1
      return (o ++ r.1, r.2)

/-- A program, in any memory. -/
def run (p : Pkg) (fuel depth : Nat) (F : Floats) (l : List Line) (s : V3.St) : Option Outcome := do
  let l ← l.mapM (Line.typed p)
  match p.callBuf fuel depth (str% "NewBuffer") [.slices []] (s, .unit) with
  | (.panic e, _) => return ([], .panic e)
  | (.ok _, t) => runLines p fuel depth F l t.1

end Crunch.Src.Program
