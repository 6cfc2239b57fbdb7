import Verif.Src.Program
import Verif.Props.SourceV1Buffer
import Verif.Props.SourceV2Buffer

/-!
# Go source texts: the tests of the project

A parser for the test functions of /repo (v1, v2, v3: buffer_test.go and minibuf_test.go), and what it means that one of them passes
when the calls are run from the texts of the package.  A text that is not of this form is not parsed at all.
-/

namespace Crunch.Src.Tests

open Crunch.Gen
open Program (Const numType)
open Spec (Endian)

/-! ## syntax -/

/-- An expression without a call. -/
inductive Tm where
  | var (x : Str)
  | const (c : Const)
  /-- `T(c)` -/
  | conv (k : K) (c : Const)
  | flag (b : Bool)
  | order (e : Endian)
  /-- `[]T{…}` -/
  | list (k : K) (l : List Const)
  /-- `make([]byte, n, c)` -/
  | make (n c : Const)
  /-- `x[i]` -/
  | idx (x : Str) (i : Const)
  /-- `x[lo:hi]` -/
  | cut (x : Str) (lo hi : Const)
  /-- `x.f` -/
  | field (x f : Str)
  /-- `x.([]T)` -/
  | as (x : Str) (k : K)
deriving DecidableEq, Repr

/-- `x.name(&out, args…)`, the address if there is one, and `.([]T)` if that follows. -/
structure MCall where
  x : Str
  name : Str
  out : Option Str
  args : List Tm
  as : Option K
deriving DecidableEq, Repr

/-- What may stand on the right of an assignment. -/
inductive Rhs where
  | tm (t : Tm)
  | call (c : MCall)
  /-- `NewBuffer(args…)` -/
  | new (args : List Tm)
  /-- `&T{f: e, …}` for the type of the buffers -/
  | struct (fields : List (Str × Tm))
deriving DecidableEq, Repr

/-- A statement. -/
inductive Stmt where
  /-- `x = r` or `x := r`, or a declaration, with or without a type; `_` for `x` drops the value -/
  | put (x : Str) (k : Option K) (r : Rhs)
  /-- `var x T` -/
  | zero (x : Str) (t : Ty)
  | call (c : MCall)
  /-- `NewMiniBuffer(&x, args…)` -/
  | newMini (x : Str) (args : List Tm)
  /-- `defer panicChecker(t, E)` -/
  | panics (e : Str)
  /-- `t.Log(…)` -/
  | log
  /-- `if a != b || … { t.Fatalf(…) }` -/
  | differ (l : List (Tm × Tm))
  /-- `if !cmp.Equal(a, b) { t.Fatalf(…) }` -/
  | unequal (a b : Tm)
  /-- the same with the comparison of buffers, field by field -/
  | unequalBuf (x y : Str)
deriving DecidableEq, Repr

/-- A test function. -/
structure Test where
  name : Str
  body : List Stmt
deriving DecidableEq, Repr

/-- A number, possibly with an exponent. -/
def pConst : P Const := fun ts =>
  let (neg, ts) := match ts with
    | .op o :: ts' => if o = str% "-" then (true, ts') else (false, ts)
    | ts => (false, ts)
  match ts with
  | .num a :: .op o :: .num b :: ts =>
    if o = str% "." then
      if b.getLast? = some 101 then
        let b := b.dropLast
        match ts with
        | .op s :: .num x :: ts =>
          if s = str% "+" then some (⟨neg, (numVal a * 10 ^ b.length + numVal b) * 10 ^ numVal x, b.length⟩, ts)
          else if s = str% "-" then some (⟨neg, numVal a * 10 ^ b.length + numVal b, b.length + numVal x⟩, ts)
          else none
        | _ => none
      else some (⟨neg, numVal a * 10 ^ b.length + numVal b, b.length⟩, ts)
    else some (⟨neg, numVal a, 0⟩, .op o :: .num b :: ts)
  | .num a :: ts => some (⟨neg, numVal a, 0⟩, ts)
  | _ => none

/-- Constants up to the closing brace. -/
def pConsts : Nat → P (List Const)
  | 0, _ => none
  | n + 1, ts =>
    match tok (isOp (str% "}")) ts with
    | some (_, ts) => some ([], ts)
    | none => do
      let (c, ts) ← pConst ts
      match ts with
      | .op o :: ts =>
        if o = str% "}" then return ([c], ts)
        else if o = str% "," then (pConsts n ts).map fun (l, ts) => (c :: l, ts)
        else none
      | _ => none

/-- `[]T` -/
def pSlice : P K := fun ts => do
  let (_, ts) ← toks [isOp (str% "["), isOp (str% "]")] ts
  let (t, ts) ← name ts
  let k ← numType t
  return (k, ts)

/-- `.([]T)` -/
def pAs : P K := fun ts => do
  let (_, ts) ← toks [isOp (str% "."), isOp (str% "(")] ts
  let (k, ts) ← pSlice ts
  let (_, ts) ← tok (isOp (str% ")")) ts
  return (k, ts)

/-- What follows a name in an expression without a call. -/
def pAfter (x : Str) : P Tm := fun ts =>
  match pAs ts with
  | some (k, ts) => some (.as x k, ts)
  | none =>
    match ts with
    | .op o :: ts' =>
      if o = str% "." then (name ts').map fun (f, ts) => (.field x f, ts)
      else if o = str% "[" then do
        let (i, ts) ← pConst ts'
        match ts with
        | .op o :: ts =>
          if o = str% "]" then return (.idx x i, ts)
          else if o = str% ":" then do
            let (j, ts) ← pConst ts
            let (_, ts) ← tok (isOp (str% "]")) ts
            return (.cut x i j, ts)
          else none
        | _ => none
      else some (.var x, ts)
    | _ => some (.var x, ts)

/-- An expression without a call. -/
def pTm : P Tm := fun ts =>
  match ts with
  | .id x :: ts' =>
    if keywords.contains x then none
    else if x = str% "true" then some (.flag true, ts')
    else if x = str% "false" then some (.flag false, ts')
    else if x = str% "LittleEndian" then some (.order .le, ts')
    else if x = str% "BigEndian" then some (.order .be, ts')
    else if x = str% "make" then do
      let (_, ts) ← tok (isOp (str% "(")) ts'
      let (k, ts) ← pSlice ts
      if k = .u8 then pure () else none
      let (_, ts) ← tok (isOp (str% ",")) ts
      let (n, ts) ← pConst ts
      let (_, ts) ← tok (isOp (str% ",")) ts
      let (c, ts) ← pConst ts
      let (_, ts) ← tok (isOp (str% ")")) ts
      return (.make n c, ts)
    else match constant x, numType x with
      | some n, _ => some (.conv .i64 ⟨false, n, 0⟩, ts')
      | none, some k => do
        let (_, ts) ← tok (isOp (str% "(")) ts'
        let (c, ts) ← pConst ts
        let (_, ts) ← tok (isOp (str% ")")) ts
        return (.conv k c, ts)
      | none, none => pAfter x ts'
  | .op o :: _ =>
    if o = str% "[" then do
      let (k, ts) ← pSlice ts
      let (_, ts) ← tok (isOp (str% "{")) ts
      let (l, ts) ← pConsts exFuel ts
      return (.list k l, ts)
    else (pConst ts).map fun (c, ts) => (.const c, ts)
  | _ => (pConst ts).map fun (c, ts) => (.const c, ts)

/-- Expressions up to the closing parenthesis. -/
def pTms : Nat → P (List Tm)
  | 0, _ => none
  | n + 1, ts =>
    match tok (isOp (str% ")")) ts with
    | some (_, ts) => some ([], ts)
    | none => do
      let (a, ts) ← pTm ts
      match ts with
      | .op o :: ts =>
        if o = str% ")" then return ([a], ts)
        else if o = str% "," then (pTms n ts).map fun (l, ts) => (a :: l, ts)
        else none
      | _ => none

/-- `&x` and then expressions, up to the closing parenthesis; or only expressions. -/
def pOuts : P (Option Str × List Tm) := fun ts =>
  match tok (isOp (str% "&")) ts with
  | some (_, ts) => do
    let (x, ts) ← name ts
    match tok (isOp (str% ")")) ts with
    | some (_, ts) => return ((some x, []), ts)
    | none => do
      let (_, ts) ← tok (isOp (str% ",")) ts
      let (l, ts) ← pTms exFuel ts
      return ((some x, l), ts)
  | none => (pTms exFuel ts).map fun (l, ts) => ((none, l), ts)

/-- `x.f(…)`, possibly followed by `.([]T)`. -/
def pCall : P MCall := fun ts => do
  let (x, ts) ← name ts
  let (_, ts) ← tok (isOp (str% ".")) ts
  let (f, ts) ← name ts
  let (_, ts) ← tok (isOp (str% "(")) ts
  let ((o, l), ts) ← pOuts ts
  match pAs ts with
  | some (k, ts) => return (⟨x, f, o, l, some k⟩, ts)
  | none => return (⟨x, f, o, l, none⟩, ts)

/-- `f: e,` up to the closing brace. -/
def pFieldVals : Nat → P (List (Str × Tm))
  | 0, _ => none
  | n + 1, ts =>
    match tok (isOp (str% "}")) ts with
    | some (_, ts) => some ([], ts)
    | none => do
      let (f, ts) ← name ts
      let (_, ts) ← tok (isOp (str% ":")) ts
      let (e, ts) ← pTm ts
      let (_, ts) ← tok (isOp (str% ",")) ts
      (pFieldVals n ts).map fun (l, ts) => ((f, e) :: l, ts)

/-- The right side of an assignment; `ty` is the type of the buffers of this file. -/
def pRight (ty : Str) : P Rhs := fun ts =>
  match toks [isOp (str% "&"), isId ty, isOp (str% "{")] ts with
  | some (_, ts) => (pFieldVals exFuel ts).map fun (l, ts) => (.struct l, ts)
  | none =>
    match toks [isId (str% "NewBuffer"), isOp (str% "(")] ts with
    | some (_, ts) => (pTms exFuel ts).map fun (l, ts) => (.new l, ts)
    | none =>
      match pCall ts with
      | some (c, ts) => some (.call c, ts)
      | none => (pTm ts).map fun (t, ts) => (.tm t, ts)

/-- What follows `var`, or stands in `var ( … )`. -/
def pSpec (ty : Str) : P Stmt := fun ts => do
  let (x, ts) ← name ts
  match tok (isOp (str% "=")) ts with
  | some (_, ts) => do
    let (r, ts) ← pRight ty ts
    let (_, ts) ← semi ts
    return (.put x none r, ts)
  | none => do
    let (t, ts) ← pTy exFuel ts
    match tok (isOp (str% "=")) ts with
    | some (_, ts) => do
      let .named s := t | none
      let k ← numType s
      let (r, ts) ← pRight ty ts
      let (_, ts) ← semi ts
      return (.put x (some k) r, ts)
    | none => do
      let (_, ts) ← semi ts
      return (.zero x t, ts)

/-- Declarations up to the closing parenthesis. -/
def pSpecs (ty : Str) : Nat → P (List Stmt)
  | 0, _ => none
  | n + 1, ts =>
    match tok (isOp (str% ")")) ts with
    | some (_, ts) => (semi ts).map fun (_, ts) => ([], ts)
    | none => do
      let (s, ts) ← pSpec ty ts
      (pSpecs ty n ts).map fun (l, ts) => (s :: l, ts)

/-- `a != b || … {` -/
def pDiffer : Nat → P (List (Tm × Tm))
  | 0, _ => none
  | n + 1, ts => do
    let (a, ts) ← pTm ts
    let (_, ts) ← tok (isOp (str% "!=")) ts
    let (b, ts) ← pTm ts
    match ts with
    | .op o :: ts =>
      if o = str% "{" then return ([(a, b)], ts)
      else if o = str% "||" then (pDiffer n ts).map fun (l, ts) => ((a, b) :: l, ts)
      else none
    | _ => none

/-- Up to the end of the line. -/
def skipLine (ts : List Tok) : List Tok := (ts.dropWhile (· ≠ .semi)).drop 1

/-- `t.Fatalf(…) }` -/
def pFatal : P Unit := fun ts => do
  let (_, ts) ← toks [isId (str% "t"), isOp (str% "."), isId (str% "Fatalf"), isOp (str% "(")] ts
  let (_, ts) ← tok (isOp (str% "}")) (skipLine ts)
  semi ts

/-- What follows `if`. -/
def pIf (ty : Str) : P Stmt := fun ts =>
  match toks [isOp (str% "!"), isId (str% "cmp"), isOp (str% "."), isId (str% "Equal"), isOp (str% "(")] ts with
  | some (_, ts) => do
    let (l, ts) ← pTms exFuel ts
    let (_, ts) ← tok (isOp (str% "{")) ts
    let (_, ts) ← pFatal ts
    match l with
    | [a, b] => return (.unequal a b, ts)
    | [.var a, .var b, .var c] => if c = ty ++ str% "Comparer" then return (.unequalBuf a b, ts) else none
    | _ => none
  | none => do
    let (l, ts) ← pDiffer exFuel ts
    let (_, ts) ← pFatal ts
    return (.differ l, ts)

/-- Statements: one, or those of `var ( … )`. -/
def pStmt (ty : Str) : P (List Stmt) := fun ts =>
  match ts with
  | .id w :: ts' =>
    if w = str% "var" then
      match tok (isOp (str% "(")) ts' with
      | some (_, ts) => pSpecs ty exFuel ts
      | none => (pSpec ty ts').map fun (s, ts) => ([s], ts)
    else if w = str% "if" then (pIf ty ts').map fun (s, ts) => ([s], ts)
    else if w = str% "defer" then do
      let (_, ts) ← toks [isId (str% "panicChecker"), isOp (str% "("), isId (str% "t"), isOp (str% ",")] ts'
      let (e, ts) ← name ts
      let (_, ts) ← tok (isOp (str% ")")) ts
      let (_, ts) ← semi ts
      return ([.panics e], ts)
    else if w = str% "t" then do
      let (_, ts) ← toks [isOp (str% "."), isId (str% "Log"), isOp (str% "(")] ts'
      return ([.log], skipLine ts)
    else if w = str% "NewMiniBuffer" then do
      let (_, ts) ← tok (isOp (str% "(")) ts'
      let ((o, l), ts) ← pOuts ts
      let (_, ts) ← semi ts
      let x ← o
      return ([.newMini x l], ts)
    else
      match toks [isOp (str% ":=")] ts', toks [isOp (str% "=")] ts' with
      | none, none => do
        let (c, ts) ← pCall ts
        let (_, ts) ← semi ts
        return ([.call c], ts)
      | some (_, ts), _ | none, some (_, ts) => do
        if keywords.contains w then none else pure ()
        let (r, ts) ← pRight ty ts
        let (_, ts) ← semi ts
        return ([.put w none r], ts)
  | _ => none

/-- Statements up to the closing brace. -/
def pBody (ty : Str) : Nat → P (List Stmt)
  | 0, _ => none
  | n + 1, ts =>
    match tok (isOp (str% "}")) ts with
    | some (_, ts) => (semi ts).map fun (_, ts) => ([], ts)
    | none => do
      let (s, ts) ← pStmt ty ts
      (pBody ty n ts).map fun (l, ts) => (s ++ l, ts)

/-- A test function. -/
def parseTest (ty : Str) (ls : List Str) : Option Test := do
  let ts := noComments (lexLines false ls)
  let (_, ts) ← tok (isId (str% "func")) ts
  let (f, ts) ← name ts
  let (_, ts) ← toks [isOp (str% "("), isId (str% "t"), isOp (str% "*"), isId (str% "testing"), isOp (str% "."), isId (str% "T"), isOp (str% ")"),
    isOp (str% "{")] ts
  let (b, ts) ← pBody ty stFuel ts
  if ts = [] then return ⟨f, b⟩ else none

/-! ## running -/

/-- How a method of the package is run on a buffer: name, arguments, contents of the result variable if there is one.  `none` if a mutex
stays taken. -/
abbrev Runner := Str → List V → Option V → V3.St → Option (Res V × V3.St)

/-- More rounds of a loop than there are `int64` values, and more calls within calls than there are (C81, C82, C84–C87). -/
def fuel : Nat := 2 ^ 64 + 1

/-- v3 `Buffer`. -/
def runBuf (p : Pkg) : Runner := fun f args out s =>
  match out with
  | none => some ((p.callBuf fuel 4 f args (s, .unit)).1, (p.callBuf fuel 4 f args (s, .unit)).2.1)
  | some _ => none

/-- The `MiniBuffer`s. -/
def runMini (p : Pkg) : Runner := fun f args out s =>
  some ((p.callMini fuel 4 f args out (s, .unit)).1, (p.callMini fuel 4 f args out (s, .unit)).2.1)

/-- v1 and v2 `Buffer`. -/
def runProg (p : Pkg) : Runner := fun f args out s =>
  match out with
  | none =>
    let r := (p.call fuel 4 f args : Prog V).run ⟨s, false⟩
    if r.2.locked then none else some (r.1, r.2.st)
  | some _ => none

/-- What a variable holds. -/
inductive Slot where
  | val (v : V)
  /-- a buffer that is only there to be compared with: its bytes, and the other fields -/
  | want (bytes : List UInt8) (off cap boff bcap : Int64)
  /-- the buffer -/
  | buf

/-- Variables, the last assigned first. -/
abbrev Env := List (Str × Slot)

def Env.val (env : Env) (x : Str) : Option V :=
  match env.lookup x with
  | some (.val v) => some v
  | _ => none

/-- An integer. -/
def int? : V → Option Int
  | .u8 x => some x.toNat
  | .u16 x => some x.toNat
  | .u32 x => some x.toNat
  | .u64 x => some x.toNat
  | .i64 x => some x.toInt
  | _ => none

/-- A field of the buffer. -/
def fieldVal (s : V3.St) (f : Str) : Option V :=
  if f = str% "buf" then some (.bytes (.mem s.b.buf))
  else if f = str% "off" then some (.i64 s.b.off)
  else if f = str% "cap" then some (.i64 s.b.cap)
  else if f = str% "boff" then some (.i64 s.b.boff)
  else if f = str% "bcap" then some (.i64 s.b.bcap)
  else none

/-- A literal has an array of its own; its value has no spare room. -/
def fresh (m : Heap) (bs : List UInt8) (n : Nat) : V × Heap := (.bytes (.mem ⟨m.arrays.length, 0, n, bs.length⟩), m.alloc bs)

/-- Whether a value is a slice of that type. -/
def isList : K → V → Bool
  | .u8, .bytes _ => true
  | .u16, .lu16 _ => true
  | .u32, .lu32 _ => true
  | .u64, .lu64 _ => true
  | _, _ => false

/-- The value of an expression and the memory then; `k` is the type of the context, if that is one of numbers.  A number where there is no
such type goes into an `interface{}` and is none of the values looked for there.  `none` also for an index out of range. -/
def eval (env : Env) (s : V3.St) (k : Option K) : Tm → Option (V × Heap)
  | .var x => (env.val x).map (·, s.mem)
  | .const c =>
    match k with
    | some k => (c.val k).map (·, s.mem)
    | none => some (.unit, s.mem)
  | .conv k c => (c.val k).map (·, s.mem)
  | .flag b => some (.bool b, s.mem)
  | .order e => some (.order (some e), s.mem)
  | .list k l => do
    match ← (Program.Arg.list k (l.map fun c => c)).typed none with
    | .val v => return (v, s.mem)
    | .bytes bs => return fresh s.mem bs bs.length
  | .make n c => do
    let n ← n.int 0 (2 ^ 40)
    let c ← c.int 0 (2 ^ 40)
    if n ≤ c then return fresh s.mem (List.replicate c.toNat 0) n.toNat else none
  | .idx x i => do
    let .bytes (.mem t) ← env.val x | none
    let i ← i.int 0 (2 ^ 40)
    let b ← (s.mem.view t)[i.toNat]?
    return (.u8 b, s.mem)
  | .cut x lo hi => do
    let .bytes (.mem t) ← env.val x | none
    let lo ← lo.int 0 (2 ^ 40)
    let hi ← hi.int 0 (2 ^ 40)
    if lo ≤ hi ∧ hi ≤ t.cap then
      return (.bytes (.mem ⟨t.arr, t.off + lo.toNat, (hi - lo).toNat, t.cap - lo.toNat⟩), s.mem)
    else none
  | .field x f =>
    match env.lookup x with
    | some .buf => (fieldVal s f).map (·, s.mem)
    | _ => none
  | .as x k => do
    let v ← env.val x
    if isList k v then return (v, s.mem) else none

/-- Arguments for the parameters. -/
def evalArgs (env : Env) (s : V3.St) : List (Option K) → List Tm → Option (List V × Heap)
  | [], [] => some ([], s.mem)
  | k :: ks, t :: ts => do
    let (v, m) ← eval env s k t
    let (vs, m) ← evalArgs env { s with mem := m } ks ts
    return (v :: vs, m)
  | _, _ => none

/-- Slices of bytes, for the constructors. -/
def evalSlices (env : Env) (s : V3.St) : List Tm → Option (List Slice × Heap)
  | [] => some ([], s.mem)
  | t :: ts => do
    let (.bytes (.mem x), m) ← eval env s none t | none
    let (l, m) ← evalSlices env { s with mem := m } ts
    return (x :: l, m)

/-- The methods declared with `...int64` (v1/buffer.go:568,575, v2/buffer.go:1001,1008, v3/buffer.generated.go:334,1530, and those of `MiniBuffer`). -/
def variadic : List Str := [str% "After", str% "AfterByte", str% "AfterBit"]

/-- The methods with a parameter of type `IntegerSize`, which is `int` (v1/crunch.go:26): the last but one. -/
def sized : List Str :=
  [str% "WriteComplex", str% "ReadComplex", str% "WriteComplexNext", str% "ReadComplexNext", str% "writeComplex", str% "readComplex"]

/-- The types of the parameters that are numbers. -/
def paramTypes (f : Fun) : List (Option K) := if sized.contains f.name then f.params.set (f.params.length - 2) (some .i64) else f.params

/-- The arguments of a call. -/
def callArgs (p : Pkg) (env : Env) (s : V3.St) (c : MCall) : Option (List V × Heap) :=
  if variadic.contains c.name then do
    let l ← c.args.mapM fun t => match t with | .const c => c.i64 | _ => none
    return ([.li64 l], s.mem)
  else do
    let f ← p.funs.find? (·.name == c.name)
    evalArgs env s (if c.out = none then paramTypes f else (paramTypes f).drop 1) c.args

/-- What `cmp.Equal` says about slices: the same elements.  Of floating-point numbers the patterns are compared; the tests have no NaN and
no zero among them. -/
def same (m : Heap) : V → V → Option Bool
  | .bytes (.mem a), .bytes (.mem b) => some (m.view a = m.view b)
  | .lu16 a, .lu16 b => some (a = b)
  | .lu32 a, .lu32 b => some (a = b)
  | .lu64 a, .lu64 b => some (a = b)
  | .li16 a, .li16 b => some (a = b)
  | .li32 a, .li32 b => some (a = b)
  | .li64 a, .li64 b => some (a = b)
  | .lf32 a, .lf32 b => some (a.map (·.bits) = b.map (·.bits))
  | .lf64 a, .lf64 b => some (a.map (·.bits) = b.map (·.bits))
  | _, _ => none

/-- How far a test has come. -/
inductive Outcome where
  /-- the last statement has been run; `e` is what a deferred `panicChecker` expects -/
  | done (e : Option Str)
  /-- `t.Fatalf` -/
  | fatal
  | panicked (e : Option Str) (p : Panic)
  /-- not a program, or a mutex was left taken -/
  | stuck
deriving DecidableEq

/-- An integer, in a comparison. -/
def evalInt (env : Env) (s : V3.St) : Tm → Option Int
  | .const c => c.int (-2 ^ 63) (2 ^ 64 - 1)
  | t => do
    let (v, _) ← eval env s none t
    int? v

/-- Whether one of the comparisons finds a difference. -/
def differs (env : Env) (s : V3.St) : List (Tm × Tm) → Option Bool
  | [] => some false
  | (a, b) :: l => do
    let x ← evalInt env s a
    let y ← evalInt env s b
    if x ≠ y then return true else differs env s l

/-- The value of a literal for comparison with a buffer. -/
def wanted (env : Env) (s : V3.St) (fs : List (Str × Tm)) : Option Slot := do
  let (.bytes (.mem t), m) ← eval env s none (← fs.lookup (str% "buf")) | none
  let off ← evalInt env s (← fs.lookup (str% "off"))
  let cap ← evalInt env s (← fs.lookup (str% "cap"))
  let boff ← evalInt env s (← fs.lookup (str% "boff"))
  let bcap ← evalInt env s (← fs.lookup (str% "bcap"))
  return .want (m.view t) (Int64.ofInt off) (Int64.ofInt cap) (Int64.ofInt boff) (Int64.ofInt bcap)

/-- Run a method; the value of its result, or of the result variable. -/
def runCall (p : Pkg) (r : Runner) (env : Env) (s : V3.St) (c : MCall) : Option (Res V × Env × V3.St) := do
  let some .buf := env.lookup c.x | none
  let (args, m) ← callArgs p env s c
  let o ← match c.out with
    | none => pure none
    | some x => (env.val x).map some
  let (v, s) ← r c.name args o { s with mem := m }
  match v with
  | .panic e => return (.panic e, env, s)
  | .ok v =>
    match c.as with
    | some k => if isList k v then pure () else none
    | none => pure ()
    match c.out with
    | none => return (.ok v, env, s)
    | some x => return (.ok .unit, (x, .val v) :: env, s)

/-- Statements from a state; `e` is the error that a deferred `panicChecker` expects. -/
def runStmts (p : Pkg) (r : Runner) : Option Str → List Stmt → Env → V3.St → Outcome
  | e, [], _, _ => .done e
  | e, .put x k rhs :: l, env, s =>
    match rhs with
    | .tm t =>
      match t, k with
      | .const _, none => .stuck
      | t, k =>
        match eval env s k t with
        | some (v, m) => runStmts p r e l ((x, .val v) :: env) { s with mem := m }
        | none => .stuck
    | .call c =>
      match runCall p r env s c with
      | some (.ok v, env, s) => runStmts p r e l ((x, .val v) :: env) s
      | some (.panic q, _) => .panicked e q
      | none => .stuck
    | .new args =>
      match evalSlices env s args with
      | some (ss, m) =>
        match r (str% "NewBuffer") [.slices ss] none { s with mem := m } with
        | some (.ok _, s) => runStmts p r e l ((x, .buf) :: env) s
        | some (.panic q, _) => .panicked e q
        | none => .stuck
      | none => .stuck
    | .struct [] => runStmts p r e l ((x, .buf) :: env) { s with b := ⟨⟨0, 0, 0, 0⟩, 0, 0, 0, 0⟩ }
    | .struct fs =>
      match wanted env s fs with
      | some w => runStmts p r e l ((x, w) :: env) s
      | none => .stuck
  | e, .zero x t :: l, env, s =>
    match t with
    | .named n =>
      match numType n with
      | some k =>
        match (⟨false, 0, 0⟩ : Const).val k with
        | some v => runStmts p r e l ((x, .val v) :: env) s
        | none => .stuck
      | none => .stuck
    | .slice (.named n) =>
      match numType n with
      | some .u8 => runStmts p r e l ((x, .val (.bytes (.mem ⟨0, 0, 0, 0⟩))) :: env) s
      | some .u32 => runStmts p r e l ((x, .val (.lu32 [])) :: env) s
      | _ => .stuck
    | .any => runStmts p r e l ((x, .val .unit) :: env) s
    | _ => .stuck
  | e, .call c :: l, env, s =>
    match runCall p r env s c with
    | some (.ok _, env, s) => runStmts p r e l env s
    | some (.panic q, _) => .panicked e q
    | none => .stuck
  | e, .newMini x args :: l, env, s =>
    match env.lookup x, evalSlices env s args with
    | some .buf, some (ss, m) =>
      match r (str% "NewMiniBuffer") [.ptr, .slices ss] none { s with mem := m } with
      | some (.ok _, s) => runStmts p r e l env s
      | some (.panic q, _) => .panicked e q
      | none => .stuck
    | _, _ => .stuck
  | none, .panics x :: l, env, s => runStmts p r (some x) l env s
  | some _, .panics _ :: _, _, _ => .stuck
  | e, .log :: l, env, s => runStmts p r e l env s
  | e, .differ c :: l, env, s =>
    match differs env s c with
    | some true => .fatal
    | some false => runStmts p r e l env s
    | none => .stuck
  | e, .unequal a b :: l, env, s =>
    match eval env s none a with
    | some (v, m) =>
      match eval env { s with mem := m } none b with
      | some (w, m) =>
        match same m v w with
        | some true => runStmts p r e l env { s with mem := m }
        | some false => .fatal
        | none => .stuck
      | none => .stuck
    | none => .stuck
  | e, .unequalBuf x y :: l, env, s =>
    match env.lookup x, env.lookup y with
    | some (.want bs off cap boff bcap), some .buf =>
      if s.bytes = bs ∧ s.b.off = off ∧ s.b.cap = cap ∧ s.b.boff = boff ∧ s.b.bcap = bcap then runStmts p r e l env s else .fatal
    | _, _ => .stuck

/-- The test passes: without `panicChecker` it comes to its end; with it, a call panics with the error that is expected.  `slack` is how far
`append` allocates ahead. -/
def passes (p : Pkg) (r : Runner) (slack : Nat → Nat → Nat) (t : Test) : Bool :=
  match runStmts p r none t.body [] ⟨⟨[], slack⟩, ⟨⟨0, 0, 0, 0⟩, 0, 0, 0, 0⟩⟩ with
  | .done none => true
  | .panicked (some e) (.err x) => p.errs.lookup e = some x
  | _ => false

end Crunch.Src.Tests
