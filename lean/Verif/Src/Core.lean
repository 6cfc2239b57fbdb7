import Verif.Src.Syntax
import Verif.V3.Mini
import Verif.Prog

/-!
# Go source texts: resolved syntax

The trees of `Verif/Src/Syntax.lean` with their names resolved: local variables are numbered, fields and methods of the
receiver, built-in functions and conversions are told apart, `x op= e` and `x++` are spelled out.  What cannot be resolved gives
`none`.
-/

namespace Crunch.Src

open Crunch.Gen

/-- Types of numbers.  `int` is `int64` and `uint` is `uint64` (64-bit platform), `byte` is `uint8`. -/
inductive K where
  | i16 | i32 | i64 | u8 | u16 | u32 | u64 | f32 | f64
deriving DecidableEq, Repr

/-- Binary operators. -/
inductive Bop where
  | add | sub | mul | div | rem | and | or | xor | shl | shr | lt | le | gt | ge | eq | ne
deriving DecidableEq, Repr

/-- Expressions. -/
inductive E where
  | nil
  | cons (e rest : E)
  | lit (n : Nat)
  | bool (b : Bool)
  | var (i : Nat)
  /-- `b.off`, `b.cap`, `b.boff`, `b.bcap` -/
  | field (f : Field)
  /-- `b.buf` -/
  | buf
  /-- `*out` -/
  | out
  /-- `out` itself, passed on -/
  | outPtr
  | bin (o : Bop) (a b : E)
  /-- `^e` -/
  | compl (e : E)
  /-- `T(e)` for a type of numbers -/
  | conv (k : K) (e : E)
  /-- `*(*T)(unsafe.Pointer(&e))` -/
  | bits (k : K) (e : E)
  | len (e : E)
  | cap (e : E)
  | index (e i : E)
  /-- `e[lo:]` -/
  | sliceFrom (e lo : E)
  /-- `e[lo:hi]` -/
  | slice (e lo hi : E)
  /-- `make([]byte, n)` -/
  | make (n : E)
  /-- `make([]byte, n, c)` -/
  | makeCap (n c : E)
  /-- `make([]T, n)` for another type of numbers -/
  | makeT (k : K) (n : E)
  /-- `[]byte{…}` -/
  | bytes (elems : E)
  /-- `append(a, b...)` -/
  | append (a b : E)
  /-- a call of a method of the receiver or of a function -/
  | call (f : Str) (args : E)
  /-- `e.([]T)` for a type of numbers -/
  | assert (k : K) (e : E)
  /-- `o.Uint16(e)`, … for a byte order -/
  | uint (k : K) (o e : E)
  /-- `[]byte{…}` assigned to a local variable -/
  | own (elems : E)
deriving DecidableEq, Repr

/-- Statements. -/
inductive S where
  | nil
  | cons (s rest : S)
  /-- `x = e`, `x := e`, `var x = e` -/
  | set (i : Nat) (e : E)
  /-- `var x T`, for a type of numbers -/
  | zero (i : Nat) (k : K)
  /-- `var x []byte` -/
  | nilBytes (i : Nat)
  | setField (f : Field) (e : E)
  /-- `b.buf = e` -/
  | setBuf (e : E)
  /-- `b.buf[i] = e` -/
  | setBufAt (i e : E)
  /-- `x[i] = e` -/
  | setAt (x : Nat) (i e : E)
  /-- `*out = e` -/
  | setOut (e : E)
  /-- `(*out)[i] = e` -/
  | setOutAt (i e : E)
  /-- `(*out).([]T)[i] = e` -/
  | setOutAs (k : K) (i e : E)
  /-- `o.PutUint16(x, e)`, … for a byte order -/
  | put (k : K) (o : E) (x : Nat) (e : E)
  /-- `b = &T{…}` for the buffer to be returned; fields left out are zero -/
  | new (b off cap boff bcap : E)
  /-- `copy(a, b)` -/
  | copy (a b : E)
  | expr (e : E)
  /-- `f(&x, args)` -/
  | callAddr (f : Str) (x : Nat) (args : E)
  | ret (e : E)
  /-- `return` without a value, in a function without a result -/
  | retNone
  /-- `panic(SomeError)` -/
  | panic (err : Str)
  | ifs (c : E) (thn els : S)
  /-- `{ l: body }`; an empty `l` for a block without a label -/
  | block (l : Str) (body : S)
  | goto (l : Str)
  | brk
  | switch (e : E) (clauses : S)
  | case (n : Nat) (body : S)
  | default (body : S)
  | lock
  | unlock
  /-- `defer b.Unlock()` -/
  | deferUnlock
  /-- `for _, x := range e { body }` -/
  | rangeVal (x : Nat) (e : E) (body : S)
  /-- `for x := range e { body }` -/
  | rangeIdx (x : Nat) (e : E) (body : S)
  /-- `for init; c; post { body }` -/
  | for (init : S) (c : E) (post body : S)
deriving DecidableEq, Repr

/-- A function. -/
structure Fun where
  name : Str
  /-- the types of the parameters, without the receiver, as far as they are numbers -/
  params : List (Option K)
  /-- the type of the result, if it is a number -/
  result : Option K
  /-- the number of variables, parameters included -/
  vars : Nat
  body : S
deriving DecidableEq, Repr

/-! ## resolution -/

/-- What is known about names. -/
structure Scope where
  /-- local variables and their numbers, the innermost first -/
  vars : List (Str × Nat)
  /-- the number of the next variable -/
  next : Nat
  /-- the name of the receiver, or of the result of a constructor -/
  recv : Option Str
  /-- a parameter that points to a pointer to the receiver's type -/
  ptrptr : Option Str
  /-- a parameter that points to a result variable -/
  out : Option Str
  /-- the number of a named result -/
  result : Option Nat

/-- Types of numbers by name. -/
def kind (s : Str) : Option K :=
  if s = str% "int64" || s = str% "int" then some .i64
  else if s = str% "byte" || s = str% "uint8" then some .u8
  else if s = str% "uint64" || s = str% "uint" then some .u64
  else if s = str% "uint16" then some .u16
  else if s = str% "uint32" then some .u32
  else if s = str% "int16" then some .i16
  else if s = str% "int32" then some .i32
  else if s = str% "float32" then some .f32
  else if s = str% "float64" then some .f64
  else none

/-- Fields by name. -/
def fieldOf (s : Str) : Option Field :=
  if s = str% "off" then some .off
  else if s = str% "cap" then some .cap
  else if s = str% "boff" then some .boff
  else if s = str% "bcap" then some .bcap
  else none

/-- The constants of the texts (v1/crunch.go:29-41), all untyped. -/
def constant (s : Str) : Option Nat :=
  if s = str% "Unsigned8" then some 1
  else if s = str% "Unsigned16" then some 2
  else if s = str% "Unsigned32" then some 4
  else if s = str% "Unsigned64" then some 8
  else none

/-- The methods of `binary.ByteOrder` that decode. -/
def uintOf (s : Str) : Option K :=
  if s = str% "Uint16" then some .u16
  else if s = str% "Uint32" then some .u32
  else if s = str% "Uint64" then some .u64
  else none

/-- The methods of `binary.ByteOrder` that encode. -/
def putOf (s : Str) : Option K :=
  if s = str% "PutUint16" then some .u16
  else if s = str% "PutUint32" then some .u32
  else if s = str% "PutUint64" then some .u64
  else none

/-- Operators by name. -/
def bop (s : Str) : Option Bop :=
  if s = str% "+" then some .add
  else if s = str% "-" then some .sub
  else if s = str% "*" then some .mul
  else if s = str% "/" then some .div
  else if s = str% "%" then some .rem
  else if s = str% "&" then some .and
  else if s = str% "|" then some .or
  else if s = str% "^" then some .xor
  else if s = str% "<<" then some .shl
  else if s = str% ">>" then some .shr
  else if s = str% "<" then some .lt
  else if s = str% "<=" then some .le
  else if s = str% ">" then some .gt
  else if s = str% ">=" then some .ge
  else if s = str% "==" then some .eq
  else if s = str% "!=" then some .ne
  else none

/-- Whether the expression is the receiver. -/
def Scope.isRecv (sc : Scope) : Ex → Bool
  | .id s => sc.recv == some s
  | .un o (.id s) => o == str% "*" && sc.ptrptr == some s
  | _ => false

/-- Resolves an expression. -/
def resE (sc : Scope) : Ex → Option E
  | .none => some .nil
  | .cons e r => do return .cons (← resE sc e) (← resE sc r)
  | .num n => some (.lit n)
  | .id s =>
    match sc.vars.lookup s with
    | some i => some (.var i)
    | none =>
      if s = str% "true" then some (.bool true)
      else if s = str% "false" then some (.bool false)
      else if sc.out = some s then some .outPtr
      else none
  | .sel e f =>
    if sc.isRecv e then if f = str% "buf" then some .buf else (fieldOf f).map .field else none
  | .index e i => do return .index (← resE sc e) (← resE sc i)
  | .slice e lo .none => do return .sliceFrom (← resE sc e) (← resE sc lo)
  | .slice e lo hi => do return .slice (← resE sc e) (← resE sc lo) (← resE sc hi)
  | .un o e =>
    if o = str% "^" then do return .compl (← resE sc e)
    else if o = str% "*" then
      match e with
      | .id s => if sc.out = some s then some .out else none
      | .call (.un o' (.id t)) (.cons (.call (.sel (.id u) p) (.cons (.un a x) .none)) .none) =>
        if o' = str% "*" && u = str% "unsafe" && p = str% "Pointer" && a = str% "&" then do
          return .bits (← kind t) (← resE sc x)
        else none
      | _ => none
    else none
  | .bin o a b => do return .bin (← bop o) (← resE sc a) (← resE sc b)
  | .comp (.slice (.named t)) l => if kind t = some .u8 then do return .bytes (← resE sc l) else none
  | .assert e (.slice (.named t)) => do return .assert (← kind t) (← resE sc e)
  | .call (.sel e f) args =>
    if sc.isRecv e then do return .call f (← resE sc args)
    else
      match resE sc e, uintOf f, resE sc args with
      | some (.var i), some k, some (.cons x .nil) => some (.uint k (.var i) x)
      | _, _, _ => none
  | .call (.id f) (.cons (.ty (.slice (.named t))) args) =>
    if f = str% "make" then
      match kind t, resE sc args with
      | some .u8, some (.cons n .nil) => some (.make n)
      | some .u8, some (.cons n (.cons c .nil)) => some (.makeCap n c)
      | some k, some (.cons n .nil) => some (.makeT k n)
      | _, _ => none
    else none
  | .call (.id f) args => do
    let l ← resE sc args
    if f = str% "len" then match l with | .cons e .nil => some (.len e) | _ => none
    else if f = str% "cap" then match l with | .cons e .nil => some (.cap e) | _ => none
    else match kind f with
      | some k => match l with | .cons e .nil => some (.conv k e) | _ => none
      | none => some (.call f l)
  | .spread (.sel e f) args => if sc.isRecv e then do return .call f (← resE sc args) else none
  | .spread (.id f) args =>
    if f = str% "append" then
      match resE sc args with
      | some (.cons a (.cons b .nil)) => some (.append a b)
      | _ => none
    else none
  | _ => none

/-- The value of a field in a composite literal, zero if it is left out. -/
def fieldValue (sc : Scope) (f : Str) : Ex → Option E
  | .none => some (.lit 0)
  | .cons (.kv k e) r => if k = f then resE sc e else fieldValue sc f r
  | _ => none

/-- `lhs = e` -/
def resAssign (sc : Scope) (lhs : Ex) (e : E) : Option S :=
  match lhs with
  | .id s =>
    (sc.vars.lookup s).map fun i =>
      match e with
      | .bytes l => .set i (.own l)
      | e => .set i e
  | .sel x f => if sc.isRecv x then if f = str% "buf" then some (.setBuf e) else (fieldOf f).map fun f => .setField f e else none
  | .un o (.id s) => if o = str% "*" && sc.out == some s then some (.setOut e) else none
  | .index (.sel x f) i =>
    if sc.isRecv x && f == str% "buf" then do return .setBufAt (← resE sc i) e else none
  | .index (.id s) i => do
    let x ← sc.vars.lookup s
    return .setAt x (← resE sc i) e
  | .index (.un o (.id s)) i =>
    if o = str% "*" && sc.out == some s then do return .setOutAt (← resE sc i) e else none
  | .index (.assert (.un o (.id s)) (.slice (.named t))) i =>
    if o = str% "*" && sc.out == some s then do return .setOutAs (← kind t) (← resE sc i) e else none
  | _ => none

/-- The operator of `op=`. -/
def opAssign (o : Str) : Option Bop :=
  match o.reverse with
  | c :: t => if c = 61 then bop t.reverse else none
  | [] => none

/-- Declares a variable. -/
def Scope.declare (sc : Scope) (x : Str) : Scope := { sc with vars := (x, sc.next) :: sc.vars, next := sc.next + 1 }

/-- After a block: its variables are gone, their numbers are not reused. -/
def Scope.leave (sc inner : Scope) : Scope := { sc with next := inner.next }

/-- A call statement. -/
def resCall (sc : Scope) (e : Ex) : Option S :=
  match e with
  | .call (.id f) (.cons (.id x) .none) =>
    if f = str% "panic" then some (.panic x) else (resE sc e).map .expr
  | .call (.id f) (.cons a (.cons b .none)) =>
    if f = str% "copy" then do return .copy (← resE sc a) (← resE sc b) else (resE sc e).map .expr
  | .call (.sel x f) (.cons (.un o (.id v)) args) =>
    if sc.isRecv x && o == str% "&" then do
      let i ← sc.vars.lookup v
      return .callAddr f i (← resE sc args)
    else (resE sc e).map .expr
  | .call (.sel (.id o) f) (.cons (.id x) (.cons v .none)) =>
    match sc.vars.lookup o, putOf f with
    | some o, some k => do
      let i ← sc.vars.lookup x
      return .put k (.var o) i (← resE sc v)
    | _, _ => (resE sc e).map .expr
  | .call (.sel x f) .none =>
    if sc.isRecv x && f == str% "Lock" then some .lock
    else if sc.isRecv x && f == str% "Unlock" then some .unlock
    else (resE sc e).map .expr
  | e => (resE sc e).map .expr

/-- Resolves statements; the scope is that of the statements that follow. -/
def resS (sc : Scope) : St → Option (S × Scope)
  | .nil => some (.nil, sc)
  | .cons s r => do
    let (s, sc) ← resS sc s
    let (r, sc) ← resS sc r
    return (.cons s r, sc)
  | .expr e => do return (← resCall sc e, sc)
  | .assign o lhs rhs =>
    if o = str% ":=" then
      match lhs with
      | .id x => do return (.set sc.next (← resE sc rhs), sc.declare x)
      | _ => none
    else if o = str% "=" then
      match rhs with
      | .un a (.comp (.named _) l) =>
        if a = str% "&" && sc.isRecv lhs then do
          return (.new (← fieldValue sc (str% "buf") l) (← fieldValue sc (str% "off") l) (← fieldValue sc (str% "cap") l)
            (← fieldValue sc (str% "boff") l) (← fieldValue sc (str% "bcap") l), sc)
        else none
      | rhs => do return (← resAssign sc lhs (← resE sc rhs), sc)
    else do return (← resAssign sc lhs (.bin (← opAssign o) (← resE sc lhs) (← resE sc rhs)), sc)
  | .inc o lhs => do
    let o ← (if o = str% "++" then some Bop.add else if o = str% "--" then some Bop.sub else none)
    return (← resAssign sc lhs (.bin o (← resE sc lhs) (.lit 1)), sc)
  | .varT x (.named t) => do return (.zero sc.next (← kind t), sc.declare x)
  | .varT x (.slice (.named t)) => if kind t = some .u8 then some (.nilBytes sc.next, sc.declare x) else none
  | .varT _ _ => none
  | .varE x e => do return (.set sc.next (← resE sc e), sc.declare x)
  | .ret .none =>
    match sc.result with
    | some i => some (.ret (.var i), sc)
    | none => some (.retNone, sc)
  | .ret e => do return (.ret (← resE sc e), sc)
  | .ifs c a b => do
    let c ← resE sc c
    let (a, sc1) ← resS sc a
    let (b, sc2) ← resS (sc.leave sc1) b
    return (.ifs c a b, sc.leave sc2)
  | .block (.cons (.label l) body) => do
    let (b, sc1) ← resS sc body
    return (.block l b, sc.leave sc1)
  | .block body => do
    let (b, sc1) ← resS sc body
    return (.block [] b, sc.leave sc1)
  | .label _ => none
  | .goto l => some (.goto l, sc)
  | .brk => some (.brk, sc)
  | .defer e => do
    match ← resCall sc e with
    | .unlock => some (.deferUnlock, sc)
    | _ => none
  | .switch e cl => do
    let e ← resE sc e
    let (cl, sc1) ← resS sc cl
    return (.switch e cl, sc.leave sc1)
  | .case (.num n) body => do
    let (b, sc1) ← resS sc body
    return (.case n b, sc.leave sc1)
  | .case (.id x) body => do
    let (b, sc1) ← resS sc body
    return (.case (← constant x) b, sc.leave sc1)
  | .case _ _ => none
  | .default body => do
    let (b, sc1) ← resS sc body
    return (.default b, sc.leave sc1)
  | .for init c post body => do
    let (i, sc1) ← resS sc init
    let c ← resE sc1 c
    let (p, sc2) ← resS sc1 post
    let (b, sc3) ← resS (sc1.leave sc2) body
    return (.for i c p b, sc.leave sc3)
  | .rangeVal x e body => do
    let e ← resE sc e
    let (b, sc1) ← resS (sc.declare x) body
    return (.rangeVal sc.next e b, sc.leave sc1)
  | .rangeIdx x e body => do
    let e ← resE sc e
    let (b, sc1) ← resS (sc.declare x) body
    return (.rangeIdx sc.next e b, sc.leave sc1)

/-- The type, if it is one of numbers. -/
def kindOf : Ty → Option K
  | .named t => kind t
  | _ => none

/-- Numbers the parameters; a pointer parameter is not a variable. -/
def params : List (Str × Ty) → Scope → Option Scope
  | [], sc => some sc
  | (x, .ptr (.ptr _)) :: l, sc =>
    if sc.ptrptr = none then params l { sc with ptrptr := some x, next := sc.next + 1 } else none
  | (x, .ptr _) :: l, sc =>
    if sc.out = none then params l { sc with out := some x, next := sc.next + 1 } else none
  | (x, _) :: l, sc => params l (sc.declare x)

/-- Resolves a function.  A named result is a variable that starts as zero, `out` of a constructor is the receiver. -/
def resolve (d : Decl) : Option Fun := do
  let sc ← params d.params ⟨[], 0, d.recv.map (·.1), none, none, none⟩
  let n := sc.next
  let ks := d.params.map fun p => kindOf p.2
  match d.result with
  | none => do
    let (b, sc) ← resS sc d.body
    return ⟨d.name, ks, none, sc.next, b⟩
  | some (x, t) =>
    if x = [] then do
      let (b, sc) ← resS sc d.body
      return ⟨d.name, ks, kindOf t, sc.next, b⟩
    else
      match t with
      | .ptr _ => do
        if sc.recv ≠ none then none else pure ()
        let (b, sc) ← resS { sc with recv := some x } d.body
        return ⟨d.name, ks, none, sc.next, b⟩
      | .named t => do
        let (b, sc) ← resS { sc.declare x with result := some n } d.body
        return ⟨d.name, ks, kind t, sc.next, .cons (.zero n (← kind t)) b⟩
      | _ => do
        let (b, sc) ← resS { sc.declare x with result := some n } d.body
        return ⟨d.name, ks, none, sc.next, b⟩

/-- The functions of a file. -/
def compile (ls : List Str) : Option (List Fun) := do
  let l ← parse ls
  l.filterMapM fun t => match t with
    | .func d => (resolve d).map some
    | _ => some none

/-- The functions of a file given in parts. -/
def compileAll (l : List (List Str)) : Option (List Fun) := (l.mapM compile).map List.flatten

theorem compileAll_cons {t : List Str} {l : List (List Str)} {a b : List Fun} (h : compile t = some a) (h' : compileAll l = some b) :
    compileAll (t :: l) = some (a ++ b) := by
  simp only [compileAll, Option.map_eq_some_iff] at h' ⊢
  obtain ⟨c, hc, rfl⟩ := h'
  exact ⟨a :: c, by rw [List.mapM_cons, h, hc]; rfl, rfl⟩

end Crunch.Src
