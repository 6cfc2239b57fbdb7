import Verif.Src.Core
import Verif.V1.Binary

/-!
# Go source texts: meaning

An interpreter for the trees of `Verif/Src/Core.lean`, over any monad with the primitives of class `Sem`.  It follows the Go
specification for the statements and expressions that occur.  Where Go leaves the order of evaluation open (operands without
calls), operands are evaluated from left to right, and the right side of an assignment before the slice on its left is read.
-/

namespace Crunch.Src

open Crunch.Gen (Str)

/-- Values.  A value of type `interface{}` is the value in it, `unit` if that is nil or of a type not listed. -/
inductive V where
  /-- no value -/
  | unit
  /-- an untyped constant -/
  | num (n : Nat)
  /-- `n << c` for an untyped constant `n`: its type is that of the context -/
  | sh (n : Nat) (c : UInt64)
  /-- `^(n << c)` -/
  | nsh (n : Nat) (c : UInt64)
  | bool (b : Bool)
  | i16 (x : Int16) | i32 (x : Int32) | i64 (x : Int64)
  | u8 (x : UInt8) | u16 (x : UInt16) | u32 (x : UInt32) | u64 (x : UInt64)
  | f32 (x : F32) | f64 (x : F64)
  /-- a `[]byte` -/
  | bytes (x : Src)
  | li16 (l : List Int16) | li32 (l : List Int32) | li64 (l : List Int64)
  | lu16 (l : List UInt16) | lu32 (l : List UInt32) | lu64 (l : List UInt64)
  | lf32 (l : List F32) | lf64 (l : List F64)
  /-- a `[][]byte` -/
  | slices (l : List Slice)
  /-- a pointer to the caller's result variable -/
  | ptr
  /-- a `binary.ByteOrder` -/
  | order (o : V1.ByteOrder)

/-- What a function body can do besides computing. -/
class Sem (M : Type → Type) [Monad M] where
  fail : Panic → M α
  field : Field → M Int64
  assign : Field → Int64 → M Unit
  buf : M Slice
  assignBuf : Slice → M Unit
  /-- `x[i]` for bytes -/
  load : Crunch.Src → Int64 → M UInt8
  /-- `x[i] = v` for bytes -/
  store : Slice → Int64 → UInt8 → M Unit
  /-- `x[i]` for other slices -/
  idx : List α → Int64 → M α
  /-- `x[i] = v` for other slices -/
  setIdx : List α → Int64 → α → M (List α)
  reslice : Slice → Int64 → Int64 → M Slice
  resliceFrom : Slice → Int64 → M Slice
  /-- `[]byte{…}` -/
  lit : List UInt8 → M Crunch.Src
  /-- `make([]byte, n)`; it is only used as an operand of `append` or through one local variable, so it needs no place in memory -/
  make : Int64 → M Crunch.Src
  /-- `make([]byte, n, c)` -/
  makeCap : Int64 → Int64 → M Crunch.Src
  /-- `make([]T, n)` for elements of `w` bytes that start as `z` -/
  makeTyped : Nat → α → Int64 → M (List α)
  append : Slice → Crunch.Src → M Slice
  copy : Slice → Crunch.Src → M Unit
  lock : M Unit
  unlock : M Unit
  deferUnlock : M α → M α
  getOut : M V
  putOut : V → M Unit
  /-- run a call with a fresh result variable; its last value -/
  withOut : V → M Unit → M V

/-- What the Go compiler rejects has no meaning; here it gets one that no call of the model has. -/
def stuck [Monad M] [Sem M] : M α := Sem.fail .blocked

/-- A partial function. -/
def ofOpt [Monad M] [Sem M] : Option α → M α
  | some a => pure a
  | none => stuck

/-! ## numbers -/

/-- A constant as a number of the type of `v`. -/
def V.like : V → Nat → Option V
  | .i16 _, n => some (.i16 (Int16.ofNat n))
  | .i32 _, n => some (.i32 (Int32.ofNat n))
  | .i64 _, n => some (.i64 (Int64.ofNat n))
  | .u8 _, n => some (.u8 (UInt8.ofNat n))
  | .u16 _, n => some (.u16 (UInt16.ofNat n))
  | .u32 _, n => some (.u32 (UInt32.ofNat n))
  | .u64 _, n => some (.u64 (UInt64.ofNat n))
  | _, _ => none

/-- `n << c` as a number of the type of `v`; only bytes occur. -/
def V.likeSh : V → Nat → UInt64 → Option V
  | .u8 _, n, c => some (.u8 (shl8 (UInt8.ofNat n) c))
  | _, _, _ => none

/-- `^(n << c)` as a number of the type of `v`; only bytes occur. -/
def V.likeNsh : V → Nat → UInt64 → Option V
  | .u8 _, n, c => some (.u8 (~~~ (shl8 (UInt8.ofNat n) c)))
  | _, _, _ => none

/-- The shift count. -/
def V.count : V → Option UInt64
  | .num n => some (UInt64.ofNat n)
  | .u64 x => some x
  | _ => none

/-- `x << c` on `uint64` -/
def shl64 (x c : UInt64) : UInt64 := if c < 64 then x <<< c else 0
/-- `x << c` on `uint16` -/
def shl16 (x : UInt16) (c : UInt64) : UInt16 := if c < 16 then x <<< c.toUInt16 else 0
/-- `x >> c` on `uint16` -/
def shr16 (x : UInt16) (c : UInt64) : UInt16 := if c < 16 then x >>> c.toUInt16 else 0
/-- `x << c` on `uint32` -/
def shl32 (x : UInt32) (c : UInt64) : UInt32 := if c < 32 then x <<< c.toUInt32 else 0
/-- `x >> c` on `uint32` -/
def shr32 (x : UInt32) (c : UInt64) : UInt32 := if c < 32 then x >>> c.toUInt32 else 0
/-- `x << c` on `int16` -/
def shlI16 (x : Int16) (c : UInt64) : Int16 := if c < 16 then x <<< c.toUInt16.toInt16 else 0
/-- `x >> c` on `int16` -/
def shrI16 (x : Int16) (c : UInt64) : Int16 := if c < 16 then x >>> c.toUInt16.toInt16 else if x < 0 then -1 else 0
/-- `x << c` on `int32` -/
def shlI32 (x : Int32) (c : UInt64) : Int32 := if c < 32 then x <<< c.toUInt32.toInt32 else 0
/-- `x >> c` on `int32` -/
def shrI32 (x : Int32) (c : UInt64) : Int32 := if c < 32 then x >>> c.toUInt32.toInt32 else if x < 0 then -1 else 0
/-- `x << c` on `int64` -/
def shlI64 (x : Int64) (c : UInt64) : Int64 := if c < 64 then x <<< c.toInt64 else 0
/-- `x >> c` on `int64` -/
def shrI64 (x : Int64) (c : UInt64) : Int64 := if c < 64 then x >>> c.toInt64 else if x < 0 then -1 else 0

/-- `x << c` -/
def shl (c : UInt64) : V → Option V
  | .num n => some (.sh n c)
  | .u8 x => some (.u8 (shl8 x c))
  | .u16 x => some (.u16 (shl16 x c))
  | .u32 x => some (.u32 (shl32 x c))
  | .u64 x => some (.u64 (shl64 x c))
  | .i16 x => some (.i16 (shlI16 x c))
  | .i32 x => some (.i32 (shlI32 x c))
  | .i64 x => some (.i64 (shlI64 x c))
  | _ => none

/-- `x >> c` -/
def shr (c : UInt64) : V → Option V
  | .u8 x => some (.u8 (shr8 x c))
  | .u16 x => some (.u16 (shr16 x c))
  | .u32 x => some (.u32 (shr32 x c))
  | .u64 x => some (.u64 (shr64 x c))
  | .i16 x => some (.i16 (shrI16 x c))
  | .i32 x => some (.i32 (shrI32 x c))
  | .i64 x => some (.i64 (shrI64 x c))
  | _ => none

/-- Operators on `int64`. -/
def opI64 : Bop → Int64 → Int64 → Option V
  | .add, a, b => some (.i64 (a + b))
  | .sub, a, b => some (.i64 (a - b))
  | .mul, a, b => some (.i64 (a * b))
  | .div, a, b => if b = 0 then none else some (.i64 (a / b))
  | .rem, a, b => if b = 0 then none else some (.i64 (a % b))
  | .and, a, b => some (.i64 (a &&& b))
  | .or, a, b => some (.i64 (a ||| b))
  | .xor, a, b => some (.i64 (a ^^^ b))
  | .lt, a, b => some (.bool (a < b))
  | .le, a, b => some (.bool (a ≤ b))
  | .gt, a, b => some (.bool (a > b))
  | .ge, a, b => some (.bool (a ≥ b))
  | .eq, a, b => some (.bool (a = b))
  | .ne, a, b => some (.bool (a ≠ b))
  | _, _, _ => none

/-- Operators on `uint64`, those that occur. -/
def opU64 : Bop → UInt64 → UInt64 → Option V
  | .add, a, b => some (.u64 (a + b))
  | .sub, a, b => some (.u64 (a - b))
  | .mul, a, b => some (.u64 (a * b))
  | .and, a, b => some (.u64 (a &&& b))
  | .or, a, b => some (.u64 (a ||| b))
  | .xor, a, b => some (.u64 (a ^^^ b))
  | _, _, _ => none

/-- Operators on `byte`, those that occur. -/
def opU8 : Bop → UInt8 → UInt8 → Option V
  | .and, a, b => some (.u8 (a &&& b))
  | .or, a, b => some (.u8 (a ||| b))
  | .xor, a, b => some (.u8 (a ^^^ b))
  | .eq, a, b => some (.bool (a = b))
  | .ne, a, b => some (.bool (a ≠ b))
  | _, _, _ => none

/-- Operators on two values of the same type. -/
def arith (o : Bop) : V → V → Option V
  | .i64 a, .i64 b => opI64 o a b
  | .u64 a, .u64 b => opU64 o a b
  | .u8 a, .u8 b => opU8 o a b
  | .u16 a, .u16 b => if o = .or then some (.u16 (a ||| b)) else none
  | .u32 a, .u32 b => if o = .or then some (.u32 (a ||| b)) else none
  | .i16 a, .i16 b => if o = .or then some (.i16 (a ||| b)) else none
  | .i32 a, .i32 b => if o = .or then some (.i32 (a ||| b)) else none
  | _, _ => none

/-- A value in the type of the other operand. -/
def V.adapt (x other : V) : Option V :=
  match x with
  | .num n => other.like n
  | .sh n c => other.likeSh n c
  | .nsh n c => other.likeNsh n c
  | x => some x

/-- Binary operators. -/
def binop (o : Bop) (x y : V) : Option V :=
  match o with
  | .shl => y.count.bind fun c => shl c x
  | .shr => y.count.bind fun c => shr c x
  | o => (x.adapt y).bind fun x' => (y.adapt x).bind fun y' => arith o x' y'

/-- `^x` -/
def compl : V → Option V
  | .sh n c => some (.nsh n c)
  | .u8 x => some (.u8 (~~~ x))
  | _ => none

/-- `T(x)` for numbers: truncation, or extension according to the sign of the operand's type; those that occur. -/
def conv : K → V → Option V
  | .i64, .num n => some (.i64 (Int64.ofNat n))
  | .i64, .i64 x => some (.i64 x)
  | .u64, .num n => some (.u64 (UInt64.ofNat n))
  | .u64, .i64 x => some (.u64 x.toUInt64)
  | .u64, .u8 x => some (.u64 x.toUInt64)
  | .u16, .u8 x => some (.u16 x.toUInt16)
  | .u32, .u8 x => some (.u32 x.toUInt32)
  | .i16, .u8 x => some (.i16 x.toUInt16.toInt16)
  | .i32, .u8 x => some (.i32 x.toUInt32.toInt32)
  | .i64, .u8 x => some (.i64 x.toUInt64.toInt64)
  | .u8, .u8 x => some (.u8 x)
  | .u8, .u16 x => some (.u8 x.toUInt8)
  | .u8, .u32 x => some (.u8 x.toUInt8)
  | .u8, .u64 x => some (.u8 x.toUInt8)
  | .u8, .i16 x => some (.u8 x.toUInt16.toUInt8)
  | .u8, .i32 x => some (.u8 x.toUInt32.toUInt8)
  | .u8, .i64 x => some (.u8 x.toUInt64.toUInt8)
  | _, _ => none

/-- `*(*T)(unsafe.Pointer(&x))`: the same bits, in a type of the same size. -/
def rebits : K → V → Option V
  | .u32, .f32 x => some (.u32 x.bits)
  | .u64, .f64 x => some (.u64 x.bits)
  | .f32, .u32 x => some (.f32 ⟨x⟩)
  | .f64, .u64 x => some (.f64 ⟨x⟩)
  | _, _ => none

/-- The zero value. -/
def zero : K → V
  | .i16 => .i16 0 | .i32 => .i32 0 | .i64 => .i64 0
  | .u8 => .u8 0 | .u16 => .u16 0 | .u32 => .u32 0 | .u64 => .u64 0
  | .f32 => .f32 ⟨0⟩ | .f64 => .f64 ⟨0⟩

/-- An `int64`; constants fit. -/
def V.int : V → Option Int64
  | .num n => some (Int64.ofNat n)
  | .i64 x => some x
  | _ => none

/-- A `byte`. -/
def V.byte : V → Option UInt8
  | .num n => some (UInt8.ofNat n)
  | .u8 x => some x
  | _ => none

/-- A `[]byte` that is a slice of memory. -/
def V.slice : V → Option Slice
  | .bytes (.mem s) => some s
  | _ => none

/-- A `[]byte`. -/
def V.src : V → Option Crunch.Src
  | .bytes x => some x
  | _ => none

/-- `len(x)` -/
def V.len : V → Option Int64
  | .bytes x => some (Int64.ofNat x.len)
  | .li16 l => some (Crunch.len l) | .li32 l => some (Crunch.len l) | .li64 l => some (Crunch.len l)
  | .lu16 l => some (Crunch.len l) | .lu32 l => some (Crunch.len l) | .lu64 l => some (Crunch.len l)
  | .lf32 l => some (Crunch.len l) | .lf64 l => some (Crunch.len l)
  | .slices l => some (Crunch.len l)
  | _ => none

/-! ## expressions -/

section
variable {M : Type → Type} [Monad M] [Sem M]

/-- `x[i]` -/
def index (x : V) (i : Int64) : M V :=
  match x with
  | .bytes x => do return .u8 (← Sem.load x i)
  | .li16 l => do return .i16 (← Sem.idx l i)
  | .li32 l => do return .i32 (← Sem.idx l i)
  | .li64 l => do return .i64 (← Sem.idx l i)
  | .lu16 l => do return .u16 (← Sem.idx l i)
  | .lu32 l => do return .u32 (← Sem.idx l i)
  | .lu64 l => do return .u64 (← Sem.idx l i)
  | .lf32 l => do return .f32 (← Sem.idx l i)
  | .lf64 l => do return .f64 (← Sem.idx l i)
  | .slices l => do return .bytes (.mem (← Sem.idx l i))
  | _ => stuck

/-- The value of `x` after `x[i] = v` -/
def setIndex (x : V) (i : Int64) (v : V) : M V :=
  match x, v with
  | .li16 l, .i16 v => do return .li16 (← Sem.setIdx l i v)
  | .li32 l, .i32 v => do return .li32 (← Sem.setIdx l i v)
  | .li64 l, .i64 v => do return .li64 (← Sem.setIdx l i v)
  | .lu16 l, .u16 v => do return .lu16 (← Sem.setIdx l i v)
  | .lu32 l, .u32 v => do return .lu32 (← Sem.setIdx l i v)
  | .lu64 l, .u64 v => do return .lu64 (← Sem.setIdx l i v)
  | .lf32 l, .f32 v => do return .lf32 (← Sem.setIdx l i v)
  | .lf64 l, .f64 v => do return .lf64 (← Sem.setIdx l i v)
  | .bytes (.lit l), .u8 v => do return .bytes (.lit (← Sem.setIdx l i v))
  | _, _ => stuck

/-- `make([]T, n)` -/
def makeT (k : K) (n : Int64) : M V :=
  match k with
  | .i16 => do return .li16 (← Sem.makeTyped 2 0 n)
  | .i32 => do return .li32 (← Sem.makeTyped 4 0 n)
  | .i64 => do return .li64 (← Sem.makeTyped 8 0 n)
  | .u16 => do return .lu16 (← Sem.makeTyped 2 0 n)
  | .u32 => do return .lu32 (← Sem.makeTyped 4 0 n)
  | .u64 => do return .lu64 (← Sem.makeTyped 8 0 n)
  | .f32 => do return .lf32 (← Sem.makeTyped 4 ⟨0⟩ n)
  | .f64 => do return .lf64 (← Sem.makeTyped 8 ⟨0⟩ n)
  | .u8 => stuck

/-- `x.([]T)` -/
def assertK (k : K) (x : V) : M V :=
  match k, x with
  | .u8, .bytes s => pure (.bytes s)
  | .i16, .li16 l => pure (.li16 l)
  | .i32, .li32 l => pure (.li32 l)
  | .i64, .li64 l => pure (.li64 l)
  | .u16, .lu16 l => pure (.lu16 l)
  | .u32, .lu32 l => pure (.lu32 l)
  | .u64, .lu64 l => pure (.lu64 l)
  | .f32, .lf32 l => pure (.lf32 l)
  | .f64, .lf64 l => pure (.lf64 l)
  | _, _ => Sem.fail .typeAssert

/-- The byte order whose method is called; the call panics if there is none. -/
def orderOf (x : V) : M Spec.Endian :=
  match x with
  | .order (some e) => pure e
  | .order none => Sem.fail .nilDeref
  | _ => stuck

/-- `e.Uint16(x)`, `e.Uint32(x)`, `e.Uint64(x)` of the standard library: the last byte is loaded first, to check the length. -/
def uintAt (k : K) (e : Spec.Endian) (x : Crunch.Src) : M V :=
  match k with
  | .u16 => do
    let b1 ← Sem.load x 1
    let b0 ← Sem.load x 0
    return .u16 (V1.get16 e b0 b1)
  | .u32 => do
    let b3 ← Sem.load x 3
    let b2 ← Sem.load x 2
    let b1 ← Sem.load x 1
    let b0 ← Sem.load x 0
    return .u32 (V1.get32 e b0 b1 b2 b3)
  | .u64 => do
    let b7 ← Sem.load x 7
    let b6 ← Sem.load x 6
    let b5 ← Sem.load x 5
    let b4 ← Sem.load x 4
    let b3 ← Sem.load x 3
    let b2 ← Sem.load x 2
    let b1 ← Sem.load x 1
    let b0 ← Sem.load x 0
    return .u64 (V1.get64 e b0 b1 b2 b3 b4 b5 b6 b7)
  | _ => stuck

/-- The bytes `e.PutUint16(x, v)`, … stores at the start of `x`. -/
def putBytes (k : K) (e : Spec.Endian) (v : V) : Option (List UInt8) :=
  match k, v with
  | .u16, .u16 v => some (V1.put16 e v)
  | .u32, .u32 v => some (V1.put32 e v)
  | .u64, .u64 v => some (V1.put64 e v)
  | _, _ => none

/-- The value of a local `x` after `e.PutUint16(x, v)`, …; it is long enough in the texts. -/
def putInto (x : V) (l : List UInt8) : Option V :=
  match x with
  | .bytes (.lit old) => if l.length ≤ old.length then some (.bytes (.lit (l ++ old.drop l.length))) else none
  | _ => none

/-- The functions a body may call, and the error values. -/
structure Ctx (M : Type → Type) where
  call : Str → List V → M V
  err : Str → Option GoError
  /-- the number of rounds a loop may have -/
  fuel : Nat

/-- The local variables. -/
abbrev Env := List V

/-- Expressions. -/
def eval (cx : Ctx M) (env : Env) : E → M V
  | .nil => pure .unit
  | .cons _ _ => stuck
  | .lit n => pure (.num n)
  | .bool b => pure (.bool b)
  | .var i => ofOpt env[i]?
  | .field f => do return .i64 (← Sem.field f)
  | .buf => do return .bytes (.mem (← Sem.buf))
  | .out => Sem.getOut
  | .outPtr => pure .ptr
  | .bin o a b => do
    let x ← eval cx env a
    let y ← eval cx env b
    ofOpt (binop o x y)
  | .compl e => do
    let x ← eval cx env e
    ofOpt (compl x)
  | .conv k e => do
    let x ← eval cx env e
    ofOpt (conv k x)
  | .bits k e => do
    let x ← eval cx env e
    ofOpt (rebits k x)
  | .len e => do
    let x ← eval cx env e
    let n ← ofOpt x.len
    return .i64 n
  | .cap e => do
    let x ← eval cx env e
    let s ← ofOpt x.slice
    return .i64 (Int64.ofNat s.cap)
  | .index e i => do
    let x ← eval cx env e
    let j ← eval cx env i
    let j ← ofOpt j.int
    index x j
  | .sliceFrom e lo => do
    let x ← eval cx env e
    let l ← eval cx env lo
    let s ← ofOpt x.slice
    let l ← ofOpt l.int
    return .bytes (.mem (← Sem.resliceFrom s l))
  | .slice e lo hi => do
    let x ← eval cx env e
    let l ← eval cx env lo
    let h ← eval cx env hi
    let s ← ofOpt x.slice
    let l ← ofOpt l.int
    let h ← ofOpt h.int
    return .bytes (.mem (← Sem.reslice s l h))
  | .make n => do
    let n ← eval cx env n
    let n ← ofOpt n.int
    return .bytes (← Sem.make n)
  | .makeCap n c => do
    let n ← eval cx env n
    let c ← eval cx env c
    let n ← ofOpt n.int
    let c ← ofOpt c.int
    return .bytes (← Sem.makeCap n c)
  | .makeT k n => do
    let n ← eval cx env n
    let n ← ofOpt n.int
    makeT k n
  | .bytes l => do
    let l ← evals l
    let l ← ofOpt (l.mapM V.byte)
    return .bytes (← Sem.lit l)
  | .append a b => do
    let x ← eval cx env a
    let y ← eval cx env b
    let s ← ofOpt x.slice
    let t ← ofOpt y.src
    return .bytes (.mem (← Sem.append s t))
  | .call f args => do
    let l ← evals args
    cx.call f l
  | .assert k e => do
    let x ← eval cx env e
    assertK k x
  | .uint k o e => do
    let o ← eval cx env o
    let x ← eval cx env e
    let o ← orderOf o
    let x ← ofOpt x.src
    uintAt k o x
  | .own l => do
    let l ← evals l
    let l ← ofOpt (l.mapM V.byte)
    return .bytes (.lit l)
where
  /-- Arguments. -/
  evals : E → M (List V)
    | .cons e r => do
      let x ← eval cx env e
      let l ← evals r
      return x :: l
    | _ => pure []

/-! ## statements -/

/-- How a statement ends. -/
inductive Out where
  | next
  | ret (v : V)
  | goto (l : Str)
  | brk

/-- A constant in a type. -/
def V.to (v : V) (k : Option K) : V :=
  match k, v with
  | some .i16, .num n => .i16 (Int16.ofNat n)
  | some .i32, .num n => .i32 (Int32.ofNat n)
  | some .i64, .num n => .i64 (Int64.ofNat n)
  | some .u8, .num n => .u8 (UInt8.ofNat n)
  | some .u16, .num n => .u16 (UInt16.ofNat n)
  | some .u32, .num n => .u32 (UInt32.ofNat n)
  | some .u64, .num n => .u64 (UInt64.ofNat n)
  | _, v => v

/-- The value of a variable after `x = v`: a constant takes the type of the variable, which is `int` if this declares it. -/
def V.into (v old : V) : V := (v.adapt old).getD (v.to (some .i64))

/-- `{ l: body }`: the body again as long as it ends with `goto l`. -/
def loopGoto (l : Str) (body : Env → M (Out × Env)) : Nat → Env → M (Out × Env)
  | 0, _ => stuck
  | n + 1, env => do
    let r ← body env
    match r.1 with
    | .goto l' => if l' = l then loopGoto l body n r.2 else pure r
    | _ => pure r

/-- `for init; c; post { body }` after `init` -/
def loopFor (c : Env → M V) (body post : Env → M (Out × Env)) : Nat → Env → M (Out × Env)
  | 0, _ => stuck
  | n + 1, env => do
    match ← c env with
    | .bool true =>
      let r ← body env
      match r.1 with
      | .next =>
        let r ← post r.2
        loopFor c body post n r.2
      | .brk => pure (.next, r.2)
      | _ => pure r
    | .bool false => pure (.next, env)
    | _ => stuck

/-- `range` over `len` elements; `body i` for element `i` -/
def loopRange (body : Int64 → Env → M (Out × Env)) (len : Int64) : Nat → Int64 → Env → M (Out × Env)
  | 0, _, _ => stuck
  | n + 1, i, env =>
    if i < len then do
      let r ← body i env
      match r.1 with
      | .next => loopRange body len n (i + 1) r.2
      | .brk => pure (.next, r.2)
      | _ => pure r
    else pure (.next, env)

/-- Statements. -/
def exec (cx : Ctx M) : S → Env → M (Out × Env)
  | .nil, env => pure (.next, env)
  | .cons s r, env => do
    let o ← exec cx s env
    match o.1 with
    | .next => exec cx r o.2
    | _ => pure o
  | .set i e, env => do
    let v ← eval cx env e
    let old ← ofOpt env[i]?
    return (.next, env.set i (v.into old))
  | .zero i k, env => pure (.next, env.set i (zero k))
  | .nilBytes i, env => pure (.next, env.set i (.bytes (.mem ⟨0, 0, 0, 0⟩)))
  | .setField f e, env => do
    let v ← eval cx env e
    let v ← ofOpt v.int
    Sem.assign f v
    return (.next, env)
  | .setBuf e, env => do
    let v ← eval cx env e
    let v ← ofOpt v.slice
    Sem.assignBuf v
    return (.next, env)
  | .setBufAt i e, env => do
    let i ← eval cx env i
    let v ← eval cx env e
    let i ← ofOpt i.int
    let v ← ofOpt v.byte
    let s ← Sem.buf
    Sem.store s i v
    return (.next, env)
  | .setAt x i e, env => do
    let i ← eval cx env i
    let v ← eval cx env e
    let i ← ofOpt i.int
    let l ← ofOpt env[x]?
    let l ← setIndex l i v
    return (.next, env.set x l)
  | .setOut e, env => do
    let v ← eval cx env e
    let old ← Sem.getOut
    Sem.putOut (v.into old)
    return (.next, env)
  | .setOutAt i e, env => do
    let i ← eval cx env i
    let v ← eval cx env e
    let i ← ofOpt i.int
    let l ← Sem.getOut
    let l ← setIndex l i v
    Sem.putOut l
    return (.next, env)
  | .setOutAs k i e, env => do
    let l ← Sem.getOut
    let l ← assertK k l
    let i ← eval cx env i
    let v ← eval cx env e
    let i ← ofOpt i.int
    let l ← setIndex l i v
    Sem.putOut l
    return (.next, env)
  | .put k o x e, env => do
    let o ← eval cx env o
    let v ← eval cx env e
    let o ← orderOf o
    let l ← ofOpt (putBytes k o v)
    let old ← ofOpt env[x]?
    let x' ← ofOpt (putInto old l)
    return (.next, env.set x x')
  | .new b off cap boff bcap, env => do
    let b ← eval cx env b
    let off ← eval cx env off
    let cap ← eval cx env cap
    let boff ← eval cx env boff
    let bcap ← eval cx env bcap
    let b ← ofOpt b.slice
    let off ← ofOpt off.int
    let cap ← ofOpt cap.int
    let boff ← ofOpt boff.int
    let bcap ← ofOpt bcap.int
    Sem.assignBuf b
    Sem.assign .off off
    Sem.assign .cap cap
    Sem.assign .boff boff
    Sem.assign .bcap bcap
    return (.next, env)
  | .copy a b, env => do
    let a ← eval cx env a
    let b ← eval cx env b
    let a ← ofOpt a.slice
    let b ← ofOpt b.src
    Sem.copy a b
    return (.next, env)
  | .expr e, env => do
    let _ ← eval cx env e
    return (.next, env)
  | .callAddr f x args, env => do
    let args ← eval.evals cx env args
    let v ← ofOpt env[x]?
    let v ← Sem.withOut v (do let _ ← cx.call f (.ptr :: args))
    return (.next, env.set x v)
  | .ret e, env => do
    let v ← eval cx env e
    return (.ret v, env)
  | .retNone, env => pure (.ret .unit, env)
  | .panic e, _ => do
    let e ← ofOpt (cx.err e)
    Sem.fail (.err e)
  | .ifs c thn els, env => do
    match ← eval cx env c with
    | .bool b => if b then exec cx thn env else exec cx els env
    | _ => stuck
  | .block l body, env => loopGoto l (exec cx body) cx.fuel env
  | .goto l, env => pure (.goto l, env)
  | .brk, env => pure (.brk, env)
  | .switch e cl, env => do
    let v ← eval cx env e
    let r ← clauses v cl env
    match r.1 with
    | .brk => pure (.next, r.2)
    | _ => pure r
  | .lock, env => do
    Sem.lock
    return (.next, env)
  | .unlock, env => do
    Sem.unlock
    return (.next, env)
  | .rangeVal x e body, env => do
    let v ← eval cx env e
    let n ← ofOpt v.len
    loopRange (fun i env => do
      let v ← index v i
      exec cx body (env.set x v)) n cx.fuel 0 env
  | .rangeIdx x e body, env => do
    let v ← eval cx env e
    let n ← ofOpt v.len
    loopRange (fun i env => exec cx body (env.set x (.i64 i))) n cx.fuel 0 env
  | .for init c post body, env => do
    let r ← exec cx init env
    loopFor (fun env => eval cx env c) (exec cx body) (exec cx post) cx.fuel r.2
  | .case _ _, _ => stuck
  | .default _, _ => stuck
  | .deferUnlock, _ => stuck
where
  /-- The first clause for `v`; `default` is the last clause of the texts. -/
  clauses (v : V) : S → Env → M (Out × Env)
    | .cons (.case n body) r, env =>
      match v with
      | .i64 x => if x = Int64.ofNat n then exec cx body env else clauses v r env
      | .u8 x => if x = UInt8.ofNat n then exec cx body env else clauses v r env
      | _ => stuck
    | .cons (.default body) _, env => exec cx body env
    | .nil, env => pure (.next, env)
    | _, _ => stuck

/-- The statements of a function; what follows `defer b.Unlock()` runs with the mutex to be released at its end. -/
def execBody (cx : Ctx M) : S → Env → M (Out × Env)
  | .cons .deferUnlock r, env => Sem.deferUnlock (execBody cx r env)
  | .cons s r, env => do
    let o ← exec cx s env
    match o.1 with
    | .next => execBody cx r o.2
    | _ => pure o
  | s, env => exec cx s env

/-- A call of a function. -/
def Fun.run (cx : Ctx M) (f : Fun) (args : List V) : M V :=
  if args.length = f.params.length then do
    let r ← execBody cx f.body (List.zipWith V.to args f.params ++ List.replicate (f.vars - f.params.length) .unit)
    match r.1 with
    | .next => pure .unit
    | .ret v => pure (v.to f.result)
    | _ => stuck
  else stuck

/-- The functions of a package and its errors. -/
structure Pkg where
  funs : List Fun
  errs : List (Str × GoError)

/-- A call of a function of the package by name: at most `depth` calls inside each other, at most `fuel` rounds of each loop.
What needs more is stuck. -/
def Pkg.call (p : Pkg) (fuel : Nat) : Nat → Str → List V → M V
  | 0, _, _ => stuck
  | depth + 1, f, args =>
    match p.funs.find? (·.name == f) with
    | some g => g.run ⟨p.call fuel depth, (p.errs.lookup ·), fuel⟩ args
    | none => stuck

end

/-! ## the monads of the model -/

/-- v1 and v2 `Buffer`. -/
instance : Sem Prog where
  fail := .panic
  field := Prog.field
  assign := Prog.assign
  buf := Prog.buf
  assignBuf := Prog.assignBuf
  load := Prog.srcAt
  store := Prog.storeAt
  idx := Prog.idx
  setIdx := Prog.setIdx
  reslice := Prog.reslice
  resliceFrom _ _ := .panic .blocked
  lit
    | [] => .alloc [] 0 fun s => .ret (.mem s)
    | l => .ret (.lit l)
  make := Prog.makeZero
  makeCap _ _ := .panic .blocked
  makeTyped := Prog.makeTyped
  append := Prog.appendTo
  copy _ _ := .panic .blocked
  lock := Prog.Lock
  unlock := Prog.Unlock
  deferUnlock := Prog.deferUnlock
  getOut := .panic .blocked
  putOut _ := .panic .blocked
  withOut _ _ := .panic .blocked

open V3 V3.Mini in
/-- v3 `Buffer` and the `MiniBuffer`s: the state also has the variable that `out` points to. -/
instance : Sem (GoM (V3.St × V)) where
  fail := throwP
  field f := onB do return f.get (← getB)
  assign f v := onB (modB fun b => f.set b v)
  buf := onB do return (← getB).buf
  assignBuf s := onB (modB fun b => { b with buf := s })
  load
    | .mem s, i => onB (onMem (loadAt s i))
    | .lit l, i => Crunch.idx l i
  store s i v := onB (onMem (storeAt s i v))
  idx := Crunch.idx
  setIdx := Crunch.setIdx
  reslice s lo hi := onB (onMem (Crunch.reslice s lo hi))
  resliceFrom s lo := onB (onMem (Crunch.resliceFrom s lo))
  lit l := onB (onMem do return .mem (← litBytes l))
  make n := onB do
    panicIf (n.toInt < 0 ∨ n.toInt > maxAlloc) .makeSlice
    return .lit (List.replicate n.toInt.toNat 0)
  makeCap n c := onB (onMem do return .mem (← makeBytes n c))
  makeTyped := Crunch.makeTyped
  append
    | s, .mem x => onB do
      let data ← onMem fun h => (.ok (h.view x), h)
      onMem (appendBytes s data)
    | s, .lit data => onB (onMem (appendBytes s data))
  copy
    | s, .mem x => onB (onMem (copyBytes s x))
    | _, .lit _ => throwP .blocked
  lock := throwP .blocked
  unlock := throwP .blocked
  deferUnlock _ := throwP .blocked
  getOut := getOut
  putOut := putOut
  withOut v m := fun s =>
    match m (s.1, v) with
    | (.ok _, s') => (.ok s'.2, (s'.1, s.2))
    | (.panic p, s') => (.panic p, (s'.1, s.2))

end Crunch.Src
