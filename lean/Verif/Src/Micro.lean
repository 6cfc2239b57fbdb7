import Verif.Src.Calls1

/-!
# Texts without a mutex as sequences of atomic steps

The v3 `Buffer` and the `MiniBuffer`s of all versions have no mutex, and their models (`Verif/V3`, `Verif/V2/Mini.lean`,
`Verif/V1/Mini.lean`) execute a call in one go.  Here the interpreter of `Verif/Src/Sem.lean` gets a third monad, in which a call is
a program over single accesses to the shared state (`Verif/Prog.lean`), so that such a buffer can be shared by goroutines.

Simplifications: as in `Verif/Prog.lean`, memory is sequentially consistent, and a slice header is read or assigned in one step.
`append` and `copy` are one step each.  The caller's variable that `out` points to is the caller's alone.
-/

namespace Crunch.Src

open Crunch.Gen (Str)

/-- A program that also has the variable that `out` points to, which no other goroutine has. -/
def LProg (α : Type) : Type := V → Prog (α × V)

instance : Monad LProg where
  pure a := fun v => .ret (a, v)
  bind m f := fun v => (m v).bind fun r => f r.1 r.2

/-- Steps that leave the variable alone. -/
def LProg.lift (p : Prog α) : LProg α := fun v => p.bind fun a => .ret (a, v)

/-- `s[lo:]`, as `Crunch.resliceFrom` (Verif/Go.lean). -/
def resliceFromP (s : Slice) (lo : Int64) : Prog Slice :=
  (Prog.reslice { s with cap := s.len } lo (Int64.ofNat s.len)).bind fun t => .ret { t with cap := s.cap - lo.toInt.toNat }

/-- `make([]byte, n, c)`, as `Crunch.makeBytes`. -/
def makeCapP (n c : Int64) : Prog Slice :=
  if n.toInt < 0 ∨ n.toInt > maxAlloc ∨ c.toInt < n.toInt ∨ c.toInt > maxAlloc then .panic .makeSlice
  else .alloc (List.replicate c.toInt.toNat 0) n.toInt.toNat .ret

/-- `copy(dst, src)`: the bytes that fit are appended to the empty slice at the start of `dst`, in place. -/
def copyP (dst src : Slice) : Prog Unit :=
  .append { dst with len := 0, cap := dst.len } (.mem { src with len := min src.len dst.len }) fun _ => .ret ()

/-- The buffers without a mutex.  `append` of a slice in memory occurs in the constructors only, which nothing shares. -/
instance : Sem LProg where
  fail p := fun _ => .panic p
  field f := .lift (Prog.field f)
  assign f v := .lift (Prog.assign f v)
  buf := .lift Prog.buf
  assignBuf s := .lift (Prog.assignBuf s)
  load x i := .lift (Prog.srcAt x i)
  store s i v := .lift (Prog.storeAt s i v)
  idx l i := .lift (Prog.idx l i)
  setIdx l i v := .lift (Prog.setIdx l i v)
  reslice s lo hi := .lift (Prog.reslice s lo hi)
  resliceFrom s lo := .lift (resliceFromP s lo)
  lit l := .lift (.alloc l l.length fun s => .ret (.mem s))
  make n := .lift (Prog.makeZero n)
  makeCap n c := .lift ((makeCapP n c).bind fun s => .ret (.mem s))
  makeTyped w z n := .lift (Prog.makeTyped w z n)
  append s x := .lift (Prog.appendTo s x)
  copy
    | s, .mem x => .lift (copyP s x)
    | _, .lit _ => fun _ => .panic .blocked
  lock := fun _ => .panic .blocked
  unlock := fun _ => .panic .blocked
  deferUnlock _ := fun _ => .panic .blocked
  getOut := fun v => .ret (v, v)
  putOut v := fun _ => .ret ((), v)
  withOut v m := fun w => (m v).bind fun r => .ret (r.2, w)

/-- The call of a function of the package in micro steps; with `out`, the call of a function that has a result variable, and the value
is that of the variable afterwards. -/
def Pkg.micro (p : Pkg) (fuel depth : Nat) (name : Str) (args : List V) (out : Option V) : Prog V :=
  match out with
  | none => (p.call fuel depth name args : LProg V) .unit |>.bind fun r => .ret r.1
  | some v => (p.call fuel depth name (.ptr :: args) : LProg V) v |>.bind fun r => .ret r.2

/-! ## kinds of steps -/

/-- The kinds of steps of a call without a mutex. -/
inductive Action where
  | get (f : Field) | set (f : Field) | getBuf | setBuf
  | load | store | copy | append | alloc
deriving DecidableEq, Repr

end Crunch.Src

namespace Crunch
open Src (Action)

/-- The steps of a program are of the kinds in `A`, whatever it reads. -/
def Prog.Only (A : Action → Bool) : Prog α → Prop
  | .ret _ => True
  | .panic _ => True
  | .getI f k => A (.get f) = true ∧ ∀ v, (k v).Only A
  | .setI f _ k => A (.set f) = true ∧ k.Only A
  | .getBuf k => A .getBuf = true ∧ ∀ s, (k s).Only A
  | .setBuf _ k => A .setBuf = true ∧ k.Only A
  | .load _ _ k => A .load = true ∧ ∀ v, (k v).Only A
  | .store _ _ _ k => A .store = true ∧ k.Only A
  | .append _ x k => A (match x with | .mem _ => .copy | .lit _ => .append) = true ∧ ∀ s, (k s).Only A
  | .alloc _ _ k => A .alloc = true ∧ ∀ s, (k s).Only A
  | .lock _ => False
  | .unlock _ => False

end Crunch
