/-!
# The Go primitives the code relies on

Everything in this file models the Go language and runtime (64-bit platform),
not the repository.  The files under `Verif/V3`, `Verif/V2`, `Verif/V1` are
written in terms of these primitives.
-/

namespace Crunch

/-! ## Panics and the execution monad -/

/-- The library's error type: v3/errors.go:16-20 (identical in v1 and v2). -/
structure GoError where
  scope : String
  msg : String
deriving DecidableEq, Repr

/-- A panic value: either one of the library's `Error` values, or a Go run-time
error.  The texts of run-time errors are not modelled, only their kind. -/
inductive Panic where
  /-- `panic(SomeError)` -/
  | err (e : GoError)
  /-- run-time error: index out of range -/
  | index
  /-- run-time error: slice bounds out of range -/
  | sliceBounds
  /-- run-time error: makeslice/growslice: len or cap out of range -/
  | makeSlice
  /-- run-time error: failed type assertion -/
  | typeAssert
  /-- run-time error: invalid memory address or nil pointer dereference -/
  | nilDeref
  /-- not a panic: the call blocks forever on a mutex nobody will release -/
  | blocked
deriving DecidableEq, Repr

/-- Outcome of a call. -/
inductive Res (α : Type) where
  | ok (a : α)
  | panic (p : Panic)
deriving DecidableEq, Repr

/-- The value of a normal outcome, `d` for a panic (only used to state properties). -/
def Res.getD : Res α → α → α
  | .ok a, _ => a
  | .panic _, d => d

/-- A Go function body: from a state to an outcome *and* the state reached, also
when it panics. -/
def GoM (σ α : Type) : Type := σ → Res α × σ

instance : Monad (GoM σ) where
  pure a := fun s => (.ok a, s)
  bind m f := fun s =>
    match m s with
    | (.ok a, s') => f a s'
    | (.panic p, s') => (.panic p, s')

/-- `panic(p)` -/
def throwP (p : Panic) : GoM σ α := fun s => (.panic p, s)

/-- `if c { panic(p) }` -/
def panicIf (c : Prop) [Decidable c] (p : Panic) : GoM σ Unit :=
  if c then throwP p else pure ()

/-! ## Memory -/

/-- A slice header over byte memory: backing array, start, length, capacity.
`slice[i]` is byte `off + i` of array `arr`. -/
structure Slice where
  arr : Nat
  off : Nat
  len : Nat
  cap : Nat
deriving DecidableEq, Repr

/-- Memory: the byte arrays allocated so far, by number, and the (unspecified)
policy by which `append` chooses spare capacity when it reallocates: `slack
oldCap needed` spare bytes. -/
structure Heap where
  arrays : List (List UInt8)
  slack : Nat → Nat → Nat

/-- Largest allocation Go's runtime permits on 64-bit platforms (runtime
`maxAlloc`, 48 address bits); larger requests panic. -/
def maxAlloc : Nat := 2 ^ 48

/-- The array with number `a`. -/
def Heap.array (h : Heap) (a : Nat) : List UInt8 := h.arrays.getD a []

/-- The bytes visible through a slice header. -/
def Heap.view (h : Heap) (s : Slice) : List UInt8 :=
  ((h.array s.arr).drop s.off).take s.len

/-- The bytes between start and capacity of a slice header, i.e. what the slice could be
re-sliced to. -/
def Heap.window (h : Heap) (s : Slice) : List UInt8 :=
  ((h.array s.arr).drop s.off).take s.cap

/-- Store one byte. -/
def Heap.set (h : Heap) (a i : Nat) (v : UInt8) : Heap :=
  { h with arrays := h.arrays.modify a (fun l => l.set i v) }

/-- An array with consecutive bytes stored (as far as the array reaches). -/
def putAt (pos : Nat) (bs l : List UInt8) : List UInt8 :=
  (l.take pos ++ bs ++ l.drop (pos + bs.length)).take l.length

/-- Store consecutive bytes. -/
def Heap.blit (h : Heap) (a pos : Nat) (bs : List UInt8) : Heap :=
  { h with arrays := h.arrays.modify a (putAt pos bs) }

/-- Allocate a new array. -/
def Heap.alloc (h : Heap) (bs : List UInt8) : Heap :=
  { h with arrays := h.arrays ++ [bs] }

/-- `len(x)` as an `int`/`int64`. -/
def len (l : List α) : Int64 := Int64.ofNat l.length

/-- `x[i]` for a byte slice. -/
def loadAt (s : Slice) (i : Int64) : GoM Heap UInt8 := fun h =>
  if 0 ≤ i.toInt ∧ i.toInt < s.len then
    (.ok ((h.array s.arr).getD (s.off + i.toInt.toNat) 0), h)
  else (.panic .index, h)

/-- `x[i] = v` for a byte slice. -/
def storeAt (s : Slice) (i : Int64) (v : UInt8) : GoM Heap Unit := fun h =>
  if 0 ≤ i.toInt ∧ i.toInt < s.len then
    (.ok (), h.set s.arr (s.off + i.toInt.toNat) v)
  else (.panic .index, h)

/-- `x[lo:hi]` for a byte slice: needs `0 <= lo <= hi <= cap(x)`. -/
def reslice (s : Slice) (lo hi : Int64) : GoM Heap Slice := fun h =>
  if 0 ≤ lo.toInt ∧ lo.toInt ≤ hi.toInt ∧ hi.toInt ≤ s.cap then
    (.ok { arr := s.arr, off := s.off + lo.toInt.toNat,
           len := hi.toInt.toNat - lo.toInt.toNat,
           cap := s.cap - lo.toInt.toNat }, h)
  else (.panic .sliceBounds, h)

/-- `x[lo:]` for a byte slice: needs `0 <= lo <= len(x)`. -/
def resliceFrom (s : Slice) (lo : Int64) : GoM Heap Slice :=
  reslice { s with cap := s.len } lo (Int64.ofNat s.len) >>= fun t =>
    pure { t with cap := s.cap - lo.toInt.toNat }

/-- `copy(dst, src)`: `memmove` of `min(len(dst), len(src))` bytes. -/
def copyBytes (dst src : Slice) : GoM Heap Unit := fun h =>
  (.ok (), h.blit dst.arr dst.off ((h.view src).take dst.len))

/-- `make([]byte, n, c)`: a fresh zeroed array. -/
def makeBytes (n c : Int64) : GoM Heap Slice := fun h =>
  if n.toInt < 0 ∨ n.toInt > maxAlloc ∨ c.toInt < n.toInt ∨ c.toInt > maxAlloc then
    (.panic .makeSlice, h)
  else
    (.ok { arr := h.arrays.length, off := 0, len := n.toInt.toNat, cap := c.toInt.toNat },
     h.alloc (List.replicate c.toInt.toNat 0))

/-- A slice literal `[]byte{...}`: a fresh array with exactly these bytes. -/
def litBytes (bs : List UInt8) : GoM Heap Slice := fun h =>
  (.ok { arr := h.arrays.length, off := 0, len := bs.length, cap := bs.length }, h.alloc bs)

/-- `append(x, data...)` where `data` are the bytes of the second argument
(read before anything is written).  In place when the capacity suffices,
otherwise into a fresh array whose spare part is zero. -/
def appendBytes (s : Slice) (data : List UInt8) : GoM Heap Slice := fun h =>
  let need := s.len + data.length
  if need ≤ s.cap then
    (.ok { s with len := need }, h.blit s.arr (s.off + s.len) data)
  else if need > maxAlloc then (.panic .makeSlice, h)
  else
    let c := min (need + h.slack s.cap need) maxAlloc
    (.ok { arr := h.arrays.length, off := 0, len := need, cap := c },
     h.alloc (h.view s ++ data ++ List.replicate (c - need) 0))

/-! ## Typed slices (no aliasing with byte memory): lists -/

/-- `x[i]` for a typed slice. -/
def idx (l : List α) (i : Int64) : GoM σ α :=
  if 0 ≤ i.toInt then
    match l[i.toInt.toNat]? with
    | some v => pure v
    | none => throwP .index
  else throwP .index

/-- `x[i] = v` for a typed slice. -/
def setIdx (l : List α) (i : Int64) (v : α) : GoM σ (List α) :=
  if 0 ≤ i.toInt ∧ i.toInt < l.length then pure (l.set i.toInt.toNat v)
  else throwP .index

/-- `make([]T, n)` for element size `w` bytes and zero value `z`. -/
def makeTyped (w : Nat) (z : α) (n : Int64) : GoM σ (List α) :=
  if n.toInt < 0 ∨ n.toInt * w > maxAlloc then throwP .makeSlice
  else pure (List.replicate n.toInt.toNat z)

/-! ## Loops -/

/-- The loop shape used throughout the repository:

    { loop: body(i); i++; if i < n { goto loop } }

with `int64` counters and a loop-carried local value. -/
def doLoop (body : Int64 → α → GoM σ α) (n i : Int64) (a : α) : GoM σ α :=
  body i a >>= fun a' =>
    if i + 1 < n then doLoop body n (i + 1) a' else pure a'
termination_by (if i.toInt = 2 ^ 63 - 1 then 2 ^ 64 + 1 else (n.toInt - i.toInt).toNat)
decreasing_by
  rename_i h
  have e : (i + 1).toInt = (i.toInt + 1 + 2 ^ 63) % 2 ^ 64 - 2 ^ 63 := by
    rw [Int64.toInt_add]; unfold Int.bmod; simp; omega
  rw [Int64.lt_iff_toInt_lt] at h
  have := i.toInt_lt; have := i.le_toInt; have := n.toInt_lt; have := n.le_toInt
  rw [e] at h ⊢
  split <;> split <;> omega

/-- `for i := i0; i < n; i++ { body(i) }` with a loop-carried local value. -/
def forLoop (body : Int64 → α → GoM σ α) (n i : Int64) (a : α) : GoM σ α :=
  if i < n then body i a >>= fun a' => forLoop body n (i + 1) a' else pure a
termination_by (n.toInt - i.toInt).toNat
decreasing_by
  rename_i h
  have e : (i + 1).toInt = (i.toInt + 1 + 2 ^ 63) % 2 ^ 64 - 2 ^ 63 := by
    rw [Int64.toInt_add]; unfold Int.bmod; simp; omega
  rw [Int64.lt_iff_toInt_lt] at h
  have := i.toInt_lt; have := i.le_toInt; have := n.toInt_lt; have := n.le_toInt
  rw [e]
  omega

/-! ## Shifts with Go semantics (a count >= the width gives 0) -/

/-- `x >> c` on `byte`. -/
def shr8 (x : UInt8) (c : UInt64) : UInt8 := if c < 8 then x >>> c.toUInt8 else 0
/-- `x << c` on `byte`. -/
def shl8 (x : UInt8) (c : UInt64) : UInt8 := if c < 8 then x <<< c.toUInt8 else 0
/-- `x >> c` on `uint64`. -/
def shr64 (x c : UInt64) : UInt64 := if c < 64 then x >>> c else 0

/-! ## Element types of the typed accessors -/

/-- `float32`, by its IEEE bit pattern: the code only ever reinterprets it. -/
structure F32 where
  bits : UInt32
deriving DecidableEq, Repr

/-- `float64`, by its IEEE bit pattern. -/
structure F64 where
  bits : UInt64
deriving DecidableEq, Repr

/-- Go conversions between `byte` and an integer element type. -/
class Elem (α : Type) where
  /-- the conversion `byte(x)`: keep the low 8 bits -/
  byte : α → UInt8
  /-- the conversion `T(x)` of a byte: zero-extend -/
  ofByte : UInt8 → α

/-- the conversion `T(b)` of a byte, with `T` explicit -/
abbrev conv (α : Type) [Elem α] (b : UInt8) : α := Elem.ofByte b

instance : Elem UInt16 := ⟨UInt16.toUInt8, UInt8.toUInt16⟩
instance : Elem UInt32 := ⟨UInt32.toUInt8, UInt8.toUInt32⟩
instance : Elem UInt64 := ⟨UInt64.toUInt8, UInt8.toUInt64⟩
instance : Elem Int16 := ⟨fun x => x.toUInt16.toUInt8, fun b => b.toUInt16.toInt16⟩
instance : Elem Int32 := ⟨fun x => x.toUInt32.toUInt8, fun b => b.toUInt32.toInt32⟩
instance : Elem Int64 := ⟨fun x => x.toUInt64.toUInt8, fun b => b.toUInt64.toInt64⟩

end Crunch
