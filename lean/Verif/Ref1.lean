import Verif.Ref2
import Verif.V1.Errors

/-!
# The reference machines of v1 `Buffer` and `MiniBuffer`

On the same plain state as `Ref`.  What v1 has in common with v2 is `base`; the integers of several sizes that v1 reads and
writes with one method, and the calls that have nothing to do, are described here (properties C94 and C95).
-/

namespace Crunch.Ref
open Spec V3
open V1 (BufferInvalidIntegerSizeError)

/-- The argument of `WriteComplex`. -/
inductive Arg where
  /-- `src` is where the bytes start, counted from the start of the buffer, when both lie in the same array. -/
  | bytes (bs : List UInt8) (src : Option Int)
  /-- Unsigned integers of `w` bytes each. -/
  | ints (w : Nat) (l : List Nat)
  | other

/-- How many elements it has. -/
def Arg.count : Arg → Nat
  | .bytes bs _ => bs.length
  | .ints _ l => l.length
  | .other => 0

/-- The calls; `order` is `none` for the nil interface. -/
inductive Op1 where
  | base (op : Op2)
  | writeComplex (pos : Option Int) (arg : Arg) (size : Int) (order : Option Endian)
  | readComplex (pos : Option Int) (n size : Int) (order : Option Endian)

/-- The calls that have nothing to do: no bits, or no bytes to go over.  `num` is what the result variable holds. -/
def idle (num : Nat) (op : Op2) (r : Ref) : Option (Res Val × Ref) :=
  match op with
  | .base (.readBits (some _) n) => if n ≤ 0 then some (.ok (.num num), r) else none
  | .base (.readBits none n) => if n ≤ 0 then some (stepBcur n (.ok (.num num), r)) else none
  | .base (.setBits (some _) _ n) => if n ≤ 0 then some (.ok .unit, r) else none
  | .base (.setBits none _ n) => if n ≤ 0 then some (stepBcur n (.ok .unit, r)) else none
  | .base .clearAll | .base .setAll | .base .flipAll => if r.data = [] then some (.ok .unit, r) else none
  | _ => none

/-- The bytes `WriteComplex` writes at `o`. -/
def bytesOf (o : Int) (arg : Arg) (size : Int) (order : Option Endian) : Res (List UInt8) :=
  if size = 1 then
    match arg with
    | .bytes bs src => .ok (echo src o bs)
    | _ => .panic .typeAssert
  else if size = 2 ∨ size = 4 ∨ size = 8 then
    match arg with
    | .ints w l =>
      if (w : Int) ≠ size then .panic .typeAssert
      else match order with
        | some e => .ok (l.flatMap (encode e w))
        | none => if l = [] then .ok [] else .panic .nilDeref
    | _ => .panic .typeAssert
  else .panic (.err BufferInvalidIntegerSizeError)

/-- `WriteComplex` on a `Buffer`. -/
def writeComplex (o : Int) (arg : Arg) (size : Int) (order : Option Endian) (r : Ref) : Res Val × Ref :=
  match bytesOf o arg size order with
  | .ok bs => put r o bs (bs ≠ []) .index
  | .panic p => (.panic p, r)

/-- `WriteComplex` on a `MiniBuffer`. -/
def miniWriteComplex (o : Int) (arg : Arg) (size : Int) (order : Option Endian) (r : Ref) : Res Val × Ref :=
  match bytesOf o arg size order with
  | .ok bs => miniCopy o bs r
  | .panic p => (.panic p, r)

/-- `n` integers of `w` bytes from position `o` on.  The spare bytes count. -/
def decodeInts (o n w : Nat) (order : Option Endian) (r : Ref) : Res Val :=
  if maxAlloc < n * w then .panic .makeSlice
  else if n = 0 then .ok (.nums [])
  else match order with
    | some e =>
      if o + n * w ≤ r.data.length + r.spare.length then
        .ok (.nums ((List.range n).map fun i => decode e (slice (r.data ++ r.spare) (o + i * w) w)))
      else .panic .sliceBounds
    | none => if o + w ≤ r.data.length + r.spare.length then .panic .nilDeref else .panic .sliceBounds

/-- What `ReadComplex` makes of the `n` bytes it has read at `o`. -/
def complexOf (o n size : Int) (order : Option Endian) (p : Res Val × Ref) : Res Val × Ref :=
  match p with
  | (.ok v, r) =>
    (if size = 1 then .ok v
     else if size = 2 ∨ size = 4 ∨ size = 8 then decodeInts o.toNat n.toNat size.toNat order r
     else .panic (.err BufferInvalidIntegerSizeError), r)
  | p => p

/-- `ReadComplex` on a `Buffer`: only `n` bytes are checked, whatever the size. -/
def readComplex (o n size : Int) (order : Option Endian) (r : Ref) : Res Val × Ref :=
  complexOf o n size order (readBytes o n r)

/-- `ReadComplex` on a `MiniBuffer`. -/
def miniReadComplex (o n size : Int) (order : Option Endian) (r : Ref) : Res Val × Ref :=
  complexOf o n size order (miniReadBytes o n r)

/-- One call on a v1 `Buffer`. -/
def step1 (op : Op1) (r : Ref) : Res Val × Ref :=
  match op with
  | .base op => (idle 0 op r).getD (step2 op r)
  | .writeComplex (some o) arg size order => writeComplex o arg size order r
  | .writeComplex none arg size order => stepCur (arg.count * size) (writeComplex r.cur arg size order r)
  | .readComplex (some o) n size order => readComplex o n size order r
  | .readComplex none n size order => stepCur (n * size) (readComplex r.cur n size order r)

/-- One call on a v1 `MiniBuffer` whose result variable holds `num` before. -/
def miniStep1 (num : Nat) (op : Op1) (r : Ref) : Res Val × Ref :=
  match op with
  | .base op => (idle num op r).getD (miniStep2 num [] op r)
  | .writeComplex (some o) arg size order => miniWriteComplex o arg size order r
  | .writeComplex none arg size order => stepCur (arg.count * size) (miniWriteComplex r.cur arg size order r)
  | .readComplex (some o) n size order => miniReadComplex o n size order r
  | .readComplex none n size order => stepCur (n * size) (miniReadComplex r.cur n size order r)

/-- The calls on a `Buffer` that leave its mutex locked for ever.  What `WriteComplex` rejects because of its type, its size or
its byte order is rejected before the mutex is taken. -/
def sticks1 (op : Op1) (p : Res Val) : Bool :=
  match op with
  | .base op => sticks op p
  | .writeComplex .. => match p with
    | .panic .index => true
    | _ => false
  | .readComplex .. => false

/-- A sequence of calls on a v1 `Buffer`, up to the first that leaves the mutex locked; a panic is recovered and the
sequence goes on.  The last component tells whether there was such a call. -/
def run1 : List Op1 → Ref → List (Res Val) × Ref × Bool
  | [], r => ([], r, false)
  | op :: ops, r =>
    if sticks1 op (step1 op r).1 then ([(step1 op r).1], (step1 op r).2, true)
    else ((step1 op r).1 :: (run1 ops (step1 op r).2).1, (run1 ops (step1 op r).2).2)

/-- A sequence of calls on a v1 `MiniBuffer`, each with the previous content of its result variable. -/
def miniRun1 : List (Nat × Op1) → Ref → List (Res Val) × Ref
  | [], r => ([], r)
  | (a, op) :: ops, r =>
    ((miniStep1 a op r).1 :: (miniRun1 ops (miniStep1 a op r).2).1, (miniRun1 ops (miniStep1 a op r).2).2)

end Crunch.Ref
