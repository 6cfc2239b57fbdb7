import Verif.MiniRef
import Verif.V2.Errors

/-!
# The reference machines of v2 `Buffer` and `MiniBuffer`

On the same plain state as `Ref`.  What v2 has in common with v3 is `base`; the calls listed here are the ones with rules of
their own (properties C78 and C79).
-/

namespace Crunch.Ref
open Spec V3
open V2 (BufferInvalidBitError)

/-- The calls. -/
inductive Op2 where
  | base (op : Op)
  /-- `src` is where the source starts, counted from the start of the buffer, when both lie in the same array. -/
  | writeBytes (pos : Option Int) (bs : List UInt8) (src : Option Int)
  | writeByte (pos : Option Int) (v : UInt8)
  /-- `SetBit` with a value that is neither 0 nor 1. -/
  | badBit (pos : Option Int)
  /-- `room` is the spare capacity the runtime gives to a new array. -/
  | grow (n : Int) (room : Nat)
  | reset

/-- What arrives when `bs` is copied byte by byte to `o`: a source that starts `d > 0` bytes before the destination is
overwritten while it is being read, so that its first `d` bytes repeat. -/
def echo (src : Option Int) (o : Int) (bs : List UInt8) : List UInt8 :=
  match src with
  | none => bs
  | some q => if q < o then (List.range bs.length).map fun i => bs.getD (i % (o - q).toNat) 0 else bs

/-- Zeros are added at the end; spare bytes are cleared when they become data. -/
def grow2 (n : Int) (room : Nat) (r : Ref) : Res Val × Ref :=
  if n < 0 ∨ maxAlloc < r.data.length + n then (.panic .makeSlice, r)
  else
    (.ok .unit, { r with data := r.data ++ List.replicate n.toNat 0,
                         spare := if n ≤ r.spare.length then r.spare.drop n.toNat else List.replicate room 0 })

/-- One call on a v2 `Buffer`. -/
def step2 (op : Op2) (r : Ref) : Res Val × Ref :=
  match op with
  | .base op => step op r
  | .writeBytes (some o) bs src => put r o (echo src o bs) (bs ≠ []) .index
  | .writeBytes none bs src => stepCur bs.length (put r r.cur (echo src r.cur bs) (bs ≠ []) .index)
  | .writeByte (some o) v => put r o [v] True .index
  | .writeByte none v => stepCur 1 (put r r.cur [v] True .index)
  | .badBit pos =>
    (.panic (if 0 ≤ pos.getD r.bcur ∧ pos.getD r.bcur < 8 * r.data.length then .err BufferInvalidBitError
      else rejectBit BufferOverwriteError BufferUnderwriteError (pos.getD r.bcur)), r)
  | .grow n room => grow2 n room r
  | .reset => (.ok .unit, { data := [], spare := [], cur := 0, bcur := 0 })

/-- Unchecked raw write: what fits is stored before the panic. -/
def miniCopy (o : Int) (bs : List UInt8) (r : Ref) : Res Val × Ref :=
  if bs = [] ∨ o < 0 ∨ r.data.length ≤ o then (.panic .index, r)
  else
    (if o + bs.length ≤ r.data.length then .ok .unit else .panic .index,
     { r with data := patch r.data o.toNat (bs.take (r.data.length - o.toNat)) })

/-- One call on a v2 `MiniBuffer` whose result variable holds `num` or `nums` before. -/
def miniStep2 (num : Nat) (nums : List Nat) (op : Op2) (r : Ref) : Res Val × Ref :=
  match op with
  | .base op => miniStep num nums op r
  | .writeBytes (some o) bs src => miniCopy o (echo src o bs) r
  | .writeBytes none bs src => stepCur bs.length (miniCopy r.cur (echo src r.cur bs) r)
  | .badBit _ => (.panic (.err BufferInvalidBitError), r)
  | op => step2 op r

/-- The calls on a `Buffer` that leave its mutex locked for ever: a write or `Grow` that ends in a panic of the runtime
rather than one of the package's errors. -/
def sticks (op : Op2) (p : Res Val) : Bool :=
  match p with
  | .ok _ | .panic (.err _) => false
  | _ => match op with
    | .base (.write ..) | .writeBytes .. | .writeByte .. | .grow .. => true
    | _ => false

/-- A sequence of calls on a v2 `Buffer`, up to the first that leaves the mutex locked; a panic is recovered and the
sequence goes on.  The last component tells whether there was such a call. -/
def run2 : List Op2 → Ref → List (Res Val) × Ref × Bool
  | [], r => ([], r, false)
  | op :: ops, r =>
    if sticks op (step2 op r).1 then ([(step2 op r).1], (step2 op r).2, true)
    else ((step2 op r).1 :: (run2 ops (step2 op r).2).1, (run2 ops (step2 op r).2).2)

/-- A sequence of calls on a v2 `MiniBuffer`, each with the previous contents of its result variables. -/
def miniRun2 : List (Nat × List Nat × Op2) → Ref → List (Res Val) × Ref
  | [], r => ([], r)
  | (a, b, op) :: ops, r =>
    ((miniStep2 a b op r).1 :: (miniRun2 ops (miniStep2 a b op r).2).1, (miniRun2 ops (miniStep2 a b op r).2).2)

end Crunch.Ref
