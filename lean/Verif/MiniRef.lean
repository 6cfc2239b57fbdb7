import Verif.Ref

/-!
# The reference machine of `MiniBuffer`

Without range checks the outcome of an access that does not fit depends on how Go indexes and slices.  This machine
says what it is, on the same plain state as `Ref` (property C64).
-/

namespace Crunch.Ref
open Spec

/-- Bit `o` counted from the start of the data; there is nothing but zeros before it. -/
def bitAt (l : List UInt8) (o : Int) : Bool := if 0 ≤ o then bit l o.toNat else false

/-- `l` with bits `o … o+n-1` replaced by `f 0 … f (n-1)`, as far as they are bits of `l`. -/
def withBitsAt (l : List UInt8) (o : Int) (f : Nat → Bool) (n : Nat) : List UInt8 :=
  ofBits l.length fun j => if o ≤ j ∧ j < o + n then f (j - o).toNat else bit l j

/-- The bit positions an unchecked bit access can start from: dividing by 8 rounds towards zero, so -7 … -1 are taken for
byte 0. -/
def startsAt (r : Ref) (o : Int) : Prop := -8 < o ∧ r.data ≠ []

instance (r : Ref) (o : Int) : Decidable (startsAt r o) := inferInstanceAs (Decidable (_ ∧ _))

/-- The data reaches to `n` bytes; whatever is behind becomes spare. -/
def resize (r : Ref) (n : Nat) : Ref := { r with data := (r.data ++ r.spare).take n, spare := (r.data ++ r.spare).drop n }

/-- Unchecked typed write: what fits is stored before the panic. -/
def miniWrite (w : Nat) (e : Endian) (o : Int) (data : List Nat) (r : Ref) : Res Val × Ref :=
  if data = [] ∨ o < 0 ∨ r.data.length ≤ o then (.panic .index, r)
  else
    (if o + data.length * w ≤ r.data.length then .ok .unit else .panic .index,
     { r with data := patch r.data o.toNat ((data.flatMap (encode e w)).take (r.data.length - o.toNat)) })

/-- Unchecked typed read into a slice that holds `prev`. -/
def miniRead (prev : List Nat) (w : Nat) (e : Endian) (o n : Int) (r : Ref) : Res Val × Ref :=
  if 0 ≤ o ∧ o + count n * w ≤ r.data.length ∧ count n ≤ prev.length then
    (.ok (.nums (((List.range (count n)).map fun i => decode e (slice r.data (o.toNat + i * w) w)) ++ prev.drop (count n))), r)
  else (.panic .index, r)

/-- Unchecked raw write: what does not fit is dropped. -/
def miniWriteBytes (o : Int) (bs : List UInt8) (r : Ref) : Res Val × Ref :=
  if 0 ≤ o ∧ o ≤ r.data.length then
    (.ok .unit, { r with data := patch r.data o.toNat (bs.take (r.data.length - o.toNat)) })
  else (.panic .sliceBounds, r)

/-- Unchecked raw read: spare bytes can be read, too. -/
def miniReadBytes (o n : Int) (r : Ref) : Res Val × Ref :=
  if 0 ≤ o ∧ 0 ≤ n ∧ o + n ≤ (r.data.length + r.spare.length : Nat) then
    (.ok (.bytes (slice (r.data ++ r.spare) o.toNat n.toNat)), r)
  else (.panic .sliceBounds, r)

/-- Unchecked bit read. -/
def miniReadBit (o : Int) (r : Ref) : Res Val × Ref :=
  if startsAt r o ∧ o < 8 * r.data.length then (.ok (.num (bitAt r.data o).toNat), r) else (.panic .index, r)

/-- Unchecked bit field read into a variable that holds `prev`: the bits are shifted in from the right. -/
def miniReadBits (prev : Nat) (o n : Int) (r : Ref) : Res Val × Ref :=
  if startsAt r o ∧ o + count n ≤ 8 * r.data.length then
    (.ok (.num (((prev * 2 ^ count n + binary (fun i => bitAt r.data (o + i)) (count n)) % 2 ^ 64 : Nat))), r)
  else (.panic .index, r)

/-- Unchecked change of bits: what fits is stored before the panic. -/
def miniSetBits (o : Int) (f : Nat → Bool) (n : Nat) (r : Ref) : Res Val × Ref :=
  if startsAt r o then
    (if o + n ≤ 8 * r.data.length then .ok .unit else .panic .index, { r with data := withBitsAt r.data o f n })
  else (.panic .index, r)

/-- Unchecked resizing: any length within the capacity. -/
def miniResize (n : Int) (r : Ref) : Res Val × Ref :=
  if 0 ≤ n ∧ n ≤ (r.data.length + r.spare.length : Nat) then (.ok .unit, resize r n.toNat) else (.panic .sliceBounds, r)

/-- One call on a `MiniBuffer` whose result variable holds `num` or `nums` before. -/
def miniStep (num : Nat) (nums : List Nat) (op : Op) (r : Ref) : Res Val × Ref :=
  match op with
  | .write w e (some o) data => miniWrite w e o data r
  | .write w e none data => stepCur (data.length * w) (miniWrite w e r.cur data r)
  | .read w e (some o) n => miniRead nums w e o n r
  | .read w e none n => stepCur (n * w) (miniRead nums w e r.cur n r)
  | .writeBytes (some o) bs => miniWriteBytes o bs r
  | .writeBytes none bs => stepCur bs.length (miniWriteBytes r.cur bs r)
  | .readBytes (some o) n => miniReadBytes o n r
  | .readBytes none n => stepCur n (miniReadBytes r.cur n r)
  | .readBit (some o) => miniReadBit o r
  | .readBit none => stepBcur 1 (miniReadBit r.bcur r)
  | .readBits (some o) n => miniReadBits num o n r
  | .readBits none n => stepBcur n (miniReadBits num r.bcur n r)
  | .setBit (some o) => miniSetBits o (fun _ => true) 1 r
  | .setBit none => stepBcur 1 (miniSetBits r.bcur (fun _ => true) 1 r)
  | .clearBit (some o) => miniSetBits o (fun _ => false) 1 r
  | .clearBit none => stepBcur 1 (miniSetBits r.bcur (fun _ => false) 1 r)
  | .flipBit (some o) => miniSetBits o (fun _ => !bitAt r.data o) 1 r
  | .flipBit none => stepBcur 1 (miniSetBits r.bcur (fun _ => !bitAt r.data r.bcur) 1 r)
  | .setBits (some o) v n => miniSetBits o (digit v n) (count n) r
  | .setBits none v n => stepBcur n (miniSetBits r.bcur (digit v n) (count n) r)
  | .truncateLeft n =>
    if 0 ≤ n ∧ n ≤ r.data.length then (.ok .unit, { r with data := r.data.drop n.toNat }) else (.panic .sliceBounds, r)
  | .truncateRight n => miniResize (r.data.length - n) r
  | .grow n =>
    if r.data.length + n ≤ (r.data.length + r.spare.length : Nat) then miniResize (r.data.length + n) r
    else if 2 * (r.data.length + r.spare.length + n) ≤ maxAlloc then
      (.ok .unit, { r with data := r.data ++ List.replicate n.toNat 0,
                           spare := List.replicate (r.data.length + 2 * r.spare.length + n.toNat) 0 })
    else (.panic .makeSlice, r)
  | op => step op r

/-- A sequence of calls, each with the previous contents of its result variables. -/
def miniRun : List (Nat × List Nat × Op) → Ref → List (Res Val) × Ref
  | [], r => ([], r)
  | (a, b, op) :: ops, r =>
    ((miniStep a b op r).1 :: (miniRun ops (miniStep a b op r).2).1, (miniRun ops (miniStep a b op r).2).2)

end Crunch.Ref
