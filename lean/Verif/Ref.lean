import Verif.V3.Kinds

/-!
# The reference machine

What a `Buffer` is supposed to be, with no memory model: a list of bytes, the spare bytes
behind it, and two cursors (property C38).  All arithmetic is on mathematical integers; `wrap64`
appears where the code's `int64` arithmetic can wrap around.
-/

namespace Crunch.Ref
open Spec V3

/-- `int64` wrap-around. -/
def wrap64 (x : Int) : Int := x.bmod (2 ^ 64)

/-- The state. -/
structure Ref where
  data : List UInt8
  spare : List UInt8
  cur : Int
  bcur : Int

/-- Results. -/
inductive Val where
  | unit
  | num (n : Int)
  | bytes (l : List UInt8)
  | nums (l : List Nat)

/-- The calls.  A position is `some offset`, or `none` for the Next form of the call. -/
inductive Op where
  | write (w : Nat) (e : Endian) (pos : Option Int) (data : List Nat)
  | read (w : Nat) (e : Endian) (pos : Option Int) (n : Int)
  | writeBytes (pos : Option Int) (bs : List UInt8)
  | writeByte (pos : Option Int) (v : UInt8)
  | readBytes (pos : Option Int) (n : Int)
  | readByte (pos : Option Int)
  | readBit (pos : Option Int)
  | readBits (pos : Option Int) (n : Int)
  | setBit (pos : Option Int)
  | clearBit (pos : Option Int)
  | flipBit (pos : Option Int)
  | setBits (pos : Option Int) (value : Nat) (n : Int)
  | clearAll
  | setAll
  | flipAll
  | seekByte (off : Int) (relative : Bool)
  | seekBit (off : Int) (relative : Bool)
  | afterByte (pos : Option Int)
  | afterBit (pos : Option Int)
  | alignByte
  | alignBit
  | truncateLeft (n : Int)
  | truncateRight (n : Int)
  | grow (n : Int)
  | refresh
  | reset
  | bytes
  | byteCapacity
  | bitCapacity
  | byteOffset
  | bitOffset

/-- Move the byte cursor after a success. -/
def stepCur (d : Int) : Res Val × Ref → Res Val × Ref
  | (.ok v, r) => (.ok v, { r with cur := wrap64 (r.cur + d) })
  | (.panic p, r) => (.panic p, r)

/-- Move the bit cursor after a success. -/
def stepBcur (d : Int) : Res Val × Ref → Res Val × Ref
  | (.ok v, r) => (.ok v, { r with bcur := wrap64 (r.bcur + d) })
  | (.panic p, r) => (.panic p, r)

/-- Which panic an access of `n` bytes at `o` that does not fit raises. -/
def reject (r : Ref) (over under : GoError) (other : Panic) (o n : Int) : Panic :=
  if wrap64 (o + n) > r.data.length then .err over else if o < 0 then .err under else other

/-- Which panic a bit access at `o` that does not fit raises. -/
def rejectBit (over under : GoError) (o : Int) : Panic := if o < 0 then .err under else .err over

/-- Store bytes; `fit` is the condition under which the call succeeds. -/
def put (r : Ref) (o : Int) (bs : List UInt8) (fit : Prop) [Decidable fit] (other : Panic) : Res Val × Ref :=
  if fit ∧ 0 ≤ o ∧ o + bs.length ≤ r.data.length then
    (.ok .unit, { r with data := patch r.data o.toNat bs })
  else (.panic (reject r BufferOverwriteError BufferUnderwriteError other o bs.length), r)

/-- The bytes of `len` whose bits are `f 0, f 1, …`. -/
def ofBits (len : Nat) (f : Nat → Bool) : List UInt8 :=
  (List.range len).map fun q => UInt8.ofNat (binary (fun i => f (8 * q + i)) 8)

/-- `l` with bits `o … o+n-1` replaced by `f 0 … f (n-1)` (as far as `l` reaches). -/
def withBits (l : List UInt8) (o : Nat) (f : Nat → Bool) (n : Nat) : List UInt8 :=
  ofBits l.length fun j => if o ≤ j ∧ j < o + n then f (j - o) else bit l j

/-- Replace one bit. -/
def putBit (r : Ref) (o : Int) (f : Bool → Bool) : Res Val × Ref :=
  if 0 ≤ o ∧ o < 8 * r.data.length then
    (.ok .unit, { r with data := withBits r.data o.toNat (fun _ => f (bit r.data o.toNat)) 1 })
  else (.panic (rejectBit BufferOverwriteError BufferUnderwriteError o), r)

/-- How many bits a bit count stands for (C21). -/
def count (n : Int) : Nat := max 1 n.toNat

/-- Digit `i` (from the most significant) of the `n`-digit binary number `v`. -/
def digit (v : Nat) (n : Int) (i : Nat) : Bool := decide (1 ≤ n) && v.testBit (n.toNat - 1 - i)

/-- One typed write. -/
def write (w : Nat) (e : Endian) (o : Int) (data : List Nat) (r : Ref) : Res Val × Ref :=
  put r o (data.flatMap (encode e w)) (data ≠ []) .index

/-- One typed read. -/
def read (w : Nat) (e : Endian) (o n : Int) (r : Ref) : Res Val × Ref :=
  if 1 ≤ n ∧ 0 ≤ o ∧ o + n * w ≤ r.data.length then
    (.ok (.nums ((List.range n.toNat).map fun i => decode e (slice r.data (o.toNat + i * w) w))), r)
  else
    (.panic (reject r BufferOverreadError BufferUnderreadError
      (if n < 0 ∨ n * w > maxAlloc then .makeSlice else .index) o (n * w)), r)

/-- One raw read. -/
def readBytes (o n : Int) (r : Ref) : Res Val × Ref :=
  if 0 ≤ n ∧ 0 ≤ o ∧ o + n ≤ r.data.length then (.ok (.bytes (slice r.data o.toNat n.toNat)), r)
  else (.panic (reject r BufferOverreadError BufferUnderreadError .sliceBounds o n), r)

/-- Read one byte. -/
def readByte (o : Int) (r : Ref) : Res Val × Ref :=
  if 0 ≤ o ∧ o < r.data.length then (.ok (.num (r.data.getD o.toNat 0).toNat), r)
  else (.panic (reject r BufferOverreadError BufferUnderreadError .sliceBounds o 1), r)

/-- Read one bit. -/
def readBit (o : Int) (r : Ref) : Res Val × Ref :=
  if 0 ≤ o ∧ o < 8 * r.data.length then (.ok (.num (bit r.data o.toNat).toNat), r)
  else (.panic (rejectBit BufferOverreadError BufferUnderreadError o), r)

/-- Read a bit field: modulo 2^64. -/
def readBits (o n : Int) (r : Ref) : Res Val × Ref :=
  if 0 ≤ o ∧ o + count n ≤ 8 * r.data.length then
    (.ok (.num ((binary (fun i => bit r.data (o.toNat + i)) (count n) % 2 ^ 64 : Nat))), r)
  else (.panic (rejectBit BufferOverreadError BufferUnderreadError o), r)

/-- Write a bit field; what does not fit is cut off and then reported (C20). -/
def setBits (o : Int) (v : Nat) (n : Int) (r : Ref) : Res Val × Ref :=
  if 0 ≤ o ∧ o + count n ≤ 8 * r.data.length then
    (.ok .unit, { r with data := withBits r.data o.toNat (digit v n) (count n) })
  else
    (.panic (rejectBit BufferOverwriteError BufferUnderwriteError o),
     if 0 ≤ o then { r with data := withBits r.data o.toNat (digit v n) (count n) } else r)

/-- The whole-buffer operations; empty buffers are rejected (C25). -/
def all (f : UInt8 → UInt8) (r : Ref) : Res Val × Ref :=
  if r.data = [] then (.panic .index, r) else (.ok .unit, { r with data := r.data.map f })

/-- One call. -/
def step (op : Op) (r : Ref) : Res Val × Ref :=
  match op with
  | .write w e (some o) data => write w e o data r
  | .write w e none data => stepCur (data.length * w) (write w e r.cur data r)
  | .read w e (some o) n => read w e o n r
  | .read w e none n => stepCur (n * w) (read w e r.cur n r)
  | .writeBytes (some o) bs => put r o bs True .sliceBounds
  | .writeBytes none bs => stepCur bs.length (put r r.cur bs True .sliceBounds)
  | .writeByte (some o) v => put r o [v] True .sliceBounds
  | .writeByte none v => stepCur 1 (put r r.cur [v] True .sliceBounds)
  | .readBytes (some o) n => readBytes o n r
  | .readBytes none n => stepCur n (readBytes r.cur n r)
  | .readByte (some o) => readByte o r
  | .readByte none => stepCur 1 (readByte r.cur r)
  | .readBit (some o) => readBit o r
  | .readBit none => stepBcur 1 (readBit r.bcur r)
  | .readBits (some o) n => readBits o n r
  | .readBits none n => stepBcur n (readBits r.bcur n r)
  | .setBit (some o) => putBit r o fun _ => true
  | .setBit none => stepBcur 1 (putBit r r.bcur fun _ => true)
  | .clearBit (some o) => putBit r o fun _ => false
  | .clearBit none => stepBcur 1 (putBit r r.bcur fun _ => false)
  | .flipBit (some o) => putBit r o fun b => !b
  | .flipBit none => stepBcur 1 (putBit r r.bcur fun b => !b)
  | .setBits (some o) v n => setBits o v n r
  | .setBits none v n => stepBcur n (setBits r.bcur v n r)
  | .clearAll => all (fun _ => 0) r
  | .setAll => all (fun _ => 0xFF) r
  | .flipAll => all (fun b => ~~~b) r
  | .seekByte o rel => (.ok .unit, { r with cur := if rel then wrap64 (r.cur + o) else o })
  | .seekBit o rel => (.ok .unit, { r with bcur := if rel then wrap64 (r.bcur + o) else o })
  | .afterByte o => (.ok (.num (wrap64 (r.data.length - o.getD r.cur - 1))), r)
  | .afterBit o => (.ok (.num (wrap64 (8 * r.data.length - o.getD r.bcur - 1))), r)
  | .alignByte => (.ok .unit, { r with cur := r.bcur.tdiv 8 })
  | .alignBit => (.ok .unit, { r with bcur := wrap64 (8 * r.cur) })
  | .truncateLeft n =>
    if n < 0 then (.panic (.err BufferInvalidByteCountError), r)
    else if r.data.length < n then (.panic .sliceBounds, r)
    else (.ok .unit, { r with data := r.data.drop n.toNat })
  | .truncateRight n =>
    if n < 0 then (.panic (.err BufferInvalidByteCountError), r)
    else if r.data.length < n then (.panic .sliceBounds, r)
    else (.ok .unit, { r with data := r.data.take (r.data.length - n.toNat),
                              spare := r.data.drop (r.data.length - n.toNat) ++ r.spare })
  | .grow n =>
    if n < 0 then (.panic (.err BufferInvalidByteCountError), r)
    else if n ≤ r.spare.length then
      (.ok .unit, { r with data := r.data ++ r.spare.take n.toNat, spare := r.spare.drop n.toNat })
    else if 2 * (r.data.length + r.spare.length + n) ≤ maxAlloc then
      (.ok .unit, { r with data := r.data ++ List.replicate n.toNat 0,
                           spare := List.replicate (r.data.length + 2 * r.spare.length + n.toNat) 0 })
    else (.panic .makeSlice, r)
  | .refresh => (.ok .unit, r)
  | .reset => (.ok .unit, { data := [], spare := r.data ++ r.spare, cur := 0, bcur := 0 })
  | .bytes => (.ok (.bytes r.data), r)
  | .byteCapacity => (.ok (.num r.data.length), r)
  | .bitCapacity => (.ok (.num (8 * r.data.length)), r)
  | .byteOffset => (.ok (.num r.cur), r)
  | .bitOffset => (.ok (.num r.bcur), r)

/-- A sequence of calls; a panic is recovered and the sequence goes on. -/
def run : List Op → Ref → List (Res Val) × Ref
  | [], r => ([], r)
  | op :: ops, r => ((step op r).1 :: (run ops (step op r).2).1, (run ops (step op r).2).2)

end Crunch.Ref
