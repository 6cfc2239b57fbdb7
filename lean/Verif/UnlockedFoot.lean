import Verif.Footprints
import Verif.UnlockedApart

/-!
# The footprints of calls on buffers without a mutex

The v3 `Buffer` and the `MiniBuffer`s have no mutex.  For each call: the places it may read and the places it may change, given the fields of the buffer at
its start.  The fields and the header are those of the tables of `Verif/Unlocked.lean`; here the bytes are told apart.  Written from the documentation of
the methods, not from their bodies.
-/

namespace Crunch.V3
open V2 (byteAt bitAt)

/-- The bytes of the content a call is about: the first one and the one behind the last.  `ReadBytes` and `Bytes` are about none: they return a slice of the
content.  A read of nothing looks at one element before it fails.  The byte of a bit is found by Go's division, which rounds towards zero, so the bits from
-7 to -1 are in the first byte. -/
def bytesOf (b : Buf) : Op → Int × Int
  | .write k _ p d => (byteAt b p, byteAt b p + d.length * k.size)
  | .read k _ p n => (byteAt b p, byteAt b p + max 1 n.toInt * k.size)
  | .writeBytes p src => (byteAt b p, byteAt b p + src.len)
  | .readByte p => (byteAt b p, byteAt b p + 1)
  | .readBit p | .setBit p | .clearBit p | .flipBit p => ((bitAt b p).tdiv 8, (bitAt b p).tdiv 8 + 1)
  | .readBits p n | .setBits p _ n => ((bitAt b p).tdiv 8, (bitAt b p + max 1 n.toInt - 1).tdiv 8 + 1)
  | .clearAll | .setAll | .flipAll => (0, b.buf.len)
  | _ => (0, 0)

/-- The bytes it copies from. -/
def sourceOf : Op → Option Slice
  | .writeBytes _ src => some src
  | _ => none

/-- The places a call may read, where `acc` says which parts it accesses. -/
def reads (acc : Op → Part → Bool) (b : Buf) (op : Op) (l : Loc) : Prop :=
  acc op l.part = true ∧ (l.part = .bytes → l.content b (bytesOf b op) ∨ ∃ t, sourceOf op = some t ∧ l.of t)

/-- The places a call on a `Buffer` may read. -/
def mayRead : Buf → Op → Loc → Prop := reads accesses
/-- The places a call on a `MiniBuffer` may read. -/
def mayReadMini : Buf → Op → Loc → Prop := reads accessesMini

/-- The places a call may change. -/
def mayWrite (b : Buf) (op : Op) (l : Loc) : Prop := changes op l.part = true ∧ (l.part = .bytes → l.content b (bytesOf b op))

/-- The call makes no new array and leaves the content where it is.  `WriteByte` makes an array for its argument. -/
def inPlace (op : Op) : Bool := !resizes op && !(op matches .writeByte ..)

/-- It neither uses nor moves an offset. -/
def placed (op : Op) : Bool := inPlace op && !accessesMini op (.field .off) && !accessesMini op (.field .boff)

end Crunch.V3

namespace Crunch.V2
open V3 (Buf)

/-- The bytes of the content a call on a v2 `MiniBuffer` is about; as for v3. -/
def bytesOfMini (b : Buf) : Op2 → Int × Int
  | .write k _ p d => (byteAt b p, byteAt b p + d.length * k.kind.size)
  | .read k _ p n => (byteAt b p, byteAt b p + max 1 n.toInt * k.kind.size)
  | .writeBytes p src => (byteAt b p, byteAt b p + src.len)
  | .readBit p | .setBit p _ | .flipBit p => ((bitAt b p).tdiv 8, (bitAt b p).tdiv 8 + 1)
  | .readBits p n | .setBits p _ n => ((bitAt b p).tdiv 8, (bitAt b p + max 1 n.toInt - 1).tdiv 8 + 1)
  | .clearAll | .setAll | .flipAll => (0, b.buf.len)
  | _ => (0, 0)

/-- The places a call on a v2 `MiniBuffer` may read. -/
def mayReadMini (b : Buf) (op : Op2) (l : Loc) : Prop :=
  accessesMini op l.part = true ∧ (l.part = .bytes → l.content b (bytesOfMini b op) ∨ ∃ t, sourceOf op = some t ∧ l.of t)

/-- The places it may change. -/
def mayWriteMini (b : Buf) (op : Op2) (l : Loc) : Prop := alters op l.part = true ∧ (l.part = .bytes → l.content b (bytesOfMini b op))

/-- The call makes no new array and leaves the content where it is. -/
def inPlaceMini (op : Op2) : Bool := !(op matches .grow _ | .refresh | .reset)

/-- It neither uses nor moves an offset. -/
def placedMini (op : Op2) : Bool := inPlaceMini op && !accessesMini op (.field .off) && !accessesMini op (.field .boff)

end Crunch.V2

namespace Crunch.V1
open V3 (Buf)
open V2 (byteAt bitAt)

/-- The bytes of the content a call on a v1 `MiniBuffer` is about; as for v3, where `ReadBits` and `SetBits` of nothing are about nothing. -/
def bytesOfMini1 (b : Buf) : Op1 → Int × Int
  | .writeComplex p d w _ => (byteAt b p, byteAt b p + bytesIn d w)
  | .writeBytes p src => (byteAt b p, byteAt b p + src.len)
  | .readBit p | .setBit p _ | .flipBit p => ((bitAt b p).tdiv 8, (bitAt b p).tdiv 8 + 1)
  | .readBits p n | .setBits p _ n => if n.toInt ≤ 0 then (0, 0) else ((bitAt b p).tdiv 8, (bitAt b p + n.toInt - 1).tdiv 8 + 1)
  | .clearAll | .setAll | .flipAll => (0, b.buf.len)
  | _ => (0, 0)

/-- The places a call on a v1 `MiniBuffer` may read.  `ReadComplex` may read behind the content, in the capacity of the slice (`complexOf`). -/
def mayReadMini1 (b : Buf) (op : Op1) (l : Loc) : Prop :=
  accessesMini1 op l.part = true ∧
    (l.part = .bytes → l.content b (bytesOfMini1 b op) ∨ l.around b (complexOf b op) ∨ ∃ t, sourceOf1 op = some t ∧ l.of t)

/-- The places it may change. -/
def mayWriteMini1 (b : Buf) (op : Op1) (l : Loc) : Prop := alters1 op l.part = true ∧ (l.part = .bytes → l.content b (bytesOfMini1 b op))

/-- The call makes no new array and leaves the content where it is. -/
def inPlaceMini1 (op : Op1) : Bool := !(op matches .grow _ | .refresh)

/-- It neither uses nor moves an offset. -/
def placedMini1 (op : Op1) : Bool := inPlaceMini1 op && !accessesMini1 op (.field .off) && !accessesMini1 op (.field .boff)

end Crunch.V1

namespace Crunch

/-- The calls `l`, made one after the other by nobody else and each doing what `m` says, are calls that `ok` accepts and whose footprints, taken from the
fields of the buffer at their starts, are in `R` and `W`. -/
def KeepsTo (m : O → V3.St → Res V × V3.St) (rd wr : V3.Buf → O → Loc → Prop) (ok : O → Bool) (R W : Loc → Prop) : List O → V3.St → Prop
  | [], _ => True
  | op :: l, s => (ok op = true ∧ (∀ x, rd s.b op x → R x) ∧ ∀ x, wr s.b op x → W x) ∧ KeepsTo m rd wr ok R W l (m op s).2

/-- No goroutine notices another one, where goroutine `i` changes only the places in `W i`. -/
structure UnnoticedAt (m : O → V3.St → Res V × V3.St) (W : Nat → Loc → Prop) (c0 : Conf O V) (τ : Trace O V) (c : Conf O V) : Prop where
  /-- every call has the outcome it has when its goroutine is the only one -/
  outcomes : ∀ i, finished i τ = (byItself m i τ c0.sh.st).1
  /-- between its calls, a goroutine finds the places that the others do not change as if it were the only one -/
  places : ∀ i, c.thr i = .idle → ∀ l : Loc, (∀ j, j ≠ i → ¬ W j l) → l.same c.sh.st (byItself m i τ c0.sh.st).2
  /-- what nobody changes is as before -/
  rest : ∀ l : Loc, (∀ i, ¬ W i l) → l.same c.sh.st c0.sh.st

end Crunch
