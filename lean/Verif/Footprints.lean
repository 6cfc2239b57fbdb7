import Verif.Foot
import Verif.V2.Api
import Verif.V1.Api

/-!
# The footprints of the methods of v1 and v2 `Buffer`

For each call: the places it may read and the places it may change, given the fields of the buffer at its start.  Written from
the documentation of the methods, not from their bodies; that the bodies keep to it is a theorem.
-/

namespace Crunch.V2
open V3 (Buf)

/-- The position of a byte method: the argument, or the byte offset. -/
def byteAt (b : Buf) (p : Option Int64) : Int := (p.getD b.off).toInt
/-- The position of a bit method: the argument, or the bit offset. -/
def bitAt (b : Buf) (p : Option Int64) : Int := (p.getD b.boff).toInt

/-- The bytes of the content a call is about: the first one and the one behind the last.  `ReadBytes` and `Bytes` are about none: they
return a slice of the content.  A read of nothing looks at one element before it fails. -/
def bytesOf (b : Buf) : Op2 → Int × Int
  | .write k _ p d => (byteAt b p, byteAt b p + d.length * k.kind.size)
  | .read k _ p n => (byteAt b p, byteAt b p + max 1 n.toInt * k.kind.size)
  | .writeBytes p src => (byteAt b p, byteAt b p + src.len)
  | .writeByte p _ => (byteAt b p, byteAt b p + 1)
  | .readByte p => (byteAt b p, byteAt b p + 1)
  | .readBit p | .setBit p _ | .flipBit p => (bitAt b p / 8, bitAt b p / 8 + 1)
  | .readBits p n | .setBits p _ n => (bitAt b p / 8, (bitAt b p + max 1 n.toInt - 1) / 8 + 1)
  | .clearAll | .setAll | .flipAll => (0, b.buf.len)
  | _ => (0, 0)

/-- It changes them. -/
def changesBytes : Op2 → Bool
  | .write .. | .writeBytes .. | .writeByte .. | .setBit .. | .flipBit .. | .setBits .. | .clearAll | .setAll | .flipAll => true
  | _ => false

/-- The bytes it copies from. -/
def sourceOf : Op2 → Option Slice
  | .writeBytes _ src => some src
  | _ => none

/-- It looks at the byte offset. -/
def looksOff : Op2 → Bool
  | .write _ _ none _ | .read _ _ none _ | .writeBytes none _ | .writeByte none _ | .readBytes none _ | .readByte none => true
  | .seek .. | .after [] | .alignBit | .offset => true
  | _ => false
/-- It looks at the bit offset. -/
def looksBoff : Op2 → Bool
  | .readBit none | .readBits none _ | .setBit none _ | .flipBit none | .setBits none _ _ => true
  | .seekBit .. | .afterBit [] | .alignByte | .bitOffset => true
  | _ => false
/-- It moves the byte offset. -/
def movesOff : Op2 → Bool
  | .write _ _ none _ | .read _ _ none _ | .writeBytes none _ | .writeByte none _ | .readBytes none _ | .readByte none => true
  | .seek .. | .alignByte => true
  | _ => false
/-- It moves the bit offset. -/
def movesBoff : Op2 → Bool
  | .readBit none | .readBits none _ | .setBit none _ | .flipBit none | .setBits none _ _ => true
  | .seekBit .. | .alignBit => true
  | _ => false

/-- The place is one of the bytes `lo` to `hi` of the content. -/
def _root_.Crunch.Loc.content (b : Buf) (r : Int × Int) (l : Loc) : Prop :=
  ∃ x : Nat, r.1 ≤ x ∧ x < r.2 ∧ x < b.buf.len ∧ l = .byte b.buf.arr (b.buf.off + x)

/-- The place is one of the bytes of the slice. -/
def _root_.Crunch.Loc.of (t : Slice) (l : Loc) : Prop := ∃ x : Nat, x < t.len ∧ l = .byte t.arr (t.off + x)

/-- The places a call may read. -/
def mayRead (b : Buf) (op : Op2) : Loc → Prop
  | .header | .field .cap | .field .bcap => True
  | .field .off => looksOff op = true
  | .field .boff => looksBoff op = true
  | l => l.content b (bytesOf b op) ∨ ∃ t, sourceOf op = some t ∧ l.of t

/-- The places a call may change. -/
def mayWrite (b : Buf) (op : Op2) : Loc → Prop
  | .header => False
  | .field .cap | .field .bcap => op = .refresh
  | .field .off => movesOff op = true
  | .field .boff => movesBoff op = true
  | l => changesBytes op = true ∧ l.content b (bytesOf b op)

/-- The call makes no new array. -/
def inPlace : Op2 → Bool
  | .grow _ | .reset => false
  | _ => true

/-- It neither uses nor moves an offset. -/
def placed (op : Op2) : Bool := inPlace op && !(looksOff op || movesOff op) && !(looksBoff op || movesBoff op) && (match op with | .refresh => false | _ => true)

/-- It changes nothing. -/
def onlyReads (op : Op2) : Bool :=
  inPlace op && !changesBytes op && !movesOff op && !movesBoff op && (match op with | .refresh => false | _ => true)

end Crunch.V2

namespace Crunch.V1
open V3 (Buf)

/-- The number of bytes of an argument of `WriteComplex`, if its type goes with the size and there is a byte order. -/
def bytesIn : Any → Int64 → Int
  | .bytes s, w => if w = Unsigned8 then s.len else 0
  | .u16 d, w => if w = Unsigned16 then d.length * 2 else 0
  | .u32 d, w => if w = Unsigned32 then d.length * 4 else 0
  | .u64 d, w => if w = Unsigned64 then d.length * 8 else 0
  | .other, _ => 0

/-- The bytes of the content a call is about, as `V2.bytesOf`.  `ReadBits` and `SetBits` of nothing are about nothing. -/
def bytesOf1 (b : Buf) : Op1 → Int × Int
  | .writeComplex p d w _ => (V2.byteAt b p, V2.byteAt b p + bytesIn d w)
  | .readBits p n | .setBits p _ n => if n.toInt ≤ 0 then (0, 0) else (V2.bitAt b p / 8, (V2.bitAt b p + n.toInt - 1) / 8 + 1)
  | op => match toV2 op with
    | some o => V2.bytesOf b o
    | none => (0, 0)

/-- The bytes `ReadComplex` is about, which may lie behind the content, in the capacity of the slice. -/
def complexOf (b : Buf) : Op1 → Int × Int
  | .readComplex p n w _ => if w = Unsigned8 then (0, 0) else (V2.byteAt b p, V2.byteAt b p + n.toInt * w.toInt)
  | _ => (0, 0)

/-- It changes the bytes it is about. -/
def changesBytes1 : Op1 → Bool
  | .writeComplex .. => true
  | op => match toV2 op with
    | some o => V2.changesBytes o
    | none => false

/-- The bytes it copies from. -/
def sourceOf1 : Op1 → Option Slice
  | .writeBytes _ src => some src
  | .writeComplex _ (.bytes src) _ _ => some src
  | _ => none

/-- It looks at the byte offset. -/
def looksOff1 : Op1 → Bool
  | .writeComplex none .. | .readComplex none .. => true
  | op => match toV2 op with
    | some o => V2.looksOff o
    | none => false
/-- It looks at the bit offset. -/
def looksBoff1 (op : Op1) : Bool :=
  match toV2 op with
  | some o => V2.looksBoff o
  | none => false
/-- It moves the byte offset. -/
def movesOff1 : Op1 → Bool
  | .writeComplex none .. | .readComplex none .. => true
  | op => match toV2 op with
    | some o => V2.movesOff o
    | none => false
/-- It moves the bit offset. -/
def movesBoff1 (op : Op1) : Bool :=
  match toV2 op with
  | some o => V2.movesBoff o
  | none => false

/-- The place is one of the bytes `lo` to `hi` of the array, counted from the start of the content, whether or not they are content. -/
def _root_.Crunch.Loc.around (b : Buf) (r : Int × Int) (l : Loc) : Prop :=
  ∃ x : Nat, r.1 ≤ x ∧ x < r.2 ∧ l = .byte b.buf.arr (b.buf.off + x)

/-- The places a call may read. -/
def mayRead1 (b : Buf) (op : Op1) : Loc → Prop
  | .header | .field .cap | .field .bcap => True
  | .field .off => looksOff1 op = true
  | .field .boff => looksBoff1 op = true
  | l => l.content b (bytesOf1 b op) ∨ l.around b (complexOf b op) ∨ ∃ t, sourceOf1 op = some t ∧ l.of t

/-- The places a call may change. -/
def mayWrite1 (b : Buf) (op : Op1) : Loc → Prop
  | .header => False
  | .field .cap | .field .bcap => op = .refresh
  | .field .off => movesOff1 op = true
  | .field .boff => movesBoff1 op = true
  | l => changesBytes1 op = true ∧ l.content b (bytesOf1 b op)

/-- The call makes no new array. -/
def inPlace1 : Op1 → Bool
  | .grow _ => false
  | _ => true

/-- It neither uses nor moves an offset. -/
def placed1 (op : Op1) : Bool :=
  inPlace1 op && !(looksOff1 op || movesOff1 op) && !(looksBoff1 op || movesBoff1 op) && (match op with | .refresh => false | _ => true)

/-- It changes nothing. -/
def onlyReads1 (op : Op1) : Bool :=
  inPlace1 op && !changesBytes1 op && !movesOff1 op && !movesBoff1 op && (match op with | .refresh => false | _ => true)

end Crunch.V1
