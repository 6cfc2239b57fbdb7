import Verif.Guards
import Verif.V3.Api

/-!
# What calls on a buffer without a mutex access

The v3 `Buffer` and the `MiniBuffer`s have no mutex.  For each call on them: which parts of the buffer it accesses, and which of these it
changes.  These two tables tell which calls of different goroutines on one such buffer can be in a data race.
-/

namespace Crunch

/-- Neither call changes a part that the other one accesses. -/
def PartsApart (accesses changes : O → Part → Bool) (op op' : O) : Prop :=
  ∀ k, ¬ (changes op k = true ∧ accesses op' k = true) ∧ ¬ (changes op' k = true ∧ accesses op k = true)

/-- The call changes nothing. -/
def ChangesNothing (changes : O → Part → Bool) (op : O) : Prop := ∀ k, changes op k = false

end Crunch

namespace Crunch.V3

/-- The call is about bytes, at a position or at the byte offset. -/
def byteCall : Op → Option (Option Int64)
  | .write _ _ p _ | .read _ _ p _ | .writeBytes p _ | .writeByte p _ | .readBytes p _ | .readByte p => some p
  | _ => none

/-- The call is about bits, at a position or at the bit offset. -/
def bitCall : Op → Option (Option Int64)
  | .readBit p | .readBits p _ | .setBit p | .clearBit p | .flipBit p | .setBits p _ _ => some p
  | _ => none

/-- The call gives the buffer other memory, or looks for a new length. -/
def resizes : Op → Bool
  | .truncateLeft _ | .truncateRight _ | .grow _ | .refresh | .reset => true
  | _ => false

/-- The call is about the whole memory. -/
def wholeCall : Op → Bool
  | .clearAll | .setAll | .flipAll => true
  | _ => false

/-- What a call changes. -/
def changes (op : Op) : Part → Bool
  | .field .off => byteCall op == some none || (op matches .seekByte .. | .alignByte | .reset)
  | .field .boff => bitCall op == some none || (op matches .seekBit .. | .alignBit | .reset)
  | .field .cap | .field .bcap => resizes op
  | .header => (op matches .truncateLeft _ | .truncateRight _ | .grow _ | .reset)
  | .bytes => (op matches .write .. | .writeBytes .. | .writeByte .. | .setBit .. | .clearBit .. | .flipBit .. | .setBits .. | .grow _) || wholeCall op

/-- The call copies memory or makes new memory; all others change single bytes and fields. -/
def copies : Op → Bool
  | .writeBytes .. | .writeByte .. | .grow _ | .reset => true
  | _ => false

/-- What a call on a `MiniBuffer` accesses: the position of a call is not checked against a capacity. -/
def accessesMini (op : Op) : Part → Bool
  | .field .cap => resizes op || (op matches .afterByte _ | .byteCapacity)
  | .field .bcap => resizes op || (op matches .afterBit _ | .bitCapacity)
  | .field .off => changes op (.field .off) || (op matches .afterByte [] | .alignBit | .byteOffset)
  | .field .boff => changes op (.field .boff) || (op matches .afterBit [] | .alignByte | .bitOffset)
  | .header => (byteCall op).isSome || (bitCall op).isSome || wholeCall op || resizes op || (op matches .bytes)
  | .bytes => changes op .bytes || (op matches .read .. | .readByte .. | .readBit .. | .readBits ..)

/-- What a call on a `Buffer` accesses: also the capacity its position is checked against. -/
def accesses (op : Op) (k : Part) : Bool :=
  accessesMini op k || (k matches .field .cap) && (byteCall op).isSome || (k matches .field .bcap) && (bitCall op).isSome

end Crunch.V3

namespace Crunch.V2

/-- What a call on a v2 `MiniBuffer` accesses.  What it changes is what the call on a `Buffer` changes (`alters`). -/
def accessesMini (op : Op2) : Part → Bool
  | .field .cap => alters op (.field .cap) || (op matches .after _ | .capacity)
  | .field .bcap => alters op (.field .bcap) || (op matches .afterBit _ | .bitCapacity)
  | .field .off => alters op (.field .off) || (op matches .after [] | .alignBit | .offset)
  | .field .boff => alters op (.field .boff) || (op matches .afterBit [] | .alignByte | .bitOffset)
  | .header => (byteCall op).isSome || (bitCall op).isSome || (op matches .clearAll | .setAll | .flipAll | .grow _ | .refresh | .reset | .bytes)
  | .bytes => alters op .bytes || (op matches .read .. | .readByte .. | .readBit .. | .readBits ..)

/-- The call copies memory or makes new memory. -/
def copiesMini : Op2 → Bool
  | .writeBytes .. | .writeByte .. | .grow _ | .reset => true
  | _ => false

end Crunch.V2

namespace Crunch.V1

/-- What a call on a v1 `MiniBuffer` accesses.  What it changes is what the call on a `Buffer` changes (`alters1`). -/
def accessesMini1 (op : Op1) : Part → Bool
  | .field .cap => alters1 op (.field .cap) || (op matches .after _ | .capacity)
  | .field .bcap => alters1 op (.field .bcap) || (op matches .afterBit _ | .bitCapacity)
  | .field .off => alters1 op (.field .off) || (op matches .after [] | .alignBit | .offset)
  | .field .boff => alters1 op (.field .boff) || (op matches .afterBit [] | .alignByte | .bitOffset)
  | .header => (byteCall1 op).isSome || (bitCall1 op).isSome || (op matches .clearAll | .setAll | .flipAll | .grow _ | .refresh | .bytes)
  | .bytes => alters1 op .bytes || (op matches .readComplex .. | .readByte .. | .readBit .. | .readBits ..)

/-- The call copies memory or makes new memory. -/
def copiesMini1 : Op1 → Bool
  | .writeComplex .. | .writeBytes .. | .writeByte .. | .grow _ => true
  | _ => false

end Crunch.V1
