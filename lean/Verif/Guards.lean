import Verif.Happens
import Verif.V2.Api
import Verif.V1.Api

/-!
# What the methods of v1 and v2 `Buffer` access with and without the mutex

For each call: what it reads while it does not hold the mutex, and what it changes at all.  All changes are made under the mutex, so these two
tables tell which calls can be in a data race with one another.
-/

namespace Crunch

/-- The parts of a buffer: its fields, the slice header, the bytes of memory. -/
inductive Part where
  | field (f : Field)
  | header
  | bytes
deriving DecidableEq

/-- The part a place belongs to. -/
def Loc.part : Loc → Part
  | .field f => .field f
  | .header => .header
  | .byte .. => .bytes

end Crunch

namespace Crunch.V2

/-- The call is about bytes, at a position or at the byte offset. -/
def byteCall : Op2 → Option (Option Int64)
  | .write _ _ p _ | .read _ _ p _ | .writeBytes p _ | .writeByte p _ | .readBytes p _ | .readByte p => some p
  | _ => none

/-- The call is about bits, at a position or at the bit offset. -/
def bitCall : Op2 → Option (Option Int64)
  | .readBit p | .readBits p _ | .setBit p _ | .flipBit p | .setBits p _ _ => some p
  | _ => none

/-- What a call reads without the mutex: the capacity its position is checked against, the offset a Next call starts at, what it is asked for,
and the byte `ReadByte` loads. -/
def unguarded (op : Op2) : Part → Bool
  | .field .cap => (byteCall op).isSome || (op matches .after _ | .capacity)
  | .field .bcap => (bitCall op).isSome || (op matches .afterBit _ | .bitCapacity)
  | .field .off => byteCall op == some none || (op matches .after [] | .offset)
  | .field .boff => bitCall op == some none || (op matches .afterBit [] | .bitOffset)
  | .header => (op matches .bytes)
  | .bytes => (op matches .readByte _)

/-- What a call changes. -/
def alters (op : Op2) : Part → Bool
  | .field .off => byteCall op == some none || (op matches .seek .. | .alignByte | .reset)
  | .field .boff => bitCall op == some none || (op matches .seekBit .. | .alignBit | .reset)
  | .field .cap | .field .bcap => (op matches .grow _ | .refresh | .reset)
  | .header => (op matches .grow _ | .reset)
  | .bytes => (op matches .write .. | .writeBytes .. | .writeByte .. | .setBit .. | .flipBit .. | .setBits .. | .clearAll | .setAll | .flipAll | .grow _)

/-- Neither call changes what the other one reads without the mutex. -/
def Friendly (op op' : Op2) : Prop := ∀ k, ¬ (alters op k = true ∧ unguarded op' k = true) ∧ ¬ (alters op' k = true ∧ unguarded op k = true)

end Crunch.V2

namespace Crunch.V1

/-- The call is about bytes, at a position or at the byte offset. -/
def byteCall1 : Op1 → Option (Option Int64)
  | .writeComplex p _ _ _ | .readComplex p _ _ _ | .writeBytes p _ | .writeByte p _ | .readBytes p _ | .readByte p => some p
  | _ => none

/-- The call is about bits, at a position or at the bit offset. -/
def bitCall1 : Op1 → Option (Option Int64)
  | .readBit p | .readBits p _ | .setBit p _ | .flipBit p | .setBits p _ _ => some p
  | _ => none

/-- What a call reads without the mutex; here also the bytes `ReadComplex` decodes.  `ReadBits` and `SetBits` of nothing check nothing. -/
def unguarded1 (op : Op1) : Part → Bool
  | .field .cap => (byteCall1 op).isSome || (op matches .after _ | .capacity)
  | .field .bcap => match op with
    | .readBits _ n | .setBits _ _ n => decide (0 < n.toInt)
    | _ => (bitCall1 op).isSome || (op matches .afterBit _ | .bitCapacity)
  | .field .off => byteCall1 op == some none || (op matches .after [] | .offset)
  | .field .boff => bitCall1 op == some none || (op matches .afterBit [] | .bitOffset)
  | .header => (op matches .bytes)
  | .bytes => match op with
    | .readByte _ => true
    | .readComplex _ _ w _ => w != Unsigned8
    | _ => false

/-- What a call changes. -/
def alters1 (op : Op1) : Part → Bool
  | .field .off => byteCall1 op == some none || (op matches .seek .. | .alignByte)
  | .field .boff => bitCall1 op == some none || (op matches .seekBit .. | .alignBit)
  | .field .cap | .field .bcap => (op matches .grow _ | .refresh)
  | .header => (op matches .grow _)
  | .bytes => (op matches .writeComplex .. | .writeBytes .. | .writeByte .. | .setBit .. | .flipBit .. | .setBits .. | .clearAll | .setAll | .flipAll | .grow _)

/-- Neither call changes what the other one reads without the mutex. -/
def Friendly1 (op op' : Op1) : Prop := ∀ k, ¬ (alters1 op k = true ∧ unguarded1 op' k = true) ∧ ¬ (alters1 op' k = true ∧ unguarded1 op k = true)

end Crunch.V1
