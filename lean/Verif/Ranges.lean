import Verif.V1.Api

/-! The ranges of bytes and bits that the arguments of a call name: which calls cannot be taken by surprise by the arithmetic on
them, and which stay inside a content of a given size.  Nothing here looks at the code of the methods. -/

namespace Crunch.V2

/-- `n` elements of size `w` from `o` on do not take the range past the largest integer. -/
def Fits (o : Int64) (n w : Nat) : Prop := 0 ≤ o.toInt → o.toInt + n * w < 2 ^ 63

/-- They take a range inside the first `L` bytes. -/
def Inside (L : Nat) (o : Int64) (n w : Nat) : Prop := 0 ≤ o.toInt ∧ o.toInt + n * w ≤ L

/-- The `n` bits from `o` on are inside the first `L` bytes. -/
def BitsInside (L : Nat) (o n : Int64) : Prop := 0 < n.toInt ∧ 0 ≤ o.toInt ∧ o.toInt + n.toInt ≤ 8 * L

/-- Calls that do not take the loops and the arithmetic of the checks by surprise: something to write, a number of elements
that is positive, and a range that does not go past the largest integer.  `L` is a lower bound on the size of the content.
Left out are the `Next` methods for bytes, whose offset others can move, `Grow` and `Reset`. -/
def Decent (L : Nat) : Op2 → Prop
  | .write k _ (some o) d => d ≠ [] ∧ Fits o d.length k.kind.size
  | .read k _ (some o) n => 0 < n.toInt ∧ Fits o n.toInt.toNat k.kind.size
  | .writeBytes (some o) s => 0 < s.len ∧ Fits o s.len 1
  | .writeByte (some o) _ => Fits o 1 1
  | .readBytes (some o) n => 0 ≤ n.toInt ∧ Fits o n.toInt.toNat 1
  | .readByte (some o) => Fits o 1 1
  | .readBit _ => True
  | .readBits _ _ => True
  | .setBit _ _ => True
  | .flipBit _ => True
  | .setBits _ _ _ => True
  | .clearAll => 0 < L
  | .setAll => 0 < L
  | .flipAll => 0 < L
  | .seek _ _ => True
  | .seekBit _ _ => True
  | .after _ => True
  | .afterBit _ => True
  | .alignByte => True
  | .alignBit => True
  | .refresh => True
  | .bytes => True
  | .capacity => True
  | .bitCapacity => True
  | .offset => True
  | .bitOffset => True
  | _ => False

/-- Calls whose range lies in the first `L` bytes. -/
def InRange (L : Nat) : Op2 → Prop
  | .write k _ (some o) d => d ≠ [] ∧ Inside L o d.length k.kind.size
  | .read k _ (some o) n => 0 < n.toInt ∧ Inside L o n.toInt.toNat k.kind.size
  | .writeBytes (some o) s => 0 < s.len ∧ Inside L o s.len 1
  | .writeByte (some o) _ => Inside L o 1 1
  | .readBytes (some o) n => 0 ≤ n.toInt ∧ Inside L o n.toInt.toNat 1
  | .readByte (some o) => Inside L o 1 1
  | .readBit (some o) => 0 ≤ o.toInt ∧ o.toInt < 8 * L
  | .readBits (some o) n => BitsInside L o n
  | .setBit (some o) v => 0 ≤ o.toInt ∧ o.toInt < 8 * L ∧ (v = 0 ∨ v = 1)
  | .flipBit (some o) => 0 ≤ o.toInt ∧ o.toInt < 8 * L
  | .setBits (some o) _ n => BitsInside L o n
  | .readBit none => False
  | .readBits none _ => False
  | .setBit none _ => False
  | .flipBit none => False
  | .setBits none _ _ => False
  | op => Decent L op

end Crunch.V2

namespace Crunch.V1

/-- The number and size of the elements `WriteComplex` is given, if the argument is a slice of the type the size asks for. -/
def elems : Any → Int64 → ByteOrder → Option (Nat × Nat)
  | .bytes s, w, _ => if w = Unsigned8 then some (s.len, 1) else none
  | .u16 l, w, some _ => if w = Unsigned16 then some (l.length, 2) else none
  | .u32 l, w, some _ => if w = Unsigned32 then some (l.length, 4) else none
  | .u64 l, w, some _ => if w = Unsigned64 then some (l.length, 8) else none
  | _, _, _ => none

/-- The size of the elements `ReadComplex` is asked for, if it is one of the four and there is a byte order to decode them with. -/
def elemSize (w : Int64) (e : ByteOrder) : Option Nat :=
  if w = Unsigned8 then some 1
  else if w = Unsigned16 ∧ e.isSome then some 2
  else if w = Unsigned32 ∧ e.isSome then some 4
  else if w = Unsigned64 ∧ e.isSome then some 8
  else none

/-- As `V2.Decent`.  `WriteComplex` needs an argument of the right type, `ReadComplex` is decent for single bytes only: of larger
elements it checks too small a range. -/
def Decent (L : Nat) : Op1 → Prop
  | .writeComplex (some o) d w e => ∃ n z, elems d w e = some (n, z) ∧ 0 < n ∧ n * z ≤ maxAlloc ∧ V2.Fits o n z
  | .writeComplex none _ _ _ => False
  | .readComplex (some o) n w _ => w = Unsigned8 ∧ 0 ≤ n.toInt ∧ V2.Fits o n.toInt.toNat 1
  | .readComplex none _ _ _ => False
  | .clearAll => True
  | .setAll => True
  | .flipAll => True
  | op => ∃ op2, toV2 op = some op2 ∧ V2.Decent L op2

/-- Calls whose range lies in the first `L` bytes. -/
def InRange (L : Nat) : Op1 → Prop
  | .writeComplex (some o) d w e => ∃ n z, elems d w e = some (n, z) ∧ 0 < n ∧ V2.Inside L o n z
  | .writeComplex none _ _ _ => False
  | .readComplex (some o) n w e => ∃ z, elemSize w e = some z ∧ 0 ≤ n.toInt ∧ V2.Inside L o n.toInt.toNat z
  | .readComplex none _ _ _ => False
  | .clearAll => True
  | .setAll => True
  | .flipAll => True
  | .readBits (some o) n => n.toInt ≤ 0 ∨ V2.BitsInside L o n
  | .setBits (some o) _ n => n.toInt ≤ 0 ∨ V2.BitsInside L o n
  | op => ∃ op2, toV2 op = some op2 ∧ V2.InRange L op2

end Crunch.V1
