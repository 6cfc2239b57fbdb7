import Verif.V2.Api
import Verif.V1.Api
import Verif.Lemmas.Heap

/-!
# The bits a call is about

Positions are those of the bit methods: bit 0 is the most significant bit of the first byte.
-/

namespace Crunch.V2
open V3 (St Val)

/-- The bits a positioned call is about: the first one and the one behind the last.  `none`: not considered here (no position, no
bytes at all, or a result that is not a copy). -/
def span : Op2 → Option (Int × Int)
  | .write k _ (some o) d => if d = [] then none else some (8 * o.toInt, 8 * (o.toInt + d.length * k.kind.size))
  | .read k _ (some o) n => if n.toInt < 1 then none else some (8 * o.toInt, 8 * (o.toInt + n.toInt * k.kind.size))
  | .writeBytes (some o) src => if src.len = 0 then none else some (8 * o.toInt, 8 * (o.toInt + src.len))
  | .writeByte (some o) _ => some (8 * o.toInt, 8 * (o.toInt + 1))
  | .readBit (some o) => some (o.toInt, o.toInt + 1)
  | .setBit (some o) _ => some (o.toInt, o.toInt + 1)
  | .flipBit (some o) => some (o.toInt, o.toInt + 1)
  | .readBits (some o) n => some (o.toInt, o.toInt + max 1 n.toInt)
  | .setBits (some o) _ n => some (o.toInt, o.toInt + max 1 n.toInt)
  | _ => none

/-- The call may change the bits of its span. -/
def changes : Op2 → Bool
  | .write .. | .writeBytes .. | .writeByte .. | .setBit .. | .flipBit .. | .setBits .. => true
  | _ => false

/-- Bit `x` is in the span of `op`. -/
def Touches (op : Op2) (x : Nat) : Prop := ∃ lo hi, span op = some (lo, hi) ∧ lo ≤ x ∧ x < hi

/-- `op` has a span inside the buffer; what `WriteBytes` copies lies outside of it. -/
structure Within (s : St) (op : Op2) : Prop where
  span : ∃ lo hi, span op = some (lo, hi) ∧ 0 ≤ lo ∧ hi ≤ 8 * s.b.buf.len
  source : ∀ p src, op = .writeBytes p src → SliceOK s.mem src ∧
    (src.arr ≠ s.b.buf.arr ∨ src.off + src.len ≤ s.b.buf.off ∨ s.b.buf.off + s.b.buf.len ≤ src.off)

end Crunch.V2

namespace Crunch.V1
open V3 (St Val)

/-- The number of bytes `WriteComplex` writes; 0 if it writes nothing, or the argument, the size and the byte order do not match. -/
def complexSize : Any → Int64 → ByteOrder → Nat
  | .bytes src, w, _ => if w = Unsigned8 then src.len else 0
  | .u16 l, w, some _ => if w = Unsigned16 then 2 * l.length else 0
  | .u32 l, w, some _ => if w = Unsigned32 then 4 * l.length else 0
  | .u64 l, w, some _ => if w = Unsigned64 then 8 * l.length else 0
  | _, _, _ => 0

/-- The bits a positioned v1 call is about, as `V2.span`.  `ReadBits` and `SetBits` of no bits are about none. -/
def span1 : Op1 → Option (Int × Int)
  | .writeComplex (some o) d w e => if complexSize d w e = 0 then none else some (8 * o.toInt, 8 * (o.toInt + complexSize d w e))
  | .writeBytes (some o) src => if src.len = 0 then none else some (8 * o.toInt, 8 * (o.toInt + src.len))
  | .writeByte (some o) _ => some (8 * o.toInt, 8 * (o.toInt + 1))
  | .readBit (some o) => some (o.toInt, o.toInt + 1)
  | .setBit (some o) _ => some (o.toInt, o.toInt + 1)
  | .flipBit (some o) => some (o.toInt, o.toInt + 1)
  | .readBits (some o) n => some (o.toInt, o.toInt + max 0 n.toInt)
  | .setBits (some o) _ n => some (o.toInt, o.toInt + max 0 n.toInt)
  | _ => none

/-- The call may change the bits of its span. -/
def changes1 : Op1 → Bool
  | .writeComplex .. | .writeBytes .. | .writeByte .. | .setBit .. | .flipBit .. | .setBits .. => true
  | _ => false

/-- Bit `x` is in the span of `op`. -/
def Touches1 (op : Op1) (x : Nat) : Prop := ∃ lo hi, span1 op = some (lo, hi) ∧ lo ≤ x ∧ x < hi

/-- The bytes a call copies from. -/
def source1 : Op1 → Option Slice
  | .writeBytes _ src => some src
  | .writeComplex _ (.bytes src) _ _ => some src
  | _ => none

/-- `op` has a span inside the buffer; what it copies from lies outside of it. -/
structure Within1 (s : St) (op : Op1) : Prop where
  span : ∃ lo hi, span1 op = some (lo, hi) ∧ 0 ≤ lo ∧ hi ≤ 8 * s.b.buf.len
  source : ∀ src, source1 op = some src → SliceOK s.mem src ∧
    (src.arr ≠ s.b.buf.arr ∨ src.off + src.len ≤ s.b.buf.off ∨ s.b.buf.off + s.b.buf.len ≤ src.off)

end Crunch.V1
