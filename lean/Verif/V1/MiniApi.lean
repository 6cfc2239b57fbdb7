import Verif.V1.Api
import Verif.V2.MiniApi

/-!
The public methods of v1 `MiniBuffer` as data: the same calls as for `Buffer` (`Op1`), except that `MiniBuffer` has no
byte-sized accessors, and that a result is stored in a variable the caller passes.
-/

namespace Crunch.V1
open V3 (St Val Outs)
open V3.Mini (callOut)

/-- Wrap a result. -/
def wrapG (f : α → Val1) (m : GoM St α) : GoM St Val1 := do
  let a ← m
  return f a

/-- Perform a call on a `MiniBuffer` and return what the result variable then holds; `any` is the variable of `ReadComplex`.
`none` where `MiniBuffer` has no such method (there is no `WriteByte`, `ReadByte` or their Next forms in
v1/minibuf.go). -/
def miniCall1 (o : Outs) (any : Any) : Op1 → Option (GoM St Val1)
  | .writeComplex (some p) d w e => some (wrapG (fun _ => .val .unit) (Mini.WriteComplex p d w e))
  | .writeComplex none d w e => some (wrapG (fun _ => .val .unit) (Mini.WriteComplexNext d w e))
  | .readComplex (some p) n w e => some (wrapG .any (callOut (Mini.ReadComplex p n w e) any))
  | .readComplex none n w e => some (wrapG .any (callOut (Mini.ReadComplexNext n w e) any))
  | .writeBytes (some p) src => some (wrapG (fun _ => .val .unit) (Mini.WriteBytes p src))
  | .writeBytes none src => some (wrapG (fun _ => .val .unit) (Mini.WriteBytesNext src))
  | .writeByte _ _ => none
  | .readBytes (some p) n => some (wrapG (fun a => .val (.slice a)) (callOut (Mini.ReadBytes p n) o.slice))
  | .readBytes none n => some (wrapG (fun a => .val (.slice a)) (callOut (Mini.ReadBytesNext n) o.slice))
  | .readByte _ => none
  | .readBit (some p) => some (wrapG (fun a => .val (.u8 a)) (callOut (Mini.ReadBit p) o.u8))
  | .readBit none => some (wrapG (fun a => .val (.u8 a)) (callOut Mini.ReadBitNext o.u8))
  | .readBits (some p) n => some (wrapG (fun a => .val (.u64 a)) (callOut (Mini.ReadBits p n) o.u64))
  | .readBits none n => some (wrapG (fun a => .val (.u64 a)) (callOut (Mini.ReadBitsNext n) o.u64))
  | .setBit (some p) d => some (wrapG (fun _ => .val .unit) (Mini.SetBit p d))
  | .setBit none d => some (wrapG (fun _ => .val .unit) (Mini.SetBitNext d))
  | .flipBit (some p) => some (wrapG (fun _ => .val .unit) (Mini.FlipBit p))
  | .flipBit none => some (wrapG (fun _ => .val .unit) Mini.FlipBitNext)
  | .setBits (some p) d n => some (wrapG (fun _ => .val .unit) (Mini.SetBits p d n))
  | .setBits none d n => some (wrapG (fun _ => .val .unit) (Mini.SetBitsNext d n))
  | .clearAll => some (wrapG (fun _ => .val .unit) Mini.ClearAllBits)
  | .setAll => some (wrapG (fun _ => .val .unit) Mini.SetAllBits)
  | .flipAll => some (wrapG (fun _ => .val .unit) Mini.FlipAllBits)
  | .seek p r => some (wrapG (fun _ => .val .unit) (Mini.Seek p r))
  | .seekBit p r => some (wrapG (fun _ => .val .unit) (Mini.SeekBit p r))
  | .after p => some (wrapG (fun a => .val (.i64 a)) (callOut (Mini.After p) o.i64))
  | .afterBit p => some (wrapG (fun a => .val (.i64 a)) (callOut (Mini.AfterBit p) o.i64))
  | .alignByte => some (wrapG (fun _ => .val .unit) Mini.AlignByte)
  | .alignBit => some (wrapG (fun _ => .val .unit) Mini.AlignBit)
  | .grow n => some (wrapG (fun _ => .val .unit) (Mini.Grow n))
  | .refresh => some (wrapG (fun _ => .val .unit) Mini.Refresh)
  | .bytes => some (wrapG (fun a => .val (.slice a)) (callOut Mini.Bytes o.slice))
  | .capacity => some (wrapG (fun a => .val (.i64 a)) (callOut Mini.Capacity o.i64))
  | .bitCapacity => some (wrapG (fun a => .val (.i64 a)) (callOut Mini.BitCapacity o.i64))
  | .offset => some (wrapG (fun a => .val (.i64 a)) (callOut Mini.Offset o.i64))
  | .bitOffset => some (wrapG (fun a => .val (.i64 a)) (callOut Mini.BitOffset o.i64))

end Crunch.V1
