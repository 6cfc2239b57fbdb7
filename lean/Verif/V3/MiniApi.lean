import Verif.V3.Api

/-!
The public methods of v3 `MiniBuffer` as data: the same calls as for `Buffer` (`Op`), except that
`MiniBuffer` has no byte-sized accessors, and that a result is stored in a variable the caller passes.
-/

namespace Crunch.V3
open Spec Mini

/-- What the caller's result variables hold before a call. -/
structure Outs where
  u8 : UInt8
  u64 : UInt64
  i64 : Int64
  slice : Slice
  typed : (k : Kind) → List k.Ty

/-- Perform a call on a `MiniBuffer` and return what the result variable then holds; `none` where `MiniBuffer`
has no such method (there is no `WriteByte`, `ReadByte` or their Next forms in v3/minibuf.generated.go). -/
def miniCall (o : Outs) : Op → Option (GoM St Val)
  | .write k e (some p) data => some (wrapVal (fun _ => .unit) (Mini.Write k e p data))
  | .write k e none data => some (wrapVal (fun _ => .unit) (Mini.WriteNext k e data))
  | .read k e (some p) n => some (wrapVal (.typed k) (callOut (Mini.Read k e p n) (o.typed k)))
  | .read k e none n => some (wrapVal (.typed k) (callOut (Mini.ReadNext k e n) (o.typed k)))
  | .writeBytes (some p) src => some (wrapVal (fun _ => .unit) (Mini.WriteBytes p src))
  | .writeBytes none src => some (wrapVal (fun _ => .unit) (Mini.WriteBytesNext src))
  | .writeByte _ _ => none
  | .readBytes (some p) n => some (wrapVal .slice (callOut (Mini.ReadBytes p n) o.slice))
  | .readBytes none n => some (wrapVal .slice (callOut (Mini.ReadBytesNext n) o.slice))
  | .readByte _ => none
  | .readBit (some p) => some (wrapVal .u8 (callOut (Mini.ReadBit p) o.u8))
  | .readBit none => some (wrapVal .u8 (callOut Mini.ReadBitNext o.u8))
  | .readBits (some p) n => some (wrapVal .u64 (callOut (Mini.ReadBits p n) o.u64))
  | .readBits none n => some (wrapVal .u64 (callOut (Mini.ReadBitsNext n) o.u64))
  | .setBit (some p) => some (wrapVal (fun _ => .unit) (Mini.SetBit p))
  | .setBit none => some (wrapVal (fun _ => .unit) Mini.SetBitNext)
  | .clearBit (some p) => some (wrapVal (fun _ => .unit) (Mini.ClearBit p))
  | .clearBit none => some (wrapVal (fun _ => .unit) Mini.ClearBitNext)
  | .flipBit (some p) => some (wrapVal (fun _ => .unit) (Mini.FlipBit p))
  | .flipBit none => some (wrapVal (fun _ => .unit) Mini.FlipBitNext)
  | .setBits (some p) d n => some (wrapVal (fun _ => .unit) (Mini.SetBits p d n))
  | .setBits none d n => some (wrapVal (fun _ => .unit) (Mini.SetBitsNext d n))
  | .clearAll => some (wrapVal (fun _ => .unit) Mini.ClearAllBits)
  | .setAll => some (wrapVal (fun _ => .unit) Mini.SetAllBits)
  | .flipAll => some (wrapVal (fun _ => .unit) Mini.FlipAllBits)
  | .seekByte p r => some (wrapVal (fun _ => .unit) (Mini.SeekByte p r))
  | .seekBit p r => some (wrapVal (fun _ => .unit) (Mini.SeekBit p r))
  | .afterByte p => some (wrapVal .i64 (callOut (Mini.AfterByte p) o.i64))
  | .afterBit p => some (wrapVal .i64 (callOut (Mini.AfterBit p) o.i64))
  | .alignByte => some (wrapVal (fun _ => .unit) Mini.AlignByte)
  | .alignBit => some (wrapVal (fun _ => .unit) Mini.AlignBit)
  | .truncateLeft n => some (wrapVal (fun _ => .unit) (Mini.TruncateLeft n))
  | .truncateRight n => some (wrapVal (fun _ => .unit) (Mini.TruncateRight n))
  | .grow n => some (wrapVal (fun _ => .unit) (Mini.Grow n))
  | .refresh => some (wrapVal (fun _ => .unit) Mini.Refresh)
  | .reset => some (wrapVal (fun _ => .unit) Mini.Reset)
  | .bytes => some (wrapVal .slice (callOut Mini.Bytes o.slice))
  | .byteCapacity => some (wrapVal .i64 (callOut Mini.ByteCapacity o.i64))
  | .bitCapacity => some (wrapVal .i64 (callOut Mini.BitCapacity o.i64))
  | .byteOffset => some (wrapVal .i64 (callOut Mini.ByteOffset o.i64))
  | .bitOffset => some (wrapVal .i64 (callOut Mini.BitOffset o.i64))

/-- A history of calls, each with its result variables; calls `MiniBuffer` does not have are left out. -/
def miniAll : List (Outs × Op) → St → List (Res Val) × St
  | [], s => ([], s)
  | (o, op) :: ops, s =>
    match miniCall o op with
    | none => miniAll ops s
    | some m => ((m s).1 :: (miniAll ops (m s).2).1, (miniAll ops (m s).2).2)

end Crunch.V3
