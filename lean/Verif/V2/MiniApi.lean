import Verif.V2.Api
import Verif.V3.MiniApi

/-!
The public methods of v2 `MiniBuffer` as data: the same calls as for `Buffer` (`Op2`), except that `MiniBuffer` has no
byte-sized accessors, and that a result is stored in a variable the caller passes.
-/

namespace Crunch.V2
open V3 (St Val Outs)
open V3.Mini (callOut)

/-- Perform a call on a `MiniBuffer` and return what the result variable then holds; `none` where `MiniBuffer`
has no such method (there is no `WriteByte`, `ReadByte` or their Next forms in v2/minibuf.go). -/
def miniCall (o : Outs) : Op2 → Option (GoM St Val)
  | .write k e (some p) data => some (V3.wrapVal (fun _ => .unit) (Mini.Write k e p data))
  | .write k e none data => some (V3.wrapVal (fun _ => .unit) (Mini.WriteNext k e data))
  | .read k e (some p) n => some (V3.wrapVal (.typed k.kind) (callOut (Mini.Read k e p n) (o.typed k.kind)))
  | .read k e none n => some (V3.wrapVal (.typed k.kind) (callOut (Mini.ReadNext k e n) (o.typed k.kind)))
  | .writeBytes (some p) src => some (V3.wrapVal (fun _ => .unit) (Mini.WriteBytes p src))
  | .writeBytes none src => some (V3.wrapVal (fun _ => .unit) (Mini.WriteBytesNext src))
  | .writeByte _ _ => none
  | .readBytes (some p) n => some (V3.wrapVal .slice (callOut (Mini.ReadBytes p n) o.slice))
  | .readBytes none n => some (V3.wrapVal .slice (callOut (Mini.ReadBytesNext n) o.slice))
  | .readByte _ => none
  | .readBit (some p) => some (V3.wrapVal .u8 (callOut (Mini.ReadBit p) o.u8))
  | .readBit none => some (V3.wrapVal .u8 (callOut Mini.ReadBitNext o.u8))
  | .readBits (some p) n => some (V3.wrapVal .u64 (callOut (Mini.ReadBits p n) o.u64))
  | .readBits none n => some (V3.wrapVal .u64 (callOut (Mini.ReadBitsNext n) o.u64))
  | .setBit (some p) d => some (V3.wrapVal (fun _ => .unit) (Mini.SetBit p d))
  | .setBit none d => some (V3.wrapVal (fun _ => .unit) (Mini.SetBitNext d))
  | .flipBit (some p) => some (V3.wrapVal (fun _ => .unit) (Mini.FlipBit p))
  | .flipBit none => some (V3.wrapVal (fun _ => .unit) Mini.FlipBitNext)
  | .setBits (some p) d n => some (V3.wrapVal (fun _ => .unit) (Mini.SetBits p d n))
  | .setBits none d n => some (V3.wrapVal (fun _ => .unit) (Mini.SetBitsNext d n))
  | .clearAll => some (V3.wrapVal (fun _ => .unit) Mini.ClearAllBits)
  | .setAll => some (V3.wrapVal (fun _ => .unit) Mini.SetAllBits)
  | .flipAll => some (V3.wrapVal (fun _ => .unit) Mini.FlipAllBits)
  | .seek p r => some (V3.wrapVal (fun _ => .unit) (Mini.Seek p r))
  | .seekBit p r => some (V3.wrapVal (fun _ => .unit) (Mini.SeekBit p r))
  | .after p => some (V3.wrapVal .i64 (callOut (Mini.After p) o.i64))
  | .afterBit p => some (V3.wrapVal .i64 (callOut (Mini.AfterBit p) o.i64))
  | .alignByte => some (V3.wrapVal (fun _ => .unit) Mini.AlignByte)
  | .alignBit => some (V3.wrapVal (fun _ => .unit) Mini.AlignBit)
  | .grow n => some (V3.wrapVal (fun _ => .unit) (Mini.Grow n))
  | .refresh => some (V3.wrapVal (fun _ => .unit) Mini.Refresh)
  | .reset => some (V3.wrapVal (fun _ => .unit) Mini.Reset)
  | .bytes => some (V3.wrapVal .slice (callOut Mini.Bytes o.slice))
  | .capacity => some (V3.wrapVal .i64 (callOut Mini.Capacity o.i64))
  | .bitCapacity => some (V3.wrapVal .i64 (callOut Mini.BitCapacity o.i64))
  | .offset => some (V3.wrapVal .i64 (callOut Mini.Offset o.i64))
  | .bitOffset => some (V3.wrapVal .i64 (callOut Mini.BitOffset o.i64))

/-- A history of calls, each with its result variables; calls `MiniBuffer` does not have are left out. -/
def miniAll : List (Outs × Op2) → St → List (Res Val) × St
  | [], s => ([], s)
  | (o, op) :: ops, s =>
    match miniCall o op with
    | none => miniAll ops s
    | some m => ((m s).1 :: (miniAll ops (m s).2).1, (miniAll ops (m s).2).2)

end Crunch.V2
