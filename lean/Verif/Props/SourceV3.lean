import Verif.Src.Wrap
import Verif.Src.V3BufferTyped1
import Verif.Src.V3BufferTyped2
import Verif.Src.V3BufferTyped3
import Verif.Src.V3MiniTyped1
import Verif.Src.V3MiniTyped2
import Verif.Src.V3MiniTyped3
import Verif.Src.Link.V3Buffer
import Verif.Src.Link.V3Mini
import Verif.Gen.Files
import Verif.Props.History
import Verif.Props.Mini

/-!
# The model of v3 is the text of v3 (C81 – C83)

The text of v3/buffer.generated.go and v3/minibuf.generated.go is parsed (`compileAll`) and run by the interpreter of
Verif/Src/Sem.lean.  For every public method and all arguments and states, that gives what the model of Verif/V3 gives.
-/

namespace Crunch.Src
open V3.Mini (onB callOut)

/-- All methods of v3 `Buffer`. -/
theorem bufferCalls (fuel d : Nat) (hf : 2 ^ 64 < fuel) : (op : V3.Op) → Fits op →
    (V3Buffer.P.call fuel (d + 3) (goName op) (goArgs op) : GoM (V3.St × V) V) = onB (V3.exec op) >>= fun x => pure (goVal x)
  | .write .u16 .le (some o) data, _ => by kexact (V3Buffer.WriteU16LE fuel (d + 2) hf o data).trans (wrap_eq (fun _ => .unit) (fun _ => .unit) (fun _ => rfl) _)
  | .read .u16 .le (some o) n, _ => by kexact (V3Buffer.ReadU16LE fuel (d + 2) hf o n).trans (wrap_eq (.typed .u16) (goList .u16) (fun _ => rfl) _)
  | .write .u16 .le none data, _ => by kexact (V3Buffer.WriteU16LENext fuel (d + 1) hf data).trans (wrap_eq (fun _ => .unit) (fun _ => .unit) (fun _ => rfl) _)
  | .read .u16 .le none n, _ => by kexact (V3Buffer.ReadU16LENext fuel (d + 1) hf n).trans (wrap_eq (.typed .u16) (goList .u16) (fun _ => rfl) _)
  | .write .u16 .be (some o) data, _ => by kexact (V3Buffer.WriteU16BE fuel (d + 2) hf o data).trans (wrap_eq (fun _ => .unit) (fun _ => .unit) (fun _ => rfl) _)
  | .read .u16 .be (some o) n, _ => by kexact (V3Buffer.ReadU16BE fuel (d + 2) hf o n).trans (wrap_eq (.typed .u16) (goList .u16) (fun _ => rfl) _)
  | .write .u16 .be none data, _ => by kexact (V3Buffer.WriteU16BENext fuel (d + 1) hf data).trans (wrap_eq (fun _ => .unit) (fun _ => .unit) (fun _ => rfl) _)
  | .read .u16 .be none n, _ => by kexact (V3Buffer.ReadU16BENext fuel (d + 1) hf n).trans (wrap_eq (.typed .u16) (goList .u16) (fun _ => rfl) _)
  | .write .u32 .le (some o) data, _ => by kexact (V3Buffer.WriteU32LE fuel (d + 2) hf o data).trans (wrap_eq (fun _ => .unit) (fun _ => .unit) (fun _ => rfl) _)
  | .read .u32 .le (some o) n, _ => by kexact (V3Buffer.ReadU32LE fuel (d + 2) hf o n).trans (wrap_eq (.typed .u32) (goList .u32) (fun _ => rfl) _)
  | .write .u32 .le none data, _ => by kexact (V3Buffer.WriteU32LENext fuel (d + 1) hf data).trans (wrap_eq (fun _ => .unit) (fun _ => .unit) (fun _ => rfl) _)
  | .read .u32 .le none n, _ => by kexact (V3Buffer.ReadU32LENext fuel (d + 1) hf n).trans (wrap_eq (.typed .u32) (goList .u32) (fun _ => rfl) _)
  | .write .u32 .be (some o) data, _ => by kexact (V3Buffer.WriteU32BE fuel (d + 2) hf o data).trans (wrap_eq (fun _ => .unit) (fun _ => .unit) (fun _ => rfl) _)
  | .read .u32 .be (some o) n, _ => by kexact (V3Buffer.ReadU32BE fuel (d + 2) hf o n).trans (wrap_eq (.typed .u32) (goList .u32) (fun _ => rfl) _)
  | .write .u32 .be none data, _ => by kexact (V3Buffer.WriteU32BENext fuel (d + 1) hf data).trans (wrap_eq (fun _ => .unit) (fun _ => .unit) (fun _ => rfl) _)
  | .read .u32 .be none n, _ => by kexact (V3Buffer.ReadU32BENext fuel (d + 1) hf n).trans (wrap_eq (.typed .u32) (goList .u32) (fun _ => rfl) _)
  | .write .u64 .le (some o) data, _ => by kexact (V3Buffer.WriteU64LE fuel (d + 2) hf o data).trans (wrap_eq (fun _ => .unit) (fun _ => .unit) (fun _ => rfl) _)
  | .read .u64 .le (some o) n, _ => by kexact (V3Buffer.ReadU64LE fuel (d + 2) hf o n).trans (wrap_eq (.typed .u64) (goList .u64) (fun _ => rfl) _)
  | .write .u64 .le none data, _ => by kexact (V3Buffer.WriteU64LENext fuel (d + 1) hf data).trans (wrap_eq (fun _ => .unit) (fun _ => .unit) (fun _ => rfl) _)
  | .read .u64 .le none n, _ => by kexact (V3Buffer.ReadU64LENext fuel (d + 1) hf n).trans (wrap_eq (.typed .u64) (goList .u64) (fun _ => rfl) _)
  | .write .u64 .be (some o) data, _ => by kexact (V3Buffer.WriteU64BE fuel (d + 2) hf o data).trans (wrap_eq (fun _ => .unit) (fun _ => .unit) (fun _ => rfl) _)
  | .read .u64 .be (some o) n, _ => by kexact (V3Buffer.ReadU64BE fuel (d + 2) hf o n).trans (wrap_eq (.typed .u64) (goList .u64) (fun _ => rfl) _)
  | .write .u64 .be none data, _ => by kexact (V3Buffer.WriteU64BENext fuel (d + 1) hf data).trans (wrap_eq (fun _ => .unit) (fun _ => .unit) (fun _ => rfl) _)
  | .read .u64 .be none n, _ => by kexact (V3Buffer.ReadU64BENext fuel (d + 1) hf n).trans (wrap_eq (.typed .u64) (goList .u64) (fun _ => rfl) _)
  | .write .i16 .le (some o) data, _ => by kexact (V3Buffer.WriteI16LE fuel (d + 2) hf o data).trans (wrap_eq (fun _ => .unit) (fun _ => .unit) (fun _ => rfl) _)
  | .read .i16 .le (some o) n, _ => by kexact (V3Buffer.ReadI16LE fuel (d + 2) hf o n).trans (wrap_eq (.typed .i16) (goList .i16) (fun _ => rfl) _)
  | .write .i16 .le none data, _ => by kexact (V3Buffer.WriteI16LENext fuel (d + 1) hf data).trans (wrap_eq (fun _ => .unit) (fun _ => .unit) (fun _ => rfl) _)
  | .read .i16 .le none n, _ => by kexact (V3Buffer.ReadI16LENext fuel (d + 1) hf n).trans (wrap_eq (.typed .i16) (goList .i16) (fun _ => rfl) _)
  | .write .i16 .be (some o) data, _ => by kexact (V3Buffer.WriteI16BE fuel (d + 2) hf o data).trans (wrap_eq (fun _ => .unit) (fun _ => .unit) (fun _ => rfl) _)
  | .read .i16 .be (some o) n, _ => by kexact (V3Buffer.ReadI16BE fuel (d + 2) hf o n).trans (wrap_eq (.typed .i16) (goList .i16) (fun _ => rfl) _)
  | .write .i16 .be none data, _ => by kexact (V3Buffer.WriteI16BENext fuel (d + 1) hf data).trans (wrap_eq (fun _ => .unit) (fun _ => .unit) (fun _ => rfl) _)
  | .read .i16 .be none n, _ => by kexact (V3Buffer.ReadI16BENext fuel (d + 1) hf n).trans (wrap_eq (.typed .i16) (goList .i16) (fun _ => rfl) _)
  | .write .i32 .le (some o) data, _ => by kexact (V3Buffer.WriteI32LE fuel (d + 2) hf o data).trans (wrap_eq (fun _ => .unit) (fun _ => .unit) (fun _ => rfl) _)
  | .read .i32 .le (some o) n, _ => by kexact (V3Buffer.ReadI32LE fuel (d + 2) hf o n).trans (wrap_eq (.typed .i32) (goList .i32) (fun _ => rfl) _)
  | .write .i32 .le none data, _ => by kexact (V3Buffer.WriteI32LENext fuel (d + 1) hf data).trans (wrap_eq (fun _ => .unit) (fun _ => .unit) (fun _ => rfl) _)
  | .read .i32 .le none n, _ => by kexact (V3Buffer.ReadI32LENext fuel (d + 1) hf n).trans (wrap_eq (.typed .i32) (goList .i32) (fun _ => rfl) _)
  | .write .i32 .be (some o) data, _ => by kexact (V3Buffer.WriteI32BE fuel (d + 2) hf o data).trans (wrap_eq (fun _ => .unit) (fun _ => .unit) (fun _ => rfl) _)
  | .read .i32 .be (some o) n, _ => by kexact (V3Buffer.ReadI32BE fuel (d + 2) hf o n).trans (wrap_eq (.typed .i32) (goList .i32) (fun _ => rfl) _)
  | .write .i32 .be none data, _ => by kexact (V3Buffer.WriteI32BENext fuel (d + 1) hf data).trans (wrap_eq (fun _ => .unit) (fun _ => .unit) (fun _ => rfl) _)
  | .read .i32 .be none n, _ => by kexact (V3Buffer.ReadI32BENext fuel (d + 1) hf n).trans (wrap_eq (.typed .i32) (goList .i32) (fun _ => rfl) _)
  | .write .i64 .le (some o) data, _ => by kexact (V3Buffer.WriteI64LE fuel (d + 2) hf o data).trans (wrap_eq (fun _ => .unit) (fun _ => .unit) (fun _ => rfl) _)
  | .read .i64 .le (some o) n, _ => by kexact (V3Buffer.ReadI64LE fuel (d + 2) hf o n).trans (wrap_eq (.typed .i64) (goList .i64) (fun _ => rfl) _)
  | .write .i64 .le none data, _ => by kexact (V3Buffer.WriteI64LENext fuel (d + 1) hf data).trans (wrap_eq (fun _ => .unit) (fun _ => .unit) (fun _ => rfl) _)
  | .read .i64 .le none n, _ => by kexact (V3Buffer.ReadI64LENext fuel (d + 1) hf n).trans (wrap_eq (.typed .i64) (goList .i64) (fun _ => rfl) _)
  | .write .i64 .be (some o) data, _ => by kexact (V3Buffer.WriteI64BE fuel (d + 2) hf o data).trans (wrap_eq (fun _ => .unit) (fun _ => .unit) (fun _ => rfl) _)
  | .read .i64 .be (some o) n, _ => by kexact (V3Buffer.ReadI64BE fuel (d + 2) hf o n).trans (wrap_eq (.typed .i64) (goList .i64) (fun _ => rfl) _)
  | .write .i64 .be none data, _ => by kexact (V3Buffer.WriteI64BENext fuel (d + 1) hf data).trans (wrap_eq (fun _ => .unit) (fun _ => .unit) (fun _ => rfl) _)
  | .read .i64 .be none n, _ => by kexact (V3Buffer.ReadI64BENext fuel (d + 1) hf n).trans (wrap_eq (.typed .i64) (goList .i64) (fun _ => rfl) _)
  | .write .f32 .le (some o) data, _ => by kexact (V3Buffer.WriteF32LE fuel (d + 2) hf o data).trans (wrap_eq (fun _ => .unit) (fun _ => .unit) (fun _ => rfl) _)
  | .read .f32 .le (some o) n, _ => by kexact (V3Buffer.ReadF32LE fuel (d + 2) hf o n).trans (wrap_eq (.typed .f32) (goList .f32) (fun _ => rfl) _)
  | .write .f32 .le none data, _ => by kexact (V3Buffer.WriteF32LENext fuel (d + 1) hf data).trans (wrap_eq (fun _ => .unit) (fun _ => .unit) (fun _ => rfl) _)
  | .read .f32 .le none n, _ => by kexact (V3Buffer.ReadF32LENext fuel (d + 1) hf n).trans (wrap_eq (.typed .f32) (goList .f32) (fun _ => rfl) _)
  | .write .f32 .be (some o) data, _ => by kexact (V3Buffer.WriteF32BE fuel (d + 2) hf o data).trans (wrap_eq (fun _ => .unit) (fun _ => .unit) (fun _ => rfl) _)
  | .read .f32 .be (some o) n, _ => by kexact (V3Buffer.ReadF32BE fuel (d + 2) hf o n).trans (wrap_eq (.typed .f32) (goList .f32) (fun _ => rfl) _)
  | .write .f32 .be none data, _ => by kexact (V3Buffer.WriteF32BENext fuel (d + 1) hf data).trans (wrap_eq (fun _ => .unit) (fun _ => .unit) (fun _ => rfl) _)
  | .read .f32 .be none n, _ => by kexact (V3Buffer.ReadF32BENext fuel (d + 1) hf n).trans (wrap_eq (.typed .f32) (goList .f32) (fun _ => rfl) _)
  | .write .f64 .le (some o) data, _ => by kexact (V3Buffer.WriteF64LE fuel (d + 2) hf o data).trans (wrap_eq (fun _ => .unit) (fun _ => .unit) (fun _ => rfl) _)
  | .read .f64 .le (some o) n, _ => by kexact (V3Buffer.ReadF64LE fuel (d + 2) hf o n).trans (wrap_eq (.typed .f64) (goList .f64) (fun _ => rfl) _)
  | .write .f64 .le none data, _ => by kexact (V3Buffer.WriteF64LENext fuel (d + 1) hf data).trans (wrap_eq (fun _ => .unit) (fun _ => .unit) (fun _ => rfl) _)
  | .read .f64 .le none n, _ => by kexact (V3Buffer.ReadF64LENext fuel (d + 1) hf n).trans (wrap_eq (.typed .f64) (goList .f64) (fun _ => rfl) _)
  | .write .f64 .be (some o) data, _ => by kexact (V3Buffer.WriteF64BE fuel (d + 2) hf o data).trans (wrap_eq (fun _ => .unit) (fun _ => .unit) (fun _ => rfl) _)
  | .read .f64 .be (some o) n, _ => by kexact (V3Buffer.ReadF64BE fuel (d + 2) hf o n).trans (wrap_eq (.typed .f64) (goList .f64) (fun _ => rfl) _)
  | .write .f64 .be none data, _ => by kexact (V3Buffer.WriteF64BENext fuel (d + 1) hf data).trans (wrap_eq (fun _ => .unit) (fun _ => .unit) (fun _ => rfl) _)
  | .read .f64 .be none n, _ => by kexact (V3Buffer.ReadF64BENext fuel (d + 1) hf n).trans (wrap_eq (.typed .f64) (goList .f64) (fun _ => rfl) _)
  | .writeBytes (some o) data, _ => by kexact (V3Buffer.WriteBytes fuel (d + 2) o data).trans (wrap_eq (fun _ => .unit) (fun _ => .unit) (fun _ => rfl) _)
  | .writeBytes none data, _ => by kexact (V3Buffer.WriteBytesNext fuel (d + 1) data).trans (wrap_eq (fun _ => .unit) (fun _ => .unit) (fun _ => rfl) _)
  | .writeByte (some o) v, _ => by kexact (V3Buffer.WriteByte fuel (d + 1) o v).trans (wrap_eq (fun _ => .unit) (fun _ => .unit) (fun _ => rfl) _)
  | .writeByte none v, _ => by kexact (V3Buffer.WriteByteNext fuel (d + 1) v).trans (wrap_eq (fun _ => .unit) (fun _ => .unit) (fun _ => rfl) _)
  | .readBytes (some o) n, _ => by kexact (V3Buffer.ReadBytes fuel (d + 2) o n).trans (wrap_eq .slice (fun s => .bytes (.mem s)) (fun _ => rfl) _)
  | .readBytes none n, _ => by kexact (V3Buffer.ReadBytesNext fuel (d + 1) n).trans (wrap_eq .slice (fun s => .bytes (.mem s)) (fun _ => rfl) _)
  | .readByte (some o), _ => by kexact (V3Buffer.ReadByte fuel (d + 1) o).trans (wrap_eq .u8 .u8 (fun _ => rfl) _)
  | .readByte none, _ => by kexact (V3Buffer.ReadByteNext fuel (d + 1)).trans (wrap_eq .u8 .u8 (fun _ => rfl) _)
  | .readBit (some o), _ => by kexact (V3Buffer.ReadBit fuel (d + 2) o).trans (wrap_eq .u8 .u8 (fun _ => rfl) _)
  | .readBit none, _ => by kexact (V3Buffer.ReadBitNext fuel (d + 1)).trans (wrap_eq .u8 .u8 (fun _ => rfl) _)
  | .readBits (some o) n, _ => by kexact (V3Buffer.ReadBits fuel (d + 1) hf o n).trans (wrap_eq .u64 .u64 (fun _ => rfl) _)
  | .readBits none n, _ => by kexact (V3Buffer.ReadBitsNext fuel d hf n).trans (wrap_eq .u64 .u64 (fun _ => rfl) _)
  | .setBit (some o), _ => by kexact (V3Buffer.SetBit fuel (d + 2) o).trans (wrap_eq (fun _ => .unit) (fun _ => .unit) (fun _ => rfl) _)
  | .setBit none, _ => by kexact (V3Buffer.SetBitNext fuel (d + 1)).trans (wrap_eq (fun _ => .unit) (fun _ => .unit) (fun _ => rfl) _)
  | .clearBit (some o), _ => by kexact (V3Buffer.ClearBit fuel (d + 2) o).trans (wrap_eq (fun _ => .unit) (fun _ => .unit) (fun _ => rfl) _)
  | .clearBit none, _ => by kexact (V3Buffer.ClearBitNext fuel (d + 1)).trans (wrap_eq (fun _ => .unit) (fun _ => .unit) (fun _ => rfl) _)
  | .flipBit (some o), _ => by kexact (V3Buffer.FlipBit fuel (d + 2) o).trans (wrap_eq (fun _ => .unit) (fun _ => .unit) (fun _ => rfl) _)
  | .flipBit none, _ => by kexact (V3Buffer.FlipBitNext fuel (d + 1)).trans (wrap_eq (fun _ => .unit) (fun _ => .unit) (fun _ => rfl) _)
  | .setBits (some o) data n, _ => by kexact (V3Buffer.SetBits fuel (d + 1) hf o data n).trans (wrap_eq (fun _ => .unit) (fun _ => .unit) (fun _ => rfl) _)
  | .setBits none data n, _ => by kexact (V3Buffer.SetBitsNext fuel d hf data n).trans (wrap_eq (fun _ => .unit) (fun _ => .unit) (fun _ => rfl) _)
  | .clearAll, _ => by kexact (V3Buffer.ClearAllBits fuel (d + 2) hf).trans (wrap_eq (fun _ => .unit) (fun _ => .unit) (fun _ => rfl) _)
  | .setAll, _ => by kexact (V3Buffer.SetAllBits fuel (d + 2) hf).trans (wrap_eq (fun _ => .unit) (fun _ => .unit) (fun _ => rfl) _)
  | .flipAll, _ => by kexact (V3Buffer.FlipAllBits fuel (d + 2) hf).trans (wrap_eq (fun _ => .unit) (fun _ => .unit) (fun _ => rfl) _)
  | .seekByte o r, _ => by kexact (V3Buffer.SeekByte fuel (d + 2) o r).trans (wrap_eq (fun _ => .unit) (fun _ => .unit) (fun _ => rfl) _)
  | .seekBit o r, _ => by kexact (V3Buffer.SeekBit fuel (d + 2) o r).trans (wrap_eq (fun _ => .unit) (fun _ => .unit) (fun _ => rfl) _)
  | .afterByte l, ha => by kexact (V3Buffer.AfterByte fuel (d + 2) l ha).trans (wrap_eq .i64 .i64 (fun _ => rfl) _)
  | .afterBit l, ha => by kexact (V3Buffer.AfterBit fuel (d + 2) l ha).trans (wrap_eq .i64 .i64 (fun _ => rfl) _)
  | .alignByte, _ => by kexact (V3Buffer.AlignByte fuel (d + 2)).trans (wrap_eq (fun _ => .unit) (fun _ => .unit) (fun _ => rfl) _)
  | .alignBit, _ => by kexact (V3Buffer.AlignBit fuel (d + 2)).trans (wrap_eq (fun _ => .unit) (fun _ => .unit) (fun _ => rfl) _)
  | .refresh, _ => by kexact (V3Buffer.Refresh fuel (d + 2)).trans (wrap_eq (fun _ => .unit) (fun _ => .unit) (fun _ => rfl) _)
  | .reset, _ => by kexact (V3Buffer.Reset fuel (d + 2)).trans (wrap_eq (fun _ => .unit) (fun _ => .unit) (fun _ => rfl) _)
  | .truncateLeft n, _ => by kexact (V3Buffer.TruncateLeft fuel (d + 1) n).trans (wrap_eq (fun _ => .unit) (fun _ => .unit) (fun _ => rfl) _)
  | .truncateRight n, _ => by kexact (V3Buffer.TruncateRight fuel (d + 1) n).trans (wrap_eq (fun _ => .unit) (fun _ => .unit) (fun _ => rfl) _)
  | .grow n, _ => by kexact (V3Buffer.Grow fuel (d + 1) n).trans (wrap_eq (fun _ => .unit) (fun _ => .unit) (fun _ => rfl) _)
  | .bytes, _ => by kexact (V3Buffer.Bytes fuel (d + 2)).trans (wrap_eq .slice (fun s => .bytes (.mem s)) (fun _ => rfl) _)
  | .byteCapacity, _ => by kexact (V3Buffer.ByteCapacity fuel (d + 2)).trans (wrap_eq .i64 .i64 (fun _ => rfl) _)
  | .bitCapacity, _ => by kexact (V3Buffer.BitCapacity fuel (d + 2)).trans (wrap_eq .i64 .i64 (fun _ => rfl) _)
  | .byteOffset, _ => by kexact (V3Buffer.ByteOffset fuel (d + 2)).trans (wrap_eq .i64 .i64 (fun _ => rfl) _)
  | .bitOffset, _ => by kexact (V3Buffer.BitOffset fuel (d + 2)).trans (wrap_eq .i64 .i64 (fun _ => rfl) _)

/-- All methods of v3 `MiniBuffer`. -/
theorem miniCalls (fuel d : Nat) (hf : 2 ^ 64 < fuel) (o' : V3.Outs) : (op : V3.Op) → Fits op →
    match V3.miniCall o' op with
    | none => True
    | some m => V3Mini.P.callMini fuel (d + 3) (goName op) (goArgs op) (goOut o' op) = onB m >>= fun x => pure (goVal x)
  | .write .u16 .le (some o) data, _ => by kexact (V3Mini.WriteU16LE fuel (d + 2) hf o data).trans (wrap_eq (fun _ => .unit) (fun _ => .unit) (fun _ => rfl) _)
  | .read .u16 .le (some o) n, _ => by kexact (withOut_of (goList .u16) (o'.typed .u16) fun k => V3Mini.ReadU16LE fuel (d + 2) hf o n _ k).trans (wrap_eq (.typed .u16) (goList .u16) (fun _ => rfl) _)
  | .write .u16 .le none data, _ => by kexact (V3Mini.WriteU16LENext fuel (d + 1) hf data).trans (wrap_eq (fun _ => .unit) (fun _ => .unit) (fun _ => rfl) _)
  | .read .u16 .le none n, _ => by kexact (withOut_of (goList .u16) (o'.typed .u16) fun k => V3Mini.ReadU16LENext fuel (d + 1) hf n _ k).trans (wrap_eq (.typed .u16) (goList .u16) (fun _ => rfl) _)
  | .write .u16 .be (some o) data, _ => by kexact (V3Mini.WriteU16BE fuel (d + 2) hf o data).trans (wrap_eq (fun _ => .unit) (fun _ => .unit) (fun _ => rfl) _)
  | .read .u16 .be (some o) n, _ => by kexact (withOut_of (goList .u16) (o'.typed .u16) fun k => V3Mini.ReadU16BE fuel (d + 2) hf o n _ k).trans (wrap_eq (.typed .u16) (goList .u16) (fun _ => rfl) _)
  | .write .u16 .be none data, _ => by kexact (V3Mini.WriteU16BENext fuel (d + 1) hf data).trans (wrap_eq (fun _ => .unit) (fun _ => .unit) (fun _ => rfl) _)
  | .read .u16 .be none n, _ => by kexact (withOut_of (goList .u16) (o'.typed .u16) fun k => V3Mini.ReadU16BENext fuel (d + 1) hf n _ k).trans (wrap_eq (.typed .u16) (goList .u16) (fun _ => rfl) _)
  | .write .u32 .le (some o) data, _ => by kexact (V3Mini.WriteU32LE fuel (d + 2) hf o data).trans (wrap_eq (fun _ => .unit) (fun _ => .unit) (fun _ => rfl) _)
  | .read .u32 .le (some o) n, _ => by kexact (withOut_of (goList .u32) (o'.typed .u32) fun k => V3Mini.ReadU32LE fuel (d + 2) hf o n _ k).trans (wrap_eq (.typed .u32) (goList .u32) (fun _ => rfl) _)
  | .write .u32 .le none data, _ => by kexact (V3Mini.WriteU32LENext fuel (d + 1) hf data).trans (wrap_eq (fun _ => .unit) (fun _ => .unit) (fun _ => rfl) _)
  | .read .u32 .le none n, _ => by kexact (withOut_of (goList .u32) (o'.typed .u32) fun k => V3Mini.ReadU32LENext fuel (d + 1) hf n _ k).trans (wrap_eq (.typed .u32) (goList .u32) (fun _ => rfl) _)
  | .write .u32 .be (some o) data, _ => by kexact (V3Mini.WriteU32BE fuel (d + 2) hf o data).trans (wrap_eq (fun _ => .unit) (fun _ => .unit) (fun _ => rfl) _)
  | .read .u32 .be (some o) n, _ => by kexact (withOut_of (goList .u32) (o'.typed .u32) fun k => V3Mini.ReadU32BE fuel (d + 2) hf o n _ k).trans (wrap_eq (.typed .u32) (goList .u32) (fun _ => rfl) _)
  | .write .u32 .be none data, _ => by kexact (V3Mini.WriteU32BENext fuel (d + 1) hf data).trans (wrap_eq (fun _ => .unit) (fun _ => .unit) (fun _ => rfl) _)
  | .read .u32 .be none n, _ => by kexact (withOut_of (goList .u32) (o'.typed .u32) fun k => V3Mini.ReadU32BENext fuel (d + 1) hf n _ k).trans (wrap_eq (.typed .u32) (goList .u32) (fun _ => rfl) _)
  | .write .u64 .le (some o) data, _ => by kexact (V3Mini.WriteU64LE fuel (d + 2) hf o data).trans (wrap_eq (fun _ => .unit) (fun _ => .unit) (fun _ => rfl) _)
  | .read .u64 .le (some o) n, _ => by kexact (withOut_of (goList .u64) (o'.typed .u64) fun k => V3Mini.ReadU64LE fuel (d + 2) hf o n _ k).trans (wrap_eq (.typed .u64) (goList .u64) (fun _ => rfl) _)
  | .write .u64 .le none data, _ => by kexact (V3Mini.WriteU64LENext fuel (d + 1) hf data).trans (wrap_eq (fun _ => .unit) (fun _ => .unit) (fun _ => rfl) _)
  | .read .u64 .le none n, _ => by kexact (withOut_of (goList .u64) (o'.typed .u64) fun k => V3Mini.ReadU64LENext fuel (d + 1) hf n _ k).trans (wrap_eq (.typed .u64) (goList .u64) (fun _ => rfl) _)
  | .write .u64 .be (some o) data, _ => by kexact (V3Mini.WriteU64BE fuel (d + 2) hf o data).trans (wrap_eq (fun _ => .unit) (fun _ => .unit) (fun _ => rfl) _)
  | .read .u64 .be (some o) n, _ => by kexact (withOut_of (goList .u64) (o'.typed .u64) fun k => V3Mini.ReadU64BE fuel (d + 2) hf o n _ k).trans (wrap_eq (.typed .u64) (goList .u64) (fun _ => rfl) _)
  | .write .u64 .be none data, _ => by kexact (V3Mini.WriteU64BENext fuel (d + 1) hf data).trans (wrap_eq (fun _ => .unit) (fun _ => .unit) (fun _ => rfl) _)
  | .read .u64 .be none n, _ => by kexact (withOut_of (goList .u64) (o'.typed .u64) fun k => V3Mini.ReadU64BENext fuel (d + 1) hf n _ k).trans (wrap_eq (.typed .u64) (goList .u64) (fun _ => rfl) _)
  | .write .i16 .le (some o) data, _ => by kexact (V3Mini.WriteI16LE fuel (d + 2) hf o data).trans (wrap_eq (fun _ => .unit) (fun _ => .unit) (fun _ => rfl) _)
  | .read .i16 .le (some o) n, _ => by kexact (withOut_of (goList .i16) (o'.typed .i16) fun k => V3Mini.ReadI16LE fuel (d + 2) hf o n _ k).trans (wrap_eq (.typed .i16) (goList .i16) (fun _ => rfl) _)
  | .write .i16 .le none data, _ => by kexact (V3Mini.WriteI16LENext fuel (d + 1) hf data).trans (wrap_eq (fun _ => .unit) (fun _ => .unit) (fun _ => rfl) _)
  | .read .i16 .le none n, _ => by kexact (withOut_of (goList .i16) (o'.typed .i16) fun k => V3Mini.ReadI16LENext fuel (d + 1) hf n _ k).trans (wrap_eq (.typed .i16) (goList .i16) (fun _ => rfl) _)
  | .write .i16 .be (some o) data, _ => by kexact (V3Mini.WriteI16BE fuel (d + 2) hf o data).trans (wrap_eq (fun _ => .unit) (fun _ => .unit) (fun _ => rfl) _)
  | .read .i16 .be (some o) n, _ => by kexact (withOut_of (goList .i16) (o'.typed .i16) fun k => V3Mini.ReadI16BE fuel (d + 2) hf o n _ k).trans (wrap_eq (.typed .i16) (goList .i16) (fun _ => rfl) _)
  | .write .i16 .be none data, _ => by kexact (V3Mini.WriteI16BENext fuel (d + 1) hf data).trans (wrap_eq (fun _ => .unit) (fun _ => .unit) (fun _ => rfl) _)
  | .read .i16 .be none n, _ => by kexact (withOut_of (goList .i16) (o'.typed .i16) fun k => V3Mini.ReadI16BENext fuel (d + 1) hf n _ k).trans (wrap_eq (.typed .i16) (goList .i16) (fun _ => rfl) _)
  | .write .i32 .le (some o) data, _ => by kexact (V3Mini.WriteI32LE fuel (d + 2) hf o data).trans (wrap_eq (fun _ => .unit) (fun _ => .unit) (fun _ => rfl) _)
  | .read .i32 .le (some o) n, _ => by kexact (withOut_of (goList .i32) (o'.typed .i32) fun k => V3Mini.ReadI32LE fuel (d + 2) hf o n _ k).trans (wrap_eq (.typed .i32) (goList .i32) (fun _ => rfl) _)
  | .write .i32 .le none data, _ => by kexact (V3Mini.WriteI32LENext fuel (d + 1) hf data).trans (wrap_eq (fun _ => .unit) (fun _ => .unit) (fun _ => rfl) _)
  | .read .i32 .le none n, _ => by kexact (withOut_of (goList .i32) (o'.typed .i32) fun k => V3Mini.ReadI32LENext fuel (d + 1) hf n _ k).trans (wrap_eq (.typed .i32) (goList .i32) (fun _ => rfl) _)
  | .write .i32 .be (some o) data, _ => by kexact (V3Mini.WriteI32BE fuel (d + 2) hf o data).trans (wrap_eq (fun _ => .unit) (fun _ => .unit) (fun _ => rfl) _)
  | .read .i32 .be (some o) n, _ => by kexact (withOut_of (goList .i32) (o'.typed .i32) fun k => V3Mini.ReadI32BE fuel (d + 2) hf o n _ k).trans (wrap_eq (.typed .i32) (goList .i32) (fun _ => rfl) _)
  | .write .i32 .be none data, _ => by kexact (V3Mini.WriteI32BENext fuel (d + 1) hf data).trans (wrap_eq (fun _ => .unit) (fun _ => .unit) (fun _ => rfl) _)
  | .read .i32 .be none n, _ => by kexact (withOut_of (goList .i32) (o'.typed .i32) fun k => V3Mini.ReadI32BENext fuel (d + 1) hf n _ k).trans (wrap_eq (.typed .i32) (goList .i32) (fun _ => rfl) _)
  | .write .i64 .le (some o) data, _ => by kexact (V3Mini.WriteI64LE fuel (d + 2) hf o data).trans (wrap_eq (fun _ => .unit) (fun _ => .unit) (fun _ => rfl) _)
  | .read .i64 .le (some o) n, _ => by kexact (withOut_of (goList .i64) (o'.typed .i64) fun k => V3Mini.ReadI64LE fuel (d + 2) hf o n _ k).trans (wrap_eq (.typed .i64) (goList .i64) (fun _ => rfl) _)
  | .write .i64 .le none data, _ => by kexact (V3Mini.WriteI64LENext fuel (d + 1) hf data).trans (wrap_eq (fun _ => .unit) (fun _ => .unit) (fun _ => rfl) _)
  | .read .i64 .le none n, _ => by kexact (withOut_of (goList .i64) (o'.typed .i64) fun k => V3Mini.ReadI64LENext fuel (d + 1) hf n _ k).trans (wrap_eq (.typed .i64) (goList .i64) (fun _ => rfl) _)
  | .write .i64 .be (some o) data, _ => by kexact (V3Mini.WriteI64BE fuel (d + 2) hf o data).trans (wrap_eq (fun _ => .unit) (fun _ => .unit) (fun _ => rfl) _)
  | .read .i64 .be (some o) n, _ => by kexact (withOut_of (goList .i64) (o'.typed .i64) fun k => V3Mini.ReadI64BE fuel (d + 2) hf o n _ k).trans (wrap_eq (.typed .i64) (goList .i64) (fun _ => rfl) _)
  | .write .i64 .be none data, _ => by kexact (V3Mini.WriteI64BENext fuel (d + 1) hf data).trans (wrap_eq (fun _ => .unit) (fun _ => .unit) (fun _ => rfl) _)
  | .read .i64 .be none n, _ => by kexact (withOut_of (goList .i64) (o'.typed .i64) fun k => V3Mini.ReadI64BENext fuel (d + 1) hf n _ k).trans (wrap_eq (.typed .i64) (goList .i64) (fun _ => rfl) _)
  | .write .f32 .le (some o) data, _ => by kexact (V3Mini.WriteF32LE fuel (d + 2) hf o data).trans (wrap_eq (fun _ => .unit) (fun _ => .unit) (fun _ => rfl) _)
  | .read .f32 .le (some o) n, _ => by kexact (withOut_of (goList .f32) (o'.typed .f32) fun k => V3Mini.ReadF32LE fuel (d + 2) hf o n _ k).trans (wrap_eq (.typed .f32) (goList .f32) (fun _ => rfl) _)
  | .write .f32 .le none data, _ => by kexact (V3Mini.WriteF32LENext fuel (d + 1) hf data).trans (wrap_eq (fun _ => .unit) (fun _ => .unit) (fun _ => rfl) _)
  | .read .f32 .le none n, _ => by kexact (withOut_of (goList .f32) (o'.typed .f32) fun k => V3Mini.ReadF32LENext fuel (d + 1) hf n _ k).trans (wrap_eq (.typed .f32) (goList .f32) (fun _ => rfl) _)
  | .write .f32 .be (some o) data, _ => by kexact (V3Mini.WriteF32BE fuel (d + 2) hf o data).trans (wrap_eq (fun _ => .unit) (fun _ => .unit) (fun _ => rfl) _)
  | .read .f32 .be (some o) n, _ => by kexact (withOut_of (goList .f32) (o'.typed .f32) fun k => V3Mini.ReadF32BE fuel (d + 2) hf o n _ k).trans (wrap_eq (.typed .f32) (goList .f32) (fun _ => rfl) _)
  | .write .f32 .be none data, _ => by kexact (V3Mini.WriteF32BENext fuel (d + 1) hf data).trans (wrap_eq (fun _ => .unit) (fun _ => .unit) (fun _ => rfl) _)
  | .read .f32 .be none n, _ => by kexact (withOut_of (goList .f32) (o'.typed .f32) fun k => V3Mini.ReadF32BENext fuel (d + 1) hf n _ k).trans (wrap_eq (.typed .f32) (goList .f32) (fun _ => rfl) _)
  | .write .f64 .le (some o) data, _ => by kexact (V3Mini.WriteF64LE fuel (d + 2) hf o data).trans (wrap_eq (fun _ => .unit) (fun _ => .unit) (fun _ => rfl) _)
  | .read .f64 .le (some o) n, _ => by kexact (withOut_of (goList .f64) (o'.typed .f64) fun k => V3Mini.ReadF64LE fuel (d + 2) hf o n _ k).trans (wrap_eq (.typed .f64) (goList .f64) (fun _ => rfl) _)
  | .write .f64 .le none data, _ => by kexact (V3Mini.WriteF64LENext fuel (d + 1) hf data).trans (wrap_eq (fun _ => .unit) (fun _ => .unit) (fun _ => rfl) _)
  | .read .f64 .le none n, _ => by kexact (withOut_of (goList .f64) (o'.typed .f64) fun k => V3Mini.ReadF64LENext fuel (d + 1) hf n _ k).trans (wrap_eq (.typed .f64) (goList .f64) (fun _ => rfl) _)
  | .write .f64 .be (some o) data, _ => by kexact (V3Mini.WriteF64BE fuel (d + 2) hf o data).trans (wrap_eq (fun _ => .unit) (fun _ => .unit) (fun _ => rfl) _)
  | .read .f64 .be (some o) n, _ => by kexact (withOut_of (goList .f64) (o'.typed .f64) fun k => V3Mini.ReadF64BE fuel (d + 2) hf o n _ k).trans (wrap_eq (.typed .f64) (goList .f64) (fun _ => rfl) _)
  | .write .f64 .be none data, _ => by kexact (V3Mini.WriteF64BENext fuel (d + 1) hf data).trans (wrap_eq (fun _ => .unit) (fun _ => .unit) (fun _ => rfl) _)
  | .read .f64 .be none n, _ => by kexact (withOut_of (goList .f64) (o'.typed .f64) fun k => V3Mini.ReadF64BENext fuel (d + 1) hf n _ k).trans (wrap_eq (.typed .f64) (goList .f64) (fun _ => rfl) _)
  | .writeBytes (some o) data, _ => by kexact (V3Mini.WriteBytes fuel (d + 2) o data).trans (wrap_eq (fun _ => .unit) (fun _ => .unit) (fun _ => rfl) _)
  | .writeBytes none data, _ => by kexact (V3Mini.WriteBytesNext fuel (d + 1) data).trans (wrap_eq (fun _ => .unit) (fun _ => .unit) (fun _ => rfl) _)
  | .writeByte _ _, _ => trivial
  | .readByte _, _ => trivial
  | .readBytes (some o) n, _ => by kexact (withOut_of (fun s => .bytes (.mem s)) o'.slice fun k => V3Mini.ReadBytes fuel (d + 2) o n _ k).trans (wrap_eq .slice (fun s => .bytes (.mem s)) (fun _ => rfl) _)
  | .readBytes none n, _ => by kexact (withOut_of (fun s => .bytes (.mem s)) o'.slice fun k => V3Mini.ReadBytesNext fuel (d + 1) n _ k).trans (wrap_eq .slice (fun s => .bytes (.mem s)) (fun _ => rfl) _)
  | .readBit (some o), _ => by kexact (withOut_of .u8 o'.u8 fun k => V3Mini.ReadBit fuel (d + 2) o _ k).trans (wrap_eq .u8 .u8 (fun _ => rfl) _)
  | .readBit none, _ => by kexact (withOut_of .u8 o'.u8 fun k => V3Mini.ReadBitNext fuel (d + 1) _ k).trans (wrap_eq .u8 .u8 (fun _ => rfl) _)
  | .readBits (some o) n, _ => by kexact (withOut_of .u64 o'.u64 fun k => V3Mini.ReadBits fuel (d + 1) hf o n _ k).trans (wrap_eq .u64 .u64 (fun _ => rfl) _)
  | .readBits none n, _ => by kexact (withOut_of .u64 o'.u64 fun k => V3Mini.ReadBitsNext fuel d hf n _ k).trans (wrap_eq .u64 .u64 (fun _ => rfl) _)
  | .setBit (some o), _ => by kexact (V3Mini.SetBit fuel (d + 2) o).trans (wrap_eq (fun _ => .unit) (fun _ => .unit) (fun _ => rfl) _)
  | .setBit none, _ => by kexact (V3Mini.SetBitNext fuel (d + 1)).trans (wrap_eq (fun _ => .unit) (fun _ => .unit) (fun _ => rfl) _)
  | .clearBit (some o), _ => by kexact (V3Mini.ClearBit fuel (d + 2) o).trans (wrap_eq (fun _ => .unit) (fun _ => .unit) (fun _ => rfl) _)
  | .clearBit none, _ => by kexact (V3Mini.ClearBitNext fuel (d + 1)).trans (wrap_eq (fun _ => .unit) (fun _ => .unit) (fun _ => rfl) _)
  | .flipBit (some o), _ => by kexact (V3Mini.FlipBit fuel (d + 2) o).trans (wrap_eq (fun _ => .unit) (fun _ => .unit) (fun _ => rfl) _)
  | .flipBit none, _ => by kexact (V3Mini.FlipBitNext fuel (d + 1)).trans (wrap_eq (fun _ => .unit) (fun _ => .unit) (fun _ => rfl) _)
  | .setBits (some o) data n, _ => by kexact (V3Mini.SetBits fuel (d + 1) hf o data n).trans (wrap_eq (fun _ => .unit) (fun _ => .unit) (fun _ => rfl) _)
  | .setBits none data n, _ => by kexact (V3Mini.SetBitsNext fuel d hf data n).trans (wrap_eq (fun _ => .unit) (fun _ => .unit) (fun _ => rfl) _)
  | .clearAll, _ => by kexact (V3Mini.ClearAllBits fuel (d + 2) hf).trans (wrap_eq (fun _ => .unit) (fun _ => .unit) (fun _ => rfl) _)
  | .setAll, _ => by kexact (V3Mini.SetAllBits fuel (d + 2) hf).trans (wrap_eq (fun _ => .unit) (fun _ => .unit) (fun _ => rfl) _)
  | .flipAll, _ => by kexact (V3Mini.FlipAllBits fuel (d + 2) hf).trans (wrap_eq (fun _ => .unit) (fun _ => .unit) (fun _ => rfl) _)
  | .seekByte o r, _ => by kexact (V3Mini.SeekByte fuel (d + 2) o r).trans (wrap_eq (fun _ => .unit) (fun _ => .unit) (fun _ => rfl) _)
  | .seekBit o r, _ => by kexact (V3Mini.SeekBit fuel (d + 2) o r).trans (wrap_eq (fun _ => .unit) (fun _ => .unit) (fun _ => rfl) _)
  | .afterByte l, ha => by kexact (withOut_of .i64 o'.i64 fun k => V3Mini.AfterByte fuel (d + 2) l ha _ k).trans (wrap_eq .i64 .i64 (fun _ => rfl) _)
  | .afterBit l, ha => by kexact (withOut_of .i64 o'.i64 fun k => V3Mini.AfterBit fuel (d + 2) l ha _ k).trans (wrap_eq .i64 .i64 (fun _ => rfl) _)
  | .alignByte, _ => by kexact (V3Mini.AlignByte fuel (d + 2)).trans (wrap_eq (fun _ => .unit) (fun _ => .unit) (fun _ => rfl) _)
  | .alignBit, _ => by kexact (V3Mini.AlignBit fuel (d + 2)).trans (wrap_eq (fun _ => .unit) (fun _ => .unit) (fun _ => rfl) _)
  | .refresh, _ => by kexact (V3Mini.Refresh fuel (d + 2)).trans (wrap_eq (fun _ => .unit) (fun _ => .unit) (fun _ => rfl) _)
  | .reset, _ => by kexact (V3Mini.Reset fuel (d + 2)).trans (wrap_eq (fun _ => .unit) (fun _ => .unit) (fun _ => rfl) _)
  | .truncateLeft n, _ => by kexact (V3Mini.TruncateLeft fuel (d + 1) n).trans (wrap_eq (fun _ => .unit) (fun _ => .unit) (fun _ => rfl) _)
  | .truncateRight n, _ => by kexact (V3Mini.TruncateRight fuel (d + 1) n).trans (wrap_eq (fun _ => .unit) (fun _ => .unit) (fun _ => rfl) _)
  | .grow n, _ => by kexact (V3Mini.Grow fuel (d + 1) n).trans (wrap_eq (fun _ => .unit) (fun _ => .unit) (fun _ => rfl) _)
  | .bytes, _ => by kexact (withOut_of (fun s => .bytes (.mem s)) o'.slice fun k => V3Mini.Bytes fuel (d + 2) _ k).trans (wrap_eq .slice (fun s => .bytes (.mem s)) (fun _ => rfl) _)
  | .byteCapacity, _ => by kexact (withOut_of .i64 o'.i64 fun k => V3Mini.ByteCapacity fuel (d + 2) _ k).trans (wrap_eq .i64 .i64 (fun _ => rfl) _)
  | .bitCapacity, _ => by kexact (withOut_of .i64 o'.i64 fun k => V3Mini.BitCapacity fuel (d + 2) _ k).trans (wrap_eq .i64 .i64 (fun _ => rfl) _)
  | .byteOffset, _ => by kexact (withOut_of .i64 o'.i64 fun k => V3Mini.ByteOffset fuel (d + 2) _ k).trans (wrap_eq .i64 .i64 (fun _ => rfl) _)
  | .bitOffset, _ => by kexact (withOut_of .i64 o'.i64 fun k => V3Mini.BitOffset fuel (d + 2) _ k).trans (wrap_eq .i64 .i64 (fun _ => rfl) _)

/-! ## C81 -/

/-- C81: the text that is run is the committed file v3/buffer.generated.go. -/
theorem C81_text : V3Buffer.text.flatten = Gen.bufferSegs.flatMap Gen.Seg.generated := by decide +kernel

/-- C81: the text parses to a package, and running any method of that package gives the result, the panic and the state of the
model, whatever the arguments and the state are.  Loops get more rounds than there are `int64` values, calls a depth of 3. -/
theorem C81_buffer_text :
    ∃ funs, compileAll V3Buffer.text = some funs ∧
    ∀ (fuel depth : Nat), 2 ^ 64 < fuel → 3 ≤ depth → ∀ (op : V3.Op), Fits op → ∀ (s : V3.St) (v : V),
    (⟨funs, V3Buffer.errs⟩ : Pkg).callBuf fuel depth (goName op) (goArgs op) (s, v) =
      (goRes (V3.exec op s).1, ((V3.exec op s).2, v)) := by
  refine ⟨_, V3Buffer.link, fun fuel depth hf hd op ho s v => ?_⟩
  obtain ⟨d, rfl⟩ := Nat.exists_eq_add_of_le' hd
  show (V3Buffer.P.call fuel (d + 3) (goName op) (goArgs op) : GoM (V3.St × V) V) (s, v) = _
  rw [bufferCalls fuel d hf op ho]
  exact run_wrap _ s v

/-- C81: the same for the constructor. -/
theorem C81_constructor_text :
    ∃ funs, compileAll V3Buffer.text = some funs ∧
    ∀ (fuel depth : Nat), 2 ^ 64 < fuel → 3 ≤ depth → ∀ (l : List Slice), l.length < 2 ^ 63 → ∀ (s : V3.St) (v : V),
    (⟨funs, V3Buffer.errs⟩ : Pkg).callBuf fuel depth (str% "NewBuffer") [.slices l] (s, v) =
      (goRes (V3.wrapVal (fun _ => .unit) (V3.Buffer.NewBuffer l) s).1, ((V3.Buffer.NewBuffer l s).2, v)) := by
  refine ⟨_, V3Buffer.link, fun fuel depth hf hd l hl s v => ?_⟩
  obtain ⟨d, rfl⟩ := Nat.exists_eq_add_of_le' hd
  show (V3Buffer.P.call fuel (d + 1 + 2) (str% "NewBuffer") [.slices l] : GoM (V3.St × V) V) (s, v) = _
  rw [V3Buffer.NewBuffer fuel (d + 1) hf l hl, wrap_eq (fun _ => .unit) (fun _ => .unit) (fun _ => rfl)]
  refine (run_wrap _ s v).trans ?_
  unfold V3.wrapVal
  rw [bind_run]
  rcases V3.Buffer.NewBuffer l s with ⟨r | p, s'⟩ <;> rfl

example : Fits (.afterByte [3, 4]) := by show 2 < 2 ^ 63; decide

/-- The interpreter does run the text: bytes 1 and 2 of `demo`, in big-endian order. -/
example : (V3Buffer.P.call 20 3 (str% "ReadU16BE") [.i64 1, .i64 1] : GoM (V3.St × V) V) (V3.demo, .unit) =
    (.ok (.lu16 [0x0405]), (V3.demo, .unit)) := by
  rfl

/-! ## C82 -/

/-- C82: the text that is run is the committed file v3/minibuf.generated.go. -/
theorem C82_text : V3Mini.text.flatten = Gen.miniSegs.flatMap Gen.Seg.generated := by decide +kernel

/-- C82: the same for `MiniBuffer`, also for what the result variable holds afterwards. -/
theorem C82_mini_text :
    ∃ funs, compileAll V3Mini.text = some funs ∧
    ∀ (fuel depth : Nat), 2 ^ 64 < fuel → 3 ≤ depth → ∀ (o : V3.Outs) (op : V3.Op), Fits op →
    ∀ (m : GoM V3.St V3.Val), V3.miniCall o op = some m → ∀ (s : V3.St) (v : V),
    (⟨funs, V3Mini.errs⟩ : Pkg).callMini fuel depth (goName op) (goArgs op) (goOut o op) (s, v) =
      (goRes (m s).1, ((m s).2, v)) := by
  refine ⟨_, V3Mini.link, fun fuel depth hf hd o op ho m hm s v => ?_⟩
  obtain ⟨d, rfl⟩ := Nat.exists_eq_add_of_le' hd
  have h := miniCalls fuel d hf o op ho
  rw [hm] at h
  show V3Mini.P.callMini fuel (d + 3) (goName op) (goArgs op) (goOut o op) (s, v) = _
  rw [h]
  exact run_wrap _ s v

/-- C82: the same for the constructor, which is given the `MiniBuffer` to fill. -/
theorem C82_constructor_text :
    ∃ funs, compileAll V3Mini.text = some funs ∧
    ∀ (fuel depth : Nat), 2 ^ 64 < fuel → 3 ≤ depth → ∀ (l : List Slice), l.length < 2 ^ 63 → ∀ (s : V3.St) (v : V),
    (⟨funs, V3Mini.errs⟩ : Pkg).callBuf fuel depth (str% "NewMiniBuffer") [.ptr, .slices l] (s, v) =
      (goRes (V3.wrapVal (fun _ => .unit) (V3.Mini.NewMiniBuffer l) s).1, ((V3.Mini.NewMiniBuffer l s).2, v)) := by
  refine ⟨_, V3Mini.link, fun fuel depth hf hd l hl s v => ?_⟩
  obtain ⟨d, rfl⟩ := Nat.exists_eq_add_of_le' hd
  show (V3Mini.P.call fuel (d + 1 + 2) (str% "NewMiniBuffer") [.ptr, .slices l] : GoM (V3.St × V) V) (s, v) = _
  rw [V3Mini.NewMiniBuffer fuel (d + 1) hf l hl, wrap_eq (fun _ => .unit) (fun _ => .unit) (fun _ => rfl)]
  refine (run_wrap _ s v).trans ?_
  unfold V3.wrapVal
  rw [bind_run]
  rcases V3.Mini.NewMiniBuffer l s with ⟨r | p, s'⟩ <;> rfl

example : (V3Mini.P.callMini 20 3 (str% "ReadU16BE") [.i64 1, .i64 1] (some (.lu16 [7])) : GoM (V3.St × V) V) (V3.demo, .unit) =
    (.ok (.lu16 [0x0405]), (V3.demo, .unit)) := by
  rfl

/-! ## C83 -/

/-- What a caller can see of a value. -/
def seen (m : Heap) : V → Ref.Val
  | .u8 v => .num v.toNat
  | .u64 v => .num v.toNat
  | .i64 v => .num v.toInt
  | .bytes (.mem t) => .bytes (m.view t)
  | .lu16 l => .nums (l.map UInt16.toNat)
  | .lu32 l => .nums (l.map UInt32.toNat)
  | .lu64 l => .nums (l.map UInt64.toNat)
  | .li16 l => .nums (l.map fun x => (x.toInt % 2 ^ 16).toNat)
  | .li32 l => .nums (l.map fun x => (x.toInt % 2 ^ 32).toNat)
  | .li64 l => .nums (l.map fun x => (x.toInt % 2 ^ 64).toNat)
  | .lf32 l => .nums (l.map fun x => x.bits.toNat)
  | .lf64 l => .nums (l.map fun x => x.bits.toNat)
  | _ => .unit

/-- The same for an outcome. -/
def seenRes (m : Heap) : Res V → Res Ref.Val
  | .ok v => .ok (seen m v)
  | .panic p => .panic p

theorem seenRes_goRes (m : Heap) (r : Res V3.Val) : seenRes m (goRes r) = V3.obsRes m r := by
  rcases r with v | p
  · show Res.ok _ = Res.ok _
    congr 1
    cases v with
    | typed k l => cases k <;> rfl
    | _ => rfl
  · rfl

/-- The calls of a history, each run from the text; a panic is recovered by the caller. -/
def textAll (p : Pkg) (fuel depth : Nat) : List V3.Op → V3.St → List (Res Ref.Val) × V3.St
  | [], s => ([], s)
  | op :: ops, s =>
    let r := p.callBuf fuel depth (goName op) (goArgs op) (s, .unit)
    (seenRes r.2.1.mem r.1 :: (textAll p fuel depth ops r.2.1).1, (textAll p fuel depth ops r.2.1).2)

/-- C83: every history of calls, run from the text of v3/buffer.generated.go, follows the reference machine of C38. -/
theorem C83_text_history :
    ∃ funs, compileAll V3Buffer.text = some funs ∧
    ∀ (fuel depth : Nat), 2 ^ 64 < fuel → 3 ≤ depth → ∀ {s : V3.St}, V3.WF s → ∀ (ops : List V3.Op),
    (∀ op ∈ ops, Fits op) → V3.ValidAll ops s →
    (textAll ⟨funs, V3Buffer.errs⟩ fuel depth ops s).1 = (Ref.run (V3.lowerAll ops s) (V3.abs s)).1 ∧
    V3.abs (textAll ⟨funs, V3Buffer.errs⟩ fuel depth ops s).2 = (Ref.run (V3.lowerAll ops s) (V3.abs s)).2 := by
  obtain ⟨funs, hc, hcall⟩ := C81_buffer_text
  refine ⟨funs, hc, fun fuel depth hf hd {s} h ops ho hv => ?_⟩
  have key : ∀ (ops : List V3.Op) (s : V3.St), (∀ op ∈ ops, Fits op) →
      textAll ⟨funs, V3Buffer.errs⟩ fuel depth ops s = (V3.observed ops s, (V3.execAll ops s).2) := by
    intro ops
    induction ops with
    | nil => intros; rfl
    | cons op ops ih =>
      intro s ho
      simp only [textAll, hcall fuel depth hf hd op (ho op (List.mem_cons_self ..)), seenRes_goRes,
        ih _ fun o h => ho o (List.mem_cons_of_mem _ h)]
      rfl
  rw [key ops s ho]
  exact V3.C38_history h ops hv

example : (textAll V3Buffer.P 20 3 [.writeByte (some 3) 0x77, .read .u16 .le (some 2) 1] V3.demo).1 =
    [.ok .unit, .ok (.nums [0x7705])] := by rfl

end Crunch.Src
