import Verif.Src.Calls2
import Verif.Src.Wrap
import Verif.Src.V2MiniTyped

/-! The calls of v2 `MiniBuffer` from their text, in one statement.  Written by tools/src_calls.py. -/

namespace Crunch.Src
open V3.Mini (onB callOut)

/-- All methods of v2 `MiniBuffer`. -/
theorem V2Mini.calls (fuel d : Nat) (hf : 2 ^ 64 < fuel) (o' : V3.Outs) : (op : V2.Op2) → Two.Fits op →
    match V2.miniCall o' op with
    | none => True
    | some m => V2Mini.P.callMini fuel (d + 4) (Two.goName op) (Two.goArgs op) (Two.goOut o' op) = onB m >>= fun x => pure (goVal x)
  | .write .u16 .le (some o) data, _ => by kexact (V2Mini.WriteU16LE fuel (d + 2) hf o data).trans (wrap_eq (fun _ => .unit) (fun _ => .unit) (fun _ => rfl) _)
  | .write .u16 .le none data, _ => by kexact (V2Mini.WriteU16LENext fuel (d + 2) hf data).trans (wrap_eq (fun _ => .unit) (fun _ => .unit) (fun _ => rfl) _)
  | .read .u16 .le (some o) n, _ => by kexact (withOut_of (goList .u16) (o'.typed .u16) fun k => V2Mini.ReadU16LE fuel (d + 2) hf o n _ k).trans (wrap_eq (.typed .u16) (goList .u16) (fun _ => rfl) _)
  | .read .u16 .le none n, _ => by kexact (withOut_of (goList .u16) (o'.typed .u16) fun k => V2Mini.ReadU16LENext fuel (d + 2) hf n _ k).trans (wrap_eq (.typed .u16) (goList .u16) (fun _ => rfl) _)
  | .write .u16 .be (some o) data, _ => by kexact (V2Mini.WriteU16BE fuel (d + 2) hf o data).trans (wrap_eq (fun _ => .unit) (fun _ => .unit) (fun _ => rfl) _)
  | .write .u16 .be none data, _ => by kexact (V2Mini.WriteU16BENext fuel (d + 2) hf data).trans (wrap_eq (fun _ => .unit) (fun _ => .unit) (fun _ => rfl) _)
  | .read .u16 .be (some o) n, _ => by kexact (withOut_of (goList .u16) (o'.typed .u16) fun k => V2Mini.ReadU16BE fuel (d + 2) hf o n _ k).trans (wrap_eq (.typed .u16) (goList .u16) (fun _ => rfl) _)
  | .read .u16 .be none n, _ => by kexact (withOut_of (goList .u16) (o'.typed .u16) fun k => V2Mini.ReadU16BENext fuel (d + 2) hf n _ k).trans (wrap_eq (.typed .u16) (goList .u16) (fun _ => rfl) _)
  | .write .u32 .le (some o) data, _ => by kexact (V2Mini.WriteU32LE fuel (d + 2) hf o data).trans (wrap_eq (fun _ => .unit) (fun _ => .unit) (fun _ => rfl) _)
  | .write .u32 .le none data, _ => by kexact (V2Mini.WriteU32LENext fuel (d + 2) hf data).trans (wrap_eq (fun _ => .unit) (fun _ => .unit) (fun _ => rfl) _)
  | .read .u32 .le (some o) n, _ => by kexact (withOut_of (goList .u32) (o'.typed .u32) fun k => V2Mini.ReadU32LE fuel (d + 2) hf o n _ k).trans (wrap_eq (.typed .u32) (goList .u32) (fun _ => rfl) _)
  | .read .u32 .le none n, _ => by kexact (withOut_of (goList .u32) (o'.typed .u32) fun k => V2Mini.ReadU32LENext fuel (d + 2) hf n _ k).trans (wrap_eq (.typed .u32) (goList .u32) (fun _ => rfl) _)
  | .write .u32 .be (some o) data, _ => by kexact (V2Mini.WriteU32BE fuel (d + 2) hf o data).trans (wrap_eq (fun _ => .unit) (fun _ => .unit) (fun _ => rfl) _)
  | .write .u32 .be none data, _ => by kexact (V2Mini.WriteU32BENext fuel (d + 2) hf data).trans (wrap_eq (fun _ => .unit) (fun _ => .unit) (fun _ => rfl) _)
  | .read .u32 .be (some o) n, _ => by kexact (withOut_of (goList .u32) (o'.typed .u32) fun k => V2Mini.ReadU32BE fuel (d + 2) hf o n _ k).trans (wrap_eq (.typed .u32) (goList .u32) (fun _ => rfl) _)
  | .read .u32 .be none n, _ => by kexact (withOut_of (goList .u32) (o'.typed .u32) fun k => V2Mini.ReadU32BENext fuel (d + 2) hf n _ k).trans (wrap_eq (.typed .u32) (goList .u32) (fun _ => rfl) _)
  | .write .u64 .le (some o) data, _ => by kexact (V2Mini.WriteU64LE fuel (d + 2) hf o data).trans (wrap_eq (fun _ => .unit) (fun _ => .unit) (fun _ => rfl) _)
  | .write .u64 .le none data, _ => by kexact (V2Mini.WriteU64LENext fuel (d + 2) hf data).trans (wrap_eq (fun _ => .unit) (fun _ => .unit) (fun _ => rfl) _)
  | .read .u64 .le (some o) n, _ => by kexact (withOut_of (goList .u64) (o'.typed .u64) fun k => V2Mini.ReadU64LE fuel (d + 2) hf o n _ k).trans (wrap_eq (.typed .u64) (goList .u64) (fun _ => rfl) _)
  | .read .u64 .le none n, _ => by kexact (withOut_of (goList .u64) (o'.typed .u64) fun k => V2Mini.ReadU64LENext fuel (d + 2) hf n _ k).trans (wrap_eq (.typed .u64) (goList .u64) (fun _ => rfl) _)
  | .write .u64 .be (some o) data, _ => by kexact (V2Mini.WriteU64BE fuel (d + 2) hf o data).trans (wrap_eq (fun _ => .unit) (fun _ => .unit) (fun _ => rfl) _)
  | .write .u64 .be none data, _ => by kexact (V2Mini.WriteU64BENext fuel (d + 2) hf data).trans (wrap_eq (fun _ => .unit) (fun _ => .unit) (fun _ => rfl) _)
  | .read .u64 .be (some o) n, _ => by kexact (withOut_of (goList .u64) (o'.typed .u64) fun k => V2Mini.ReadU64BE fuel (d + 2) hf o n _ k).trans (wrap_eq (.typed .u64) (goList .u64) (fun _ => rfl) _)
  | .read .u64 .be none n, _ => by kexact (withOut_of (goList .u64) (o'.typed .u64) fun k => V2Mini.ReadU64BENext fuel (d + 2) hf n _ k).trans (wrap_eq (.typed .u64) (goList .u64) (fun _ => rfl) _)
  | .writeBytes (some o) data, _ => by kexact (V2Mini.WriteBytes fuel (d + 2) hf o data).trans (wrap_eq (fun _ => .unit) (fun _ => .unit) (fun _ => rfl) _)
  | .writeBytes none data, _ => by kexact (V2Mini.WriteBytesNext fuel (d + 2) hf data).trans (wrap_eq (fun _ => .unit) (fun _ => .unit) (fun _ => rfl) _)
  | .writeByte _ _, _ => trivial
  | .readByte _, _ => trivial
  | .readBytes (some o) n, _ => by kexact (withOut_of (fun s => .bytes (.mem s)) o'.slice fun k => V2Mini.ReadBytes fuel (d + 2) o n _ k).trans (wrap_eq .slice (fun s => .bytes (.mem s)) (fun _ => rfl) _)
  | .readBytes none n, _ => by kexact (withOut_of (fun s => .bytes (.mem s)) o'.slice fun k => V2Mini.ReadBytesNext fuel (d + 2) n _ k).trans (wrap_eq .slice (fun s => .bytes (.mem s)) (fun _ => rfl) _)
  | .readBit (some o), _ => by kexact (withOut_of .u8 o'.u8 fun k => V2Mini.ReadBit fuel (d + 1) o _ k).trans (wrap_eq .u8 .u8 (fun _ => rfl) _)
  | .readBit none, _ => by kexact (withOut_of .u8 o'.u8 fun k => V2Mini.ReadBitNext fuel (d + 1) _ k).trans (wrap_eq .u8 .u8 (fun _ => rfl) _)
  | .readBits (some o) n, _ => by kexact (withOut_of .u64 o'.u64 fun k => V2Mini.ReadBits fuel d hf o n _ k).trans (wrap_eq .u64 .u64 (fun _ => rfl) _)
  | .readBits none n, _ => by kexact (withOut_of .u64 o'.u64 fun k => V2Mini.ReadBitsNext fuel d hf n _ k).trans (wrap_eq .u64 .u64 (fun _ => rfl) _)
  | .setBit (some o) data, _ => by kexact (V2Mini.SetBit fuel (d + 2) o data).trans (wrap_eq (fun _ => .unit) (fun _ => .unit) (fun _ => rfl) _)
  | .setBit none data, _ => by kexact (V2Mini.SetBitNext fuel (d + 2) data).trans (wrap_eq (fun _ => .unit) (fun _ => .unit) (fun _ => rfl) _)
  | .flipBit (some o), _ => by kexact (V2Mini.FlipBit fuel (d + 2) o).trans (wrap_eq (fun _ => .unit) (fun _ => .unit) (fun _ => rfl) _)
  | .flipBit none, _ => by kexact (V2Mini.FlipBitNext fuel (d + 2)).trans (wrap_eq (fun _ => .unit) (fun _ => .unit) (fun _ => rfl) _)
  | .setBits (some o) data n, _ => by kexact (V2Mini.SetBits fuel (d + 1) hf o data n).trans (wrap_eq (fun _ => .unit) (fun _ => .unit) (fun _ => rfl) _)
  | .setBits none data n, _ => by kexact (V2Mini.SetBitsNext fuel (d + 1) hf data n).trans (wrap_eq (fun _ => .unit) (fun _ => .unit) (fun _ => rfl) _)
  | .clearAll, _ => by kexact (V2Mini.ClearAllBits fuel (d + 2) hf).trans (wrap_eq (fun _ => .unit) (fun _ => .unit) (fun _ => rfl) _)
  | .setAll, _ => by kexact (V2Mini.SetAllBits fuel (d + 2) hf).trans (wrap_eq (fun _ => .unit) (fun _ => .unit) (fun _ => rfl) _)
  | .flipAll, _ => by kexact (V2Mini.FlipAllBits fuel (d + 2) hf).trans (wrap_eq (fun _ => .unit) (fun _ => .unit) (fun _ => rfl) _)
  | .seek o r, _ => by kexact (V2Mini.Seek fuel (d + 2) o r).trans (wrap_eq (fun _ => .unit) (fun _ => .unit) (fun _ => rfl) _)
  | .seekBit o r, _ => by kexact (V2Mini.SeekBit fuel (d + 2) o r).trans (wrap_eq (fun _ => .unit) (fun _ => .unit) (fun _ => rfl) _)
  | .after l, ha => by kexact (withOut_of .i64 o'.i64 fun k => V2Mini.After fuel (d + 2) l ha _ k).trans (wrap_eq .i64 .i64 (fun _ => rfl) _)
  | .afterBit l, ha => by kexact (withOut_of .i64 o'.i64 fun k => V2Mini.AfterBit fuel (d + 2) l ha _ k).trans (wrap_eq .i64 .i64 (fun _ => rfl) _)
  | .alignByte, _ => by kexact (V2Mini.AlignByte fuel (d + 2)).trans (wrap_eq (fun _ => .unit) (fun _ => .unit) (fun _ => rfl) _)
  | .alignBit, _ => by kexact (V2Mini.AlignBit fuel (d + 2)).trans (wrap_eq (fun _ => .unit) (fun _ => .unit) (fun _ => rfl) _)
  | .grow n, _ => by kexact (V2Mini.Grow fuel (d + 1) n).trans (wrap_eq (fun _ => .unit) (fun _ => .unit) (fun _ => rfl) _)
  | .refresh, _ => by kexact (V2Mini.Refresh fuel (d + 2)).trans (wrap_eq (fun _ => .unit) (fun _ => .unit) (fun _ => rfl) _)
  | .reset, _ => by kexact (V2Mini.Reset fuel (d + 2)).trans (wrap_eq (fun _ => .unit) (fun _ => .unit) (fun _ => rfl) _)
  | .bytes, _ => by kexact (withOut_of (fun s => .bytes (.mem s)) o'.slice fun k => V2Mini.Bytes fuel (d + 3) _ k).trans (wrap_eq .slice (fun s => .bytes (.mem s)) (fun _ => rfl) _)
  | .capacity, _ => by kexact (withOut_of .i64 o'.i64 fun k => V2Mini.Capacity fuel (d + 3) _ k).trans (wrap_eq .i64 .i64 (fun _ => rfl) _)
  | .bitCapacity, _ => by kexact (withOut_of .i64 o'.i64 fun k => V2Mini.BitCapacity fuel (d + 3) _ k).trans (wrap_eq .i64 .i64 (fun _ => rfl) _)
  | .offset, _ => by kexact (withOut_of .i64 o'.i64 fun k => V2Mini.Offset fuel (d + 3) _ k).trans (wrap_eq .i64 .i64 (fun _ => rfl) _)
  | .bitOffset, _ => by kexact (withOut_of .i64 o'.i64 fun k => V2Mini.BitOffset fuel (d + 3) _ k).trans (wrap_eq .i64 .i64 (fun _ => rfl) _)

end Crunch.Src
