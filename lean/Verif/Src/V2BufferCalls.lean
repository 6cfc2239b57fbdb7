import Verif.Src.Calls2
import Verif.Src.Wrap
import Verif.Src.V2BufferTyped

/-! The calls of v2 `Buffer` from their text, in one statement.  Written by tools/src_calls.py. -/

namespace Crunch.Src
open V3.Mini (onB callOut)

/-- All methods of v2 `Buffer`. -/
theorem V2Buffer.calls (fuel d : Nat) (hf : 2 ^ 64 < fuel) : (op : V2.Op2) → Two.Fits op →
    (V2Buffer.P.call fuel (d + 4) (Two.goName op) (Two.goArgs op) : Prog V) = (V2.exec op).bind fun x => .ret (goVal x)
  | .write .u16 .le (some o) data, _ => by kexact (V2Buffer.WriteU16LE fuel (d + 2) hf o data).trans (wrap_prog goVal (fun _ => .unit) (fun _ => .unit) (fun _ => rfl) _)
  | .write .u16 .le none data, _ => by kexact (V2Buffer.WriteU16LENext fuel (d + 2) hf data).trans (wrap_prog goVal (fun _ => .unit) (fun _ => .unit) (fun _ => rfl) _)
  | .read .u16 .le (some o) n, _ => by kexact (V2Buffer.ReadU16LE fuel (d + 2) hf o n).trans (wrap_prog goVal (.typed .u16) (goList .u16) (fun _ => rfl) _)
  | .read .u16 .le none n, _ => by kexact (V2Buffer.ReadU16LENext fuel (d + 2) hf n).trans (wrap_prog goVal (.typed .u16) (goList .u16) (fun _ => rfl) _)
  | .write .u16 .be (some o) data, _ => by kexact (V2Buffer.WriteU16BE fuel (d + 2) hf o data).trans (wrap_prog goVal (fun _ => .unit) (fun _ => .unit) (fun _ => rfl) _)
  | .write .u16 .be none data, _ => by kexact (V2Buffer.WriteU16BENext fuel (d + 2) hf data).trans (wrap_prog goVal (fun _ => .unit) (fun _ => .unit) (fun _ => rfl) _)
  | .read .u16 .be (some o) n, _ => by kexact (V2Buffer.ReadU16BE fuel (d + 2) hf o n).trans (wrap_prog goVal (.typed .u16) (goList .u16) (fun _ => rfl) _)
  | .read .u16 .be none n, _ => by kexact (V2Buffer.ReadU16BENext fuel (d + 2) hf n).trans (wrap_prog goVal (.typed .u16) (goList .u16) (fun _ => rfl) _)
  | .write .u32 .le (some o) data, _ => by kexact (V2Buffer.WriteU32LE fuel (d + 2) hf o data).trans (wrap_prog goVal (fun _ => .unit) (fun _ => .unit) (fun _ => rfl) _)
  | .write .u32 .le none data, _ => by kexact (V2Buffer.WriteU32LENext fuel (d + 2) hf data).trans (wrap_prog goVal (fun _ => .unit) (fun _ => .unit) (fun _ => rfl) _)
  | .read .u32 .le (some o) n, _ => by kexact (V2Buffer.ReadU32LE fuel (d + 2) hf o n).trans (wrap_prog goVal (.typed .u32) (goList .u32) (fun _ => rfl) _)
  | .read .u32 .le none n, _ => by kexact (V2Buffer.ReadU32LENext fuel (d + 2) hf n).trans (wrap_prog goVal (.typed .u32) (goList .u32) (fun _ => rfl) _)
  | .write .u32 .be (some o) data, _ => by kexact (V2Buffer.WriteU32BE fuel (d + 2) hf o data).trans (wrap_prog goVal (fun _ => .unit) (fun _ => .unit) (fun _ => rfl) _)
  | .write .u32 .be none data, _ => by kexact (V2Buffer.WriteU32BENext fuel (d + 2) hf data).trans (wrap_prog goVal (fun _ => .unit) (fun _ => .unit) (fun _ => rfl) _)
  | .read .u32 .be (some o) n, _ => by kexact (V2Buffer.ReadU32BE fuel (d + 2) hf o n).trans (wrap_prog goVal (.typed .u32) (goList .u32) (fun _ => rfl) _)
  | .read .u32 .be none n, _ => by kexact (V2Buffer.ReadU32BENext fuel (d + 2) hf n).trans (wrap_prog goVal (.typed .u32) (goList .u32) (fun _ => rfl) _)
  | .write .u64 .le (some o) data, _ => by kexact (V2Buffer.WriteU64LE fuel (d + 2) hf o data).trans (wrap_prog goVal (fun _ => .unit) (fun _ => .unit) (fun _ => rfl) _)
  | .write .u64 .le none data, _ => by kexact (V2Buffer.WriteU64LENext fuel (d + 2) hf data).trans (wrap_prog goVal (fun _ => .unit) (fun _ => .unit) (fun _ => rfl) _)
  | .read .u64 .le (some o) n, _ => by kexact (V2Buffer.ReadU64LE fuel (d + 2) hf o n).trans (wrap_prog goVal (.typed .u64) (goList .u64) (fun _ => rfl) _)
  | .read .u64 .le none n, _ => by kexact (V2Buffer.ReadU64LENext fuel (d + 2) hf n).trans (wrap_prog goVal (.typed .u64) (goList .u64) (fun _ => rfl) _)
  | .write .u64 .be (some o) data, _ => by kexact (V2Buffer.WriteU64BE fuel (d + 2) hf o data).trans (wrap_prog goVal (fun _ => .unit) (fun _ => .unit) (fun _ => rfl) _)
  | .write .u64 .be none data, _ => by kexact (V2Buffer.WriteU64BENext fuel (d + 2) hf data).trans (wrap_prog goVal (fun _ => .unit) (fun _ => .unit) (fun _ => rfl) _)
  | .read .u64 .be (some o) n, _ => by kexact (V2Buffer.ReadU64BE fuel (d + 2) hf o n).trans (wrap_prog goVal (.typed .u64) (goList .u64) (fun _ => rfl) _)
  | .read .u64 .be none n, _ => by kexact (V2Buffer.ReadU64BENext fuel (d + 2) hf n).trans (wrap_prog goVal (.typed .u64) (goList .u64) (fun _ => rfl) _)
  | .writeBytes (some o) data, _ => by kexact (V2Buffer.WriteBytes fuel (d + 2) hf o data).trans (wrap_prog goVal (fun _ => .unit) (fun _ => .unit) (fun _ => rfl) _)
  | .writeBytes none data, _ => by kexact (V2Buffer.WriteBytesNext fuel (d + 2) hf data).trans (wrap_prog goVal (fun _ => .unit) (fun _ => .unit) (fun _ => rfl) _)
  | .writeByte (some o) data, _ => by kexact (V2Buffer.WriteByte fuel (d + 2) hf o data).trans (wrap_prog goVal (fun _ => .unit) (fun _ => .unit) (fun _ => rfl) _)
  | .writeByte none data, _ => by kexact (V2Buffer.WriteByteNext fuel (d + 2) hf data).trans (wrap_prog goVal (fun _ => .unit) (fun _ => .unit) (fun _ => rfl) _)
  | .readByte (some o), _ => by kexact (V2Buffer.ReadByte fuel (d + 2) o).trans (wrap_prog goVal .u8 .u8 (fun _ => rfl) _)
  | .readByte none, _ => by kexact (V2Buffer.ReadByteNext fuel (d + 2)).trans (wrap_prog goVal .u8 .u8 (fun _ => rfl) _)
  | .readBytes (some o) n, _ => by kexact (V2Buffer.ReadBytes fuel (d + 2) o n).trans (wrap_prog goVal .slice (fun s => .bytes (.mem s)) (fun _ => rfl) _)
  | .readBytes none n, _ => by kexact (V2Buffer.ReadBytesNext fuel (d + 2) n).trans (wrap_prog goVal .slice (fun s => .bytes (.mem s)) (fun _ => rfl) _)
  | .readBit (some o), _ => by kexact (V2Buffer.ReadBit fuel (d + 1) o).trans (wrap_prog goVal .u8 .u8 (fun _ => rfl) _)
  | .readBit none, _ => by kexact (V2Buffer.ReadBitNext fuel (d + 1)).trans (wrap_prog goVal .u8 .u8 (fun _ => rfl) _)
  | .readBits (some o) n, _ => by kexact (V2Buffer.ReadBits fuel d hf o n).trans (wrap_prog goVal .u64 .u64 (fun _ => rfl) _)
  | .readBits none n, _ => by kexact (V2Buffer.ReadBitsNext fuel d hf n).trans (wrap_prog goVal .u64 .u64 (fun _ => rfl) _)
  | .setBit (some o) data, _ => by kexact (V2Buffer.SetBit fuel (d + 2) o data).trans (wrap_prog goVal (fun _ => .unit) (fun _ => .unit) (fun _ => rfl) _)
  | .setBit none data, _ => by kexact (V2Buffer.SetBitNext fuel (d + 2) data).trans (wrap_prog goVal (fun _ => .unit) (fun _ => .unit) (fun _ => rfl) _)
  | .flipBit (some o), _ => by kexact (V2Buffer.FlipBit fuel (d + 2) o).trans (wrap_prog goVal (fun _ => .unit) (fun _ => .unit) (fun _ => rfl) _)
  | .flipBit none, _ => by kexact (V2Buffer.FlipBitNext fuel (d + 2)).trans (wrap_prog goVal (fun _ => .unit) (fun _ => .unit) (fun _ => rfl) _)
  | .setBits (some o) data n, _ => by kexact (V2Buffer.SetBits fuel (d + 1) hf o data n).trans (wrap_prog goVal (fun _ => .unit) (fun _ => .unit) (fun _ => rfl) _)
  | .setBits none data n, _ => by kexact (V2Buffer.SetBitsNext fuel (d + 1) hf data n).trans (wrap_prog goVal (fun _ => .unit) (fun _ => .unit) (fun _ => rfl) _)
  | .clearAll, _ => by kexact (V2Buffer.ClearAllBits fuel (d + 2) hf).trans (wrap_prog goVal (fun _ => .unit) (fun _ => .unit) (fun _ => rfl) _)
  | .setAll, _ => by kexact (V2Buffer.SetAllBits fuel (d + 2) hf).trans (wrap_prog goVal (fun _ => .unit) (fun _ => .unit) (fun _ => rfl) _)
  | .flipAll, _ => by kexact (V2Buffer.FlipAllBits fuel (d + 2) hf).trans (wrap_prog goVal (fun _ => .unit) (fun _ => .unit) (fun _ => rfl) _)
  | .seek o r, _ => by kexact (V2Buffer.Seek fuel (d + 2) o r).trans (wrap_prog goVal (fun _ => .unit) (fun _ => .unit) (fun _ => rfl) _)
  | .seekBit o r, _ => by kexact (V2Buffer.SeekBit fuel (d + 2) o r).trans (wrap_prog goVal (fun _ => .unit) (fun _ => .unit) (fun _ => rfl) _)
  | .after l, ha => by kexact (V2Buffer.After fuel (d + 2) l ha).trans (wrap_prog goVal .i64 .i64 (fun _ => rfl) _)
  | .afterBit l, ha => by kexact (V2Buffer.AfterBit fuel (d + 2) l ha).trans (wrap_prog goVal .i64 .i64 (fun _ => rfl) _)
  | .alignByte, _ => by kexact (V2Buffer.AlignByte fuel (d + 2)).trans (wrap_prog goVal (fun _ => .unit) (fun _ => .unit) (fun _ => rfl) _)
  | .alignBit, _ => by kexact (V2Buffer.AlignBit fuel (d + 2)).trans (wrap_prog goVal (fun _ => .unit) (fun _ => .unit) (fun _ => rfl) _)
  | .grow n, _ => by kexact (V2Buffer.Grow fuel (d + 1) n).trans (wrap_prog goVal (fun _ => .unit) (fun _ => .unit) (fun _ => rfl) _)
  | .refresh, _ => by kexact (V2Buffer.Refresh fuel (d + 2)).trans (wrap_prog goVal (fun _ => .unit) (fun _ => .unit) (fun _ => rfl) _)
  | .reset, _ => by kexact (V2Buffer.Reset fuel (d + 2)).trans (wrap_prog goVal (fun _ => .unit) (fun _ => .unit) (fun _ => rfl) _)
  | .bytes, _ => by kexact (V2Buffer.Bytes fuel (d + 3)).trans (wrap_prog goVal .slice (fun s => .bytes (.mem s)) (fun _ => rfl) _)
  | .capacity, _ => by kexact (V2Buffer.Capacity fuel (d + 3)).trans (wrap_prog goVal .i64 .i64 (fun _ => rfl) _)
  | .bitCapacity, _ => by kexact (V2Buffer.BitCapacity fuel (d + 3)).trans (wrap_prog goVal .i64 .i64 (fun _ => rfl) _)
  | .offset, _ => by kexact (V2Buffer.Offset fuel (d + 3)).trans (wrap_prog goVal .i64 .i64 (fun _ => rfl) _)
  | .bitOffset, _ => by kexact (V2Buffer.BitOffset fuel (d + 3)).trans (wrap_prog goVal .i64 .i64 (fun _ => rfl) _)

end Crunch.Src
