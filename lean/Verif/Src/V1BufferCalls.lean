import Verif.Src.Calls2
import Verif.Src.Wrap
import Verif.Src.Calls1
import Verif.Src.V1Buffer
import Verif.Src.V1BufferComplex
import Verif.V1.Api

/-! The calls of v1 `Buffer` from their text, in one statement.  Written by tools/src_calls.py. -/

namespace Crunch.Src
open V3.Mini (onB callOut)

/-- All methods of v1 `Buffer`. -/
theorem V1Buffer.calls (fuel d : Nat) (hf : 2 ^ 64 < fuel) : (op : V1.Op1) → One.Fits op →
    (V1Buffer.P.call fuel (d + 4) (One.goName op) (One.goArgs op) : Prog V) = (V1.exec1 op).bind fun x => .ret (goVal1 x)
  | .writeComplex (some o) x w e, _ => by kexact (V1Buffer.WriteComplex fuel (d + 1) hf o x w e).trans (wrap_prog goVal1 (fun _ => .val .unit) (fun _ => .unit) (fun _ => rfl) _)
  | .writeComplex none x w e, _ => by kexact (V1Buffer.WriteComplexNext fuel (d + 1) hf x w e).trans (wrap_prog goVal1 (fun _ => .val .unit) (fun _ => .unit) (fun _ => rfl) _)
  | .readComplex (some o) n w e, _ => by kexact (V1Buffer.ReadComplex fuel (d + 1) hf o n w e).trans (wrap_prog goVal1 .any goAny (fun _ => rfl) _)
  | .readComplex none n w e, _ => by kexact (V1Buffer.ReadComplexNext fuel (d + 1) hf n w e).trans (wrap_prog goVal1 .any goAny (fun _ => rfl) _)
  | .writeBytes (some o) data, _ => by kexact (V1Buffer.WriteBytes fuel (d + 2) hf o data).trans (wrap_prog goVal1 (fun _ => .val .unit) (fun _ => .unit) (fun _ => rfl) _)
  | .writeBytes none data, _ => by kexact (V1Buffer.WriteBytesNext fuel (d + 2) hf data).trans (wrap_prog goVal1 (fun _ => .val .unit) (fun _ => .unit) (fun _ => rfl) _)
  | .writeByte (some o) data, _ => by kexact (V1Buffer.WriteByte fuel (d + 2) hf o data).trans (wrap_prog goVal1 (fun _ => .val .unit) (fun _ => .unit) (fun _ => rfl) _)
  | .writeByte none data, _ => by kexact (V1Buffer.WriteByteNext fuel (d + 2) hf data).trans (wrap_prog goVal1 (fun _ => .val .unit) (fun _ => .unit) (fun _ => rfl) _)
  | .readByte (some o), _ => by kexact (V1Buffer.ReadByte fuel (d + 2) o).trans (wrap_prog goVal1 (fun a => .val (.u8 a)) .u8 (fun _ => rfl) _)
  | .readByte none, _ => by kexact (V1Buffer.ReadByteNext fuel (d + 2)).trans (wrap_prog goVal1 (fun a => .val (.u8 a)) .u8 (fun _ => rfl) _)
  | .readBytes (some o) n, _ => by kexact (V1Buffer.ReadBytes fuel (d + 2) o n).trans (wrap_prog goVal1 (fun a => .val (.slice a)) (fun s => .bytes (.mem s)) (fun _ => rfl) _)
  | .readBytes none n, _ => by kexact (V1Buffer.ReadBytesNext fuel (d + 2) n).trans (wrap_prog goVal1 (fun a => .val (.slice a)) (fun s => .bytes (.mem s)) (fun _ => rfl) _)
  | .readBit (some o), _ => by kexact (V1Buffer.ReadBit fuel (d + 1) o).trans (wrap_prog goVal1 (fun a => .val (.u8 a)) .u8 (fun _ => rfl) _)
  | .readBit none, _ => by kexact (V1Buffer.ReadBitNext fuel (d + 1)).trans (wrap_prog goVal1 (fun a => .val (.u8 a)) .u8 (fun _ => rfl) _)
  | .readBits (some o) n, _ => by kexact (V1Buffer.ReadBits fuel d hf o n).trans (wrap_prog goVal1 (fun a => .val (.u64 a)) .u64 (fun _ => rfl) _)
  | .readBits none n, _ => by kexact (V1Buffer.ReadBitsNext fuel d hf n).trans (wrap_prog goVal1 (fun a => .val (.u64 a)) .u64 (fun _ => rfl) _)
  | .setBit (some o) data, _ => by kexact (V1Buffer.SetBit fuel (d + 2) o data).trans (wrap_prog goVal1 (fun _ => .val .unit) (fun _ => .unit) (fun _ => rfl) _)
  | .setBit none data, _ => by kexact (V1Buffer.SetBitNext fuel (d + 2) data).trans (wrap_prog goVal1 (fun _ => .val .unit) (fun _ => .unit) (fun _ => rfl) _)
  | .flipBit (some o), _ => by kexact (V1Buffer.FlipBit fuel (d + 2) o).trans (wrap_prog goVal1 (fun _ => .val .unit) (fun _ => .unit) (fun _ => rfl) _)
  | .flipBit none, _ => by kexact (V1Buffer.FlipBitNext fuel (d + 2)).trans (wrap_prog goVal1 (fun _ => .val .unit) (fun _ => .unit) (fun _ => rfl) _)
  | .setBits (some o) data n, _ => by kexact (V1Buffer.SetBits fuel (d + 1) hf o data n).trans (wrap_prog goVal1 (fun _ => .val .unit) (fun _ => .unit) (fun _ => rfl) _)
  | .setBits none data n, _ => by kexact (V1Buffer.SetBitsNext fuel (d + 1) hf data n).trans (wrap_prog goVal1 (fun _ => .val .unit) (fun _ => .unit) (fun _ => rfl) _)
  | .clearAll, _ => by kexact (V1Buffer.ClearAllBits fuel (d + 2) hf).trans (wrap_prog goVal1 (fun _ => .val .unit) (fun _ => .unit) (fun _ => rfl) _)
  | .setAll, _ => by kexact (V1Buffer.SetAllBits fuel (d + 2) hf).trans (wrap_prog goVal1 (fun _ => .val .unit) (fun _ => .unit) (fun _ => rfl) _)
  | .flipAll, _ => by kexact (V1Buffer.FlipAllBits fuel (d + 2) hf).trans (wrap_prog goVal1 (fun _ => .val .unit) (fun _ => .unit) (fun _ => rfl) _)
  | .seek o r, _ => by kexact (V1Buffer.Seek fuel (d + 2) o r).trans (wrap_prog goVal1 (fun _ => .val .unit) (fun _ => .unit) (fun _ => rfl) _)
  | .seekBit o r, _ => by kexact (V1Buffer.SeekBit fuel (d + 2) o r).trans (wrap_prog goVal1 (fun _ => .val .unit) (fun _ => .unit) (fun _ => rfl) _)
  | .after l, ha => by kexact (V1Buffer.After fuel (d + 2) l (ha _ rfl)).trans (wrap_prog goVal1 (fun a => .val (.i64 a)) .i64 (fun _ => rfl) _)
  | .afterBit l, ha => by kexact (V1Buffer.AfterBit fuel (d + 2) l (ha _ rfl)).trans (wrap_prog goVal1 (fun a => .val (.i64 a)) .i64 (fun _ => rfl) _)
  | .alignByte, _ => by kexact (V1Buffer.AlignByte fuel (d + 2)).trans (wrap_prog goVal1 (fun _ => .val .unit) (fun _ => .unit) (fun _ => rfl) _)
  | .alignBit, _ => by kexact (V1Buffer.AlignBit fuel (d + 2)).trans (wrap_prog goVal1 (fun _ => .val .unit) (fun _ => .unit) (fun _ => rfl) _)
  | .grow n, _ => by kexact (V1Buffer.Grow fuel (d + 1) n).trans (wrap_prog goVal1 (fun _ => .val .unit) (fun _ => .unit) (fun _ => rfl) _)
  | .refresh, _ => by kexact (V1Buffer.Refresh fuel (d + 2)).trans (wrap_prog goVal1 (fun _ => .val .unit) (fun _ => .unit) (fun _ => rfl) _)
  | .bytes, _ => by kexact (V1Buffer.Bytes fuel (d + 3)).trans (wrap_prog goVal1 (fun a => .val (.slice a)) (fun s => .bytes (.mem s)) (fun _ => rfl) _)
  | .capacity, _ => by kexact (V1Buffer.Capacity fuel (d + 3)).trans (wrap_prog goVal1 (fun a => .val (.i64 a)) .i64 (fun _ => rfl) _)
  | .bitCapacity, _ => by kexact (V1Buffer.BitCapacity fuel (d + 3)).trans (wrap_prog goVal1 (fun a => .val (.i64 a)) .i64 (fun _ => rfl) _)
  | .offset, _ => by kexact (V1Buffer.Offset fuel (d + 3)).trans (wrap_prog goVal1 (fun a => .val (.i64 a)) .i64 (fun _ => rfl) _)
  | .bitOffset, _ => by kexact (V1Buffer.BitOffset fuel (d + 3)).trans (wrap_prog goVal1 (fun a => .val (.i64 a)) .i64 (fun _ => rfl) _)

end Crunch.Src
