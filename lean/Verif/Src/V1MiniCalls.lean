import Verif.Src.Calls2
import Verif.Src.Wrap
import Verif.Src.Calls1
import Verif.Src.V1Mini
import Verif.Src.V1MiniComplex
import Verif.V1.MiniApi

/-! The calls of v1 `MiniBuffer` from their text, in one statement.  Written by tools/src_calls.py. -/

namespace Crunch.Src
open V3.Mini (onB callOut)

/-- All methods of v1 `MiniBuffer`. -/
theorem V1Mini.calls (fuel d : Nat) (hf : 2 ^ 64 < fuel) (o' : V3.Outs) (any : V1.Any) : (op : V1.Op1) → One.Fits op →
    match V1.miniCall1 o' any op with
    | none => True
    | some m => V1Mini.P.callMini fuel (d + 4) (One.goName op) (One.goArgs op) (One.goOut o' any op) = onB m >>= fun x => pure (goVal1 x)
  | .writeComplex (some o) x w e, _ => by kexact (V1Mini.WriteComplex fuel (d + 1) hf o x w e).trans (wrap_eq1 (fun _ => .val .unit) (fun _ => .unit) (fun _ => rfl) _)
  | .writeComplex none x w e, _ => by kexact (V1Mini.WriteComplexNext fuel (d + 1) hf x w e).trans (wrap_eq1 (fun _ => .val .unit) (fun _ => .unit) (fun _ => rfl) _)
  | .readComplex (some o) n w e, _ => by kexact (withOut_of goAny any fun k => V1Mini.ReadComplex fuel (d + 1) hf o n w e _ k).trans (wrap_eq1 .any goAny (fun _ => rfl) _)
  | .readComplex none n w e, _ => by kexact (withOut_of goAny any fun k => V1Mini.ReadComplexNext fuel (d + 1) hf n w e _ k).trans (wrap_eq1 .any goAny (fun _ => rfl) _)
  | .writeBytes (some o) data, _ => by kexact (V1Mini.WriteBytes fuel (d + 2) hf o data).trans (wrap_eq1 (fun _ => .val .unit) (fun _ => .unit) (fun _ => rfl) _)
  | .writeBytes none data, _ => by kexact (V1Mini.WriteBytesNext fuel (d + 2) hf data).trans (wrap_eq1 (fun _ => .val .unit) (fun _ => .unit) (fun _ => rfl) _)
  | .writeByte _ _, _ => trivial
  | .readByte _, _ => trivial
  | .readBytes (some o) n, _ => by kexact (withOut_of (fun s => .bytes (.mem s)) o'.slice fun k => V1Mini.ReadBytes fuel (d + 2) o n _ k).trans (wrap_eq1 (fun a => .val (.slice a)) (fun s => .bytes (.mem s)) (fun _ => rfl) _)
  | .readBytes none n, _ => by kexact (withOut_of (fun s => .bytes (.mem s)) o'.slice fun k => V1Mini.ReadBytesNext fuel (d + 2) n _ k).trans (wrap_eq1 (fun a => .val (.slice a)) (fun s => .bytes (.mem s)) (fun _ => rfl) _)
  | .readBit (some o), _ => by kexact (withOut_of .u8 o'.u8 fun k => V1Mini.ReadBit fuel (d + 1) o _ k).trans (wrap_eq1 (fun a => .val (.u8 a)) .u8 (fun _ => rfl) _)
  | .readBit none, _ => by kexact (withOut_of .u8 o'.u8 fun k => V1Mini.ReadBitNext fuel (d + 1) _ k).trans (wrap_eq1 (fun a => .val (.u8 a)) .u8 (fun _ => rfl) _)
  | .readBits (some o) n, _ => by kexact (withOut_of .u64 o'.u64 fun k => V1Mini.ReadBits fuel d hf o n _ k).trans (wrap_eq1 (fun a => .val (.u64 a)) .u64 (fun _ => rfl) _)
  | .readBits none n, _ => by kexact (withOut_of .u64 o'.u64 fun k => V1Mini.ReadBitsNext fuel d hf n _ k).trans (wrap_eq1 (fun a => .val (.u64 a)) .u64 (fun _ => rfl) _)
  | .setBit (some o) data, _ => by kexact (V1Mini.SetBit fuel (d + 2) o data).trans (wrap_eq1 (fun _ => .val .unit) (fun _ => .unit) (fun _ => rfl) _)
  | .setBit none data, _ => by kexact (V1Mini.SetBitNext fuel (d + 2) data).trans (wrap_eq1 (fun _ => .val .unit) (fun _ => .unit) (fun _ => rfl) _)
  | .flipBit (some o), _ => by kexact (V1Mini.FlipBit fuel (d + 2) o).trans (wrap_eq1 (fun _ => .val .unit) (fun _ => .unit) (fun _ => rfl) _)
  | .flipBit none, _ => by kexact (V1Mini.FlipBitNext fuel (d + 2)).trans (wrap_eq1 (fun _ => .val .unit) (fun _ => .unit) (fun _ => rfl) _)
  | .setBits (some o) data n, _ => by kexact (V1Mini.SetBits fuel (d + 1) hf o data n).trans (wrap_eq1 (fun _ => .val .unit) (fun _ => .unit) (fun _ => rfl) _)
  | .setBits none data n, _ => by kexact (V1Mini.SetBitsNext fuel (d + 1) hf data n).trans (wrap_eq1 (fun _ => .val .unit) (fun _ => .unit) (fun _ => rfl) _)
  | .clearAll, _ => by kexact (V1Mini.ClearAllBits fuel (d + 2) hf).trans (wrap_eq1 (fun _ => .val .unit) (fun _ => .unit) (fun _ => rfl) _)
  | .setAll, _ => by kexact (V1Mini.SetAllBits fuel (d + 2) hf).trans (wrap_eq1 (fun _ => .val .unit) (fun _ => .unit) (fun _ => rfl) _)
  | .flipAll, _ => by kexact (V1Mini.FlipAllBits fuel (d + 2) hf).trans (wrap_eq1 (fun _ => .val .unit) (fun _ => .unit) (fun _ => rfl) _)
  | .seek o r, _ => by kexact (V1Mini.Seek fuel (d + 2) o r).trans (wrap_eq1 (fun _ => .val .unit) (fun _ => .unit) (fun _ => rfl) _)
  | .seekBit o r, _ => by kexact (V1Mini.SeekBit fuel (d + 2) o r).trans (wrap_eq1 (fun _ => .val .unit) (fun _ => .unit) (fun _ => rfl) _)
  | .after l, ha => by kexact (withOut_of .i64 o'.i64 fun k => V1Mini.After fuel (d + 2) l (ha _ rfl) _ k).trans (wrap_eq1 (fun a => .val (.i64 a)) .i64 (fun _ => rfl) _)
  | .afterBit l, ha => by kexact (withOut_of .i64 o'.i64 fun k => V1Mini.AfterBit fuel (d + 2) l (ha _ rfl) _ k).trans (wrap_eq1 (fun a => .val (.i64 a)) .i64 (fun _ => rfl) _)
  | .alignByte, _ => by kexact (V1Mini.AlignByte fuel (d + 2)).trans (wrap_eq1 (fun _ => .val .unit) (fun _ => .unit) (fun _ => rfl) _)
  | .alignBit, _ => by kexact (V1Mini.AlignBit fuel (d + 2)).trans (wrap_eq1 (fun _ => .val .unit) (fun _ => .unit) (fun _ => rfl) _)
  | .grow n, _ => by kexact (V1Mini.Grow fuel (d + 1) n).trans (wrap_eq1 (fun _ => .val .unit) (fun _ => .unit) (fun _ => rfl) _)
  | .refresh, _ => by kexact (V1Mini.Refresh fuel (d + 2)).trans (wrap_eq1 (fun _ => .val .unit) (fun _ => .unit) (fun _ => rfl) _)
  | .bytes, _ => by kexact (withOut_of (fun s => .bytes (.mem s)) o'.slice fun k => V1Mini.Bytes fuel (d + 3) _ k).trans (wrap_eq1 (fun a => .val (.slice a)) (fun s => .bytes (.mem s)) (fun _ => rfl) _)
  | .capacity, _ => by kexact (withOut_of .i64 o'.i64 fun k => V1Mini.Capacity fuel (d + 3) _ k).trans (wrap_eq1 (fun a => .val (.i64 a)) .i64 (fun _ => rfl) _)
  | .bitCapacity, _ => by kexact (withOut_of .i64 o'.i64 fun k => V1Mini.BitCapacity fuel (d + 3) _ k).trans (wrap_eq1 (fun a => .val (.i64 a)) .i64 (fun _ => rfl) _)
  | .offset, _ => by kexact (withOut_of .i64 o'.i64 fun k => V1Mini.Offset fuel (d + 3) _ k).trans (wrap_eq1 (fun a => .val (.i64 a)) .i64 (fun _ => rfl) _)
  | .bitOffset, _ => by kexact (withOut_of .i64 o'.i64 fun k => V1Mini.BitOffset fuel (d + 3) _ k).trans (wrap_eq1 (fun a => .val (.i64 a)) .i64 (fun _ => rfl) _)

end Crunch.Src
