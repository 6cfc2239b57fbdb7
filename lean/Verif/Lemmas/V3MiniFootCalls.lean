import Verif.Lemmas.V3MiniFoot1
import Verif.Lemmas.V3MiniFoot2
import Verif.Lemmas.V3MiniFoot3
import Verif.Lemmas.UnlockedFoot

/-! The bytes the methods of v3/minibuf.generated.go access.  Written by tools/foot_proofs.py. -/

set_option linter.unusedVariables false

namespace Crunch.Src.V3Mini
open V3 (Buf)

attribute [local irreducible] Prog.Uses LFoot

open V3

theorem bytes_uses (fuel d : Nat) (o : V3.Outs) (op : V3.Op) (hp : V3.inPlace op = true) {s : Sh} (hs : Sized s.st.b) (ha : V3.accessesMini op .bytes = true)
    (hm : (V3.miniCall o op).isSome = true) : (microMini P fuel (d + 3) (o, op)).Uses (V3.RdAt s.st.b op) (V3.WrAt s.st.b op) s := by
  match op, ha, hm with
  | .write .u16 .le (some o) data, _, _ => exact micro_uses (foot_WriteU16LE fuel (d + 2) hs.small fieldsAt (elemsW rfl) trivial)
  | .write .u16 .le none data, _, _ => exact micro_uses (foot_WriteU16LENext fuel (d + 1) hs.small fieldsAt (elemsW rfl) (fun _ _ _ => trivial))
  | .read .u16 .le (some o) n, _, _ => exact micro_uses_out (foot_ReadU16LE fuel (d + 2) hs.small fieldsAt (elemsR rfl) (fun _ => trivial))
  | .read .u16 .le none n, _, _ => exact micro_uses_out (foot_ReadU16LENext fuel (d + 1) hs.small fieldsAt (elemsR rfl) (fun _ _ _ => trivial))
  | .write .u16 .be (some o) data, _, _ => exact micro_uses (foot_WriteU16BE fuel (d + 2) hs.small fieldsAt (elemsW rfl) trivial)
  | .write .u16 .be none data, _, _ => exact micro_uses (foot_WriteU16BENext fuel (d + 1) hs.small fieldsAt (elemsW rfl) (fun _ _ _ => trivial))
  | .read .u16 .be (some o) n, _, _ => exact micro_uses_out (foot_ReadU16BE fuel (d + 2) hs.small fieldsAt (elemsR rfl) (fun _ => trivial))
  | .read .u16 .be none n, _, _ => exact micro_uses_out (foot_ReadU16BENext fuel (d + 1) hs.small fieldsAt (elemsR rfl) (fun _ _ _ => trivial))
  | .write .u32 .le (some o) data, _, _ => exact micro_uses (foot_WriteU32LE fuel (d + 2) hs.small fieldsAt (elemsW rfl) trivial)
  | .write .u32 .le none data, _, _ => exact micro_uses (foot_WriteU32LENext fuel (d + 1) hs.small fieldsAt (elemsW rfl) (fun _ _ _ => trivial))
  | .read .u32 .le (some o) n, _, _ => exact micro_uses_out (foot_ReadU32LE fuel (d + 2) hs.small fieldsAt (elemsR rfl) (fun _ => trivial))
  | .read .u32 .le none n, _, _ => exact micro_uses_out (foot_ReadU32LENext fuel (d + 1) hs.small fieldsAt (elemsR rfl) (fun _ _ _ => trivial))
  | .write .u32 .be (some o) data, _, _ => exact micro_uses (foot_WriteU32BE fuel (d + 2) hs.small fieldsAt (elemsW rfl) trivial)
  | .write .u32 .be none data, _, _ => exact micro_uses (foot_WriteU32BENext fuel (d + 1) hs.small fieldsAt (elemsW rfl) (fun _ _ _ => trivial))
  | .read .u32 .be (some o) n, _, _ => exact micro_uses_out (foot_ReadU32BE fuel (d + 2) hs.small fieldsAt (elemsR rfl) (fun _ => trivial))
  | .read .u32 .be none n, _, _ => exact micro_uses_out (foot_ReadU32BENext fuel (d + 1) hs.small fieldsAt (elemsR rfl) (fun _ _ _ => trivial))
  | .write .u64 .le (some o) data, _, _ => exact micro_uses (foot_WriteU64LE fuel (d + 2) hs.small fieldsAt (elemsW rfl) trivial)
  | .write .u64 .le none data, _, _ => exact micro_uses (foot_WriteU64LENext fuel (d + 1) hs.small fieldsAt (elemsW rfl) (fun _ _ _ => trivial))
  | .read .u64 .le (some o) n, _, _ => exact micro_uses_out (foot_ReadU64LE fuel (d + 2) hs.small fieldsAt (elemsR rfl) (fun _ => trivial))
  | .read .u64 .le none n, _, _ => exact micro_uses_out (foot_ReadU64LENext fuel (d + 1) hs.small fieldsAt (elemsR rfl) (fun _ _ _ => trivial))
  | .write .u64 .be (some o) data, _, _ => exact micro_uses (foot_WriteU64BE fuel (d + 2) hs.small fieldsAt (elemsW rfl) trivial)
  | .write .u64 .be none data, _, _ => exact micro_uses (foot_WriteU64BENext fuel (d + 1) hs.small fieldsAt (elemsW rfl) (fun _ _ _ => trivial))
  | .read .u64 .be (some o) n, _, _ => exact micro_uses_out (foot_ReadU64BE fuel (d + 2) hs.small fieldsAt (elemsR rfl) (fun _ => trivial))
  | .read .u64 .be none n, _, _ => exact micro_uses_out (foot_ReadU64BENext fuel (d + 1) hs.small fieldsAt (elemsR rfl) (fun _ _ _ => trivial))
  | .write .i16 .le (some o) data, _, _ => exact micro_uses (foot_WriteI16LE fuel (d + 2) hs.small fieldsAt (elemsW rfl) trivial)
  | .write .i16 .le none data, _, _ => exact micro_uses (foot_WriteI16LENext fuel (d + 1) hs.small fieldsAt (elemsW rfl) (fun _ _ _ => trivial))
  | .read .i16 .le (some o) n, _, _ => exact micro_uses_out (foot_ReadI16LE fuel (d + 2) hs.small fieldsAt (elemsR rfl) (fun _ => trivial))
  | .read .i16 .le none n, _, _ => exact micro_uses_out (foot_ReadI16LENext fuel (d + 1) hs.small fieldsAt (elemsR rfl) (fun _ _ _ => trivial))
  | .write .i16 .be (some o) data, _, _ => exact micro_uses (foot_WriteI16BE fuel (d + 2) hs.small fieldsAt (elemsW rfl) trivial)
  | .write .i16 .be none data, _, _ => exact micro_uses (foot_WriteI16BENext fuel (d + 1) hs.small fieldsAt (elemsW rfl) (fun _ _ _ => trivial))
  | .read .i16 .be (some o) n, _, _ => exact micro_uses_out (foot_ReadI16BE fuel (d + 2) hs.small fieldsAt (elemsR rfl) (fun _ => trivial))
  | .read .i16 .be none n, _, _ => exact micro_uses_out (foot_ReadI16BENext fuel (d + 1) hs.small fieldsAt (elemsR rfl) (fun _ _ _ => trivial))
  | .write .i32 .le (some o) data, _, _ => exact micro_uses (foot_WriteI32LE fuel (d + 2) hs.small fieldsAt (elemsW rfl) trivial)
  | .write .i32 .le none data, _, _ => exact micro_uses (foot_WriteI32LENext fuel (d + 1) hs.small fieldsAt (elemsW rfl) (fun _ _ _ => trivial))
  | .read .i32 .le (some o) n, _, _ => exact micro_uses_out (foot_ReadI32LE fuel (d + 2) hs.small fieldsAt (elemsR rfl) (fun _ => trivial))
  | .read .i32 .le none n, _, _ => exact micro_uses_out (foot_ReadI32LENext fuel (d + 1) hs.small fieldsAt (elemsR rfl) (fun _ _ _ => trivial))
  | .write .i32 .be (some o) data, _, _ => exact micro_uses (foot_WriteI32BE fuel (d + 2) hs.small fieldsAt (elemsW rfl) trivial)
  | .write .i32 .be none data, _, _ => exact micro_uses (foot_WriteI32BENext fuel (d + 1) hs.small fieldsAt (elemsW rfl) (fun _ _ _ => trivial))
  | .read .i32 .be (some o) n, _, _ => exact micro_uses_out (foot_ReadI32BE fuel (d + 2) hs.small fieldsAt (elemsR rfl) (fun _ => trivial))
  | .read .i32 .be none n, _, _ => exact micro_uses_out (foot_ReadI32BENext fuel (d + 1) hs.small fieldsAt (elemsR rfl) (fun _ _ _ => trivial))
  | .write .i64 .le (some o) data, _, _ => exact micro_uses (foot_WriteI64LE fuel (d + 2) hs.small fieldsAt (elemsW rfl) trivial)
  | .write .i64 .le none data, _, _ => exact micro_uses (foot_WriteI64LENext fuel (d + 1) hs.small fieldsAt (elemsW rfl) (fun _ _ _ => trivial))
  | .read .i64 .le (some o) n, _, _ => exact micro_uses_out (foot_ReadI64LE fuel (d + 2) hs.small fieldsAt (elemsR rfl) (fun _ => trivial))
  | .read .i64 .le none n, _, _ => exact micro_uses_out (foot_ReadI64LENext fuel (d + 1) hs.small fieldsAt (elemsR rfl) (fun _ _ _ => trivial))
  | .write .i64 .be (some o) data, _, _ => exact micro_uses (foot_WriteI64BE fuel (d + 2) hs.small fieldsAt (elemsW rfl) trivial)
  | .write .i64 .be none data, _, _ => exact micro_uses (foot_WriteI64BENext fuel (d + 1) hs.small fieldsAt (elemsW rfl) (fun _ _ _ => trivial))
  | .read .i64 .be (some o) n, _, _ => exact micro_uses_out (foot_ReadI64BE fuel (d + 2) hs.small fieldsAt (elemsR rfl) (fun _ => trivial))
  | .read .i64 .be none n, _, _ => exact micro_uses_out (foot_ReadI64BENext fuel (d + 1) hs.small fieldsAt (elemsR rfl) (fun _ _ _ => trivial))
  | .write .f32 .le (some o) data, _, _ => exact micro_uses (foot_WriteF32LE fuel (d + 2) hs.small fieldsAt (elemsW rfl) trivial)
  | .write .f32 .le none data, _, _ => exact micro_uses (foot_WriteF32LENext fuel (d + 1) hs.small fieldsAt (elemsW rfl) (fun _ _ _ => trivial))
  | .read .f32 .le (some o) n, _, _ => exact micro_uses_out (foot_ReadF32LE fuel (d + 2) hs.small fieldsAt (elemsR rfl) (fun _ => trivial))
  | .read .f32 .le none n, _, _ => exact micro_uses_out (foot_ReadF32LENext fuel (d + 1) hs.small fieldsAt (elemsR rfl) (fun _ _ _ => trivial))
  | .write .f32 .be (some o) data, _, _ => exact micro_uses (foot_WriteF32BE fuel (d + 2) hs.small fieldsAt (elemsW rfl) trivial)
  | .write .f32 .be none data, _, _ => exact micro_uses (foot_WriteF32BENext fuel (d + 1) hs.small fieldsAt (elemsW rfl) (fun _ _ _ => trivial))
  | .read .f32 .be (some o) n, _, _ => exact micro_uses_out (foot_ReadF32BE fuel (d + 2) hs.small fieldsAt (elemsR rfl) (fun _ => trivial))
  | .read .f32 .be none n, _, _ => exact micro_uses_out (foot_ReadF32BENext fuel (d + 1) hs.small fieldsAt (elemsR rfl) (fun _ _ _ => trivial))
  | .write .f64 .le (some o) data, _, _ => exact micro_uses (foot_WriteF64LE fuel (d + 2) hs.small fieldsAt (elemsW rfl) trivial)
  | .write .f64 .le none data, _, _ => exact micro_uses (foot_WriteF64LENext fuel (d + 1) hs.small fieldsAt (elemsW rfl) (fun _ _ _ => trivial))
  | .read .f64 .le (some o) n, _, _ => exact micro_uses_out (foot_ReadF64LE fuel (d + 2) hs.small fieldsAt (elemsR rfl) (fun _ => trivial))
  | .read .f64 .le none n, _, _ => exact micro_uses_out (foot_ReadF64LENext fuel (d + 1) hs.small fieldsAt (elemsR rfl) (fun _ _ _ => trivial))
  | .write .f64 .be (some o) data, _, _ => exact micro_uses (foot_WriteF64BE fuel (d + 2) hs.small fieldsAt (elemsW rfl) trivial)
  | .write .f64 .be none data, _, _ => exact micro_uses (foot_WriteF64BENext fuel (d + 1) hs.small fieldsAt (elemsW rfl) (fun _ _ _ => trivial))
  | .read .f64 .be (some o) n, _, _ => exact micro_uses_out (foot_ReadF64BE fuel (d + 2) hs.small fieldsAt (elemsR rfl) (fun _ => trivial))
  | .read .f64 .be none n, _, _ => exact micro_uses_out (foot_ReadF64BENext fuel (d + 1) hs.small fieldsAt (elemsR rfl) (fun _ _ _ => trivial))
  | .writeBytes (some o) src, _, _ => exact micro_uses (foot_WriteBytes fuel (d + 2) hs.small fieldsAt (srcR rfl) (copyW rfl) trivial)
  | .writeBytes none src, _, _ => exact micro_uses (foot_WriteBytesNext fuel (d + 1) hs.small fieldsAt (srcR rfl) (copyW rfl) (fun _ _ _ => trivial))
  | .readByte p, _, hm => exact nomatch hm
  | .setBit (some o), _, _ => exact micro_uses (foot_SetBit fuel (d + 2) hs.small fieldsAt (bitsR rfl) (bitsW rfl) fun _ _ => trivial)
  | .setBit none, _, _ => exact micro_uses (foot_SetBitNext fuel (d + 1) hs.small fieldsAt (bitsR rfl) (bitsW rfl) (fun _ _ _ => trivial))
  | .clearBit (some o), _, _ => exact micro_uses (foot_ClearBit fuel (d + 2) hs.small fieldsAt (bitsR rfl) (bitsW rfl) fun _ _ => trivial)
  | .clearBit none, _, _ => exact micro_uses (foot_ClearBitNext fuel (d + 1) hs.small fieldsAt (bitsR rfl) (bitsW rfl) (fun _ _ _ => trivial))
  | .flipBit (some o), _, _ => exact micro_uses (foot_FlipBit fuel (d + 2) hs.small fieldsAt (bitsR rfl) (bitsW rfl) fun _ _ => trivial)
  | .flipBit none, _, _ => exact micro_uses (foot_FlipBitNext fuel (d + 1) hs.small fieldsAt (bitsR rfl) (bitsW rfl) (fun _ _ _ => trivial))
  | .readBit (some o), _, _ => exact micro_uses_out (foot_ReadBit fuel (d + 2) hs.small fieldsAt (bitsR rfl) (fun _ _ _ => trivial))
  | .readBit none, _, _ => exact micro_uses_out (foot_ReadBitNext fuel (d + 1) hs.small fieldsAt (bitsR rfl) (fun _ _ _ => trivial))
  | .readBits (some o) n, _, _ => exact micro_uses_out (foot_ReadBits fuel (d + 1) hs.small fieldsAt (bitsR rfl) (fun _ => trivial))
  | .readBits none n, _, _ => exact micro_uses_out (foot_ReadBitsNext fuel d hs.small fieldsAt (bitsR rfl) (fun _ _ _ => trivial))
  | .setBits (some o) data n, _, _ => exact micro_uses (foot_SetBits fuel (d + 1) hs.small fieldsAt (bitsR rfl) (bitsW rfl) trivial)
  | .setBits none data n, _, _ => exact micro_uses (foot_SetBitsNext fuel d hs.small fieldsAt (bitsR rfl) (bitsW rfl) (fun _ _ _ => trivial))
  | .clearAll, _, _ => exact micro_uses (foot_ClearAllBits fuel (d + 2) hs.small fieldsAt (allW rfl) trivial)
  | .setAll, _, _ => exact micro_uses (foot_SetAllBits fuel (d + 2) hs.small fieldsAt (allW rfl) trivial)
  | .flipAll, _, _ => exact micro_uses (foot_FlipAllBits fuel (d + 2) hs.small fieldsAt (allR rfl) (allW rfl) trivial)
  | .readBytes _ _, ha, _ => exact nomatch ha
  | .seekByte _ _, ha, _ => exact nomatch ha
  | .seekBit _ _, ha, _ => exact nomatch ha
  | .afterByte _, ha, _ => exact nomatch ha
  | .afterBit _, ha, _ => exact nomatch ha
  | .alignByte, ha, _ => exact nomatch ha
  | .alignBit, ha, _ => exact nomatch ha
  | .bytes, ha, _ => exact nomatch ha
  | .byteCapacity, ha, _ => exact nomatch ha
  | .bitCapacity, ha, _ => exact nomatch ha
  | .byteOffset, ha, _ => exact nomatch ha
  | .bitOffset, ha, _ => exact nomatch ha
  | .writeByte _ _, ha, _ => exact nomatch hp
  | .truncateLeft _, ha, _ => exact nomatch hp
  | .truncateRight _, ha, _ => exact nomatch hp
  | .grow _, ha, _ => exact nomatch hp
  | .refresh, ha, _ => exact nomatch hp
  | .reset, ha, _ => exact nomatch hp

end Crunch.Src.V3Mini
