import Verif.Lemmas.V2MiniFoot1
import Verif.Lemmas.UnlockedFoot

/-! The bytes the methods of v2/minibuf.go access.  Written by tools/foot_proofs.py. -/

set_option linter.unusedVariables false

namespace Crunch.Src.V2Mini
open V3 (Buf)

attribute [local irreducible] Prog.Uses LFoot

theorem bytes_uses (fuel d : Nat) (o : V3.Outs) (op : V2.Op2) (hp : V2.inPlaceMini op = true) {s : Sh} (hs : Sized s.st.b) (ha : V2.accessesMini op .bytes = true)
    (hm : (V2.miniCall o op).isSome = true) :
    (microMini2 P fuel (d + 4) (o, op)).Uses (RdIn s.st.b (V2.bytesOfMini s.st.b op) (V2.sourceOf op)) (WrIn s.st.b (V2.bytesOfMini s.st.b op)) s := by
  match op, ha, hm with
  | .write .u16 .le (some o) data, _, _ => exact micro_uses (foot_WriteU16LE fuel (d + 2) hs.small fieldsAt (elemsW rfl) trivial)
  | .write .u16 .le none data, _, _ => exact micro_uses (foot_WriteU16LENext fuel (d + 2) hs.small fieldsAt (elemsW rfl) (fun _ _ _ => trivial))
  | .read .u16 .le (some o) n, _, _ => exact micro_uses_out (foot_ReadU16LE fuel (d + 2) hs.small fieldsAt (elemsR rfl) (fun _ => trivial))
  | .read .u16 .le none n, _, _ => exact micro_uses_out (foot_ReadU16LENext fuel (d + 2) hs.small fieldsAt (elemsR rfl) (fun _ _ _ => trivial))
  | .write .u16 .be (some o) data, _, _ => exact micro_uses (foot_WriteU16BE fuel (d + 2) hs.small fieldsAt (elemsW rfl) trivial)
  | .write .u16 .be none data, _, _ => exact micro_uses (foot_WriteU16BENext fuel (d + 2) hs.small fieldsAt (elemsW rfl) (fun _ _ _ => trivial))
  | .read .u16 .be (some o) n, _, _ => exact micro_uses_out (foot_ReadU16BE fuel (d + 2) hs.small fieldsAt (elemsR rfl) (fun _ => trivial))
  | .read .u16 .be none n, _, _ => exact micro_uses_out (foot_ReadU16BENext fuel (d + 2) hs.small fieldsAt (elemsR rfl) (fun _ _ _ => trivial))
  | .write .u32 .le (some o) data, _, _ => exact micro_uses (foot_WriteU32LE fuel (d + 2) hs.small fieldsAt (elemsW rfl) trivial)
  | .write .u32 .le none data, _, _ => exact micro_uses (foot_WriteU32LENext fuel (d + 2) hs.small fieldsAt (elemsW rfl) (fun _ _ _ => trivial))
  | .read .u32 .le (some o) n, _, _ => exact micro_uses_out (foot_ReadU32LE fuel (d + 2) hs.small fieldsAt (elemsR rfl) (fun _ => trivial))
  | .read .u32 .le none n, _, _ => exact micro_uses_out (foot_ReadU32LENext fuel (d + 2) hs.small fieldsAt (elemsR rfl) (fun _ _ _ => trivial))
  | .write .u32 .be (some o) data, _, _ => exact micro_uses (foot_WriteU32BE fuel (d + 2) hs.small fieldsAt (elemsW rfl) trivial)
  | .write .u32 .be none data, _, _ => exact micro_uses (foot_WriteU32BENext fuel (d + 2) hs.small fieldsAt (elemsW rfl) (fun _ _ _ => trivial))
  | .read .u32 .be (some o) n, _, _ => exact micro_uses_out (foot_ReadU32BE fuel (d + 2) hs.small fieldsAt (elemsR rfl) (fun _ => trivial))
  | .read .u32 .be none n, _, _ => exact micro_uses_out (foot_ReadU32BENext fuel (d + 2) hs.small fieldsAt (elemsR rfl) (fun _ _ _ => trivial))
  | .write .u64 .le (some o) data, _, _ => exact micro_uses (foot_WriteU64LE fuel (d + 2) hs.small fieldsAt (elemsW rfl) trivial)
  | .write .u64 .le none data, _, _ => exact micro_uses (foot_WriteU64LENext fuel (d + 2) hs.small fieldsAt (elemsW rfl) (fun _ _ _ => trivial))
  | .read .u64 .le (some o) n, _, _ => exact micro_uses_out (foot_ReadU64LE fuel (d + 2) hs.small fieldsAt (elemsR rfl) (fun _ => trivial))
  | .read .u64 .le none n, _, _ => exact micro_uses_out (foot_ReadU64LENext fuel (d + 2) hs.small fieldsAt (elemsR rfl) (fun _ _ _ => trivial))
  | .write .u64 .be (some o) data, _, _ => exact micro_uses (foot_WriteU64BE fuel (d + 2) hs.small fieldsAt (elemsW rfl) trivial)
  | .write .u64 .be none data, _, _ => exact micro_uses (foot_WriteU64BENext fuel (d + 2) hs.small fieldsAt (elemsW rfl) (fun _ _ _ => trivial))
  | .read .u64 .be (some o) n, _, _ => exact micro_uses_out (foot_ReadU64BE fuel (d + 2) hs.small fieldsAt (elemsR rfl) (fun _ => trivial))
  | .read .u64 .be none n, _, _ => exact micro_uses_out (foot_ReadU64BENext fuel (d + 2) hs.small fieldsAt (elemsR rfl) (fun _ _ _ => trivial))
  | .writeBytes (some o) src, _, _ => exact micro_uses (foot_WriteBytes fuel (d + 2) hs.small fieldsAt (srcR rfl) (onesW rfl) trivial)
  | .writeBytes none src, _, _ => exact micro_uses (foot_WriteBytesNext fuel (d + 2) hs.small fieldsAt (srcR rfl) (onesW rfl) (fun _ _ _ => trivial))
  | .readByte _, _, hm => exact nomatch hm
  | .writeByte _ _, _, hm => exact nomatch hm
  | .setBit (some o) x, _, _ => exact micro_uses (foot_SetBit fuel (d + 2) hs.small fieldsAt (bitsR rfl) (bitsW rfl) trivial)
  | .setBit none x, _, _ => exact micro_uses (foot_SetBitNext fuel (d + 2) hs.small fieldsAt (bitsR rfl) (bitsW rfl) (fun _ _ _ => trivial))
  | .flipBit (some o), _, _ => exact micro_uses (foot_FlipBit fuel (d + 2) hs.small fieldsAt (bitsR rfl) (bitsW rfl) trivial)
  | .flipBit none, _, _ => exact micro_uses (foot_FlipBitNext fuel (d + 2) hs.small fieldsAt (bitsR rfl) (bitsW rfl) (fun _ _ _ => trivial))
  | .readBit (some o), _, _ => exact micro_uses_out (foot_ReadBit fuel (d + 1) hs.small fieldsAt (bitsR rfl) (fun _ => trivial))
  | .readBit none, _, _ => exact micro_uses_out (foot_ReadBitNext fuel (d + 1) hs.small fieldsAt (bitsR rfl) (fun _ _ _ => trivial))
  | .readBits (some o) n, _, _ => exact micro_uses_out (foot_ReadBits fuel d hs.small fieldsAt (bitsR rfl) (fun _ => trivial))
  | .readBits none n, _, _ => exact micro_uses_out (foot_ReadBitsNext fuel d hs.small fieldsAt (bitsR rfl) (fun _ _ _ => trivial))
  | .setBits (some o) data n, _, _ => exact micro_uses (foot_SetBits fuel (d + 1) hs.small fieldsAt (bitsR rfl) (bitsW rfl) trivial)
  | .setBits none data n, _, _ => exact micro_uses (foot_SetBitsNext fuel (d + 1) hs.small fieldsAt (bitsR rfl) (bitsW rfl) (fun _ _ _ => trivial))
  | .clearAll, _, _ => exact micro_uses (foot_ClearAllBits fuel (d + 2) hs.small fieldsAt (allW rfl) trivial)
  | .setAll, _, _ => exact micro_uses (foot_SetAllBits fuel (d + 2) hs.small fieldsAt (allW rfl) trivial)
  | .flipAll, _, _ => exact micro_uses (foot_FlipAllBits fuel (d + 2) hs.small fieldsAt (allR rfl) (allW rfl) trivial)
  | .readBytes _ _, ha, _ => exact nomatch ha
  | .seek _ _, ha, _ => exact nomatch ha
  | .seekBit _ _, ha, _ => exact nomatch ha
  | .after _, ha, _ => exact nomatch ha
  | .afterBit _, ha, _ => exact nomatch ha
  | .alignByte, ha, _ => exact nomatch ha
  | .alignBit, ha, _ => exact nomatch ha
  | .bytes, ha, _ => exact nomatch ha
  | .capacity, ha, _ => exact nomatch ha
  | .bitCapacity, ha, _ => exact nomatch ha
  | .offset, ha, _ => exact nomatch ha
  | .bitOffset, ha, _ => exact nomatch ha
  | .grow _, ha, _ => exact nomatch hp
  | .refresh, ha, _ => exact nomatch hp
  | .reset, ha, _ => exact nomatch hp

end Crunch.Src.V2Mini
