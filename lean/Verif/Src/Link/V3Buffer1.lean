import Verif.Src.Text.V3Buffer

/-! v3/buffer.generated.go: the syntax of its functions is that of its text.  Written by tools/src_embed.py. -/

namespace Crunch.Src.V3Buffer

theorem link_0 : compile text_0 = some [] := by decide +kernel
theorem link_NewBuffer : compile text_NewBuffer = some [fun_NewBuffer] := by decide +kernel
theorem link_ReadBit : compile text_ReadBit = some [fun_ReadBit] := by decide +kernel
theorem link_ReadBitNext : compile text_ReadBitNext = some [fun_ReadBitNext] := by decide +kernel
theorem link_ReadBits : compile text_ReadBits = some [fun_ReadBits] := by decide +kernel
theorem link_ReadBitsNext : compile text_ReadBitsNext = some [fun_ReadBitsNext] := by decide +kernel
theorem link_SetBit : compile text_SetBit = some [fun_SetBit] := by decide +kernel
theorem link_SetBitNext : compile text_SetBitNext = some [fun_SetBitNext] := by decide +kernel
theorem link_ClearBit : compile text_ClearBit = some [fun_ClearBit] := by decide +kernel
theorem link_ClearBitNext : compile text_ClearBitNext = some [fun_ClearBitNext] := by decide +kernel
theorem link_SetBits : compile text_SetBits = some [fun_SetBits] := by decide +kernel
theorem link_SetBitsNext : compile text_SetBitsNext = some [fun_SetBitsNext] := by decide +kernel
theorem link_FlipBit : compile text_FlipBit = some [fun_FlipBit] := by decide +kernel
theorem link_FlipBitNext : compile text_FlipBitNext = some [fun_FlipBitNext] := by decide +kernel
theorem link_ClearAllBits : compile text_ClearAllBits = some [fun_ClearAllBits] := by decide +kernel
theorem link_SetAllBits : compile text_SetAllBits = some [fun_SetAllBits] := by decide +kernel
theorem link_FlipAllBits : compile text_FlipAllBits = some [fun_FlipAllBits] := by decide +kernel
theorem link_SeekBit : compile text_SeekBit = some [fun_SeekBit] := by decide +kernel
theorem link_AfterBit : compile text_AfterBit = some [fun_AfterBit] := by decide +kernel
theorem link_AlignBit : compile text_AlignBit = some [fun_AlignBit] := by decide +kernel
theorem link_WriteBytes : compile text_WriteBytes = some [fun_WriteBytes] := by decide +kernel
theorem link_WriteBytesNext : compile text_WriteBytesNext = some [fun_WriteBytesNext] := by decide +kernel
theorem link_WriteByte : compile text_WriteByte = some [fun_WriteByte] := by decide +kernel
theorem link_WriteByteNext : compile text_WriteByteNext = some [fun_WriteByteNext] := by decide +kernel
theorem link_WriteU16LE : compile text_WriteU16LE = some [fun_WriteU16LE] := by decide +kernel
theorem link_WriteU16LENext : compile text_WriteU16LENext = some [fun_WriteU16LENext] := by decide +kernel
theorem link_WriteU16BE : compile text_WriteU16BE = some [fun_WriteU16BE] := by decide +kernel
theorem link_WriteU16BENext : compile text_WriteU16BENext = some [fun_WriteU16BENext] := by decide +kernel
theorem link_WriteU32LE : compile text_WriteU32LE = some [fun_WriteU32LE] := by decide +kernel
theorem link_WriteU32LENext : compile text_WriteU32LENext = some [fun_WriteU32LENext] := by decide +kernel
theorem link_WriteU32BE : compile text_WriteU32BE = some [fun_WriteU32BE] := by decide +kernel
theorem link_WriteU32BENext : compile text_WriteU32BENext = some [fun_WriteU32BENext] := by decide +kernel
theorem link_WriteU64LE : compile text_WriteU64LE = some [fun_WriteU64LE] := by decide +kernel
theorem link_WriteU64LENext : compile text_WriteU64LENext = some [fun_WriteU64LENext] := by decide +kernel
theorem link_WriteU64BE : compile text_WriteU64BE = some [fun_WriteU64BE] := by decide +kernel
theorem link_WriteU64BENext : compile text_WriteU64BENext = some [fun_WriteU64BENext] := by decide +kernel

end Crunch.Src.V3Buffer
