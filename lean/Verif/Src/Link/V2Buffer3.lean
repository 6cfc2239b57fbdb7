import Verif.Src.Text.V2Buffer

/-! v2/buffer.go: the syntax of its functions is that of its text.  Written by tools/src_embed.py. -/

namespace Crunch.Src.V2Buffer

theorem link_WriteBytesNext : compile text_WriteBytesNext = some [fun_WriteBytesNext] := by decide +kernel
theorem link_WriteU16LENext : compile text_WriteU16LENext = some [fun_WriteU16LENext] := by decide +kernel
theorem link_WriteU16BENext : compile text_WriteU16BENext = some [fun_WriteU16BENext] := by decide +kernel
theorem link_WriteU32LENext : compile text_WriteU32LENext = some [fun_WriteU32LENext] := by decide +kernel
theorem link_WriteU32BENext : compile text_WriteU32BENext = some [fun_WriteU32BENext] := by decide +kernel
theorem link_WriteU64LENext : compile text_WriteU64LENext = some [fun_WriteU64LENext] := by decide +kernel
theorem link_WriteU64BENext : compile text_WriteU64BENext = some [fun_WriteU64BENext] := by decide +kernel
theorem link_ReadBit : compile text_ReadBit = some [fun_ReadBit] := by decide +kernel
theorem link_ReadBits : compile text_ReadBits = some [fun_ReadBits] := by decide +kernel
theorem link_ReadBitNext : compile text_ReadBitNext = some [fun_ReadBitNext] := by decide +kernel
theorem link_ReadBitsNext : compile text_ReadBitsNext = some [fun_ReadBitsNext] := by decide +kernel
theorem link_SetBit : compile text_SetBit = some [fun_SetBit] := by decide +kernel
theorem link_SetBits : compile text_SetBits = some [fun_SetBits] := by decide +kernel
theorem link_SetBitNext : compile text_SetBitNext = some [fun_SetBitNext] := by decide +kernel
theorem link_SetBitsNext : compile text_SetBitsNext = some [fun_SetBitsNext] := by decide +kernel
theorem link_FlipBit : compile text_FlipBit = some [fun_FlipBit] := by decide +kernel
theorem link_FlipBitNext : compile text_FlipBitNext = some [fun_FlipBitNext] := by decide +kernel
theorem link_ClearAllBits : compile text_ClearAllBits = some [fun_ClearAllBits] := by decide +kernel
theorem link_SetAllBits : compile text_SetAllBits = some [fun_SetAllBits] := by decide +kernel
theorem link_FlipAllBits : compile text_FlipAllBits = some [fun_FlipAllBits] := by decide +kernel

end Crunch.Src.V2Buffer
