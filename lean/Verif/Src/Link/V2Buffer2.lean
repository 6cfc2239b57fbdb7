import Verif.Src.Text.V2Buffer

/-! v2/buffer.go: the syntax of its functions is that of its text.  Written by tools/src_embed.py. -/

namespace Crunch.Src.V2Buffer

theorem link_Offset : compile text_Offset = some [fun_Offset] := by decide +kernel
theorem link_BitOffset : compile text_BitOffset = some [fun_BitOffset] := by decide +kernel
theorem link_Refresh : compile text_Refresh = some [fun_Refresh] := by decide +kernel
theorem link_Reset : compile text_Reset = some [fun_Reset] := by decide +kernel
theorem link_Grow : compile text_Grow = some [fun_Grow] := by decide +kernel
theorem link_Seek : compile text_Seek = some [fun_Seek] := by decide +kernel
theorem link_SeekBit : compile text_SeekBit = some [fun_SeekBit] := by decide +kernel
theorem link_AlignBit : compile text_AlignBit = some [fun_AlignBit] := by decide +kernel
theorem link_AlignByte : compile text_AlignByte = some [fun_AlignByte] := by decide +kernel
theorem link_After : compile text_After = some [fun_After] := by decide +kernel
theorem link_AfterBit : compile text_AfterBit = some [fun_AfterBit] := by decide +kernel
theorem link_ReadByte : compile text_ReadByte = some [fun_ReadByte] := by decide +kernel
theorem link_ReadBytes : compile text_ReadBytes = some [fun_ReadBytes] := by decide +kernel
theorem link_ReadU16LE : compile text_ReadU16LE = some [fun_ReadU16LE] := by decide +kernel
theorem link_ReadU16BE : compile text_ReadU16BE = some [fun_ReadU16BE] := by decide +kernel
theorem link_ReadU32LE : compile text_ReadU32LE = some [fun_ReadU32LE] := by decide +kernel
theorem link_ReadU32BE : compile text_ReadU32BE = some [fun_ReadU32BE] := by decide +kernel
theorem link_ReadU64LE : compile text_ReadU64LE = some [fun_ReadU64LE] := by decide +kernel
theorem link_ReadU64BE : compile text_ReadU64BE = some [fun_ReadU64BE] := by decide +kernel
theorem link_ReadByteNext : compile text_ReadByteNext = some [fun_ReadByteNext] := by decide +kernel
theorem link_ReadBytesNext : compile text_ReadBytesNext = some [fun_ReadBytesNext] := by decide +kernel
theorem link_ReadU16LENext : compile text_ReadU16LENext = some [fun_ReadU16LENext] := by decide +kernel
theorem link_ReadU16BENext : compile text_ReadU16BENext = some [fun_ReadU16BENext] := by decide +kernel
theorem link_ReadU32LENext : compile text_ReadU32LENext = some [fun_ReadU32LENext] := by decide +kernel
theorem link_ReadU32BENext : compile text_ReadU32BENext = some [fun_ReadU32BENext] := by decide +kernel
theorem link_ReadU64LENext : compile text_ReadU64LENext = some [fun_ReadU64LENext] := by decide +kernel
theorem link_ReadU64BENext : compile text_ReadU64BENext = some [fun_ReadU64BENext] := by decide +kernel
theorem link_WriteByte : compile text_WriteByte = some [fun_WriteByte] := by decide +kernel
theorem link_WriteBytes : compile text_WriteBytes = some [fun_WriteBytes] := by decide +kernel
theorem link_WriteU16LE : compile text_WriteU16LE = some [fun_WriteU16LE] := by decide +kernel
theorem link_WriteU16BE : compile text_WriteU16BE = some [fun_WriteU16BE] := by decide +kernel
theorem link_WriteU32LE : compile text_WriteU32LE = some [fun_WriteU32LE] := by decide +kernel
theorem link_WriteU32BE : compile text_WriteU32BE = some [fun_WriteU32BE] := by decide +kernel
theorem link_WriteU64LE : compile text_WriteU64LE = some [fun_WriteU64LE] := by decide +kernel
theorem link_WriteU64BE : compile text_WriteU64BE = some [fun_WriteU64BE] := by decide +kernel
theorem link_WriteByteNext : compile text_WriteByteNext = some [fun_WriteByteNext] := by decide +kernel

end Crunch.Src.V2Buffer
