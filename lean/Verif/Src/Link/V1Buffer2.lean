import Verif.Src.Text.V1Buffer

/-! v1/buffer.go: the syntax of its functions is that of its text.  Written by tools/src_embed.py. -/

namespace Crunch.Src.V1Buffer

theorem link_ReadBytes : compile text_ReadBytes = some [fun_ReadBytes] := by decide +kernel
theorem link_ReadComplex : compile text_ReadComplex = some [fun_ReadComplex] := by decide +kernel
theorem link_ReadByteNext : compile text_ReadByteNext = some [fun_ReadByteNext] := by decide +kernel
theorem link_ReadBytesNext : compile text_ReadBytesNext = some [fun_ReadBytesNext] := by decide +kernel
theorem link_ReadComplexNext : compile text_ReadComplexNext = some [fun_ReadComplexNext] := by decide +kernel
theorem link_WriteByte : compile text_WriteByte = some [fun_WriteByte] := by decide +kernel
theorem link_WriteBytes : compile text_WriteBytes = some [fun_WriteBytes] := by decide +kernel
theorem link_WriteComplex : compile text_WriteComplex = some [fun_WriteComplex] := by decide +kernel
theorem link_WriteByteNext : compile text_WriteByteNext = some [fun_WriteByteNext] := by decide +kernel
theorem link_WriteBytesNext : compile text_WriteBytesNext = some [fun_WriteBytesNext] := by decide +kernel
theorem link_WriteComplexNext : compile text_WriteComplexNext = some [fun_WriteComplexNext] := by decide +kernel
theorem link_ReadBit : compile text_ReadBit = some [fun_ReadBit] := by decide +kernel
theorem link_ReadBits : compile text_ReadBits = some [fun_ReadBits] := by decide +kernel
theorem link_ReadBitNext : compile text_ReadBitNext = some [fun_ReadBitNext] := by decide +kernel
theorem link_ReadBitsNext : compile text_ReadBitsNext = some [fun_ReadBitsNext] := by decide +kernel
theorem link_SetBit : compile text_SetBit = some [fun_SetBit] := by decide +kernel
theorem link_SetBits : compile text_SetBits = some [fun_SetBits] := by decide +kernel
theorem link_SetBitNext : compile text_SetBitNext = some [fun_SetBitNext] := by decide +kernel
theorem link_SetBitsNext : compile text_SetBitsNext = some [fun_SetBitsNext] := by decide +kernel
theorem link_FlipBit : compile text_FlipBit = some [fun_FlipBit] := by decide +kernel
theorem link_FlipBitNext : compile text_FlipBitNext = some [fun_FlipBitNext] := by decide +kernel
theorem link_ClearAllBits : compile text_ClearAllBits = some [fun_ClearAllBits] := by decide +kernel
theorem link_SetAllBits : compile text_SetAllBits = some [fun_SetAllBits] := by decide +kernel
theorem link_FlipAllBits : compile text_FlipAllBits = some [fun_FlipAllBits] := by decide +kernel

end Crunch.Src.V1Buffer
