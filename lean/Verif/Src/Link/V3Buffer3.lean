import Verif.Src.Text.V3Buffer

/-! v3/buffer.generated.go: the syntax of its functions is that of its text.  Written by tools/src_embed.py. -/

namespace Crunch.Src.V3Buffer

theorem link_ReadI16LE : compile text_ReadI16LE = some [fun_ReadI16LE] := by decide +kernel
theorem link_ReadI16LENext : compile text_ReadI16LENext = some [fun_ReadI16LENext] := by decide +kernel
theorem link_ReadI16BE : compile text_ReadI16BE = some [fun_ReadI16BE] := by decide +kernel
theorem link_ReadI16BENext : compile text_ReadI16BENext = some [fun_ReadI16BENext] := by decide +kernel
theorem link_ReadI32LE : compile text_ReadI32LE = some [fun_ReadI32LE] := by decide +kernel
theorem link_ReadI32LENext : compile text_ReadI32LENext = some [fun_ReadI32LENext] := by decide +kernel
theorem link_ReadI32BE : compile text_ReadI32BE = some [fun_ReadI32BE] := by decide +kernel
theorem link_ReadI32BENext : compile text_ReadI32BENext = some [fun_ReadI32BENext] := by decide +kernel
theorem link_ReadI64LE : compile text_ReadI64LE = some [fun_ReadI64LE] := by decide +kernel
theorem link_ReadI64LENext : compile text_ReadI64LENext = some [fun_ReadI64LENext] := by decide +kernel
theorem link_ReadI64BE : compile text_ReadI64BE = some [fun_ReadI64BE] := by decide +kernel
theorem link_ReadI64BENext : compile text_ReadI64BENext = some [fun_ReadI64BENext] := by decide +kernel
theorem link_ReadF32LE : compile text_ReadF32LE = some [fun_ReadF32LE] := by decide +kernel
theorem link_ReadF32LENext : compile text_ReadF32LENext = some [fun_ReadF32LENext] := by decide +kernel
theorem link_ReadF32BE : compile text_ReadF32BE = some [fun_ReadF32BE] := by decide +kernel
theorem link_ReadF32BENext : compile text_ReadF32BENext = some [fun_ReadF32BENext] := by decide +kernel
theorem link_ReadF64LE : compile text_ReadF64LE = some [fun_ReadF64LE] := by decide +kernel
theorem link_ReadF64LENext : compile text_ReadF64LENext = some [fun_ReadF64LENext] := by decide +kernel
theorem link_ReadF64BE : compile text_ReadF64BE = some [fun_ReadF64BE] := by decide +kernel
theorem link_ReadF64BENext : compile text_ReadF64BENext = some [fun_ReadF64BENext] := by decide +kernel
theorem link_SeekByte : compile text_SeekByte = some [fun_SeekByte] := by decide +kernel
theorem link_AfterByte : compile text_AfterByte = some [fun_AfterByte] := by decide +kernel
theorem link_AlignByte : compile text_AlignByte = some [fun_AlignByte] := by decide +kernel
theorem link_TruncateLeft : compile text_TruncateLeft = some [fun_TruncateLeft] := by decide +kernel
theorem link_TruncateRight : compile text_TruncateRight = some [fun_TruncateRight] := by decide +kernel
theorem link_Grow : compile text_Grow = some [fun_Grow] := by decide +kernel
theorem link_Refresh : compile text_Refresh = some [fun_Refresh] := by decide +kernel
theorem link_Reset : compile text_Reset = some [fun_Reset] := by decide +kernel
theorem link_Bytes : compile text_Bytes = some [fun_Bytes] := by decide +kernel
theorem link_ByteCapacity : compile text_ByteCapacity = some [fun_ByteCapacity] := by decide +kernel
theorem link_BitCapacity : compile text_BitCapacity = some [fun_BitCapacity] := by decide +kernel
theorem link_ByteOffset : compile text_ByteOffset = some [fun_ByteOffset] := by decide +kernel
theorem link_BitOffset : compile text_BitOffset = some [fun_BitOffset] := by decide +kernel

end Crunch.Src.V3Buffer
