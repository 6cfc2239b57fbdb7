import Verif.Src.Text.V3Buffer

/-! v3/buffer.generated.go: the syntax of its functions is that of its text.  Written by tools/src_embed.py. -/

namespace Crunch.Src.V3Buffer

theorem link_WriteI16LE : compile text_WriteI16LE = some [fun_WriteI16LE] := by decide +kernel
theorem link_WriteI16LENext : compile text_WriteI16LENext = some [fun_WriteI16LENext] := by decide +kernel
theorem link_WriteI16BE : compile text_WriteI16BE = some [fun_WriteI16BE] := by decide +kernel
theorem link_WriteI16BENext : compile text_WriteI16BENext = some [fun_WriteI16BENext] := by decide +kernel
theorem link_WriteI32LE : compile text_WriteI32LE = some [fun_WriteI32LE] := by decide +kernel
theorem link_WriteI32LENext : compile text_WriteI32LENext = some [fun_WriteI32LENext] := by decide +kernel
theorem link_WriteI32BE : compile text_WriteI32BE = some [fun_WriteI32BE] := by decide +kernel
theorem link_WriteI32BENext : compile text_WriteI32BENext = some [fun_WriteI32BENext] := by decide +kernel
theorem link_WriteI64LE : compile text_WriteI64LE = some [fun_WriteI64LE] := by decide +kernel
theorem link_WriteI64LENext : compile text_WriteI64LENext = some [fun_WriteI64LENext] := by decide +kernel
theorem link_WriteI64BE : compile text_WriteI64BE = some [fun_WriteI64BE] := by decide +kernel
theorem link_WriteI64BENext : compile text_WriteI64BENext = some [fun_WriteI64BENext] := by decide +kernel
theorem link_WriteF32LE : compile text_WriteF32LE = some [fun_WriteF32LE] := by decide +kernel
theorem link_WriteF32LENext : compile text_WriteF32LENext = some [fun_WriteF32LENext] := by decide +kernel
theorem link_WriteF32BE : compile text_WriteF32BE = some [fun_WriteF32BE] := by decide +kernel
theorem link_WriteF32BENext : compile text_WriteF32BENext = some [fun_WriteF32BENext] := by decide +kernel
theorem link_WriteF64LE : compile text_WriteF64LE = some [fun_WriteF64LE] := by decide +kernel
theorem link_WriteF64LENext : compile text_WriteF64LENext = some [fun_WriteF64LENext] := by decide +kernel
theorem link_WriteF64BE : compile text_WriteF64BE = some [fun_WriteF64BE] := by decide +kernel
theorem link_WriteF64BENext : compile text_WriteF64BENext = some [fun_WriteF64BENext] := by decide +kernel
theorem link_ReadBytes : compile text_ReadBytes = some [fun_ReadBytes] := by decide +kernel
theorem link_ReadBytesNext : compile text_ReadBytesNext = some [fun_ReadBytesNext] := by decide +kernel
theorem link_ReadByte : compile text_ReadByte = some [fun_ReadByte] := by decide +kernel
theorem link_ReadByteNext : compile text_ReadByteNext = some [fun_ReadByteNext] := by decide +kernel
theorem link_ReadU16LE : compile text_ReadU16LE = some [fun_ReadU16LE] := by decide +kernel
theorem link_ReadU16LENext : compile text_ReadU16LENext = some [fun_ReadU16LENext] := by decide +kernel
theorem link_ReadU16BE : compile text_ReadU16BE = some [fun_ReadU16BE] := by decide +kernel
theorem link_ReadU16BENext : compile text_ReadU16BENext = some [fun_ReadU16BENext] := by decide +kernel
theorem link_ReadU32LE : compile text_ReadU32LE = some [fun_ReadU32LE] := by decide +kernel
theorem link_ReadU32LENext : compile text_ReadU32LENext = some [fun_ReadU32LENext] := by decide +kernel
theorem link_ReadU32BE : compile text_ReadU32BE = some [fun_ReadU32BE] := by decide +kernel
theorem link_ReadU32BENext : compile text_ReadU32BENext = some [fun_ReadU32BENext] := by decide +kernel
theorem link_ReadU64LE : compile text_ReadU64LE = some [fun_ReadU64LE] := by decide +kernel
theorem link_ReadU64LENext : compile text_ReadU64LENext = some [fun_ReadU64LENext] := by decide +kernel
theorem link_ReadU64BE : compile text_ReadU64BE = some [fun_ReadU64BE] := by decide +kernel
theorem link_ReadU64BENext : compile text_ReadU64BENext = some [fun_ReadU64BENext] := by decide +kernel

end Crunch.Src.V3Buffer
