import Verif.Src.Link.V3Buffer1
import Verif.Src.Link.V3Buffer2
import Verif.Src.Link.V3Buffer3

/-! v3/buffer.generated.go: the functions of the file.  Written by tools/src_embed.py. -/

namespace Crunch.Src.V3Buffer

set_option maxRecDepth 4096 in
theorem link : compileAll text = some funs := by
  exact compileAll_cons link_0 <| compileAll_cons link_NewBuffer <| compileAll_cons link_ReadBit <| compileAll_cons link_ReadBitNext <| compileAll_cons link_ReadBits <| compileAll_cons link_ReadBitsNext <| compileAll_cons link_SetBit <| compileAll_cons link_SetBitNext <| compileAll_cons link_ClearBit <| compileAll_cons link_ClearBitNext <| compileAll_cons link_SetBits <| compileAll_cons link_SetBitsNext <| compileAll_cons link_FlipBit <| compileAll_cons link_FlipBitNext <| compileAll_cons link_ClearAllBits <| compileAll_cons link_SetAllBits <| compileAll_cons link_FlipAllBits <| compileAll_cons link_SeekBit <| compileAll_cons link_AfterBit <| compileAll_cons link_AlignBit <| compileAll_cons link_WriteBytes <| compileAll_cons link_WriteBytesNext <| compileAll_cons link_WriteByte <| compileAll_cons link_WriteByteNext <| compileAll_cons link_WriteU16LE <| compileAll_cons link_WriteU16LENext <| compileAll_cons link_WriteU16BE <| compileAll_cons link_WriteU16BENext <| compileAll_cons link_WriteU32LE <| compileAll_cons link_WriteU32LENext <| compileAll_cons link_WriteU32BE <| compileAll_cons link_WriteU32BENext <| compileAll_cons link_WriteU64LE <| compileAll_cons link_WriteU64LENext <| compileAll_cons link_WriteU64BE <| compileAll_cons link_WriteU64BENext <| compileAll_cons link_WriteI16LE <| compileAll_cons link_WriteI16LENext <| compileAll_cons link_WriteI16BE <| compileAll_cons link_WriteI16BENext <| compileAll_cons link_WriteI32LE <| compileAll_cons link_WriteI32LENext <| compileAll_cons link_WriteI32BE <| compileAll_cons link_WriteI32BENext <| compileAll_cons link_WriteI64LE <| compileAll_cons link_WriteI64LENext <| compileAll_cons link_WriteI64BE <| compileAll_cons link_WriteI64BENext <| compileAll_cons link_WriteF32LE <| compileAll_cons link_WriteF32LENext <| compileAll_cons link_WriteF32BE <| compileAll_cons link_WriteF32BENext <| compileAll_cons link_WriteF64LE <| compileAll_cons link_WriteF64LENext <| compileAll_cons link_WriteF64BE <| compileAll_cons link_WriteF64BENext <| compileAll_cons link_ReadBytes <| compileAll_cons link_ReadBytesNext <| compileAll_cons link_ReadByte <| compileAll_cons link_ReadByteNext <| compileAll_cons link_ReadU16LE <| compileAll_cons link_ReadU16LENext <| compileAll_cons link_ReadU16BE <| compileAll_cons link_ReadU16BENext <| compileAll_cons link_ReadU32LE <| compileAll_cons link_ReadU32LENext <| compileAll_cons link_ReadU32BE <| compileAll_cons link_ReadU32BENext <| compileAll_cons link_ReadU64LE <| compileAll_cons link_ReadU64LENext <| compileAll_cons link_ReadU64BE <| compileAll_cons link_ReadU64BENext <| compileAll_cons link_ReadI16LE <| compileAll_cons link_ReadI16LENext <| compileAll_cons link_ReadI16BE <| compileAll_cons link_ReadI16BENext <| compileAll_cons link_ReadI32LE <| compileAll_cons link_ReadI32LENext <| compileAll_cons link_ReadI32BE <| compileAll_cons link_ReadI32BENext <| compileAll_cons link_ReadI64LE <| compileAll_cons link_ReadI64LENext <| compileAll_cons link_ReadI64BE <| compileAll_cons link_ReadI64BENext <| compileAll_cons link_ReadF32LE <| compileAll_cons link_ReadF32LENext <| compileAll_cons link_ReadF32BE <| compileAll_cons link_ReadF32BENext <| compileAll_cons link_ReadF64LE <| compileAll_cons link_ReadF64LENext <| compileAll_cons link_ReadF64BE <| compileAll_cons link_ReadF64BENext <| compileAll_cons link_SeekByte <| compileAll_cons link_AfterByte <| compileAll_cons link_AlignByte <| compileAll_cons link_TruncateLeft <| compileAll_cons link_TruncateRight <| compileAll_cons link_Grow <| compileAll_cons link_Refresh <| compileAll_cons link_Reset <| compileAll_cons link_Bytes <| compileAll_cons link_ByteCapacity <| compileAll_cons link_BitCapacity <| compileAll_cons link_ByteOffset <| compileAll_cons link_BitOffset <| rfl

end Crunch.Src.V3Buffer
