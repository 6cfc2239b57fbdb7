import Verif.Src.Link.V2Buffer1
import Verif.Src.Link.V2Buffer2
import Verif.Src.Link.V2Buffer3

/-! v2/buffer.go: the functions of the file.  Written by tools/src_embed.py. -/

namespace Crunch.Src.V2Buffer

set_option maxRecDepth 4096 in
theorem link : compileAll text = some funs := by
  exact compileAll_cons link_0 <| compileAll_cons link_NewBuffer <| compileAll_cons link_readbit <| compileAll_cons link_readbits <| compileAll_cons link_setbit <| compileAll_cons link_setbits <| compileAll_cons link_flipbit <| compileAll_cons link_clearallbits <| compileAll_cons link_setallbits <| compileAll_cons link_flipallbits <| compileAll_cons link_seekbit <| compileAll_cons link_afterbit <| compileAll_cons link_write <| compileAll_cons link_writeU16LE <| compileAll_cons link_writeU16BE <| compileAll_cons link_writeU32LE <| compileAll_cons link_writeU32BE <| compileAll_cons link_writeU64LE <| compileAll_cons link_writeU64BE <| compileAll_cons link_read <| compileAll_cons link_readU16LE <| compileAll_cons link_readU16BE <| compileAll_cons link_readU32LE <| compileAll_cons link_readU32BE <| compileAll_cons link_readU64LE <| compileAll_cons link_readU64BE <| compileAll_cons link_seek <| compileAll_cons link_after <| compileAll_cons link_grow <| compileAll_cons link_refresh <| compileAll_cons link_alignbit <| compileAll_cons link_alignbyte <| compileAll_cons link_reset <| compileAll_cons link_Bytes <| compileAll_cons link_Capacity <| compileAll_cons link_BitCapacity <| compileAll_cons link_Offset <| compileAll_cons link_BitOffset <| compileAll_cons link_Refresh <| compileAll_cons link_Reset <| compileAll_cons link_Grow <| compileAll_cons link_Seek <| compileAll_cons link_SeekBit <| compileAll_cons link_AlignBit <| compileAll_cons link_AlignByte <| compileAll_cons link_After <| compileAll_cons link_AfterBit <| compileAll_cons link_ReadByte <| compileAll_cons link_ReadBytes <| compileAll_cons link_ReadU16LE <| compileAll_cons link_ReadU16BE <| compileAll_cons link_ReadU32LE <| compileAll_cons link_ReadU32BE <| compileAll_cons link_ReadU64LE <| compileAll_cons link_ReadU64BE <| compileAll_cons link_ReadByteNext <| compileAll_cons link_ReadBytesNext <| compileAll_cons link_ReadU16LENext <| compileAll_cons link_ReadU16BENext <| compileAll_cons link_ReadU32LENext <| compileAll_cons link_ReadU32BENext <| compileAll_cons link_ReadU64LENext <| compileAll_cons link_ReadU64BENext <| compileAll_cons link_WriteByte <| compileAll_cons link_WriteBytes <| compileAll_cons link_WriteU16LE <| compileAll_cons link_WriteU16BE <| compileAll_cons link_WriteU32LE <| compileAll_cons link_WriteU32BE <| compileAll_cons link_WriteU64LE <| compileAll_cons link_WriteU64BE <| compileAll_cons link_WriteByteNext <| compileAll_cons link_WriteBytesNext <| compileAll_cons link_WriteU16LENext <| compileAll_cons link_WriteU16BENext <| compileAll_cons link_WriteU32LENext <| compileAll_cons link_WriteU32BENext <| compileAll_cons link_WriteU64LENext <| compileAll_cons link_WriteU64BENext <| compileAll_cons link_ReadBit <| compileAll_cons link_ReadBits <| compileAll_cons link_ReadBitNext <| compileAll_cons link_ReadBitsNext <| compileAll_cons link_SetBit <| compileAll_cons link_SetBits <| compileAll_cons link_SetBitNext <| compileAll_cons link_SetBitsNext <| compileAll_cons link_FlipBit <| compileAll_cons link_FlipBitNext <| compileAll_cons link_ClearAllBits <| compileAll_cons link_SetAllBits <| compileAll_cons link_FlipAllBits <| rfl

end Crunch.Src.V2Buffer
