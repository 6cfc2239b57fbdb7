import Verif.Src.Link.V1Buffer1
import Verif.Src.Link.V1Buffer2

/-! v1/buffer.go: the functions of the file.  Written by tools/src_embed.py. -/

namespace Crunch.Src.V1Buffer

set_option maxRecDepth 4096 in
theorem link : compileAll text = some funs := by
  exact compileAll_cons link_0 <| compileAll_cons link_NewBuffer <| compileAll_cons link_readbit <| compileAll_cons link_readbits <| compileAll_cons link_setbit <| compileAll_cons link_setbits <| compileAll_cons link_flipbit <| compileAll_cons link_clearallbits <| compileAll_cons link_setallbits <| compileAll_cons link_flipallbits <| compileAll_cons link_seekbit <| compileAll_cons link_afterbit <| compileAll_cons link_write <| compileAll_cons link_writeComplex <| compileAll_cons link_read <| compileAll_cons link_readComplex <| compileAll_cons link_seek <| compileAll_cons link_after <| compileAll_cons link_grow <| compileAll_cons link_refresh <| compileAll_cons link_alignbit <| compileAll_cons link_alignbyte <| compileAll_cons link_Bytes <| compileAll_cons link_Capacity <| compileAll_cons link_BitCapacity <| compileAll_cons link_Offset <| compileAll_cons link_BitOffset <| compileAll_cons link_Refresh <| compileAll_cons link_Grow <| compileAll_cons link_Seek <| compileAll_cons link_SeekBit <| compileAll_cons link_AlignBit <| compileAll_cons link_AlignByte <| compileAll_cons link_After <| compileAll_cons link_AfterBit <| compileAll_cons link_ReadByte <| compileAll_cons link_ReadBytes <| compileAll_cons link_ReadComplex <| compileAll_cons link_ReadByteNext <| compileAll_cons link_ReadBytesNext <| compileAll_cons link_ReadComplexNext <| compileAll_cons link_WriteByte <| compileAll_cons link_WriteBytes <| compileAll_cons link_WriteComplex <| compileAll_cons link_WriteByteNext <| compileAll_cons link_WriteBytesNext <| compileAll_cons link_WriteComplexNext <| compileAll_cons link_ReadBit <| compileAll_cons link_ReadBits <| compileAll_cons link_ReadBitNext <| compileAll_cons link_ReadBitsNext <| compileAll_cons link_SetBit <| compileAll_cons link_SetBits <| compileAll_cons link_SetBitNext <| compileAll_cons link_SetBitsNext <| compileAll_cons link_FlipBit <| compileAll_cons link_FlipBitNext <| compileAll_cons link_ClearAllBits <| compileAll_cons link_SetAllBits <| compileAll_cons link_FlipAllBits <| rfl

end Crunch.Src.V1Buffer
