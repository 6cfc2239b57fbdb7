import Verif.Src.Text.V1Mini

/-! v1/minibuf.go: the syntax of its functions is that of its text.  Written by tools/src_embed.py. -/

namespace Crunch.Src.V1Mini

theorem link_0 : compile text_0 = some [] := by decide +kernel
theorem link_NewMiniBuffer : compile text_NewMiniBuffer = some [fun_NewMiniBuffer] := by decide +kernel
theorem link_readbit : compile text_readbit = some [fun_readbit] := by decide +kernel
theorem link_readbits : compile text_readbits = some [fun_readbits] := by decide +kernel
theorem link_setbit : compile text_setbit = some [fun_setbit] := by decide +kernel
theorem link_setbits : compile text_setbits = some [fun_setbits] := by decide +kernel
theorem link_flipbit : compile text_flipbit = some [fun_flipbit] := by decide +kernel
theorem link_clearallbits : compile text_clearallbits = some [fun_clearallbits] := by decide +kernel
theorem link_setallbits : compile text_setallbits = some [fun_setallbits] := by decide +kernel
theorem link_flipallbits : compile text_flipallbits = some [fun_flipallbits] := by decide +kernel
theorem link_seekbit : compile text_seekbit = some [fun_seekbit] := by decide +kernel
theorem link_afterbit : compile text_afterbit = some [fun_afterbit] := by decide +kernel
theorem link_write : compile text_write = some [fun_write] := by decide +kernel
theorem link_writeComplex : compile text_writeComplex = some [fun_writeComplex] := by decide +kernel
theorem link_read : compile text_read = some [fun_read] := by decide +kernel
theorem link_readComplex : compile text_readComplex = some [fun_readComplex] := by decide +kernel
theorem link_seek : compile text_seek = some [fun_seek] := by decide +kernel
theorem link_after : compile text_after = some [fun_after] := by decide +kernel
theorem link_grow : compile text_grow = some [fun_grow] := by decide +kernel
theorem link_refresh : compile text_refresh = some [fun_refresh] := by decide +kernel
theorem link_alignbit : compile text_alignbit = some [fun_alignbit] := by decide +kernel
theorem link_alignbyte : compile text_alignbyte = some [fun_alignbyte] := by decide +kernel
theorem link_Bytes : compile text_Bytes = some [fun_Bytes] := by decide +kernel
theorem link_Capacity : compile text_Capacity = some [fun_Capacity] := by decide +kernel
theorem link_BitCapacity : compile text_BitCapacity = some [fun_BitCapacity] := by decide +kernel
theorem link_Offset : compile text_Offset = some [fun_Offset] := by decide +kernel
theorem link_BitOffset : compile text_BitOffset = some [fun_BitOffset] := by decide +kernel
theorem link_Refresh : compile text_Refresh = some [fun_Refresh] := by decide +kernel
theorem link_Grow : compile text_Grow = some [fun_Grow] := by decide +kernel
theorem link_Seek : compile text_Seek = some [fun_Seek] := by decide +kernel
theorem link_SeekBit : compile text_SeekBit = some [fun_SeekBit] := by decide +kernel
theorem link_AlignBit : compile text_AlignBit = some [fun_AlignBit] := by decide +kernel
theorem link_AlignByte : compile text_AlignByte = some [fun_AlignByte] := by decide +kernel
theorem link_After : compile text_After = some [fun_After] := by decide +kernel
theorem link_AfterBit : compile text_AfterBit = some [fun_AfterBit] := by decide +kernel
theorem link_ReadBytes : compile text_ReadBytes = some [fun_ReadBytes] := by decide +kernel

end Crunch.Src.V1Mini
