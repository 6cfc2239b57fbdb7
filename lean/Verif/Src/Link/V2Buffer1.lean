import Verif.Src.Text.V2Buffer

/-! v2/buffer.go: the syntax of its functions is that of its text.  Written by tools/src_embed.py. -/

namespace Crunch.Src.V2Buffer

theorem link_0 : compile text_0 = some [] := by decide +kernel
theorem link_NewBuffer : compile text_NewBuffer = some [fun_NewBuffer] := by decide +kernel
theorem link_readbit : compile text_readbit = some [fun_readbit] := by decide +kernel
theorem link_readbits : compile text_readbits = some [fun_readbits] := by decide +kernel
theorem link_setbit : compile text_setbit = some [fun_setbit] := by decide +kernel
theorem link_setbits : compile text_setbits = some [fun_setbits] := by decide +kernel
theorem link_flipbit : compile text_flipbit = some [fun_flipbit] := by decide +kernel
theorem link_clearallbits : compile text_clearallbits = some [fun_clearallbits] := by decide +kernel
theorem link_setallbits : compile text_setallbits = some [fun_setallbits] := by decide +kernel
theorem link_flipallbits : compile text_flipallbits = some [fun_flipallbits] := by decide +kernel
theorem link_seekbit : compile text_seekbit = some [fun_seekbit] := by decide +kernel
theorem link_afterbit : compile text_afterbit = some [fun_afterbit] := by decide +kernel
theorem link_write : compile text_write = some [fun_write] := by decide +kernel
theorem link_writeU16LE : compile text_writeU16LE = some [fun_writeU16LE] := by decide +kernel
theorem link_writeU16BE : compile text_writeU16BE = some [fun_writeU16BE] := by decide +kernel
theorem link_writeU32LE : compile text_writeU32LE = some [fun_writeU32LE] := by decide +kernel
theorem link_writeU32BE : compile text_writeU32BE = some [fun_writeU32BE] := by decide +kernel
theorem link_writeU64LE : compile text_writeU64LE = some [fun_writeU64LE] := by decide +kernel
theorem link_writeU64BE : compile text_writeU64BE = some [fun_writeU64BE] := by decide +kernel
theorem link_read : compile text_read = some [fun_read] := by decide +kernel
theorem link_readU16LE : compile text_readU16LE = some [fun_readU16LE] := by decide +kernel
theorem link_readU16BE : compile text_readU16BE = some [fun_readU16BE] := by decide +kernel
theorem link_readU32LE : compile text_readU32LE = some [fun_readU32LE] := by decide +kernel
theorem link_readU32BE : compile text_readU32BE = some [fun_readU32BE] := by decide +kernel
theorem link_readU64LE : compile text_readU64LE = some [fun_readU64LE] := by decide +kernel
theorem link_readU64BE : compile text_readU64BE = some [fun_readU64BE] := by decide +kernel
theorem link_seek : compile text_seek = some [fun_seek] := by decide +kernel
theorem link_after : compile text_after = some [fun_after] := by decide +kernel
theorem link_grow : compile text_grow = some [fun_grow] := by decide +kernel
theorem link_refresh : compile text_refresh = some [fun_refresh] := by decide +kernel
theorem link_alignbit : compile text_alignbit = some [fun_alignbit] := by decide +kernel
theorem link_alignbyte : compile text_alignbyte = some [fun_alignbyte] := by decide +kernel
theorem link_reset : compile text_reset = some [fun_reset] := by decide +kernel
theorem link_Bytes : compile text_Bytes = some [fun_Bytes] := by decide +kernel
theorem link_Capacity : compile text_Capacity = some [fun_Capacity] := by decide +kernel
theorem link_BitCapacity : compile text_BitCapacity = some [fun_BitCapacity] := by decide +kernel

end Crunch.Src.V2Buffer
