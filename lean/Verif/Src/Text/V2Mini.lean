import Verif.Src.Sem

/-!
# v2/minibuf.go

Written by tools/src_embed.py.
-/

namespace Crunch.Src.V2Mini

open Crunch.Gen (Str)

/-- v2/minibuf.go:1-27 -/
def text_0 : List Str := [
  str% "/*",
  str% "",
  str% "crunch - utilities for taking bytes out of things",
  str% "Copyright (c) 2019-2020 superwhiskers <whiskerdev@protonmail.com>",
  str% "",
  str% "This Source Code Form is subject to the terms of the Mozilla Public",
  str% "License, v. 2.0. If a copy of the MPL was not distributed with this",
  str% "file, You can obtain one at https://mozilla.org/MPL/2.0/.",
  str% "",
  str% "*/",
  str% "",
  str% "package v2",
  str% "",
  str% "import \"sync\"",
  str% "",
  str% "// MiniBuffer implements a fast and low-memory buffer type in go that handles multiple types of data easily. it is not safe",
  str% "// for concurrent usage out of the box, you are required to handle that yourself by calling the Lock and Unlock methods on it.",
  str% "// it also lacks the overwrite/read and underwrite/read checks that Buffer has",
  str% "type MiniBuffer struct {",
  str% "\tbuf  []byte",
  str% "\toff  int64",
  str% "\tcap  int64",
  str% "\tboff int64",
  str% "\tbcap int64",
  str% "",
  str% "\tsync.Mutex",
  str% "}"]

/-- v2/minibuf.go:28-57 -/
def text_NewMiniBuffer : List Str := [
  str% "",
  str% "// NewMiniBuffer initilaizes a new MiniBuffer with the provided byte slice(s) stored inside in the order provided",
  str% "func NewMiniBuffer(out **MiniBuffer, slices ...[]byte) {",
  str% "",
  str% "\t*out = &MiniBuffer{",
  str% "\t\tbuf:  []byte{},",
  str% "\t\toff:  0x00,",
  str% "\t\tboff: 0x00,",
  str% "\t}",
  str% "",
  str% "\tswitch len(slices) {",
  str% "",
  str% "\tcase 0:",
  str% "\t\tbreak",
  str% "",
  str% "\tcase 1:",
  str% "\t\t(*out).buf = slices[0]",
  str% "",
  str% "\tdefault:",
  str% "\t\tfor _, s := range slices {",
  str% "",
  str% "\t\t\t(*out).buf = append((*out).buf, s...)",
  str% "",
  str% "\t\t}",
  str% "",
  str% "\t}",
  str% "",
  str% "\t(*out).refresh()",
  str% "",
  str% "}"]

/-- v2/minibuf.go:28-57 -/
def fun_NewMiniBuffer : Fun := ⟨(str% "NewMiniBuffer"), [none, none], none, 3, (.cons (.new (.bytes .nil) (.lit 0) (.lit 0) (.lit 0) (.lit 0)) (.cons (.switch (.len (.var 1)) (.cons (.case 0 (.cons .brk .nil)) (.cons (.case 1 (.cons (.setBuf (.index (.var 1) (.lit 0))) .nil)) (.cons (.default (.cons (.rangeVal 2 (.var 1) (.cons (.setBuf (.append .buf (.var 2))) .nil)) .nil)) .nil)))) (.cons (.expr (.call (str% "refresh") .nil)) .nil)))⟩

/-- v2/minibuf.go:58-68 -/
def text_readbit : List Str := [
  str% "",
  str% "/* internal use methods */",
  str% "",
  str% "/* bitfield methods */",
  str% "",
  str% "// readbit reads a bit from the bitfield at the specified offset",
  str% "func (b *MiniBuffer) readbit(out *byte, off int64) {",
  str% "",
  str% "\t*out = atob((b.buf[off/8] & (1 << uint(7-(off%8)))) != 0)",
  str% "",
  str% "}"]

/-- v2/minibuf.go:58-68 -/
def fun_readbit : Fun := ⟨(str% "readbit"), [none, some .i64], none, 2, (.cons (.setOut (.call (str% "atob") (.cons (.bin .ne (.bin .and (.index .buf (.bin .div (.var 1) (.lit 8))) (.bin .shl (.lit 1) (.conv .u64 (.bin .sub (.lit 7) (.bin .rem (.var 1) (.lit 8)))))) (.lit 0)) .nil))) .nil)⟩

/-- v2/minibuf.go:69-90 -/
def text_readbits : List Str := [
  str% "",
  str% "// readbits reads n bits from the bitfield at the specified offset",
  str% "func (b *MiniBuffer) readbits(out *uint64, off, n int64) {",
  str% "",
  str% "\tvar (",
  str% "\t\tbout byte",
  str% "",
  str% "\t\ti = int64(0)",
  str% "\t)",
  str% "\t{",
  str% "\tread_loop:",
  str% "\t\tb.readbit(&bout, off+i)",
  str% "\t\t*out = (*out << uint64(1)) | uint64(bout)",
  str% "\t\ti++",
  str% "\t\tif i < n {",
  str% "",
  str% "\t\t\tgoto read_loop",
  str% "",
  str% "\t\t}",
  str% "\t}",
  str% "",
  str% "}"]

/-- v2/minibuf.go:69-90 -/
def fun_readbits : Fun := ⟨(str% "readbits"), [none, some .i64, some .i64], none, 5, (.cons (.zero 3 .u8) (.cons (.set 4 (.conv .i64 (.lit 0))) (.cons (.block (str% "read_loop") (.cons (.callAddr (str% "readbit") 3 (.cons (.bin .add (.var 1) (.var 4)) .nil)) (.cons (.setOut (.bin .or (.bin .shl .out (.conv .u64 (.lit 1))) (.conv .u64 (.var 3)))) (.cons (.set 4 (.bin .add (.var 4) (.lit 1))) (.cons (.ifs (.bin .lt (.var 4) (.var 2)) (.cons (.goto (str% "read_loop")) .nil) .nil) .nil))))) .nil)))⟩

/-- v2/minibuf.go:91-108 -/
def text_setbit : List Str := [
  str% "",
  str% "// setbit sets a bit in the bitfield to the specified value",
  str% "func (b *MiniBuffer) setbit(off int64, data byte) {",
  str% "",
  str% "\tswitch data {",
  str% "",
  str% "\tcase 0:",
  str% "\t\tb.buf[off/8] &= ^(1 << uint(7-(off%8)))",
  str% "",
  str% "\tcase 1:",
  str% "\t\tb.buf[off/8] |= (1 << uint(7-(off%8)))",
  str% "",
  str% "\tdefault:",
  str% "\t\tpanic(BufferInvalidBitError)",
  str% "",
  str% "\t}",
  str% "",
  str% "}"]

/-- v2/minibuf.go:91-108 -/
def fun_setbit : Fun := ⟨(str% "setbit"), [some .i64, some .u8], none, 2, (.cons (.switch (.var 1) (.cons (.case 0 (.cons (.setBufAt (.bin .div (.var 0) (.lit 8)) (.bin .and (.index .buf (.bin .div (.var 0) (.lit 8))) (.compl (.bin .shl (.lit 1) (.conv .u64 (.bin .sub (.lit 7) (.bin .rem (.var 0) (.lit 8)))))))) .nil)) (.cons (.case 1 (.cons (.setBufAt (.bin .div (.var 0) (.lit 8)) (.bin .or (.index .buf (.bin .div (.var 0) (.lit 8))) (.bin .shl (.lit 1) (.conv .u64 (.bin .sub (.lit 7) (.bin .rem (.var 0) (.lit 8))))))) .nil)) (.cons (.default (.cons (.panic (str% "BufferInvalidBitError")) .nil)) .nil)))) .nil)⟩

/-- v2/minibuf.go:109-126 -/
def text_setbits : List Str := [
  str% "",
  str% "// setbits sets n bits in the bitfield to the specified value at the specified offset",
  str% "func (b *MiniBuffer) setbits(off int64, data uint64, n int64) {",
  str% "",
  str% "\ti := int64(0)",
  str% "",
  str% "\t{",
  str% "\twrite_loop:",
  str% "\t\tb.setbit(off+i, byte((data>>uint64(n-i-1))&1))",
  str% "\t\ti++",
  str% "\t\tif i < n {",
  str% "",
  str% "\t\t\tgoto write_loop",
  str% "",
  str% "\t\t}",
  str% "\t}",
  str% "",
  str% "}"]

/-- v2/minibuf.go:109-126 -/
def fun_setbits : Fun := ⟨(str% "setbits"), [some .i64, some .u64, some .i64], none, 4, (.cons (.set 3 (.conv .i64 (.lit 0))) (.cons (.block (str% "write_loop") (.cons (.expr (.call (str% "setbit") (.cons (.bin .add (.var 0) (.var 3)) (.cons (.conv .u8 (.bin .and (.bin .shr (.var 1) (.conv .u64 (.bin .sub (.bin .sub (.var 2) (.var 3)) (.lit 1)))) (.lit 1))) .nil)))) (.cons (.set 3 (.bin .add (.var 3) (.lit 1))) (.cons (.ifs (.bin .lt (.var 3) (.var 2)) (.cons (.goto (str% "write_loop")) .nil) .nil) .nil)))) .nil))⟩

/-- v2/minibuf.go:127-133 -/
def text_flipbit : List Str := [
  str% "",
  str% "// flipbit flips a bit in the bitfield",
  str% "func (b *MiniBuffer) flipbit(off int64) {",
  str% "",
  str% "\tb.buf[off/8] ^= (1 << uint(7-(off%8)))",
  str% "",
  str% "}"]

/-- v2/minibuf.go:127-133 -/
def fun_flipbit : Fun := ⟨(str% "flipbit"), [some .i64], none, 1, (.cons (.setBufAt (.bin .div (.var 0) (.lit 8)) (.bin .xor (.index .buf (.bin .div (.var 0) (.lit 8))) (.bin .shl (.lit 1) (.conv .u64 (.bin .sub (.lit 7) (.bin .rem (.var 0) (.lit 8))))))) .nil)⟩

/-- v2/minibuf.go:134-153 -/
def text_clearallbits : List Str := [
  str% "",
  str% "// clearallbits sets all of the buffer's bits to 0",
  str% "func (b *MiniBuffer) clearallbits() {",
  str% "",
  str% "\tvar (",
  str% "\t\ti = int64(0)",
  str% "\t\tn = int64(len(b.buf))",
  str% "\t)",
  str% "\t{",
  str% "\tclear_loop:",
  str% "\t\tb.buf[i] = 0",
  str% "\t\ti++",
  str% "\t\tif i < n {",
  str% "",
  str% "\t\t\tgoto clear_loop",
  str% "",
  str% "\t\t}",
  str% "\t}",
  str% "",
  str% "}"]

/-- v2/minibuf.go:134-153 -/
def fun_clearallbits : Fun := ⟨(str% "clearallbits"), [], none, 2, (.cons (.set 0 (.conv .i64 (.lit 0))) (.cons (.set 1 (.conv .i64 (.len .buf))) (.cons (.block (str% "clear_loop") (.cons (.setBufAt (.var 0) (.lit 0)) (.cons (.set 0 (.bin .add (.var 0) (.lit 1))) (.cons (.ifs (.bin .lt (.var 0) (.var 1)) (.cons (.goto (str% "clear_loop")) .nil) .nil) .nil)))) .nil)))⟩

/-- v2/minibuf.go:154-173 -/
def text_setallbits : List Str := [
  str% "",
  str% "// setallbits sets all of the buffer's bits to 1",
  str% "func (b *MiniBuffer) setallbits() {",
  str% "",
  str% "\tvar (",
  str% "\t\ti = int64(0)",
  str% "\t\tn = int64(len(b.buf))",
  str% "\t)",
  str% "\t{",
  str% "\tset_loop:",
  str% "\t\tb.buf[i] = 0xFF",
  str% "\t\ti++",
  str% "\t\tif i < n {",
  str% "",
  str% "\t\t\tgoto set_loop",
  str% "",
  str% "\t\t}",
  str% "\t}",
  str% "",
  str% "}"]

/-- v2/minibuf.go:154-173 -/
def fun_setallbits : Fun := ⟨(str% "setallbits"), [], none, 2, (.cons (.set 0 (.conv .i64 (.lit 0))) (.cons (.set 1 (.conv .i64 (.len .buf))) (.cons (.block (str% "set_loop") (.cons (.setBufAt (.var 0) (.lit 255)) (.cons (.set 0 (.bin .add (.var 0) (.lit 1))) (.cons (.ifs (.bin .lt (.var 0) (.var 1)) (.cons (.goto (str% "set_loop")) .nil) .nil) .nil)))) .nil)))⟩

/-- v2/minibuf.go:174-194 -/
def text_flipallbits : List Str := [
  str% "",
  str% "// flipallbits flips all of the buffer's bits",
  str% "func (b *MiniBuffer) flipallbits() {",
  str% "",
  str% "\tvar (",
  str% "\t\ti = int64(0)",
  str% "\t\tn = int64(len(b.buf))",
  str% "\t)",
  str% "\t{",
  str% "\tflip_loop:",
  str% "\t\tb.buf[i] = ^b.buf[i]",
  str% "\t\ti++",
  str% "\t\tif i < n {",
  str% "",
  str% "\t\t\tgoto flip_loop",
  str% "",
  str% "\t\t}",
  str% "",
  str% "\t}",
  str% "",
  str% "}"]

/-- v2/minibuf.go:174-194 -/
def fun_flipallbits : Fun := ⟨(str% "flipallbits"), [], none, 2, (.cons (.set 0 (.conv .i64 (.lit 0))) (.cons (.set 1 (.conv .i64 (.len .buf))) (.cons (.block (str% "flip_loop") (.cons (.setBufAt (.var 0) (.compl (.index .buf (.var 0)))) (.cons (.set 0 (.bin .add (.var 0) (.lit 1))) (.cons (.ifs (.bin .lt (.var 0) (.var 1)) (.cons (.goto (str% "flip_loop")) .nil) .nil) .nil)))) .nil)))⟩

/-- v2/minibuf.go:195-209 -/
def text_seekbit : List Str := [
  str% "",
  str% "// seekbit seeks to position off of the bitfield relative to the current position or exact",
  str% "func (b *MiniBuffer) seekbit(off int64, relative bool) {",
  str% "",
  str% "\tif relative {",
  str% "",
  str% "\t\tb.boff += off",
  str% "",
  str% "\t} else {",
  str% "",
  str% "\t\tb.boff = off",
  str% "",
  str% "\t}",
  str% "",
  str% "}"]

/-- v2/minibuf.go:195-209 -/
def fun_seekbit : Fun := ⟨(str% "seekbit"), [some .i64, none], none, 2, (.cons (.ifs (.var 1) (.cons (.setField .boff (.bin .add (.field .boff) (.var 0))) .nil) (.cons (.setField .boff (.var 0)) .nil)) .nil)⟩

/-- v2/minibuf.go:210-222 -/
def text_afterbit : List Str := [
  str% "",
  str% "// afterbit returns the amount of bits located after the current position or the specified one",
  str% "func (b *MiniBuffer) afterbit(out *int64, off ...int64) {",
  str% "",
  str% "\tif len(off) == 0 {",
  str% "",
  str% "\t\t*out = b.bcap - b.boff - 1",
  str% "\t\treturn",
  str% "",
  str% "\t}",
  str% "\t*out = b.bcap - off[0] - 1",
  str% "",
  str% "}"]

/-- v2/minibuf.go:210-222 -/
def fun_afterbit : Fun := ⟨(str% "afterbit"), [none, none], none, 2, (.cons (.ifs (.bin .eq (.len (.var 1)) (.lit 0)) (.cons (.setOut (.bin .sub (.bin .sub (.field .bcap) (.field .boff)) (.lit 1))) (.cons .retNone .nil)) .nil) (.cons (.setOut (.bin .sub (.bin .sub (.field .bcap) (.index (.var 1) (.lit 0))) (.lit 1))) .nil))⟩

/-- v2/minibuf.go:223-244 -/
def text_write : List Str := [
  str% "",
  str% "/* byte buffer methods */",
  str% "",
  str% "// write writes a slice of bytes to the buffer at the specified offset",
  str% "func (b *MiniBuffer) write(off int64, data []byte) {",
  str% "",
  str% "\tvar (",
  str% "\t\ti = int64(0)",
  str% "\t\tn = int64(len(data))",
  str% "\t)",
  str% "\t{",
  str% "\twrite_loop:",
  str% "\t\tb.buf[off+i] = data[i]",
  str% "\t\ti++",
  str% "\t\tif i < n {",
  str% "",
  str% "\t\t\tgoto write_loop",
  str% "",
  str% "\t\t}",
  str% "\t}",
  str% "",
  str% "}"]

/-- v2/minibuf.go:223-244 -/
def fun_write : Fun := ⟨(str% "write"), [some .i64, none], none, 4, (.cons (.set 2 (.conv .i64 (.lit 0))) (.cons (.set 3 (.conv .i64 (.len (.var 1)))) (.cons (.block (str% "write_loop") (.cons (.setBufAt (.bin .add (.var 0) (.var 2)) (.index (.var 1) (.var 2))) (.cons (.set 2 (.bin .add (.var 2) (.lit 1))) (.cons (.ifs (.bin .lt (.var 2) (.var 3)) (.cons (.goto (str% "write_loop")) .nil) .nil) .nil)))) .nil)))⟩

/-- v2/minibuf.go:245-266 -/
def text_writeU16LE : List Str := [
  str% "",
  str% "// writeU16LE writes a slice of uint16s to the buffer at the specified offset in little-endian",
  str% "func (b *MiniBuffer) writeU16LE(off int64, data []uint16) {",
  str% "",
  str% "\tvar (",
  str% "\t\ti = 0",
  str% "\t\tn = len(data)",
  str% "\t)",
  str% "\t{",
  str% "\twrite_loop:",
  str% "\t\tb.buf[off+int64(i*2)] = byte(data[i])",
  str% "\t\tb.buf[off+int64(1+(i*2))] = byte(data[i] >> 8)",
  str% "",
  str% "\t\ti++",
  str% "\t\tif i < n {",
  str% "",
  str% "\t\t\tgoto write_loop",
  str% "",
  str% "\t\t}",
  str% "\t}",
  str% "",
  str% "}"]

/-- v2/minibuf.go:245-266 -/
def fun_writeU16LE : Fun := ⟨(str% "writeU16LE"), [some .i64, none], none, 4, (.cons (.set 2 (.lit 0)) (.cons (.set 3 (.len (.var 1))) (.cons (.block (str% "write_loop") (.cons (.setBufAt (.bin .add (.var 0) (.conv .i64 (.bin .mul (.var 2) (.lit 2)))) (.conv .u8 (.index (.var 1) (.var 2)))) (.cons (.setBufAt (.bin .add (.var 0) (.conv .i64 (.bin .add (.lit 1) (.bin .mul (.var 2) (.lit 2))))) (.conv .u8 (.bin .shr (.index (.var 1) (.var 2)) (.lit 8)))) (.cons (.set 2 (.bin .add (.var 2) (.lit 1))) (.cons (.ifs (.bin .lt (.var 2) (.var 3)) (.cons (.goto (str% "write_loop")) .nil) .nil) .nil))))) .nil)))⟩

/-- v2/minibuf.go:267-288 -/
def text_writeU16BE : List Str := [
  str% "",
  str% "// writeU16BE writes a slice of uint16s to the buffer at the specified offset in big-endian",
  str% "func (b *MiniBuffer) writeU16BE(off int64, data []uint16) {",
  str% "",
  str% "\tvar (",
  str% "\t\ti = 0",
  str% "\t\tn = len(data)",
  str% "\t)",
  str% "\t{",
  str% "\twrite_loop:",
  str% "\t\tb.buf[off+int64(i*2)] = byte(data[i] >> 8)",
  str% "\t\tb.buf[off+int64(1+(i*2))] = byte(data[i])",
  str% "",
  str% "\t\ti++",
  str% "\t\tif i < n {",
  str% "",
  str% "\t\t\tgoto write_loop",
  str% "",
  str% "\t\t}",
  str% "\t}",
  str% "",
  str% "}"]

/-- v2/minibuf.go:267-288 -/
def fun_writeU16BE : Fun := ⟨(str% "writeU16BE"), [some .i64, none], none, 4, (.cons (.set 2 (.lit 0)) (.cons (.set 3 (.len (.var 1))) (.cons (.block (str% "write_loop") (.cons (.setBufAt (.bin .add (.var 0) (.conv .i64 (.bin .mul (.var 2) (.lit 2)))) (.conv .u8 (.bin .shr (.index (.var 1) (.var 2)) (.lit 8)))) (.cons (.setBufAt (.bin .add (.var 0) (.conv .i64 (.bin .add (.lit 1) (.bin .mul (.var 2) (.lit 2))))) (.conv .u8 (.index (.var 1) (.var 2)))) (.cons (.set 2 (.bin .add (.var 2) (.lit 1))) (.cons (.ifs (.bin .lt (.var 2) (.var 3)) (.cons (.goto (str% "write_loop")) .nil) .nil) .nil))))) .nil)))⟩

/-- v2/minibuf.go:289-312 -/
def text_writeU32LE : List Str := [
  str% "",
  str% "// writeU32LE writes a slice of uint32s to the buffer at the specified offset in little-endian",
  str% "func (b *MiniBuffer) writeU32LE(off int64, data []uint32) {",
  str% "",
  str% "\tvar (",
  str% "\t\ti = 0",
  str% "\t\tn = len(data)",
  str% "\t)",
  str% "\t{",
  str% "\twrite_loop:",
  str% "\t\tb.buf[off+int64(i*4)] = byte(data[i])",
  str% "\t\tb.buf[off+int64(1+(i*4))] = byte(data[i] >> 8)",
  str% "\t\tb.buf[off+int64(2+(i*4))] = byte(data[i] >> 16)",
  str% "\t\tb.buf[off+int64(3+(i*4))] = byte(data[i] >> 24)",
  str% "",
  str% "\t\ti++",
  str% "\t\tif i < n {",
  str% "",
  str% "\t\t\tgoto write_loop",
  str% "",
  str% "\t\t}",
  str% "\t}",
  str% "",
  str% "}"]

/-- v2/minibuf.go:289-312 -/
def fun_writeU32LE : Fun := ⟨(str% "writeU32LE"), [some .i64, none], none, 4, (.cons (.set 2 (.lit 0)) (.cons (.set 3 (.len (.var 1))) (.cons (.block (str% "write_loop") (.cons (.setBufAt (.bin .add (.var 0) (.conv .i64 (.bin .mul (.var 2) (.lit 4)))) (.conv .u8 (.index (.var 1) (.var 2)))) (.cons (.setBufAt (.bin .add (.var 0) (.conv .i64 (.bin .add (.lit 1) (.bin .mul (.var 2) (.lit 4))))) (.conv .u8 (.bin .shr (.index (.var 1) (.var 2)) (.lit 8)))) (.cons (.setBufAt (.bin .add (.var 0) (.conv .i64 (.bin .add (.lit 2) (.bin .mul (.var 2) (.lit 4))))) (.conv .u8 (.bin .shr (.index (.var 1) (.var 2)) (.lit 16)))) (.cons (.setBufAt (.bin .add (.var 0) (.conv .i64 (.bin .add (.lit 3) (.bin .mul (.var 2) (.lit 4))))) (.conv .u8 (.bin .shr (.index (.var 1) (.var 2)) (.lit 24)))) (.cons (.set 2 (.bin .add (.var 2) (.lit 1))) (.cons (.ifs (.bin .lt (.var 2) (.var 3)) (.cons (.goto (str% "write_loop")) .nil) .nil) .nil))))))) .nil)))⟩

/-- v2/minibuf.go:313-336 -/
def text_writeU32BE : List Str := [
  str% "",
  str% "// writeU32BE writes a slice of uint32s to the buffer at the specified offset in big-endian",
  str% "func (b *MiniBuffer) writeU32BE(off int64, data []uint32) {",
  str% "",
  str% "\tvar (",
  str% "\t\ti = 0",
  str% "\t\tn = len(data)",
  str% "\t)",
  str% "\t{",
  str% "\twrite_loop:",
  str% "\t\tb.buf[off+int64(i*4)] = byte(data[i] >> 24)",
  str% "\t\tb.buf[off+int64(1+(i*4))] = byte(data[i] >> 16)",
  str% "\t\tb.buf[off+int64(2+(i*4))] = byte(data[i] >> 8)",
  str% "\t\tb.buf[off+int64(3+(i*4))] = byte(data[i])",
  str% "",
  str% "\t\ti++",
  str% "\t\tif i < n {",
  str% "",
  str% "\t\t\tgoto write_loop",
  str% "",
  str% "\t\t}",
  str% "\t}",
  str% "",
  str% "}"]

/-- v2/minibuf.go:313-336 -/
def fun_writeU32BE : Fun := ⟨(str% "writeU32BE"), [some .i64, none], none, 4, (.cons (.set 2 (.lit 0)) (.cons (.set 3 (.len (.var 1))) (.cons (.block (str% "write_loop") (.cons (.setBufAt (.bin .add (.var 0) (.conv .i64 (.bin .mul (.var 2) (.lit 4)))) (.conv .u8 (.bin .shr (.index (.var 1) (.var 2)) (.lit 24)))) (.cons (.setBufAt (.bin .add (.var 0) (.conv .i64 (.bin .add (.lit 1) (.bin .mul (.var 2) (.lit 4))))) (.conv .u8 (.bin .shr (.index (.var 1) (.var 2)) (.lit 16)))) (.cons (.setBufAt (.bin .add (.var 0) (.conv .i64 (.bin .add (.lit 2) (.bin .mul (.var 2) (.lit 4))))) (.conv .u8 (.bin .shr (.index (.var 1) (.var 2)) (.lit 8)))) (.cons (.setBufAt (.bin .add (.var 0) (.conv .i64 (.bin .add (.lit 3) (.bin .mul (.var 2) (.lit 4))))) (.conv .u8 (.index (.var 1) (.var 2)))) (.cons (.set 2 (.bin .add (.var 2) (.lit 1))) (.cons (.ifs (.bin .lt (.var 2) (.var 3)) (.cons (.goto (str% "write_loop")) .nil) .nil) .nil))))))) .nil)))⟩

/-- v2/minibuf.go:337-364 -/
def text_writeU64LE : List Str := [
  str% "",
  str% "// writeU64LE writes a slice of uint64s to the buffer at the specified offset in little-endian",
  str% "func (b *MiniBuffer) writeU64LE(off int64, data []uint64) {",
  str% "",
  str% "\tvar (",
  str% "\t\ti = 0",
  str% "\t\tn = len(data)",
  str% "\t)",
  str% "\t{",
  str% "\twrite_loop:",
  str% "\t\tb.buf[off+int64(i*8)] = byte(data[i])",
  str% "\t\tb.buf[off+int64(1+(i*8))] = byte(data[i] >> 8)",
  str% "\t\tb.buf[off+int64(2+(i*8))] = byte(data[i] >> 16)",
  str% "\t\tb.buf[off+int64(3+(i*8))] = byte(data[i] >> 24)",
  str% "\t\tb.buf[off+int64(4+(i*8))] = byte(data[i] >> 32)",
  str% "\t\tb.buf[off+int64(5+(i*8))] = byte(data[i] >> 40)",
  str% "\t\tb.buf[off+int64(6+(i*8))] = byte(data[i] >> 48)",
  str% "\t\tb.buf[off+int64(7+(i*8))] = byte(data[i] >> 56)",
  str% "",
  str% "\t\ti++",
  str% "\t\tif i < n {",
  str% "",
  str% "\t\t\tgoto write_loop",
  str% "",
  str% "\t\t}",
  str% "\t}",
  str% "",
  str% "}"]

/-- v2/minibuf.go:337-364 -/
def fun_writeU64LE : Fun := ⟨(str% "writeU64LE"), [some .i64, none], none, 4, (.cons (.set 2 (.lit 0)) (.cons (.set 3 (.len (.var 1))) (.cons (.block (str% "write_loop") (.cons (.setBufAt (.bin .add (.var 0) (.conv .i64 (.bin .mul (.var 2) (.lit 8)))) (.conv .u8 (.index (.var 1) (.var 2)))) (.cons (.setBufAt (.bin .add (.var 0) (.conv .i64 (.bin .add (.lit 1) (.bin .mul (.var 2) (.lit 8))))) (.conv .u8 (.bin .shr (.index (.var 1) (.var 2)) (.lit 8)))) (.cons (.setBufAt (.bin .add (.var 0) (.conv .i64 (.bin .add (.lit 2) (.bin .mul (.var 2) (.lit 8))))) (.conv .u8 (.bin .shr (.index (.var 1) (.var 2)) (.lit 16)))) (.cons (.setBufAt (.bin .add (.var 0) (.conv .i64 (.bin .add (.lit 3) (.bin .mul (.var 2) (.lit 8))))) (.conv .u8 (.bin .shr (.index (.var 1) (.var 2)) (.lit 24)))) (.cons (.setBufAt (.bin .add (.var 0) (.conv .i64 (.bin .add (.lit 4) (.bin .mul (.var 2) (.lit 8))))) (.conv .u8 (.bin .shr (.index (.var 1) (.var 2)) (.lit 32)))) (.cons (.setBufAt (.bin .add (.var 0) (.conv .i64 (.bin .add (.lit 5) (.bin .mul (.var 2) (.lit 8))))) (.conv .u8 (.bin .shr (.index (.var 1) (.var 2)) (.lit 40)))) (.cons (.setBufAt (.bin .add (.var 0) (.conv .i64 (.bin .add (.lit 6) (.bin .mul (.var 2) (.lit 8))))) (.conv .u8 (.bin .shr (.index (.var 1) (.var 2)) (.lit 48)))) (.cons (.setBufAt (.bin .add (.var 0) (.conv .i64 (.bin .add (.lit 7) (.bin .mul (.var 2) (.lit 8))))) (.conv .u8 (.bin .shr (.index (.var 1) (.var 2)) (.lit 56)))) (.cons (.set 2 (.bin .add (.var 2) (.lit 1))) (.cons (.ifs (.bin .lt (.var 2) (.var 3)) (.cons (.goto (str% "write_loop")) .nil) .nil) .nil))))))))))) .nil)))⟩

/-- v2/minibuf.go:365-392 -/
def text_writeU64BE : List Str := [
  str% "",
  str% "// writeU64BE writes a slice of uint64s to the buffer at the specified offset in big-endian",
  str% "func (b *MiniBuffer) writeU64BE(off int64, data []uint64) {",
  str% "",
  str% "\tvar (",
  str% "\t\ti = 0",
  str% "\t\tn = len(data)",
  str% "\t)",
  str% "\t{",
  str% "\twrite_loop:",
  str% "\t\tb.buf[off+int64(i*8)] = byte(data[i] >> 56)",
  str% "\t\tb.buf[off+int64(1+(i*8))] = byte(data[i] >> 48)",
  str% "\t\tb.buf[off+int64(2+(i*8))] = byte(data[i] >> 40)",
  str% "\t\tb.buf[off+int64(3+(i*8))] = byte(data[i] >> 32)",
  str% "\t\tb.buf[off+int64(4+(i*8))] = byte(data[i] >> 24)",
  str% "\t\tb.buf[off+int64(5+(i*8))] = byte(data[i] >> 16)",
  str% "\t\tb.buf[off+int64(6+(i*8))] = byte(data[i] >> 8)",
  str% "\t\tb.buf[off+int64(7+(i*8))] = byte(data[i])",
  str% "",
  str% "\t\ti++",
  str% "\t\tif i < n {",
  str% "",
  str% "\t\t\tgoto write_loop",
  str% "",
  str% "\t\t}",
  str% "\t}",
  str% "",
  str% "}"]

/-- v2/minibuf.go:365-392 -/
def fun_writeU64BE : Fun := ⟨(str% "writeU64BE"), [some .i64, none], none, 4, (.cons (.set 2 (.lit 0)) (.cons (.set 3 (.len (.var 1))) (.cons (.block (str% "write_loop") (.cons (.setBufAt (.bin .add (.var 0) (.conv .i64 (.bin .mul (.var 2) (.lit 8)))) (.conv .u8 (.bin .shr (.index (.var 1) (.var 2)) (.lit 56)))) (.cons (.setBufAt (.bin .add (.var 0) (.conv .i64 (.bin .add (.lit 1) (.bin .mul (.var 2) (.lit 8))))) (.conv .u8 (.bin .shr (.index (.var 1) (.var 2)) (.lit 48)))) (.cons (.setBufAt (.bin .add (.var 0) (.conv .i64 (.bin .add (.lit 2) (.bin .mul (.var 2) (.lit 8))))) (.conv .u8 (.bin .shr (.index (.var 1) (.var 2)) (.lit 40)))) (.cons (.setBufAt (.bin .add (.var 0) (.conv .i64 (.bin .add (.lit 3) (.bin .mul (.var 2) (.lit 8))))) (.conv .u8 (.bin .shr (.index (.var 1) (.var 2)) (.lit 32)))) (.cons (.setBufAt (.bin .add (.var 0) (.conv .i64 (.bin .add (.lit 4) (.bin .mul (.var 2) (.lit 8))))) (.conv .u8 (.bin .shr (.index (.var 1) (.var 2)) (.lit 24)))) (.cons (.setBufAt (.bin .add (.var 0) (.conv .i64 (.bin .add (.lit 5) (.bin .mul (.var 2) (.lit 8))))) (.conv .u8 (.bin .shr (.index (.var 1) (.var 2)) (.lit 16)))) (.cons (.setBufAt (.bin .add (.var 0) (.conv .i64 (.bin .add (.lit 6) (.bin .mul (.var 2) (.lit 8))))) (.conv .u8 (.bin .shr (.index (.var 1) (.var 2)) (.lit 8)))) (.cons (.setBufAt (.bin .add (.var 0) (.conv .i64 (.bin .add (.lit 7) (.bin .mul (.var 2) (.lit 8))))) (.conv .u8 (.index (.var 1) (.var 2)))) (.cons (.set 2 (.bin .add (.var 2) (.lit 1))) (.cons (.ifs (.bin .lt (.var 2) (.var 3)) (.cons (.goto (str% "write_loop")) .nil) .nil) .nil))))))))))) .nil)))⟩

/-- v2/minibuf.go:393-399 -/
def text_read : List Str := [
  str% "",
  str% "// read reads n bytes from the buffer at the specified offset",
  str% "func (b *MiniBuffer) read(out *[]byte, off, n int64) {",
  str% "",
  str% "\t*out = b.buf[off : off+n]",
  str% "",
  str% "}"]

/-- v2/minibuf.go:393-399 -/
def fun_read : Fun := ⟨(str% "read"), [none, some .i64, some .i64], none, 3, (.cons (.setOut (.slice .buf (.var 1) (.bin .add (.var 1) (.var 2)))) .nil)⟩

/-- v2/minibuf.go:400-418 -/
def text_readU16LE : List Str := [
  str% "",
  str% "// readU16LE reads a slice of uint16s from the buffer at the specified offset in little-endian",
  str% "func (b *MiniBuffer) readU16LE(out *[]uint16, off, n int64) {",
  str% "",
  str% "\ti := int64(0)",
  str% "\t{",
  str% "\tread_loop:",
  str% "\t\t(*out)[i] = uint16(b.buf[off+(i*2)]) |",
  str% "\t\t\tuint16(b.buf[off+(1+(i*2))])<<8",
  str% "",
  str% "\t\ti++",
  str% "\t\tif i < n {",
  str% "",
  str% "\t\t\tgoto read_loop",
  str% "",
  str% "\t\t}",
  str% "\t}",
  str% "",
  str% "}"]

/-- v2/minibuf.go:400-418 -/
def fun_readU16LE : Fun := ⟨(str% "readU16LE"), [none, some .i64, some .i64], none, 4, (.cons (.set 3 (.conv .i64 (.lit 0))) (.cons (.block (str% "read_loop") (.cons (.setOutAt (.var 3) (.bin .or (.conv .u16 (.index .buf (.bin .add (.var 1) (.bin .mul (.var 3) (.lit 2))))) (.bin .shl (.conv .u16 (.index .buf (.bin .add (.var 1) (.bin .add (.lit 1) (.bin .mul (.var 3) (.lit 2)))))) (.lit 8)))) (.cons (.set 3 (.bin .add (.var 3) (.lit 1))) (.cons (.ifs (.bin .lt (.var 3) (.var 2)) (.cons (.goto (str% "read_loop")) .nil) .nil) .nil)))) .nil))⟩

/-- v2/minibuf.go:419-437 -/
def text_readU16BE : List Str := [
  str% "",
  str% "// readU16BE reads a slice of uint16s from the buffer at the specified offset in big-endian",
  str% "func (b *MiniBuffer) readU16BE(out *[]uint16, off, n int64) {",
  str% "",
  str% "\ti := int64(0)",
  str% "\t{",
  str% "\tread_loop:",
  str% "\t\t(*out)[i] = uint16(b.buf[off+(1+(i*2))]) |",
  str% "\t\t\tuint16(b.buf[off+(i*2)])<<8",
  str% "",
  str% "\t\ti++",
  str% "\t\tif i < n {",
  str% "",
  str% "\t\t\tgoto read_loop",
  str% "",
  str% "\t\t}",
  str% "\t}",
  str% "",
  str% "}"]

/-- v2/minibuf.go:419-437 -/
def fun_readU16BE : Fun := ⟨(str% "readU16BE"), [none, some .i64, some .i64], none, 4, (.cons (.set 3 (.conv .i64 (.lit 0))) (.cons (.block (str% "read_loop") (.cons (.setOutAt (.var 3) (.bin .or (.conv .u16 (.index .buf (.bin .add (.var 1) (.bin .add (.lit 1) (.bin .mul (.var 3) (.lit 2)))))) (.bin .shl (.conv .u16 (.index .buf (.bin .add (.var 1) (.bin .mul (.var 3) (.lit 2))))) (.lit 8)))) (.cons (.set 3 (.bin .add (.var 3) (.lit 1))) (.cons (.ifs (.bin .lt (.var 3) (.var 2)) (.cons (.goto (str% "read_loop")) .nil) .nil) .nil)))) .nil))⟩

/-- v2/minibuf.go:438-458 -/
def text_readU32LE : List Str := [
  str% "",
  str% "// readU32LE reads a slice of uint32s from the buffer at the specified offset in little-endian",
  str% "func (b *MiniBuffer) readU32LE(out *[]uint32, off, n int64) {",
  str% "",
  str% "\ti := int64(0)",
  str% "\t{",
  str% "\tread_loop:",
  str% "\t\t(*out)[i] = uint32(b.buf[off+(i*4)]) |",
  str% "\t\t\tuint32(b.buf[off+(1+(i*4))])<<8 |",
  str% "\t\t\tuint32(b.buf[off+(2+(i*4))])<<16 |",
  str% "\t\t\tuint32(b.buf[off+(3+(i*4))])<<24",
  str% "",
  str% "\t\ti++",
  str% "\t\tif i < n {",
  str% "",
  str% "\t\t\tgoto read_loop",
  str% "",
  str% "\t\t}",
  str% "\t}",
  str% "",
  str% "}"]

/-- v2/minibuf.go:438-458 -/
def fun_readU32LE : Fun := ⟨(str% "readU32LE"), [none, some .i64, some .i64], none, 4, (.cons (.set 3 (.conv .i64 (.lit 0))) (.cons (.block (str% "read_loop") (.cons (.setOutAt (.var 3) (.bin .or (.bin .or (.bin .or (.conv .u32 (.index .buf (.bin .add (.var 1) (.bin .mul (.var 3) (.lit 4))))) (.bin .shl (.conv .u32 (.index .buf (.bin .add (.var 1) (.bin .add (.lit 1) (.bin .mul (.var 3) (.lit 4)))))) (.lit 8))) (.bin .shl (.conv .u32 (.index .buf (.bin .add (.var 1) (.bin .add (.lit 2) (.bin .mul (.var 3) (.lit 4)))))) (.lit 16))) (.bin .shl (.conv .u32 (.index .buf (.bin .add (.var 1) (.bin .add (.lit 3) (.bin .mul (.var 3) (.lit 4)))))) (.lit 24)))) (.cons (.set 3 (.bin .add (.var 3) (.lit 1))) (.cons (.ifs (.bin .lt (.var 3) (.var 2)) (.cons (.goto (str% "read_loop")) .nil) .nil) .nil)))) .nil))⟩

/-- v2/minibuf.go:459-479 -/
def text_readU32BE : List Str := [
  str% "",
  str% "// readU32BE reads a slice of uint32s from the buffer at the specified offset in big-endian",
  str% "func (b *MiniBuffer) readU32BE(out *[]uint32, off, n int64) {",
  str% "",
  str% "\ti := int64(0)",
  str% "\t{",
  str% "\tread_loop:",
  str% "\t\t(*out)[i] = uint32(b.buf[off+(3+(i*4))]) |",
  str% "\t\t\tuint32(b.buf[off+(2+(i*4))])<<8 |",
  str% "\t\t\tuint32(b.buf[off+(1+(i*4))])<<16 |",
  str% "\t\t\tuint32(b.buf[off+(i*4)])<<24",
  str% "",
  str% "\t\ti++",
  str% "\t\tif i < n {",
  str% "",
  str% "\t\t\tgoto read_loop",
  str% "",
  str% "\t\t}",
  str% "\t}",
  str% "",
  str% "}"]

/-- v2/minibuf.go:459-479 -/
def fun_readU32BE : Fun := ⟨(str% "readU32BE"), [none, some .i64, some .i64], none, 4, (.cons (.set 3 (.conv .i64 (.lit 0))) (.cons (.block (str% "read_loop") (.cons (.setOutAt (.var 3) (.bin .or (.bin .or (.bin .or (.conv .u32 (.index .buf (.bin .add (.var 1) (.bin .add (.lit 3) (.bin .mul (.var 3) (.lit 4)))))) (.bin .shl (.conv .u32 (.index .buf (.bin .add (.var 1) (.bin .add (.lit 2) (.bin .mul (.var 3) (.lit 4)))))) (.lit 8))) (.bin .shl (.conv .u32 (.index .buf (.bin .add (.var 1) (.bin .add (.lit 1) (.bin .mul (.var 3) (.lit 4)))))) (.lit 16))) (.bin .shl (.conv .u32 (.index .buf (.bin .add (.var 1) (.bin .mul (.var 3) (.lit 4))))) (.lit 24)))) (.cons (.set 3 (.bin .add (.var 3) (.lit 1))) (.cons (.ifs (.bin .lt (.var 3) (.var 2)) (.cons (.goto (str% "read_loop")) .nil) .nil) .nil)))) .nil))⟩

/-- v2/minibuf.go:480-504 -/
def text_readU64LE : List Str := [
  str% "",
  str% "// readU64LE reads a slice of uint64s from the buffer at the specified offset in little-endian",
  str% "func (b *MiniBuffer) readU64LE(out *[]uint64, off, n int64) {",
  str% "",
  str% "\ti := int64(0)",
  str% "\t{",
  str% "\tread_loop:",
  str% "\t\t(*out)[i] = uint64(b.buf[off+(i*8)]) |",
  str% "\t\t\tuint64(b.buf[off+(1+(i*8))])<<8 |",
  str% "\t\t\tuint64(b.buf[off+(2+(i*8))])<<16 |",
  str% "\t\t\tuint64(b.buf[off+(3+(i*8))])<<24 |",
  str% "\t\t\tuint64(b.buf[off+(4+(i*8))])<<32 |",
  str% "\t\t\tuint64(b.buf[off+(5+(i*8))])<<40 |",
  str% "\t\t\tuint64(b.buf[off+(6+(i*8))])<<48 |",
  str% "\t\t\tuint64(b.buf[off+(7+(i*8))])<<56",
  str% "",
  str% "\t\ti++",
  str% "\t\tif i < n {",
  str% "",
  str% "\t\t\tgoto read_loop",
  str% "",
  str% "\t\t}",
  str% "\t}",
  str% "",
  str% "}"]

/-- v2/minibuf.go:480-504 -/
def fun_readU64LE : Fun := ⟨(str% "readU64LE"), [none, some .i64, some .i64], none, 4, (.cons (.set 3 (.conv .i64 (.lit 0))) (.cons (.block (str% "read_loop") (.cons (.setOutAt (.var 3) (.bin .or (.bin .or (.bin .or (.bin .or (.bin .or (.bin .or (.bin .or (.conv .u64 (.index .buf (.bin .add (.var 1) (.bin .mul (.var 3) (.lit 8))))) (.bin .shl (.conv .u64 (.index .buf (.bin .add (.var 1) (.bin .add (.lit 1) (.bin .mul (.var 3) (.lit 8)))))) (.lit 8))) (.bin .shl (.conv .u64 (.index .buf (.bin .add (.var 1) (.bin .add (.lit 2) (.bin .mul (.var 3) (.lit 8)))))) (.lit 16))) (.bin .shl (.conv .u64 (.index .buf (.bin .add (.var 1) (.bin .add (.lit 3) (.bin .mul (.var 3) (.lit 8)))))) (.lit 24))) (.bin .shl (.conv .u64 (.index .buf (.bin .add (.var 1) (.bin .add (.lit 4) (.bin .mul (.var 3) (.lit 8)))))) (.lit 32))) (.bin .shl (.conv .u64 (.index .buf (.bin .add (.var 1) (.bin .add (.lit 5) (.bin .mul (.var 3) (.lit 8)))))) (.lit 40))) (.bin .shl (.conv .u64 (.index .buf (.bin .add (.var 1) (.bin .add (.lit 6) (.bin .mul (.var 3) (.lit 8)))))) (.lit 48))) (.bin .shl (.conv .u64 (.index .buf (.bin .add (.var 1) (.bin .add (.lit 7) (.bin .mul (.var 3) (.lit 8)))))) (.lit 56)))) (.cons (.set 3 (.bin .add (.var 3) (.lit 1))) (.cons (.ifs (.bin .lt (.var 3) (.var 2)) (.cons (.goto (str% "read_loop")) .nil) .nil) .nil)))) .nil))⟩

/-- v2/minibuf.go:505-529 -/
def text_readU64BE : List Str := [
  str% "",
  str% "// readU64BE reads a slice of uint64s from the buffer at the specified offset in big-endian",
  str% "func (b *MiniBuffer) readU64BE(out *[]uint64, off, n int64) {",
  str% "",
  str% "\ti := int64(0)",
  str% "\t{",
  str% "\tread_loop:",
  str% "\t\t(*out)[i] = uint64(b.buf[off+(7+(i*8))]) |",
  str% "\t\t\tuint64(b.buf[off+(6+(i*8))])<<8 |",
  str% "\t\t\tuint64(b.buf[off+(5+(i*8))])<<16 |",
  str% "\t\t\tuint64(b.buf[off+(4+(i*8))])<<24 |",
  str% "\t\t\tuint64(b.buf[off+(3+(i*8))])<<32 |",
  str% "\t\t\tuint64(b.buf[off+(2+(i*8))])<<40 |",
  str% "\t\t\tuint64(b.buf[off+(1+(i*8))])<<48 |",
  str% "\t\t\tuint64(b.buf[off+(i*8)])<<56",
  str% "",
  str% "\t\ti++",
  str% "\t\tif i < n {",
  str% "",
  str% "\t\t\tgoto read_loop",
  str% "",
  str% "\t\t}",
  str% "\t}",
  str% "",
  str% "}"]

/-- v2/minibuf.go:505-529 -/
def fun_readU64BE : Fun := ⟨(str% "readU64BE"), [none, some .i64, some .i64], none, 4, (.cons (.set 3 (.conv .i64 (.lit 0))) (.cons (.block (str% "read_loop") (.cons (.setOutAt (.var 3) (.bin .or (.bin .or (.bin .or (.bin .or (.bin .or (.bin .or (.bin .or (.conv .u64 (.index .buf (.bin .add (.var 1) (.bin .add (.lit 7) (.bin .mul (.var 3) (.lit 8)))))) (.bin .shl (.conv .u64 (.index .buf (.bin .add (.var 1) (.bin .add (.lit 6) (.bin .mul (.var 3) (.lit 8)))))) (.lit 8))) (.bin .shl (.conv .u64 (.index .buf (.bin .add (.var 1) (.bin .add (.lit 5) (.bin .mul (.var 3) (.lit 8)))))) (.lit 16))) (.bin .shl (.conv .u64 (.index .buf (.bin .add (.var 1) (.bin .add (.lit 4) (.bin .mul (.var 3) (.lit 8)))))) (.lit 24))) (.bin .shl (.conv .u64 (.index .buf (.bin .add (.var 1) (.bin .add (.lit 3) (.bin .mul (.var 3) (.lit 8)))))) (.lit 32))) (.bin .shl (.conv .u64 (.index .buf (.bin .add (.var 1) (.bin .add (.lit 2) (.bin .mul (.var 3) (.lit 8)))))) (.lit 40))) (.bin .shl (.conv .u64 (.index .buf (.bin .add (.var 1) (.bin .add (.lit 1) (.bin .mul (.var 3) (.lit 8)))))) (.lit 48))) (.bin .shl (.conv .u64 (.index .buf (.bin .add (.var 1) (.bin .mul (.var 3) (.lit 8))))) (.lit 56)))) (.cons (.set 3 (.bin .add (.var 3) (.lit 1))) (.cons (.ifs (.bin .lt (.var 3) (.var 2)) (.cons (.goto (str% "read_loop")) .nil) .nil) .nil)))) .nil))⟩

/-- v2/minibuf.go:530-544 -/
def text_seek : List Str := [
  str% "",
  str% "// seek seeks to position off of the byte buffer relative to the current position or exact",
  str% "func (b *MiniBuffer) seek(off int64, relative bool) {",
  str% "",
  str% "\tif relative {",
  str% "",
  str% "\t\tb.off += off",
  str% "",
  str% "\t} else {",
  str% "",
  str% "\t\tb.off = off",
  str% "",
  str% "\t}",
  str% "",
  str% "}"]

/-- v2/minibuf.go:530-544 -/
def fun_seek : Fun := ⟨(str% "seek"), [some .i64, none], none, 2, (.cons (.ifs (.var 1) (.cons (.setField .off (.bin .add (.field .off) (.var 0))) .nil) (.cons (.setField .off (.var 0)) .nil)) .nil)⟩

/-- v2/minibuf.go:545-557 -/
def text_after : List Str := [
  str% "",
  str% "// after returns the amount of bytes located after the current position or the specified one",
  str% "func (b *MiniBuffer) after(out *int64, off ...int64) {",
  str% "",
  str% "\tif len(off) == 0 {",
  str% "",
  str% "\t\t*out = b.cap - b.off - 1",
  str% "\t\treturn",
  str% "",
  str% "\t}",
  str% "\t*out = b.cap - off[0] - 1",
  str% "",
  str% "}"]

/-- v2/minibuf.go:545-557 -/
def fun_after : Fun := ⟨(str% "after"), [none, none], none, 2, (.cons (.ifs (.bin .eq (.len (.var 1)) (.lit 0)) (.cons (.setOut (.bin .sub (.bin .sub (.field .cap) (.field .off)) (.lit 1))) (.cons .retNone .nil)) .nil) (.cons (.setOut (.bin .sub (.bin .sub (.field .cap) (.index (.var 1) (.lit 0))) (.lit 1))) .nil))⟩

/-- v2/minibuf.go:558-567 -/
def text_grow : List Str := [
  str% "",
  str% "/* generic methods */",
  str% "",
  str% "// grow grows the buffer by n bytes",
  str% "func (b *MiniBuffer) grow(n int64) {",
  str% "",
  str% "\tb.buf = append(b.buf, make([]byte, n)...)",
  str% "\tb.refresh()",
  str% "",
  str% "}"]

/-- v2/minibuf.go:558-567 -/
def fun_grow : Fun := ⟨(str% "grow"), [some .i64], none, 1, (.cons (.setBuf (.append .buf (.make (.var 0)))) (.cons (.expr (.call (str% "refresh") .nil)) .nil))⟩

/-- v2/minibuf.go:568-575 -/
def text_refresh : List Str := [
  str% "",
  str% "// refresh updates the internal statistics of the byte buffer forcefully",
  str% "func (b *MiniBuffer) refresh() {",
  str% "",
  str% "\tb.cap = int64(len(b.buf))",
  str% "\tb.bcap = b.cap * 8",
  str% "",
  str% "}"]

/-- v2/minibuf.go:568-575 -/
def fun_refresh : Fun := ⟨(str% "refresh"), [], none, 0, (.cons (.setField .cap (.conv .i64 (.len .buf))) (.cons (.setField .bcap (.bin .mul (.field .cap) (.lit 8))) .nil))⟩

/-- v2/minibuf.go:576-582 -/
def text_alignbit : List Str := [
  str% "",
  str% "// alignbit aligns the bit offset to the byte offset",
  str% "func (b *MiniBuffer) alignbit() {",
  str% "",
  str% "\tb.boff = b.off * 8",
  str% "",
  str% "}"]

/-- v2/minibuf.go:576-582 -/
def fun_alignbit : Fun := ⟨(str% "alignbit"), [], none, 0, (.cons (.setField .boff (.bin .mul (.field .off) (.lit 8))) .nil)⟩

/-- v2/minibuf.go:583-589 -/
def text_alignbyte : List Str := [
  str% "",
  str% "// alignbyte aligns the byte offset to the bit offset",
  str% "func (b *MiniBuffer) alignbyte() {",
  str% "",
  str% "\tb.off = b.boff / 8",
  str% "",
  str% "}"]

/-- v2/minibuf.go:583-589 -/
def fun_alignbyte : Fun := ⟨(str% "alignbyte"), [], none, 0, (.cons (.setField .off (.bin .div (.field .boff) (.lit 8))) .nil)⟩

/-- v2/minibuf.go:590-600 -/
def text_reset : List Str := [
  str% "",
  str% "// reset resets the buffer",
  str% "func (b *MiniBuffer) reset() {",
  str% "",
  str% "\tb.buf = []byte{}",
  str% "\tb.off = 0x00",
  str% "\tb.boff = 0x00",
  str% "\tb.cap = 0",
  str% "\tb.bcap = 0",
  str% "",
  str% "}"]

/-- v2/minibuf.go:590-600 -/
def fun_reset : Fun := ⟨(str% "reset"), [], none, 0, (.cons (.setBuf (.bytes .nil)) (.cons (.setField .off (.lit 0)) (.cons (.setField .boff (.lit 0)) (.cons (.setField .cap (.lit 0)) (.cons (.setField .bcap (.lit 0)) .nil)))))⟩

/-- v2/minibuf.go:601-609 -/
def text_Bytes : List Str := [
  str% "",
  str% "/* public methods */",
  str% "",
  str% "// Bytes stores the internal byte slice of the buffer in out",
  str% "func (b *MiniBuffer) Bytes(out *[]byte) {",
  str% "",
  str% "\t*out = b.buf",
  str% "",
  str% "}"]

/-- v2/minibuf.go:601-609 -/
def fun_Bytes : Fun := ⟨(str% "Bytes"), [none], none, 1, (.cons (.setOut .buf) .nil)⟩

/-- v2/minibuf.go:610-616 -/
def text_Capacity : List Str := [
  str% "",
  str% "// Capacity stores the capacity of the buffer in out",
  str% "func (b *MiniBuffer) Capacity(out *int64) {",
  str% "",
  str% "\t*out = b.cap",
  str% "",
  str% "}"]

/-- v2/minibuf.go:610-616 -/
def fun_Capacity : Fun := ⟨(str% "Capacity"), [none], none, 1, (.cons (.setOut (.field .cap)) .nil)⟩

/-- v2/minibuf.go:617-623 -/
def text_BitCapacity : List Str := [
  str% "",
  str% "// BitCapacity stores the bit capacity of the buffer in out",
  str% "func (b *MiniBuffer) BitCapacity(out *int64) {",
  str% "",
  str% "\t*out = b.bcap",
  str% "",
  str% "}"]

/-- v2/minibuf.go:617-623 -/
def fun_BitCapacity : Fun := ⟨(str% "BitCapacity"), [none], none, 1, (.cons (.setOut (.field .bcap)) .nil)⟩

/-- v2/minibuf.go:624-630 -/
def text_Offset : List Str := [
  str% "",
  str% "// Offset stores the current offset of the buffer in out",
  str% "func (b *MiniBuffer) Offset(out *int64) {",
  str% "",
  str% "\t*out = b.off",
  str% "",
  str% "}"]

/-- v2/minibuf.go:624-630 -/
def fun_Offset : Fun := ⟨(str% "Offset"), [none], none, 1, (.cons (.setOut (.field .off)) .nil)⟩

/-- v2/minibuf.go:631-637 -/
def text_BitOffset : List Str := [
  str% "",
  str% "// BitOffset stores the current bit offset of the buffer in out",
  str% "func (b *MiniBuffer) BitOffset(out *int64) {",
  str% "",
  str% "\t*out = b.boff",
  str% "",
  str% "}"]

/-- v2/minibuf.go:631-637 -/
def fun_BitOffset : Fun := ⟨(str% "BitOffset"), [none], none, 1, (.cons (.setOut (.field .boff)) .nil)⟩

/-- v2/minibuf.go:638-644 -/
def text_Refresh : List Str := [
  str% "",
  str% "// Refresh updates the cached internal statistics of the buffer forcefully",
  str% "func (b *MiniBuffer) Refresh() {",
  str% "",
  str% "\tb.refresh()",
  str% "",
  str% "}"]

/-- v2/minibuf.go:638-644 -/
def fun_Refresh : Fun := ⟨(str% "Refresh"), [], none, 0, (.cons (.expr (.call (str% "refresh") .nil)) .nil)⟩

/-- v2/minibuf.go:645-651 -/
def text_Reset : List Str := [
  str% "",
  str% "// Reset resets the entire buffer",
  str% "func (b *MiniBuffer) Reset() {",
  str% "",
  str% "\tb.reset()",
  str% "",
  str% "}"]

/-- v2/minibuf.go:645-651 -/
def fun_Reset : Fun := ⟨(str% "Reset"), [], none, 0, (.cons (.expr (.call (str% "reset") .nil)) .nil)⟩

/-- v2/minibuf.go:652-658 -/
def text_Grow : List Str := [
  str% "",
  str% "// Grow makes the buffer's capacity bigger by n bytes",
  str% "func (b *MiniBuffer) Grow(n int64) {",
  str% "",
  str% "\tb.grow(n)",
  str% "",
  str% "}"]

/-- v2/minibuf.go:652-658 -/
def fun_Grow : Fun := ⟨(str% "Grow"), [some .i64], none, 1, (.cons (.expr (.call (str% "grow") (.cons (.var 0) .nil))) .nil)⟩

/-- v2/minibuf.go:659-665 -/
def text_Seek : List Str := [
  str% "",
  str% "// Seek seeks to position off of the buffer relative to the current position or exact",
  str% "func (b *MiniBuffer) Seek(off int64, relative bool) {",
  str% "",
  str% "\tb.seek(off, relative)",
  str% "",
  str% "}"]

/-- v2/minibuf.go:659-665 -/
def fun_Seek : Fun := ⟨(str% "Seek"), [some .i64, none], none, 2, (.cons (.expr (.call (str% "seek") (.cons (.var 0) (.cons (.var 1) .nil)))) .nil)⟩

/-- v2/minibuf.go:666-672 -/
def text_SeekBit : List Str := [
  str% "",
  str% "// SeekBit seeks to bit position off of the the buffer relative to the current position or exact",
  str% "func (b *MiniBuffer) SeekBit(off int64, relative bool) {",
  str% "",
  str% "\tb.seekbit(off, relative)",
  str% "",
  str% "}"]

/-- v2/minibuf.go:666-672 -/
def fun_SeekBit : Fun := ⟨(str% "SeekBit"), [some .i64, none], none, 2, (.cons (.expr (.call (str% "seekbit") (.cons (.var 0) (.cons (.var 1) .nil)))) .nil)⟩

/-- v2/minibuf.go:673-679 -/
def text_AlignBit : List Str := [
  str% "",
  str% "// AlignBit aligns the bit offset to the byte offset",
  str% "func (b *MiniBuffer) AlignBit() {",
  str% "",
  str% "\tb.alignbit()",
  str% "",
  str% "}"]

/-- v2/minibuf.go:673-679 -/
def fun_AlignBit : Fun := ⟨(str% "AlignBit"), [], none, 0, (.cons (.expr (.call (str% "alignbit") .nil)) .nil)⟩

/-- v2/minibuf.go:680-686 -/
def text_AlignByte : List Str := [
  str% "",
  str% "// AlignByte aligns the byte offset to the bit offset",
  str% "func (b *MiniBuffer) AlignByte() {",
  str% "",
  str% "\tb.alignbyte()",
  str% "",
  str% "}"]

/-- v2/minibuf.go:680-686 -/
def fun_AlignByte : Fun := ⟨(str% "AlignByte"), [], none, 0, (.cons (.expr (.call (str% "alignbyte") .nil)) .nil)⟩

/-- v2/minibuf.go:687-693 -/
def text_After : List Str := [
  str% "",
  str% "// After stores the amount of bytes located after the current position or the specified one in out",
  str% "func (b *MiniBuffer) After(out *int64, off ...int64) {",
  str% "",
  str% "\tb.after(out, off...)",
  str% "",
  str% "}"]

/-- v2/minibuf.go:687-693 -/
def fun_After : Fun := ⟨(str% "After"), [none, none], none, 2, (.cons (.expr (.call (str% "after") (.cons .outPtr (.cons (.var 1) .nil)))) .nil)⟩

/-- v2/minibuf.go:694-700 -/
def text_AfterBit : List Str := [
  str% "",
  str% "// AfterBit stores the amount of bits located after the current bit position or the specified one in out",
  str% "func (b *MiniBuffer) AfterBit(out *int64, off ...int64) {",
  str% "",
  str% "\tb.afterbit(out, off...)",
  str% "",
  str% "}"]

/-- v2/minibuf.go:694-700 -/
def fun_AfterBit : Fun := ⟨(str% "AfterBit"), [none, none], none, 2, (.cons (.expr (.call (str% "afterbit") (.cons .outPtr (.cons (.var 1) .nil)))) .nil)⟩

/-- v2/minibuf.go:701-707 -/
def text_ReadBytes : List Str := [
  str% "",
  str% "// ReadBytes stores the next n bytes from the specified offset without modifying the internal offset value in out",
  str% "func (b *MiniBuffer) ReadBytes(out *[]byte, off, n int64) {",
  str% "",
  str% "\tb.read(out, off, n)",
  str% "",
  str% "}"]

/-- v2/minibuf.go:701-707 -/
def fun_ReadBytes : Fun := ⟨(str% "ReadBytes"), [none, some .i64, some .i64], none, 3, (.cons (.expr (.call (str% "read") (.cons .outPtr (.cons (.var 1) (.cons (.var 2) .nil))))) .nil)⟩

/-- v2/minibuf.go:708-714 -/
def text_ReadU16LE : List Str := [
  str% "",
  str% "// ReadU16LE reads a slice of uint16s from the buffer at the specified offset in little-endian without modifying the internal offset value",
  str% "func (b *MiniBuffer) ReadU16LE(out *[]uint16, off, n int64) {",
  str% "",
  str% "\tb.readU16LE(out, off, n)",
  str% "",
  str% "}"]

/-- v2/minibuf.go:708-714 -/
def fun_ReadU16LE : Fun := ⟨(str% "ReadU16LE"), [none, some .i64, some .i64], none, 3, (.cons (.expr (.call (str% "readU16LE") (.cons .outPtr (.cons (.var 1) (.cons (.var 2) .nil))))) .nil)⟩

/-- v2/minibuf.go:715-721 -/
def text_ReadU16BE : List Str := [
  str% "",
  str% "// ReadU16BE reads a slice of uint16s from the buffer at the specified offset in big-endian without modifying the internal offset value",
  str% "func (b *MiniBuffer) ReadU16BE(out *[]uint16, off, n int64) {",
  str% "",
  str% "\tb.readU16BE(out, off, n)",
  str% "",
  str% "}"]

/-- v2/minibuf.go:715-721 -/
def fun_ReadU16BE : Fun := ⟨(str% "ReadU16BE"), [none, some .i64, some .i64], none, 3, (.cons (.expr (.call (str% "readU16BE") (.cons .outPtr (.cons (.var 1) (.cons (.var 2) .nil))))) .nil)⟩

/-- v2/minibuf.go:722-728 -/
def text_ReadU32LE : List Str := [
  str% "",
  str% "// ReadU32LE reads a slice of uint32s from the buffer at the specified offset in little-endian without modifying the internal offset value",
  str% "func (b *MiniBuffer) ReadU32LE(out *[]uint32, off, n int64) {",
  str% "",
  str% "\tb.readU32LE(out, off, n)",
  str% "",
  str% "}"]

/-- v2/minibuf.go:722-728 -/
def fun_ReadU32LE : Fun := ⟨(str% "ReadU32LE"), [none, some .i64, some .i64], none, 3, (.cons (.expr (.call (str% "readU32LE") (.cons .outPtr (.cons (.var 1) (.cons (.var 2) .nil))))) .nil)⟩

/-- v2/minibuf.go:729-735 -/
def text_ReadU32BE : List Str := [
  str% "",
  str% "// ReadU32BE reads a slice of uint32s from the buffer at the specified offset in big-endian without modifying the internal offset value",
  str% "func (b *MiniBuffer) ReadU32BE(out *[]uint32, off, n int64) {",
  str% "",
  str% "\tb.readU32BE(out, off, n)",
  str% "",
  str% "}"]

/-- v2/minibuf.go:729-735 -/
def fun_ReadU32BE : Fun := ⟨(str% "ReadU32BE"), [none, some .i64, some .i64], none, 3, (.cons (.expr (.call (str% "readU32BE") (.cons .outPtr (.cons (.var 1) (.cons (.var 2) .nil))))) .nil)⟩

/-- v2/minibuf.go:736-742 -/
def text_ReadU64LE : List Str := [
  str% "",
  str% "// ReadU64LE reads a slice of uint64s from the buffer at the specified offset in little-endian without modifying the internal offset value",
  str% "func (b *MiniBuffer) ReadU64LE(out *[]uint64, off, n int64) {",
  str% "",
  str% "\tb.readU64LE(out, off, n)",
  str% "",
  str% "}"]

/-- v2/minibuf.go:736-742 -/
def fun_ReadU64LE : Fun := ⟨(str% "ReadU64LE"), [none, some .i64, some .i64], none, 3, (.cons (.expr (.call (str% "readU64LE") (.cons .outPtr (.cons (.var 1) (.cons (.var 2) .nil))))) .nil)⟩

/-- v2/minibuf.go:743-749 -/
def text_ReadU64BE : List Str := [
  str% "",
  str% "// ReadU64BE reads a slice of uint64s from the buffer at the specified offset in big-endian without modifying the internal offset value",
  str% "func (b *MiniBuffer) ReadU64BE(out *[]uint64, off, n int64) {",
  str% "",
  str% "\tb.readU64BE(out, off, n)",
  str% "",
  str% "}"]

/-- v2/minibuf.go:743-749 -/
def fun_ReadU64BE : Fun := ⟨(str% "ReadU64BE"), [none, some .i64, some .i64], none, 3, (.cons (.expr (.call (str% "readU64BE") (.cons .outPtr (.cons (.var 1) (.cons (.var 2) .nil))))) .nil)⟩

/-- v2/minibuf.go:750-757 -/
def text_ReadBytesNext : List Str := [
  str% "",
  str% "// ReadBytesNext stores the next n bytes from the current offset and moves the offset forward the amount of bytes read in out",
  str% "func (b *MiniBuffer) ReadBytesNext(out *[]byte, n int64) {",
  str% "",
  str% "\tb.read(out, b.off, n)",
  str% "\tb.seek(n, true)",
  str% "",
  str% "}"]

/-- v2/minibuf.go:750-757 -/
def fun_ReadBytesNext : Fun := ⟨(str% "ReadBytesNext"), [none, some .i64], none, 2, (.cons (.expr (.call (str% "read") (.cons .outPtr (.cons (.field .off) (.cons (.var 1) .nil))))) (.cons (.expr (.call (str% "seek") (.cons (.var 1) (.cons (.bool true) .nil)))) .nil))⟩

/-- v2/minibuf.go:758-765 -/
def text_ReadU16LENext : List Str := [
  str% "",
  str% "// ReadU16LENext reads a slice of uint16s from the buffer at the current offset in little-endian and moves the offset forward the amount of bytes read",
  str% "func (b *MiniBuffer) ReadU16LENext(out *[]uint16, n int64) {",
  str% "",
  str% "\tb.readU16LE(out, b.off, n)",
  str% "\tb.seek(n*2, true)",
  str% "",
  str% "}"]

/-- v2/minibuf.go:758-765 -/
def fun_ReadU16LENext : Fun := ⟨(str% "ReadU16LENext"), [none, some .i64], none, 2, (.cons (.expr (.call (str% "readU16LE") (.cons .outPtr (.cons (.field .off) (.cons (.var 1) .nil))))) (.cons (.expr (.call (str% "seek") (.cons (.bin .mul (.var 1) (.lit 2)) (.cons (.bool true) .nil)))) .nil))⟩

/-- v2/minibuf.go:766-773 -/
def text_ReadU16BENext : List Str := [
  str% "",
  str% "// ReadU16BENext reads a slice of uint16s from the buffer at the current offset in big-endian and moves the offset forward the amount of bytes read",
  str% "func (b *MiniBuffer) ReadU16BENext(out *[]uint16, n int64) {",
  str% "",
  str% "\tb.readU16BE(out, b.off, n)",
  str% "\tb.seek(n*2, true)",
  str% "",
  str% "}"]

/-- v2/minibuf.go:766-773 -/
def fun_ReadU16BENext : Fun := ⟨(str% "ReadU16BENext"), [none, some .i64], none, 2, (.cons (.expr (.call (str% "readU16BE") (.cons .outPtr (.cons (.field .off) (.cons (.var 1) .nil))))) (.cons (.expr (.call (str% "seek") (.cons (.bin .mul (.var 1) (.lit 2)) (.cons (.bool true) .nil)))) .nil))⟩

/-- v2/minibuf.go:774-781 -/
def text_ReadU32LENext : List Str := [
  str% "",
  str% "// ReadU32LENext reads a slice of uint32s from the buffer at the current offset in little-endian and moves the offset forward the amount of bytes read",
  str% "func (b *MiniBuffer) ReadU32LENext(out *[]uint32, n int64) {",
  str% "",
  str% "\tb.readU32LE(out, b.off, n)",
  str% "\tb.seek(n*4, true)",
  str% "",
  str% "}"]

/-- v2/minibuf.go:774-781 -/
def fun_ReadU32LENext : Fun := ⟨(str% "ReadU32LENext"), [none, some .i64], none, 2, (.cons (.expr (.call (str% "readU32LE") (.cons .outPtr (.cons (.field .off) (.cons (.var 1) .nil))))) (.cons (.expr (.call (str% "seek") (.cons (.bin .mul (.var 1) (.lit 4)) (.cons (.bool true) .nil)))) .nil))⟩

/-- v2/minibuf.go:782-789 -/
def text_ReadU32BENext : List Str := [
  str% "",
  str% "// ReadU32BENext reads a slice of uint32s from the buffer at the current offset in big-endian and moves the offset forward the amount of bytes read",
  str% "func (b *MiniBuffer) ReadU32BENext(out *[]uint32, n int64) {",
  str% "",
  str% "\tb.readU32BE(out, b.off, n)",
  str% "\tb.seek(n*4, true)",
  str% "",
  str% "}"]

/-- v2/minibuf.go:782-789 -/
def fun_ReadU32BENext : Fun := ⟨(str% "ReadU32BENext"), [none, some .i64], none, 2, (.cons (.expr (.call (str% "readU32BE") (.cons .outPtr (.cons (.field .off) (.cons (.var 1) .nil))))) (.cons (.expr (.call (str% "seek") (.cons (.bin .mul (.var 1) (.lit 4)) (.cons (.bool true) .nil)))) .nil))⟩

/-- v2/minibuf.go:790-797 -/
def text_ReadU64LENext : List Str := [
  str% "",
  str% "// ReadU64LENext reads a slice of uint64s from the buffer at the current offset in little-endian and moves the offset forward the amount of bytes read",
  str% "func (b *MiniBuffer) ReadU64LENext(out *[]uint64, n int64) {",
  str% "",
  str% "\tb.readU64LE(out, b.off, n)",
  str% "\tb.seek(n*8, true)",
  str% "",
  str% "}"]

/-- v2/minibuf.go:790-797 -/
def fun_ReadU64LENext : Fun := ⟨(str% "ReadU64LENext"), [none, some .i64], none, 2, (.cons (.expr (.call (str% "readU64LE") (.cons .outPtr (.cons (.field .off) (.cons (.var 1) .nil))))) (.cons (.expr (.call (str% "seek") (.cons (.bin .mul (.var 1) (.lit 8)) (.cons (.bool true) .nil)))) .nil))⟩

/-- v2/minibuf.go:798-805 -/
def text_ReadU64BENext : List Str := [
  str% "",
  str% "// ReadU64BENext reads a slice of uint64s from the buffer at the current offset in big-endian and moves the offset forward the amount of bytes read",
  str% "func (b *MiniBuffer) ReadU64BENext(out *[]uint64, n int64) {",
  str% "",
  str% "\tb.readU64BE(out, b.off, n)",
  str% "\tb.seek(n*8, true)",
  str% "",
  str% "}"]

/-- v2/minibuf.go:798-805 -/
def fun_ReadU64BENext : Fun := ⟨(str% "ReadU64BENext"), [none, some .i64], none, 2, (.cons (.expr (.call (str% "readU64BE") (.cons .outPtr (.cons (.field .off) (.cons (.var 1) .nil))))) (.cons (.expr (.call (str% "seek") (.cons (.bin .mul (.var 1) (.lit 8)) (.cons (.bool true) .nil)))) .nil))⟩

/-- v2/minibuf.go:806-812 -/
def text_WriteBytes : List Str := [
  str% "",
  str% "// WriteBytes writes bytes to the buffer at the specified offset without modifying the internal offset value",
  str% "func (b *MiniBuffer) WriteBytes(off int64, data []byte) {",
  str% "",
  str% "\tb.write(off, data)",
  str% "",
  str% "}"]

/-- v2/minibuf.go:806-812 -/
def fun_WriteBytes : Fun := ⟨(str% "WriteBytes"), [some .i64, none], none, 2, (.cons (.expr (.call (str% "write") (.cons (.var 0) (.cons (.var 1) .nil)))) .nil)⟩

/-- v2/minibuf.go:813-819 -/
def text_WriteU16LE : List Str := [
  str% "",
  str% "// WriteU16LE writes a slice of uint16s to the buffer at the specified offset in little-endian without modifying the internal offset value",
  str% "func (b *MiniBuffer) WriteU16LE(off int64, data []uint16) {",
  str% "",
  str% "\tb.writeU16LE(off, data)",
  str% "",
  str% "}"]

/-- v2/minibuf.go:813-819 -/
def fun_WriteU16LE : Fun := ⟨(str% "WriteU16LE"), [some .i64, none], none, 2, (.cons (.expr (.call (str% "writeU16LE") (.cons (.var 0) (.cons (.var 1) .nil)))) .nil)⟩

/-- v2/minibuf.go:820-826 -/
def text_WriteU16BE : List Str := [
  str% "",
  str% "// WriteU16BE writes a slice of uint16s to the buffer at the specified offset in big-endian without modifying the internal offset value",
  str% "func (b *MiniBuffer) WriteU16BE(off int64, data []uint16) {",
  str% "",
  str% "\tb.writeU16BE(off, data)",
  str% "",
  str% "}"]

/-- v2/minibuf.go:820-826 -/
def fun_WriteU16BE : Fun := ⟨(str% "WriteU16BE"), [some .i64, none], none, 2, (.cons (.expr (.call (str% "writeU16BE") (.cons (.var 0) (.cons (.var 1) .nil)))) .nil)⟩

/-- v2/minibuf.go:827-833 -/
def text_WriteU32LE : List Str := [
  str% "",
  str% "// WriteU32LE writes a slice of uint32s to the buffer at the specified offset in little-endian without modifying the internal offset value",
  str% "func (b *MiniBuffer) WriteU32LE(off int64, data []uint32) {",
  str% "",
  str% "\tb.writeU32LE(off, data)",
  str% "",
  str% "}"]

/-- v2/minibuf.go:827-833 -/
def fun_WriteU32LE : Fun := ⟨(str% "WriteU32LE"), [some .i64, none], none, 2, (.cons (.expr (.call (str% "writeU32LE") (.cons (.var 0) (.cons (.var 1) .nil)))) .nil)⟩

/-- v2/minibuf.go:834-840 -/
def text_WriteU32BE : List Str := [
  str% "",
  str% "// WriteU32BE writes a slice of uint32s to the buffer at the specified offset in big-endian without modifying the internal offset value",
  str% "func (b *MiniBuffer) WriteU32BE(off int64, data []uint32) {",
  str% "",
  str% "\tb.writeU32BE(off, data)",
  str% "",
  str% "}"]

/-- v2/minibuf.go:834-840 -/
def fun_WriteU32BE : Fun := ⟨(str% "WriteU32BE"), [some .i64, none], none, 2, (.cons (.expr (.call (str% "writeU32BE") (.cons (.var 0) (.cons (.var 1) .nil)))) .nil)⟩

/-- v2/minibuf.go:841-847 -/
def text_WriteU64LE : List Str := [
  str% "",
  str% "// WriteU64LE writes a slice of uint64s to the buffer at the specfied offset in little-endian without modifying the internal offset value",
  str% "func (b *MiniBuffer) WriteU64LE(off int64, data []uint64) {",
  str% "",
  str% "\tb.writeU64LE(off, data)",
  str% "",
  str% "}"]

/-- v2/minibuf.go:841-847 -/
def fun_WriteU64LE : Fun := ⟨(str% "WriteU64LE"), [some .i64, none], none, 2, (.cons (.expr (.call (str% "writeU64LE") (.cons (.var 0) (.cons (.var 1) .nil)))) .nil)⟩

/-- v2/minibuf.go:848-854 -/
def text_WriteU64BE : List Str := [
  str% "",
  str% "// WriteU64BE writes a slice of uint64s to the buffer at the specified offset in big-endian without modifying the internal offset value",
  str% "func (b *MiniBuffer) WriteU64BE(off int64, data []uint64) {",
  str% "",
  str% "\tb.writeU64BE(off, data)",
  str% "",
  str% "}"]

/-- v2/minibuf.go:848-854 -/
def fun_WriteU64BE : Fun := ⟨(str% "WriteU64BE"), [some .i64, none], none, 2, (.cons (.expr (.call (str% "writeU64BE") (.cons (.var 0) (.cons (.var 1) .nil)))) .nil)⟩

/-- v2/minibuf.go:855-862 -/
def text_WriteBytesNext : List Str := [
  str% "",
  str% "// WriteBytesNext writes bytes to the buffer at the current offset and moves the offset forward the amount of bytes written",
  str% "func (b *MiniBuffer) WriteBytesNext(data []byte) {",
  str% "",
  str% "\tb.write(b.off, data)",
  str% "\tb.seek(int64(len(data)), true)",
  str% "",
  str% "}"]

/-- v2/minibuf.go:855-862 -/
def fun_WriteBytesNext : Fun := ⟨(str% "WriteBytesNext"), [none], none, 1, (.cons (.expr (.call (str% "write") (.cons (.field .off) (.cons (.var 0) .nil)))) (.cons (.expr (.call (str% "seek") (.cons (.conv .i64 (.len (.var 0))) (.cons (.bool true) .nil)))) .nil))⟩

/-- v2/minibuf.go:863-870 -/
def text_WriteU16LENext : List Str := [
  str% "",
  str% "// WriteU16LENext writes a slice of uint16s to the buffer at the current offset in little-endian and moves the offset forward the amount of bytes written",
  str% "func (b *MiniBuffer) WriteU16LENext(data []uint16) {",
  str% "",
  str% "\tb.writeU16LE(b.off, data)",
  str% "\tb.seek(int64(len(data))*2, true)",
  str% "",
  str% "}"]

/-- v2/minibuf.go:863-870 -/
def fun_WriteU16LENext : Fun := ⟨(str% "WriteU16LENext"), [none], none, 1, (.cons (.expr (.call (str% "writeU16LE") (.cons (.field .off) (.cons (.var 0) .nil)))) (.cons (.expr (.call (str% "seek") (.cons (.bin .mul (.conv .i64 (.len (.var 0))) (.lit 2)) (.cons (.bool true) .nil)))) .nil))⟩

/-- v2/minibuf.go:871-878 -/
def text_WriteU16BENext : List Str := [
  str% "",
  str% "// WriteU16BENext writes a slice of uint16s to the buffer at the current offset in big-endian and moves the offset forward the amount of bytes written",
  str% "func (b *MiniBuffer) WriteU16BENext(data []uint16) {",
  str% "",
  str% "\tb.writeU16BE(b.off, data)",
  str% "\tb.seek(int64(len(data))*2, true)",
  str% "",
  str% "}"]

/-- v2/minibuf.go:871-878 -/
def fun_WriteU16BENext : Fun := ⟨(str% "WriteU16BENext"), [none], none, 1, (.cons (.expr (.call (str% "writeU16BE") (.cons (.field .off) (.cons (.var 0) .nil)))) (.cons (.expr (.call (str% "seek") (.cons (.bin .mul (.conv .i64 (.len (.var 0))) (.lit 2)) (.cons (.bool true) .nil)))) .nil))⟩

/-- v2/minibuf.go:879-886 -/
def text_WriteU32LENext : List Str := [
  str% "",
  str% "// WriteU32LENext writes a slice of uint32s to the buffer at the current offset in little-endian and moves the offset forward the amount of bytes written",
  str% "func (b *MiniBuffer) WriteU32LENext(data []uint32) {",
  str% "",
  str% "\tb.writeU32LE(b.off, data)",
  str% "\tb.seek(int64(len(data))*4, true)",
  str% "",
  str% "}"]

/-- v2/minibuf.go:879-886 -/
def fun_WriteU32LENext : Fun := ⟨(str% "WriteU32LENext"), [none], none, 1, (.cons (.expr (.call (str% "writeU32LE") (.cons (.field .off) (.cons (.var 0) .nil)))) (.cons (.expr (.call (str% "seek") (.cons (.bin .mul (.conv .i64 (.len (.var 0))) (.lit 4)) (.cons (.bool true) .nil)))) .nil))⟩

/-- v2/minibuf.go:887-894 -/
def text_WriteU32BENext : List Str := [
  str% "",
  str% "// WriteU32BENext writes a slice of uint32s to the buffer at the current offset in big-endian and moves the offset forward the amount of bytes written",
  str% "func (b *MiniBuffer) WriteU32BENext(data []uint32) {",
  str% "",
  str% "\tb.writeU32BE(b.off, data)",
  str% "\tb.seek(int64(len(data))*4, true)",
  str% "",
  str% "}"]

/-- v2/minibuf.go:887-894 -/
def fun_WriteU32BENext : Fun := ⟨(str% "WriteU32BENext"), [none], none, 1, (.cons (.expr (.call (str% "writeU32BE") (.cons (.field .off) (.cons (.var 0) .nil)))) (.cons (.expr (.call (str% "seek") (.cons (.bin .mul (.conv .i64 (.len (.var 0))) (.lit 4)) (.cons (.bool true) .nil)))) .nil))⟩

/-- v2/minibuf.go:895-902 -/
def text_WriteU64LENext : List Str := [
  str% "",
  str% "// WriteU64LENext writes a slice of uint64s to the buffer at the current offset in little-endian and moves the offset forward the amount of bytes written",
  str% "func (b *MiniBuffer) WriteU64LENext(data []uint64) {",
  str% "",
  str% "\tb.writeU64LE(b.off, data)",
  str% "\tb.seek(int64(len(data))*8, true)",
  str% "",
  str% "}"]

/-- v2/minibuf.go:895-902 -/
def fun_WriteU64LENext : Fun := ⟨(str% "WriteU64LENext"), [none], none, 1, (.cons (.expr (.call (str% "writeU64LE") (.cons (.field .off) (.cons (.var 0) .nil)))) (.cons (.expr (.call (str% "seek") (.cons (.bin .mul (.conv .i64 (.len (.var 0))) (.lit 8)) (.cons (.bool true) .nil)))) .nil))⟩

/-- v2/minibuf.go:903-910 -/
def text_WriteU64BENext : List Str := [
  str% "",
  str% "// WriteU64BENext writes a slice of uint64s to the buffer at the current offset in big-endian and moves the offset forward the amount of bytes written",
  str% "func (b *MiniBuffer) WriteU64BENext(data []uint64) {",
  str% "",
  str% "\tb.writeU64BE(b.off, data)",
  str% "\tb.seek(int64(len(data))*8, true)",
  str% "",
  str% "}"]

/-- v2/minibuf.go:903-910 -/
def fun_WriteU64BENext : Fun := ⟨(str% "WriteU64BENext"), [none], none, 1, (.cons (.expr (.call (str% "writeU64BE") (.cons (.field .off) (.cons (.var 0) .nil)))) (.cons (.expr (.call (str% "seek") (.cons (.bin .mul (.conv .i64 (.len (.var 0))) (.lit 8)) (.cons (.bool true) .nil)))) .nil))⟩

/-- v2/minibuf.go:911-917 -/
def text_ReadBit : List Str := [
  str% "",
  str% "// ReadBit stores the bit located at the specified offset without modifying the internal offset value in out",
  str% "func (b *MiniBuffer) ReadBit(out *byte, off int64) {",
  str% "",
  str% "\tb.readbit(out, off)",
  str% "",
  str% "}"]

/-- v2/minibuf.go:911-917 -/
def fun_ReadBit : Fun := ⟨(str% "ReadBit"), [none, some .i64], none, 2, (.cons (.expr (.call (str% "readbit") (.cons .outPtr (.cons (.var 1) .nil)))) .nil)⟩

/-- v2/minibuf.go:918-924 -/
def text_ReadBits : List Str := [
  str% "",
  str% "// ReadBits stores the next n bits from the specified offset without modifying the internal offset value in out",
  str% "func (b *MiniBuffer) ReadBits(out *uint64, off, n int64) {",
  str% "",
  str% "\tb.readbits(out, off, n)",
  str% "",
  str% "}"]

/-- v2/minibuf.go:918-924 -/
def fun_ReadBits : Fun := ⟨(str% "ReadBits"), [none, some .i64, some .i64], none, 3, (.cons (.expr (.call (str% "readbits") (.cons .outPtr (.cons (.var 1) (.cons (.var 2) .nil))))) .nil)⟩

/-- v2/minibuf.go:925-932 -/
def text_ReadBitNext : List Str := [
  str% "",
  str% "// ReadBitNext stores the next bit from the current offset and moves the offset forward a bit in out",
  str% "func (b *MiniBuffer) ReadBitNext(out *byte) {",
  str% "",
  str% "\tb.readbit(out, b.boff)",
  str% "\tb.seekbit(1, true)",
  str% "",
  str% "}"]

/-- v2/minibuf.go:925-932 -/
def fun_ReadBitNext : Fun := ⟨(str% "ReadBitNext"), [none], none, 1, (.cons (.expr (.call (str% "readbit") (.cons .outPtr (.cons (.field .boff) .nil)))) (.cons (.expr (.call (str% "seekbit") (.cons (.lit 1) (.cons (.bool true) .nil)))) .nil))⟩

/-- v2/minibuf.go:933-940 -/
def text_ReadBitsNext : List Str := [
  str% "",
  str% "// ReadBitsNext stores the next n bits from the current offset and moves the offset forward the amount of bits read in out",
  str% "func (b *MiniBuffer) ReadBitsNext(out *uint64, n int64) {",
  str% "",
  str% "\tb.readbits(out, b.boff, n)",
  str% "\tb.seekbit(n, true)",
  str% "",
  str% "}"]

/-- v2/minibuf.go:933-940 -/
def fun_ReadBitsNext : Fun := ⟨(str% "ReadBitsNext"), [none, some .i64], none, 2, (.cons (.expr (.call (str% "readbits") (.cons .outPtr (.cons (.field .boff) (.cons (.var 1) .nil))))) (.cons (.expr (.call (str% "seekbit") (.cons (.var 1) (.cons (.bool true) .nil)))) .nil))⟩

/-- v2/minibuf.go:941-947 -/
def text_SetBit : List Str := [
  str% "",
  str% "// SetBit sets the bit located at the specified offset without modifying the internal offset value",
  str% "func (b *MiniBuffer) SetBit(off int64, data byte) {",
  str% "",
  str% "\tb.setbit(off, data)",
  str% "",
  str% "}"]

/-- v2/minibuf.go:941-947 -/
def fun_SetBit : Fun := ⟨(str% "SetBit"), [some .i64, some .u8], none, 2, (.cons (.expr (.call (str% "setbit") (.cons (.var 0) (.cons (.var 1) .nil)))) .nil)⟩

/-- v2/minibuf.go:948-954 -/
def text_SetBits : List Str := [
  str% "",
  str% "// SetBits sets the next n bits from the specified offset without modifying the internal offset value",
  str% "func (b *MiniBuffer) SetBits(off int64, data uint64, n int64) {",
  str% "",
  str% "\tb.setbits(off, data, n)",
  str% "",
  str% "}"]

/-- v2/minibuf.go:948-954 -/
def fun_SetBits : Fun := ⟨(str% "SetBits"), [some .i64, some .u64, some .i64], none, 3, (.cons (.expr (.call (str% "setbits") (.cons (.var 0) (.cons (.var 1) (.cons (.var 2) .nil))))) .nil)⟩

/-- v2/minibuf.go:955-962 -/
def text_SetBitNext : List Str := [
  str% "",
  str% "// SetBitNext sets the next bit from the current offset and moves the offset forward a bit",
  str% "func (b *MiniBuffer) SetBitNext(data byte) {",
  str% "",
  str% "\tb.setbit(b.boff, data)",
  str% "\tb.seekbit(1, true)",
  str% "",
  str% "}"]

/-- v2/minibuf.go:955-962 -/
def fun_SetBitNext : Fun := ⟨(str% "SetBitNext"), [some .u8], none, 1, (.cons (.expr (.call (str% "setbit") (.cons (.field .boff) (.cons (.var 0) .nil)))) (.cons (.expr (.call (str% "seekbit") (.cons (.lit 1) (.cons (.bool true) .nil)))) .nil))⟩

/-- v2/minibuf.go:963-970 -/
def text_SetBitsNext : List Str := [
  str% "",
  str% "// SetBitsNext sets the next n bits from the current offset and moves the offset forward the amount of bits set",
  str% "func (b *MiniBuffer) SetBitsNext(data uint64, n int64) {",
  str% "",
  str% "\tb.setbits(b.boff, data, n)",
  str% "\tb.seekbit(n, true)",
  str% "",
  str% "}"]

/-- v2/minibuf.go:963-970 -/
def fun_SetBitsNext : Fun := ⟨(str% "SetBitsNext"), [some .u64, some .i64], none, 2, (.cons (.expr (.call (str% "setbits") (.cons (.field .boff) (.cons (.var 0) (.cons (.var 1) .nil))))) (.cons (.expr (.call (str% "seekbit") (.cons (.var 1) (.cons (.bool true) .nil)))) .nil))⟩

/-- v2/minibuf.go:971-977 -/
def text_FlipBit : List Str := [
  str% "",
  str% "// FlipBit flips the bit located at the specified offset without modifying the internal offset value",
  str% "func (b *MiniBuffer) FlipBit(off int64) {",
  str% "",
  str% "\tb.flipbit(off)",
  str% "",
  str% "}"]

/-- v2/minibuf.go:971-977 -/
def fun_FlipBit : Fun := ⟨(str% "FlipBit"), [some .i64], none, 1, (.cons (.expr (.call (str% "flipbit") (.cons (.var 0) .nil))) .nil)⟩

/-- v2/minibuf.go:978-985 -/
def text_FlipBitNext : List Str := [
  str% "",
  str% "// FlipBitNext flips the next bit from the current offset and moves the offset forward a bit",
  str% "func (b *MiniBuffer) FlipBitNext() {",
  str% "",
  str% "\tb.flipbit(b.boff)",
  str% "\tb.seekbit(1, true)",
  str% "",
  str% "}"]

/-- v2/minibuf.go:978-985 -/
def fun_FlipBitNext : Fun := ⟨(str% "FlipBitNext"), [], none, 0, (.cons (.expr (.call (str% "flipbit") (.cons (.field .boff) .nil))) (.cons (.expr (.call (str% "seekbit") (.cons (.lit 1) (.cons (.bool true) .nil)))) .nil))⟩

/-- v2/minibuf.go:986-992 -/
def text_ClearAllBits : List Str := [
  str% "",
  str% "// ClearAllBits sets all of the buffer's bits to 0",
  str% "func (b *MiniBuffer) ClearAllBits() {",
  str% "",
  str% "\tb.clearallbits()",
  str% "",
  str% "}"]

/-- v2/minibuf.go:986-992 -/
def fun_ClearAllBits : Fun := ⟨(str% "ClearAllBits"), [], none, 0, (.cons (.expr (.call (str% "clearallbits") .nil)) .nil)⟩

/-- v2/minibuf.go:993-999 -/
def text_SetAllBits : List Str := [
  str% "",
  str% "// SetAllBits sets all of the buffer's bits to 1",
  str% "func (b *MiniBuffer) SetAllBits() {",
  str% "",
  str% "\tb.setallbits()",
  str% "",
  str% "}"]

/-- v2/minibuf.go:993-999 -/
def fun_SetAllBits : Fun := ⟨(str% "SetAllBits"), [], none, 0, (.cons (.expr (.call (str% "setallbits") .nil)) .nil)⟩

/-- v2/minibuf.go:1000-1006 -/
def text_FlipAllBits : List Str := [
  str% "",
  str% "// FlipAllBits flips all of the buffer's bits",
  str% "func (b *MiniBuffer) FlipAllBits() {",
  str% "",
  str% "\tb.flipallbits()",
  str% "",
  str% "}",
  str% ""]

/-- v2/minibuf.go:1000-1006 -/
def fun_FlipAllBits : Fun := ⟨(str% "FlipAllBits"), [], none, 0, (.cons (.expr (.call (str% "flipallbits") .nil)) .nil)⟩

/-- The text, in parts. -/
def text : List (List Str) := [text_0, text_NewMiniBuffer, text_readbit, text_readbits, text_setbit, text_setbits, text_flipbit, text_clearallbits, text_setallbits, text_flipallbits, text_seekbit, text_afterbit, text_write, text_writeU16LE, text_writeU16BE, text_writeU32LE, text_writeU32BE, text_writeU64LE, text_writeU64BE, text_read, text_readU16LE, text_readU16BE, text_readU32LE, text_readU32BE, text_readU64LE, text_readU64BE, text_seek, text_after, text_grow, text_refresh, text_alignbit, text_alignbyte, text_reset, text_Bytes, text_Capacity, text_BitCapacity, text_Offset, text_BitOffset, text_Refresh, text_Reset, text_Grow, text_Seek, text_SeekBit, text_AlignBit, text_AlignByte, text_After, text_AfterBit, text_ReadBytes, text_ReadU16LE, text_ReadU16BE, text_ReadU32LE, text_ReadU32BE, text_ReadU64LE, text_ReadU64BE, text_ReadBytesNext, text_ReadU16LENext, text_ReadU16BENext, text_ReadU32LENext, text_ReadU32BENext, text_ReadU64LENext, text_ReadU64BENext, text_WriteBytes, text_WriteU16LE, text_WriteU16BE, text_WriteU32LE, text_WriteU32BE, text_WriteU64LE, text_WriteU64BE, text_WriteBytesNext, text_WriteU16LENext, text_WriteU16BENext, text_WriteU32LENext, text_WriteU32BENext, text_WriteU64LENext, text_WriteU64BENext, text_ReadBit, text_ReadBits, text_ReadBitNext, text_ReadBitsNext, text_SetBit, text_SetBits, text_SetBitNext, text_SetBitsNext, text_FlipBit, text_FlipBitNext, text_ClearAllBits, text_SetAllBits, text_FlipAllBits]

/-- The functions. -/
def funs : List Fun := [fun_NewMiniBuffer, fun_readbit, fun_readbits, fun_setbit, fun_setbits, fun_flipbit, fun_clearallbits, fun_setallbits, fun_flipallbits, fun_seekbit, fun_afterbit, fun_write, fun_writeU16LE, fun_writeU16BE, fun_writeU32LE, fun_writeU32BE, fun_writeU64LE, fun_writeU64BE, fun_read, fun_readU16LE, fun_readU16BE, fun_readU32LE, fun_readU32BE, fun_readU64LE, fun_readU64BE, fun_seek, fun_after, fun_grow, fun_refresh, fun_alignbit, fun_alignbyte, fun_reset, fun_Bytes, fun_Capacity, fun_BitCapacity, fun_Offset, fun_BitOffset, fun_Refresh, fun_Reset, fun_Grow, fun_Seek, fun_SeekBit, fun_AlignBit, fun_AlignByte, fun_After, fun_AfterBit, fun_ReadBytes, fun_ReadU16LE, fun_ReadU16BE, fun_ReadU32LE, fun_ReadU32BE, fun_ReadU64LE, fun_ReadU64BE, fun_ReadBytesNext, fun_ReadU16LENext, fun_ReadU16BENext, fun_ReadU32LENext, fun_ReadU32BENext, fun_ReadU64LENext, fun_ReadU64BENext, fun_WriteBytes, fun_WriteU16LE, fun_WriteU16BE, fun_WriteU32LE, fun_WriteU32BE, fun_WriteU64LE, fun_WriteU64BE, fun_WriteBytesNext, fun_WriteU16LENext, fun_WriteU16BENext, fun_WriteU32LENext, fun_WriteU32BENext, fun_WriteU64LENext, fun_WriteU64BENext, fun_ReadBit, fun_ReadBits, fun_ReadBitNext, fun_ReadBitsNext, fun_SetBit, fun_SetBits, fun_SetBitNext, fun_SetBitsNext, fun_FlipBit, fun_FlipBitNext, fun_ClearAllBits, fun_SetAllBits, fun_FlipAllBits]

end Crunch.Src.V2Mini
