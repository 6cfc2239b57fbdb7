import Verif.Src.Sem

/-!
# v1/minibuf.go

Written by tools/src_embed.py.
-/

namespace Crunch.Src.V1Mini

open Crunch.Gen (Str)

/-- v1/minibuf.go:1-30 -/
def text_0 : List Str := [
  str% "/*",
  str% "",
  str% "crunch - utilities for taking bytes out of things",
  str% "Copyright (c) 2019-2020 superwhiskers <whiskerdev@protonmail.com>",
  str% "",
  str% "This Source Code Form is subject to the terms of the Mozilla Public",
  str% "License, v. 2.0. If a copy of the MPL was not distributed with this",
  str% "file, You can obtain one at https://mozilla.org/MPL/2.0/.",
  str% "",
  str% "*/",
  str% "",
  str% "package v1",
  str% "",
  str% "import (",
  str% "\t\"encoding/binary\"",
  str% "\t\"sync\"",
  str% ")",
  str% "",
  str% "// MiniBuffer implements a fast and low-memory buffer type in go that handles multiple types of data easily. it is not safe",
  str% "// for concurrent usage out of the box, you are required to handle that yourself by calling the Lock and Unlock methods on it.",
  str% "// it also lacks the overwrite/read and underwrite/read checks that Buffer has",
  str% "type MiniBuffer struct {",
  str% "\tbuf  []byte",
  str% "\toff  int64",
  str% "\tcap  int64",
  str% "\tboff int64",
  str% "\tbcap int64",
  str% "",
  str% "\tsync.Mutex",
  str% "}"]

/-- v1/minibuf.go:31-60 -/
def text_NewMiniBuffer : List Str := [
  str% "",
  str% "// NewMiniBuffer initilaizes a new MiniBuffer with the provided byte slice(s) stored inside in the order provided",
  str% "func NewMiniBuffer(out **MiniBuffer, slices ...[]byte) {",
  str% "",
  str% "\t*out = &MiniBuffer{",
  str% "\t\tbuf:  []byte{},",
  str% "\t\toff:  0x00,",
  str% "\t\tboff: 0x00,",
  str% "\t}",
  str% "",
  str% "\tswitch len(slices) {",
  str% "",
  str% "\tcase 0:",
  str% "\t\tbreak",
  str% "",
  str% "\tcase 1:",
  str% "\t\t(*out).buf = slices[0]",
  str% "",
  str% "\tdefault:",
  str% "\t\tfor _, s := range slices {",
  str% "",
  str% "\t\t\t(*out).buf = append((*out).buf, s...)",
  str% "",
  str% "\t\t}",
  str% "",
  str% "\t}",
  str% "",
  str% "\t(*out).refresh()",
  str% "",
  str% "}"]

/-- v1/minibuf.go:31-60 -/
def fun_NewMiniBuffer : Fun := ⟨(str% "NewMiniBuffer"), [none, none], none, 3, (.cons (.new (.bytes .nil) (.lit 0) (.lit 0) (.lit 0) (.lit 0)) (.cons (.switch (.len (.var 1)) (.cons (.case 0 (.cons .brk .nil)) (.cons (.case 1 (.cons (.setBuf (.index (.var 1) (.lit 0))) .nil)) (.cons (.default (.cons (.rangeVal 2 (.var 1) (.cons (.setBuf (.append .buf (.var 2))) .nil)) .nil)) .nil)))) (.cons (.expr (.call (str% "refresh") .nil)) .nil)))⟩

/-- v1/minibuf.go:61-71 -/
def text_readbit : List Str := [
  str% "",
  str% "/* internal use methods */",
  str% "",
  str% "/* bitfield methods */",
  str% "",
  str% "// readbit reads a bit from the bitfield at the specified offset",
  str% "func (b *MiniBuffer) readbit(out *byte, off int64) {",
  str% "",
  str% "\t*out = atob((b.buf[off/8] & (1 << uint(7-(off%8)))) != 0)",
  str% "",
  str% "}"]

/-- v1/minibuf.go:61-71 -/
def fun_readbit : Fun := ⟨(str% "readbit"), [none, some .i64], none, 2, (.cons (.setOut (.call (str% "atob") (.cons (.bin .ne (.bin .and (.index .buf (.bin .div (.var 1) (.lit 8))) (.bin .shl (.lit 1) (.conv .u64 (.bin .sub (.lit 7) (.bin .rem (.var 1) (.lit 8)))))) (.lit 0)) .nil))) .nil)⟩

/-- v1/minibuf.go:72-84 -/
def text_readbits : List Str := [
  str% "",
  str% "// readbits reads n bits from the bitfield at the specified offset",
  str% "func (b *MiniBuffer) readbits(out *uint64, off, n int64) {",
  str% "",
  str% "\tvar bout byte",
  str% "\tfor i := int64(0); i < n; i++ {",
  str% "",
  str% "\t\tb.readbit(&bout, off+i)",
  str% "\t\t*out = (*out << uint64(1)) | uint64(bout)",
  str% "",
  str% "\t}",
  str% "",
  str% "}"]

/-- v1/minibuf.go:72-84 -/
def fun_readbits : Fun := ⟨(str% "readbits"), [none, some .i64, some .i64], none, 5, (.cons (.zero 3 .u8) (.cons (.for (.set 4 (.conv .i64 (.lit 0))) (.bin .lt (.var 4) (.var 2)) (.set 4 (.bin .add (.var 4) (.lit 1))) (.cons (.callAddr (str% "readbit") 3 (.cons (.bin .add (.var 1) (.var 4)) .nil)) (.cons (.setOut (.bin .or (.bin .shl .out (.conv .u64 (.lit 1))) (.conv .u64 (.var 3)))) .nil))) .nil))⟩

/-- v1/minibuf.go:85-102 -/
def text_setbit : List Str := [
  str% "",
  str% "// setbit sets a bit in the bitfield to the specified value",
  str% "func (b *MiniBuffer) setbit(off int64, data byte) {",
  str% "",
  str% "\tswitch data {",
  str% "",
  str% "\tcase 0:",
  str% "\t\tb.buf[off/8] &= ^(1 << uint(7-(off%8)))",
  str% "",
  str% "\tcase 1:",
  str% "\t\tb.buf[off/8] |= (1 << uint(7-(off%8)))",
  str% "",
  str% "\tdefault:",
  str% "\t\tpanic(BufferInvalidBitError)",
  str% "",
  str% "\t}",
  str% "",
  str% "}"]

/-- v1/minibuf.go:85-102 -/
def fun_setbit : Fun := ⟨(str% "setbit"), [some .i64, some .u8], none, 2, (.cons (.switch (.var 1) (.cons (.case 0 (.cons (.setBufAt (.bin .div (.var 0) (.lit 8)) (.bin .and (.index .buf (.bin .div (.var 0) (.lit 8))) (.compl (.bin .shl (.lit 1) (.conv .u64 (.bin .sub (.lit 7) (.bin .rem (.var 0) (.lit 8)))))))) .nil)) (.cons (.case 1 (.cons (.setBufAt (.bin .div (.var 0) (.lit 8)) (.bin .or (.index .buf (.bin .div (.var 0) (.lit 8))) (.bin .shl (.lit 1) (.conv .u64 (.bin .sub (.lit 7) (.bin .rem (.var 0) (.lit 8))))))) .nil)) (.cons (.default (.cons (.panic (str% "BufferInvalidBitError")) .nil)) .nil)))) .nil)⟩

/-- v1/minibuf.go:103-113 -/
def text_setbits : List Str := [
  str% "",
  str% "// setbits sets n bits in the bitfield to the specified value at the specified offset",
  str% "func (b *MiniBuffer) setbits(off int64, data uint64, n int64) {",
  str% "",
  str% "\tfor i := int64(0); i < n; i++ {",
  str% "",
  str% "\t\tb.setbit(off+i, byte((data>>uint64(n-i-1))&1))",
  str% "",
  str% "\t}",
  str% "",
  str% "}"]

/-- v1/minibuf.go:103-113 -/
def fun_setbits : Fun := ⟨(str% "setbits"), [some .i64, some .u64, some .i64], none, 4, (.cons (.for (.set 3 (.conv .i64 (.lit 0))) (.bin .lt (.var 3) (.var 2)) (.set 3 (.bin .add (.var 3) (.lit 1))) (.cons (.expr (.call (str% "setbit") (.cons (.bin .add (.var 0) (.var 3)) (.cons (.conv .u8 (.bin .and (.bin .shr (.var 1) (.conv .u64 (.bin .sub (.bin .sub (.var 2) (.var 3)) (.lit 1)))) (.lit 1))) .nil)))) .nil)) .nil)⟩

/-- v1/minibuf.go:114-120 -/
def text_flipbit : List Str := [
  str% "",
  str% "// flipbit flips a bit in the bitfield",
  str% "func (b *MiniBuffer) flipbit(off int64) {",
  str% "",
  str% "\tb.buf[off/8] ^= (1 << uint(7-(off%8)))",
  str% "",
  str% "}"]

/-- v1/minibuf.go:114-120 -/
def fun_flipbit : Fun := ⟨(str% "flipbit"), [some .i64], none, 1, (.cons (.setBufAt (.bin .div (.var 0) (.lit 8)) (.bin .xor (.index .buf (.bin .div (.var 0) (.lit 8))) (.bin .shl (.lit 1) (.conv .u64 (.bin .sub (.lit 7) (.bin .rem (.var 0) (.lit 8))))))) .nil)⟩

/-- v1/minibuf.go:121-131 -/
def text_clearallbits : List Str := [
  str% "",
  str% "// clearallbits sets all of the buffer's bits to 0",
  str% "func (b *MiniBuffer) clearallbits() {",
  str% "",
  str% "\tfor i := range b.buf {",
  str% "",
  str% "\t\tb.buf[i] = 0",
  str% "",
  str% "\t}",
  str% "",
  str% "}"]

/-- v1/minibuf.go:121-131 -/
def fun_clearallbits : Fun := ⟨(str% "clearallbits"), [], none, 1, (.cons (.rangeIdx 0 .buf (.cons (.setBufAt (.var 0) (.lit 0)) .nil)) .nil)⟩

/-- v1/minibuf.go:132-142 -/
def text_setallbits : List Str := [
  str% "",
  str% "// setallbits sets all of the buffer's bits to 1",
  str% "func (b *MiniBuffer) setallbits() {",
  str% "",
  str% "\tfor i := range b.buf {",
  str% "",
  str% "\t\tb.buf[i] = 0xFF",
  str% "",
  str% "\t}",
  str% "",
  str% "}"]

/-- v1/minibuf.go:132-142 -/
def fun_setallbits : Fun := ⟨(str% "setallbits"), [], none, 1, (.cons (.rangeIdx 0 .buf (.cons (.setBufAt (.var 0) (.lit 255)) .nil)) .nil)⟩

/-- v1/minibuf.go:143-153 -/
def text_flipallbits : List Str := [
  str% "",
  str% "// flipallbits flips all of the buffer's bits",
  str% "func (b *MiniBuffer) flipallbits() {",
  str% "",
  str% "\tfor i := range b.buf {",
  str% "",
  str% "\t\tb.buf[i] = ^b.buf[i]",
  str% "",
  str% "\t}",
  str% "",
  str% "}"]

/-- v1/minibuf.go:143-153 -/
def fun_flipallbits : Fun := ⟨(str% "flipallbits"), [], none, 1, (.cons (.rangeIdx 0 .buf (.cons (.setBufAt (.var 0) (.compl (.index .buf (.var 0)))) .nil)) .nil)⟩

/-- v1/minibuf.go:154-168 -/
def text_seekbit : List Str := [
  str% "",
  str% "// seekbit seeks to position off of the bitfield relative to the current position or exact",
  str% "func (b *MiniBuffer) seekbit(off int64, relative bool) {",
  str% "",
  str% "\tif relative {",
  str% "",
  str% "\t\tb.boff += off",
  str% "",
  str% "\t} else {",
  str% "",
  str% "\t\tb.boff = off",
  str% "",
  str% "\t}",
  str% "",
  str% "}"]

/-- v1/minibuf.go:154-168 -/
def fun_seekbit : Fun := ⟨(str% "seekbit"), [some .i64, none], none, 2, (.cons (.ifs (.var 1) (.cons (.setField .boff (.bin .add (.field .boff) (.var 0))) .nil) (.cons (.setField .boff (.var 0)) .nil)) .nil)⟩

/-- v1/minibuf.go:169-181 -/
def text_afterbit : List Str := [
  str% "",
  str% "// afterbit returns the amount of bits located after the current position or the specified one",
  str% "func (b *MiniBuffer) afterbit(out *int64, off ...int64) {",
  str% "",
  str% "\tif len(off) == 0 {",
  str% "",
  str% "\t\t*out = b.bcap - b.boff - 1",
  str% "\t\treturn",
  str% "",
  str% "\t}",
  str% "\t*out = b.bcap - off[0] - 1",
  str% "",
  str% "}"]

/-- v1/minibuf.go:169-181 -/
def fun_afterbit : Fun := ⟨(str% "afterbit"), [none, none], none, 2, (.cons (.ifs (.bin .eq (.len (.var 1)) (.lit 0)) (.cons (.setOut (.bin .sub (.bin .sub (.field .bcap) (.field .boff)) (.lit 1))) (.cons .retNone .nil)) .nil) (.cons (.setOut (.bin .sub (.bin .sub (.field .bcap) (.index (.var 1) (.lit 0))) (.lit 1))) .nil))⟩

/-- v1/minibuf.go:182-202 -/
def text_write : List Str := [
  str% "",
  str% "/* byte buffer methods */",
  str% "",
  str% "// write writes a slice of bytes to the buffer at the specified offset",
  str% "func (b *MiniBuffer) write(off int64, data []byte) {",
  str% "",
  str% "\ti := int64(0)",
  str% "\tn := int64(len(data))",
  str% "",
  str% "\t{",
  str% "\twrite_loop:",
  str% "\t\tb.buf[off+i] = data[i]",
  str% "\t\ti++",
  str% "\t\tif i < n {",
  str% "",
  str% "\t\t\tgoto write_loop",
  str% "",
  str% "\t\t}",
  str% "\t}",
  str% "",
  str% "}"]

/-- v1/minibuf.go:182-202 -/
def fun_write : Fun := ⟨(str% "write"), [some .i64, none], none, 4, (.cons (.set 2 (.conv .i64 (.lit 0))) (.cons (.set 3 (.conv .i64 (.len (.var 1)))) (.cons (.block (str% "write_loop") (.cons (.setBufAt (.bin .add (.var 0) (.var 2)) (.index (.var 1) (.var 2))) (.cons (.set 2 (.bin .add (.var 2) (.lit 1))) (.cons (.ifs (.bin .lt (.var 2) (.var 3)) (.cons (.goto (str% "write_loop")) .nil) .nil) .nil)))) .nil)))⟩

/-- v1/minibuf.go:203-271 -/
def text_writeComplex : List Str := [
  str% "",
  str% "// writeComplex writes a slice of bytes to the buffer at the specified offset with the specified endianness and integer type",
  str% "func (b *MiniBuffer) writeComplex(off int64, idata interface{}, size IntegerSize, endian binary.ByteOrder) {",
  str% "",
  str% "\tvar (",
  str% "\t\tdata  []byte",
  str% "\t\ttdata []byte",
  str% "\t)",
  str% "",
  str% "\tswitch size {",
  str% "",
  str% "\tcase Unsigned8:",
  str% "\t\tdata = idata.([]byte)",
  str% "",
  str% "\tcase Unsigned16:",
  str% "\t\tadata := idata.([]uint16)",
  str% "\t\tdata = make([]byte, 2*len(adata))",
  str% "\t\tfor i := 0; i < len(adata); i++ {",
  str% "",
  str% "\t\t\ttdata = []byte{0x00, 0x00}",
  str% "\t\t\tendian.PutUint16(tdata, adata[i])",
  str% "",
  str% "\t\t\tdata[0+(i*2)] = tdata[0]",
  str% "\t\t\tdata[1+(i*2)] = tdata[1]",
  str% "",
  str% "\t\t}",
  str% "",
  str% "\tcase Unsigned32:",
  str% "\t\tadata := idata.([]uint32)",
  str% "\t\tdata = make([]byte, 4*len(adata))",
  str% "\t\tfor i := 0; i < len(adata); i++ {",
  str% "",
  str% "\t\t\ttdata = []byte{0x00, 0x00, 0x00, 0x00}",
  str% "\t\t\tendian.PutUint32(tdata, adata[i])",
  str% "",
  str% "\t\t\tdata[0+(i*4)] = tdata[0]",
  str% "\t\t\tdata[1+(i*4)] = tdata[1]",
  str% "\t\t\tdata[2+(i*4)] = tdata[2]",
  str% "\t\t\tdata[3+(i*4)] = tdata[3]",
  str% "",
  str% "\t\t}",
  str% "",
  str% "\tcase Unsigned64:",
  str% "\t\tadata := idata.([]uint64)",
  str% "\t\tdata = make([]byte, 8*len(adata))",
  str% "\t\tfor i := 0; i < len(adata); i++ {",
  str% "",
  str% "\t\t\ttdata = []byte{0x00, 0x00, 0x00, 0x00, 0x00, 0x00, 0x00, 0x00}",
  str% "\t\t\tendian.PutUint64(tdata, adata[i])",
  str% "",
  str% "\t\t\tdata[0+(i*8)] = tdata[0]",
  str% "\t\t\tdata[1+(i*8)] = tdata[1]",
  str% "\t\t\tdata[2+(i*8)] = tdata[2]",
  str% "\t\t\tdata[3+(i*8)] = tdata[3]",
  str% "\t\t\tdata[4+(i*8)] = tdata[4]",
  str% "\t\t\tdata[5+(i*8)] = tdata[5]",
  str% "\t\t\tdata[6+(i*8)] = tdata[6]",
  str% "\t\t\tdata[7+(i*8)] = tdata[7]",
  str% "",
  str% "\t\t}",
  str% "",
  str% "\tdefault:",
  str% "\t\tpanic(BufferInvalidIntegerSizeError)",
  str% "",
  str% "\t}",
  str% "",
  str% "\tb.write(off, data)",
  str% "",
  str% "}"]

/-- v1/minibuf.go:203-271 -/
def fun_writeComplex : Fun := ⟨(str% "writeComplex"), [some .i64, none, none, none], none, 12, (.cons (.nilBytes 4) (.cons (.nilBytes 5) (.cons (.switch (.var 2) (.cons (.case 1 (.cons (.set 4 (.assert .u8 (.var 1))) .nil)) (.cons (.case 2 (.cons (.set 6 (.assert .u16 (.var 1))) (.cons (.set 4 (.make (.bin .mul (.lit 2) (.len (.var 6))))) (.cons (.for (.set 7 (.lit 0)) (.bin .lt (.var 7) (.len (.var 6))) (.set 7 (.bin .add (.var 7) (.lit 1))) (.cons (.set 5 (.own (.cons (.lit 0) (.cons (.lit 0) .nil)))) (.cons (.put .u16 (.var 3) 5 (.index (.var 6) (.var 7))) (.cons (.setAt 4 (.bin .add (.lit 0) (.bin .mul (.var 7) (.lit 2))) (.index (.var 5) (.lit 0))) (.cons (.setAt 4 (.bin .add (.lit 1) (.bin .mul (.var 7) (.lit 2))) (.index (.var 5) (.lit 1))) .nil))))) .nil)))) (.cons (.case 4 (.cons (.set 8 (.assert .u32 (.var 1))) (.cons (.set 4 (.make (.bin .mul (.lit 4) (.len (.var 8))))) (.cons (.for (.set 9 (.lit 0)) (.bin .lt (.var 9) (.len (.var 8))) (.set 9 (.bin .add (.var 9) (.lit 1))) (.cons (.set 5 (.own (.cons (.lit 0) (.cons (.lit 0) (.cons (.lit 0) (.cons (.lit 0) .nil)))))) (.cons (.put .u32 (.var 3) 5 (.index (.var 8) (.var 9))) (.cons (.setAt 4 (.bin .add (.lit 0) (.bin .mul (.var 9) (.lit 4))) (.index (.var 5) (.lit 0))) (.cons (.setAt 4 (.bin .add (.lit 1) (.bin .mul (.var 9) (.lit 4))) (.index (.var 5) (.lit 1))) (.cons (.setAt 4 (.bin .add (.lit 2) (.bin .mul (.var 9) (.lit 4))) (.index (.var 5) (.lit 2))) (.cons (.setAt 4 (.bin .add (.lit 3) (.bin .mul (.var 9) (.lit 4))) (.index (.var 5) (.lit 3))) .nil))))))) .nil)))) (.cons (.case 8 (.cons (.set 10 (.assert .u64 (.var 1))) (.cons (.set 4 (.make (.bin .mul (.lit 8) (.len (.var 10))))) (.cons (.for (.set 11 (.lit 0)) (.bin .lt (.var 11) (.len (.var 10))) (.set 11 (.bin .add (.var 11) (.lit 1))) (.cons (.set 5 (.own (.cons (.lit 0) (.cons (.lit 0) (.cons (.lit 0) (.cons (.lit 0) (.cons (.lit 0) (.cons (.lit 0) (.cons (.lit 0) (.cons (.lit 0) .nil)))))))))) (.cons (.put .u64 (.var 3) 5 (.index (.var 10) (.var 11))) (.cons (.setAt 4 (.bin .add (.lit 0) (.bin .mul (.var 11) (.lit 8))) (.index (.var 5) (.lit 0))) (.cons (.setAt 4 (.bin .add (.lit 1) (.bin .mul (.var 11) (.lit 8))) (.index (.var 5) (.lit 1))) (.cons (.setAt 4 (.bin .add (.lit 2) (.bin .mul (.var 11) (.lit 8))) (.index (.var 5) (.lit 2))) (.cons (.setAt 4 (.bin .add (.lit 3) (.bin .mul (.var 11) (.lit 8))) (.index (.var 5) (.lit 3))) (.cons (.setAt 4 (.bin .add (.lit 4) (.bin .mul (.var 11) (.lit 8))) (.index (.var 5) (.lit 4))) (.cons (.setAt 4 (.bin .add (.lit 5) (.bin .mul (.var 11) (.lit 8))) (.index (.var 5) (.lit 5))) (.cons (.setAt 4 (.bin .add (.lit 6) (.bin .mul (.var 11) (.lit 8))) (.index (.var 5) (.lit 6))) (.cons (.setAt 4 (.bin .add (.lit 7) (.bin .mul (.var 11) (.lit 8))) (.index (.var 5) (.lit 7))) .nil))))))))))) .nil)))) (.cons (.default (.cons (.panic (str% "BufferInvalidIntegerSizeError")) .nil)) .nil)))))) (.cons (.expr (.call (str% "write") (.cons (.var 0) (.cons (.var 4) .nil)))) .nil))))⟩

/-- v1/minibuf.go:272-278 -/
def text_read : List Str := [
  str% "",
  str% "// read reads n bytes from the buffer at the specified offset",
  str% "func (b *MiniBuffer) read(out *[]byte, off, n int64) {",
  str% "",
  str% "\t*out = b.buf[off : off+n]",
  str% "",
  str% "}"]

/-- v1/minibuf.go:272-278 -/
def fun_read : Fun := ⟨(str% "read"), [none, some .i64, some .i64], none, 3, (.cons (.setOut (.slice .buf (.var 1) (.bin .add (.var 1) (.var 2)))) .nil)⟩

/-- v1/minibuf.go:279-323 -/
def text_readComplex : List Str := [
  str% "",
  str% "// readComplex reads a slice of bytes from the buffer at the specified offset with the specified endianness and integer type",
  str% "func (b *MiniBuffer) readComplex(out *interface{}, off, n int64, size IntegerSize, endian binary.ByteOrder) {",
  str% "",
  str% "\tvar data []byte",
  str% "\tb.read(&data, off, n)",
  str% "",
  str% "\tswitch size {",
  str% "",
  str% "\tcase Unsigned8:",
  str% "\t\t*out = data",
  str% "",
  str% "\tcase Unsigned16:",
  str% "\t\t*out = make([]uint16, n)",
  str% "",
  str% "\t\tfor i := int64(0); i < n; i++ {",
  str% "",
  str% "\t\t\t(*out).([]uint16)[i] = endian.Uint16(data[i*2 : (i+1)*2])",
  str% "",
  str% "\t\t}",
  str% "",
  str% "\tcase Unsigned32:",
  str% "\t\t*out = make([]uint32, n)",
  str% "",
  str% "\t\tfor i := int64(0); i < n; i++ {",
  str% "",
  str% "\t\t\t(*out).([]uint32)[i] = endian.Uint32(data[i*4 : (i+1)*4])",
  str% "",
  str% "\t\t}",
  str% "",
  str% "\tcase Unsigned64:",
  str% "\t\t*out = make([]uint64, n)",
  str% "",
  str% "\t\tfor i := int64(0); i < n; i++ {",
  str% "",
  str% "\t\t\t(*out).([]uint64)[i] = endian.Uint64(data[i*8 : (i+1)*8])",
  str% "",
  str% "\t\t}",
  str% "",
  str% "\tdefault:",
  str% "\t\tpanic(BufferInvalidIntegerSizeError)",
  str% "",
  str% "\t}",
  str% "",
  str% "}"]

/-- v1/minibuf.go:279-323 -/
def fun_readComplex : Fun := ⟨(str% "readComplex"), [none, some .i64, some .i64, none, none], none, 9, (.cons (.nilBytes 5) (.cons (.callAddr (str% "read") 5 (.cons (.var 1) (.cons (.var 2) .nil))) (.cons (.switch (.var 3) (.cons (.case 1 (.cons (.setOut (.var 5)) .nil)) (.cons (.case 2 (.cons (.setOut (.makeT .u16 (.var 2))) (.cons (.for (.set 6 (.conv .i64 (.lit 0))) (.bin .lt (.var 6) (.var 2)) (.set 6 (.bin .add (.var 6) (.lit 1))) (.cons (.setOutAs .u16 (.var 6) (.uint .u16 (.var 4) (.slice (.var 5) (.bin .mul (.var 6) (.lit 2)) (.bin .mul (.bin .add (.var 6) (.lit 1)) (.lit 2))))) .nil)) .nil))) (.cons (.case 4 (.cons (.setOut (.makeT .u32 (.var 2))) (.cons (.for (.set 7 (.conv .i64 (.lit 0))) (.bin .lt (.var 7) (.var 2)) (.set 7 (.bin .add (.var 7) (.lit 1))) (.cons (.setOutAs .u32 (.var 7) (.uint .u32 (.var 4) (.slice (.var 5) (.bin .mul (.var 7) (.lit 4)) (.bin .mul (.bin .add (.var 7) (.lit 1)) (.lit 4))))) .nil)) .nil))) (.cons (.case 8 (.cons (.setOut (.makeT .u64 (.var 2))) (.cons (.for (.set 8 (.conv .i64 (.lit 0))) (.bin .lt (.var 8) (.var 2)) (.set 8 (.bin .add (.var 8) (.lit 1))) (.cons (.setOutAs .u64 (.var 8) (.uint .u64 (.var 4) (.slice (.var 5) (.bin .mul (.var 8) (.lit 8)) (.bin .mul (.bin .add (.var 8) (.lit 1)) (.lit 8))))) .nil)) .nil))) (.cons (.default (.cons (.panic (str% "BufferInvalidIntegerSizeError")) .nil)) .nil)))))) .nil)))⟩

/-- v1/minibuf.go:324-338 -/
def text_seek : List Str := [
  str% "",
  str% "// seek seeks to position off of the byte buffer relative to the current position or exact",
  str% "func (b *MiniBuffer) seek(off int64, relative bool) {",
  str% "",
  str% "\tif relative {",
  str% "",
  str% "\t\tb.off += off",
  str% "",
  str% "\t} else {",
  str% "",
  str% "\t\tb.off = off",
  str% "",
  str% "\t}",
  str% "",
  str% "}"]

/-- v1/minibuf.go:324-338 -/
def fun_seek : Fun := ⟨(str% "seek"), [some .i64, none], none, 2, (.cons (.ifs (.var 1) (.cons (.setField .off (.bin .add (.field .off) (.var 0))) .nil) (.cons (.setField .off (.var 0)) .nil)) .nil)⟩

/-- v1/minibuf.go:339-351 -/
def text_after : List Str := [
  str% "",
  str% "// after returns the amount of bytes located after the current position or the specified one",
  str% "func (b *MiniBuffer) after(out *int64, off ...int64) {",
  str% "",
  str% "\tif len(off) == 0 {",
  str% "",
  str% "\t\t*out = b.cap - b.off - 1",
  str% "\t\treturn",
  str% "",
  str% "\t}",
  str% "\t*out = b.cap - off[0] - 1",
  str% "",
  str% "}"]

/-- v1/minibuf.go:339-351 -/
def fun_after : Fun := ⟨(str% "after"), [none, none], none, 2, (.cons (.ifs (.bin .eq (.len (.var 1)) (.lit 0)) (.cons (.setOut (.bin .sub (.bin .sub (.field .cap) (.field .off)) (.lit 1))) (.cons .retNone .nil)) .nil) (.cons (.setOut (.bin .sub (.bin .sub (.field .cap) (.index (.var 1) (.lit 0))) (.lit 1))) .nil))⟩

/-- v1/minibuf.go:352-361 -/
def text_grow : List Str := [
  str% "",
  str% "/* generic methods */",
  str% "",
  str% "// grow grows the buffer by n bytes",
  str% "func (b *MiniBuffer) grow(n int64) {",
  str% "",
  str% "\tb.buf = append(b.buf, make([]byte, n)...)",
  str% "\tb.refresh()",
  str% "",
  str% "}"]

/-- v1/minibuf.go:352-361 -/
def fun_grow : Fun := ⟨(str% "grow"), [some .i64], none, 1, (.cons (.setBuf (.append .buf (.make (.var 0)))) (.cons (.expr (.call (str% "refresh") .nil)) .nil))⟩

/-- v1/minibuf.go:362-369 -/
def text_refresh : List Str := [
  str% "",
  str% "// refresh updates the internal statistics of the byte buffer forcefully",
  str% "func (b *MiniBuffer) refresh() {",
  str% "",
  str% "\tb.cap = int64(len(b.buf))",
  str% "\tb.bcap = b.cap * 8",
  str% "",
  str% "}"]

/-- v1/minibuf.go:362-369 -/
def fun_refresh : Fun := ⟨(str% "refresh"), [], none, 0, (.cons (.setField .cap (.conv .i64 (.len .buf))) (.cons (.setField .bcap (.bin .mul (.field .cap) (.lit 8))) .nil))⟩

/-- v1/minibuf.go:370-376 -/
def text_alignbit : List Str := [
  str% "",
  str% "// alignbit aligns the bit offset to the byte offset",
  str% "func (b *MiniBuffer) alignbit() {",
  str% "",
  str% "\tb.boff = b.off * 8",
  str% "",
  str% "}"]

/-- v1/minibuf.go:370-376 -/
def fun_alignbit : Fun := ⟨(str% "alignbit"), [], none, 0, (.cons (.setField .boff (.bin .mul (.field .off) (.lit 8))) .nil)⟩

/-- v1/minibuf.go:377-383 -/
def text_alignbyte : List Str := [
  str% "",
  str% "// alignbyte aligns the byte offset to the bit offset",
  str% "func (b *MiniBuffer) alignbyte() {",
  str% "",
  str% "\tb.off = b.boff / 8",
  str% "",
  str% "}"]

/-- v1/minibuf.go:377-383 -/
def fun_alignbyte : Fun := ⟨(str% "alignbyte"), [], none, 0, (.cons (.setField .off (.bin .div (.field .boff) (.lit 8))) .nil)⟩

/-- v1/minibuf.go:384-392 -/
def text_Bytes : List Str := [
  str% "",
  str% "/* public methods */",
  str% "",
  str% "// Bytes stores the internal byte slice of the buffer in out",
  str% "func (b *MiniBuffer) Bytes(out *[]byte) {",
  str% "",
  str% "\t*out = b.buf",
  str% "",
  str% "}"]

/-- v1/minibuf.go:384-392 -/
def fun_Bytes : Fun := ⟨(str% "Bytes"), [none], none, 1, (.cons (.setOut .buf) .nil)⟩

/-- v1/minibuf.go:393-399 -/
def text_Capacity : List Str := [
  str% "",
  str% "// Capacity stores the capacity of the buffer in out",
  str% "func (b *MiniBuffer) Capacity(out *int64) {",
  str% "",
  str% "\t*out = b.cap",
  str% "",
  str% "}"]

/-- v1/minibuf.go:393-399 -/
def fun_Capacity : Fun := ⟨(str% "Capacity"), [none], none, 1, (.cons (.setOut (.field .cap)) .nil)⟩

/-- v1/minibuf.go:400-406 -/
def text_BitCapacity : List Str := [
  str% "",
  str% "// BitCapacity stores the bit capacity of the buffer in out",
  str% "func (b *MiniBuffer) BitCapacity(out *int64) {",
  str% "",
  str% "\t*out = b.bcap",
  str% "",
  str% "}"]

/-- v1/minibuf.go:400-406 -/
def fun_BitCapacity : Fun := ⟨(str% "BitCapacity"), [none], none, 1, (.cons (.setOut (.field .bcap)) .nil)⟩

/-- v1/minibuf.go:407-413 -/
def text_Offset : List Str := [
  str% "",
  str% "// Offset stores the current offset of the buffer in out",
  str% "func (b *MiniBuffer) Offset(out *int64) {",
  str% "",
  str% "\t*out = b.off",
  str% "",
  str% "}"]

/-- v1/minibuf.go:407-413 -/
def fun_Offset : Fun := ⟨(str% "Offset"), [none], none, 1, (.cons (.setOut (.field .off)) .nil)⟩

/-- v1/minibuf.go:414-420 -/
def text_BitOffset : List Str := [
  str% "",
  str% "// BitOffset stores the current bit offset of the buffer in out",
  str% "func (b *MiniBuffer) BitOffset(out *int64) {",
  str% "",
  str% "\t*out = b.boff",
  str% "",
  str% "}"]

/-- v1/minibuf.go:414-420 -/
def fun_BitOffset : Fun := ⟨(str% "BitOffset"), [none], none, 1, (.cons (.setOut (.field .boff)) .nil)⟩

/-- v1/minibuf.go:421-427 -/
def text_Refresh : List Str := [
  str% "",
  str% "// Refresh updates the cached internal statistics of the buffer forcefully",
  str% "func (b *MiniBuffer) Refresh() {",
  str% "",
  str% "\tb.refresh()",
  str% "",
  str% "}"]

/-- v1/minibuf.go:421-427 -/
def fun_Refresh : Fun := ⟨(str% "Refresh"), [], none, 0, (.cons (.expr (.call (str% "refresh") .nil)) .nil)⟩

/-- v1/minibuf.go:428-434 -/
def text_Grow : List Str := [
  str% "",
  str% "// Grow makes the buffer's capacity bigger by n bytes",
  str% "func (b *MiniBuffer) Grow(n int64) {",
  str% "",
  str% "\tb.grow(n)",
  str% "",
  str% "}"]

/-- v1/minibuf.go:428-434 -/
def fun_Grow : Fun := ⟨(str% "Grow"), [some .i64], none, 1, (.cons (.expr (.call (str% "grow") (.cons (.var 0) .nil))) .nil)⟩

/-- v1/minibuf.go:435-441 -/
def text_Seek : List Str := [
  str% "",
  str% "// Seek seeks to position off of the buffer relative to the current position or exact",
  str% "func (b *MiniBuffer) Seek(off int64, relative bool) {",
  str% "",
  str% "\tb.seek(off, relative)",
  str% "",
  str% "}"]

/-- v1/minibuf.go:435-441 -/
def fun_Seek : Fun := ⟨(str% "Seek"), [some .i64, none], none, 2, (.cons (.expr (.call (str% "seek") (.cons (.var 0) (.cons (.var 1) .nil)))) .nil)⟩

/-- v1/minibuf.go:442-448 -/
def text_SeekBit : List Str := [
  str% "",
  str% "// SeekBit seeks to bit position off of the the buffer relative to the current position or exact",
  str% "func (b *MiniBuffer) SeekBit(off int64, relative bool) {",
  str% "",
  str% "\tb.seekbit(off, relative)",
  str% "",
  str% "}"]

/-- v1/minibuf.go:442-448 -/
def fun_SeekBit : Fun := ⟨(str% "SeekBit"), [some .i64, none], none, 2, (.cons (.expr (.call (str% "seekbit") (.cons (.var 0) (.cons (.var 1) .nil)))) .nil)⟩

/-- v1/minibuf.go:449-455 -/
def text_AlignBit : List Str := [
  str% "",
  str% "// AlignBit aligns the bit offset to the byte offset",
  str% "func (b *MiniBuffer) AlignBit() {",
  str% "",
  str% "\tb.alignbit()",
  str% "",
  str% "}"]

/-- v1/minibuf.go:449-455 -/
def fun_AlignBit : Fun := ⟨(str% "AlignBit"), [], none, 0, (.cons (.expr (.call (str% "alignbit") .nil)) .nil)⟩

/-- v1/minibuf.go:456-462 -/
def text_AlignByte : List Str := [
  str% "",
  str% "// AlignByte aligns the byte offset to the bit offset",
  str% "func (b *MiniBuffer) AlignByte() {",
  str% "",
  str% "\tb.alignbyte()",
  str% "",
  str% "}"]

/-- v1/minibuf.go:456-462 -/
def fun_AlignByte : Fun := ⟨(str% "AlignByte"), [], none, 0, (.cons (.expr (.call (str% "alignbyte") .nil)) .nil)⟩

/-- v1/minibuf.go:463-469 -/
def text_After : List Str := [
  str% "",
  str% "// After stores the amount of bytes located after the current position or the specified one in out",
  str% "func (b *MiniBuffer) After(out *int64, off ...int64) {",
  str% "",
  str% "\tb.after(out, off...)",
  str% "",
  str% "}"]

/-- v1/minibuf.go:463-469 -/
def fun_After : Fun := ⟨(str% "After"), [none, none], none, 2, (.cons (.expr (.call (str% "after") (.cons .outPtr (.cons (.var 1) .nil)))) .nil)⟩

/-- v1/minibuf.go:470-476 -/
def text_AfterBit : List Str := [
  str% "",
  str% "// AfterBit stores the amount of bits located after the current bit position or the specified one in out",
  str% "func (b *MiniBuffer) AfterBit(out *int64, off ...int64) {",
  str% "",
  str% "\tb.afterbit(out, off...)",
  str% "",
  str% "}"]

/-- v1/minibuf.go:470-476 -/
def fun_AfterBit : Fun := ⟨(str% "AfterBit"), [none, none], none, 2, (.cons (.expr (.call (str% "afterbit") (.cons .outPtr (.cons (.var 1) .nil)))) .nil)⟩

/-- v1/minibuf.go:477-483 -/
def text_ReadBytes : List Str := [
  str% "",
  str% "// ReadBytes stores the next n bytes from the specified offset without modifying the internal offset value in out",
  str% "func (b *MiniBuffer) ReadBytes(out *[]byte, off, n int64) {",
  str% "",
  str% "\tb.read(out, off, n)",
  str% "",
  str% "}"]

/-- v1/minibuf.go:477-483 -/
def fun_ReadBytes : Fun := ⟨(str% "ReadBytes"), [none, some .i64, some .i64], none, 3, (.cons (.expr (.call (str% "read") (.cons .outPtr (.cons (.var 1) (.cons (.var 2) .nil))))) .nil)⟩

/-- v1/minibuf.go:484-490 -/
def text_ReadComplex : List Str := [
  str% "",
  str% "// ReadComplex stores the next n uint8/uint16/uint32/uint64-s from the specified offset without modifying the internal offset value",
  str% "func (b *MiniBuffer) ReadComplex(out *interface{}, off, n int64, size IntegerSize, endian binary.ByteOrder) {",
  str% "",
  str% "\tb.readComplex(out, off, n, size, endian)",
  str% "",
  str% "}"]

/-- v1/minibuf.go:484-490 -/
def fun_ReadComplex : Fun := ⟨(str% "ReadComplex"), [none, some .i64, some .i64, none, none], none, 5, (.cons (.expr (.call (str% "readComplex") (.cons .outPtr (.cons (.var 1) (.cons (.var 2) (.cons (.var 3) (.cons (.var 4) .nil))))))) .nil)⟩

/-- v1/minibuf.go:491-498 -/
def text_ReadBytesNext : List Str := [
  str% "",
  str% "// ReadBytesNext stores the next n bytes from the current offset and moves the offset forward the amount of bytes read in out",
  str% "func (b *MiniBuffer) ReadBytesNext(out *[]byte, n int64) {",
  str% "",
  str% "\tb.read(out, b.off, n)",
  str% "\tb.seek(n, true)",
  str% "",
  str% "}"]

/-- v1/minibuf.go:491-498 -/
def fun_ReadBytesNext : Fun := ⟨(str% "ReadBytesNext"), [none, some .i64], none, 2, (.cons (.expr (.call (str% "read") (.cons .outPtr (.cons (.field .off) (.cons (.var 1) .nil))))) (.cons (.expr (.call (str% "seek") (.cons (.var 1) (.cons (.bool true) .nil)))) .nil))⟩

/-- v1/minibuf.go:499-506 -/
def text_ReadComplexNext : List Str := [
  str% "",
  str% "// ReadComplexNext stores the next n uint8/uint16/uint32/uint64-s from the current offset and moves the offset forward the amount of bytes read",
  str% "func (b *MiniBuffer) ReadComplexNext(out *interface{}, n int64, size IntegerSize, endian binary.ByteOrder) {",
  str% "",
  str% "\tb.readComplex(out, b.off, n, size, endian)",
  str% "\tb.seek(n*int64(size), true)",
  str% "",
  str% "}"]

/-- v1/minibuf.go:499-506 -/
def fun_ReadComplexNext : Fun := ⟨(str% "ReadComplexNext"), [none, some .i64, none, none], none, 4, (.cons (.expr (.call (str% "readComplex") (.cons .outPtr (.cons (.field .off) (.cons (.var 1) (.cons (.var 2) (.cons (.var 3) .nil))))))) (.cons (.expr (.call (str% "seek") (.cons (.bin .mul (.var 1) (.conv .i64 (.var 2))) (.cons (.bool true) .nil)))) .nil))⟩

/-- v1/minibuf.go:507-513 -/
def text_WriteBytes : List Str := [
  str% "",
  str% "// WriteBytes writes bytes to the buffer at the specified offset without modifying the internal offset value",
  str% "func (b *MiniBuffer) WriteBytes(off int64, data []byte) {",
  str% "",
  str% "\tb.write(off, data)",
  str% "",
  str% "}"]

/-- v1/minibuf.go:507-513 -/
def fun_WriteBytes : Fun := ⟨(str% "WriteBytes"), [some .i64, none], none, 2, (.cons (.expr (.call (str% "write") (.cons (.var 0) (.cons (.var 1) .nil)))) .nil)⟩

/-- v1/minibuf.go:514-520 -/
def text_WriteComplex : List Str := [
  str% "",
  str% "// WriteComplex writes a uint8/uint16/uint32/uint64 to the buffer at the specified offset without modifying the internal offset value",
  str% "func (b *MiniBuffer) WriteComplex(off int64, data interface{}, size IntegerSize, endian binary.ByteOrder) {",
  str% "",
  str% "\tb.writeComplex(off, data, size, endian)",
  str% "",
  str% "}"]

/-- v1/minibuf.go:514-520 -/
def fun_WriteComplex : Fun := ⟨(str% "WriteComplex"), [some .i64, none, none, none], none, 4, (.cons (.expr (.call (str% "writeComplex") (.cons (.var 0) (.cons (.var 1) (.cons (.var 2) (.cons (.var 3) .nil)))))) .nil)⟩

/-- v1/minibuf.go:521-528 -/
def text_WriteBytesNext : List Str := [
  str% "",
  str% "// WriteBytesNext writes bytes to the buffer at the current offset and moves the offset forward the amount of bytes written",
  str% "func (b *MiniBuffer) WriteBytesNext(data []byte) {",
  str% "",
  str% "\tb.write(b.off, data)",
  str% "\tb.seek(int64(len(data)), true)",
  str% "",
  str% "}"]

/-- v1/minibuf.go:521-528 -/
def fun_WriteBytesNext : Fun := ⟨(str% "WriteBytesNext"), [none], none, 1, (.cons (.expr (.call (str% "write") (.cons (.field .off) (.cons (.var 0) .nil)))) (.cons (.expr (.call (str% "seek") (.cons (.conv .i64 (.len (.var 0))) (.cons (.bool true) .nil)))) .nil))⟩

/-- v1/minibuf.go:529-551 -/
def text_WriteComplexNext : List Str := [
  str% "",
  str% "// WriteComplexNext writes a uint8/uint16/uint32/uint64 to the buffer at the current offset and moves the offset forward the amount of bytes written",
  str% "func (b *MiniBuffer) WriteComplexNext(data interface{}, size IntegerSize, endian binary.ByteOrder) {",
  str% "",
  str% "\tb.writeComplex(b.off, data, size, endian)",
  str% "",
  str% "\tswitch size {",
  str% "",
  str% "\tcase Unsigned8:",
  str% "\t\tb.seek(int64(len(data.([]uint8))*int(size)), true)",
  str% "",
  str% "\tcase Unsigned16:",
  str% "\t\tb.seek(int64(len(data.([]uint16))*int(size)), true)",
  str% "",
  str% "\tcase Unsigned32:",
  str% "\t\tb.seek(int64(len(data.([]uint32))*int(size)), true)",
  str% "",
  str% "\tcase Unsigned64:",
  str% "\t\tb.seek(int64(len(data.([]uint64))*int(size)), true)",
  str% "",
  str% "\t}",
  str% "",
  str% "}"]

/-- v1/minibuf.go:529-551 -/
def fun_WriteComplexNext : Fun := ⟨(str% "WriteComplexNext"), [none, none, none], none, 3, (.cons (.expr (.call (str% "writeComplex") (.cons (.field .off) (.cons (.var 0) (.cons (.var 1) (.cons (.var 2) .nil)))))) (.cons (.switch (.var 1) (.cons (.case 1 (.cons (.expr (.call (str% "seek") (.cons (.conv .i64 (.bin .mul (.len (.assert .u8 (.var 0))) (.conv .i64 (.var 1)))) (.cons (.bool true) .nil)))) .nil)) (.cons (.case 2 (.cons (.expr (.call (str% "seek") (.cons (.conv .i64 (.bin .mul (.len (.assert .u16 (.var 0))) (.conv .i64 (.var 1)))) (.cons (.bool true) .nil)))) .nil)) (.cons (.case 4 (.cons (.expr (.call (str% "seek") (.cons (.conv .i64 (.bin .mul (.len (.assert .u32 (.var 0))) (.conv .i64 (.var 1)))) (.cons (.bool true) .nil)))) .nil)) (.cons (.case 8 (.cons (.expr (.call (str% "seek") (.cons (.conv .i64 (.bin .mul (.len (.assert .u64 (.var 0))) (.conv .i64 (.var 1)))) (.cons (.bool true) .nil)))) .nil)) .nil))))) .nil))⟩

/-- v1/minibuf.go:552-558 -/
def text_ReadBit : List Str := [
  str% "",
  str% "// ReadBit stores the bit located at the specified offset without modifying the internal offset value in out",
  str% "func (b *MiniBuffer) ReadBit(out *byte, off int64) {",
  str% "",
  str% "\tb.readbit(out, off)",
  str% "",
  str% "}"]

/-- v1/minibuf.go:552-558 -/
def fun_ReadBit : Fun := ⟨(str% "ReadBit"), [none, some .i64], none, 2, (.cons (.expr (.call (str% "readbit") (.cons .outPtr (.cons (.var 1) .nil)))) .nil)⟩

/-- v1/minibuf.go:559-565 -/
def text_ReadBits : List Str := [
  str% "",
  str% "// ReadBits stores the next n bits from the specified offset without modifying the internal offset value in out",
  str% "func (b *MiniBuffer) ReadBits(out *uint64, off, n int64) {",
  str% "",
  str% "\tb.readbits(out, off, n)",
  str% "",
  str% "}"]

/-- v1/minibuf.go:559-565 -/
def fun_ReadBits : Fun := ⟨(str% "ReadBits"), [none, some .i64, some .i64], none, 3, (.cons (.expr (.call (str% "readbits") (.cons .outPtr (.cons (.var 1) (.cons (.var 2) .nil))))) .nil)⟩

/-- v1/minibuf.go:566-573 -/
def text_ReadBitNext : List Str := [
  str% "",
  str% "// ReadBitNext stores the next bit from the current offset and moves the offset forward a bit in out",
  str% "func (b *MiniBuffer) ReadBitNext(out *byte) {",
  str% "",
  str% "\tb.readbit(out, b.boff)",
  str% "\tb.seekbit(1, true)",
  str% "",
  str% "}"]

/-- v1/minibuf.go:566-573 -/
def fun_ReadBitNext : Fun := ⟨(str% "ReadBitNext"), [none], none, 1, (.cons (.expr (.call (str% "readbit") (.cons .outPtr (.cons (.field .boff) .nil)))) (.cons (.expr (.call (str% "seekbit") (.cons (.lit 1) (.cons (.bool true) .nil)))) .nil))⟩

/-- v1/minibuf.go:574-581 -/
def text_ReadBitsNext : List Str := [
  str% "",
  str% "// ReadBitsNext stores the next n bits from the current offset and moves the offset forward the amount of bits read in out",
  str% "func (b *MiniBuffer) ReadBitsNext(out *uint64, n int64) {",
  str% "",
  str% "\tb.readbits(out, b.boff, n)",
  str% "\tb.seekbit(n, true)",
  str% "",
  str% "}"]

/-- v1/minibuf.go:574-581 -/
def fun_ReadBitsNext : Fun := ⟨(str% "ReadBitsNext"), [none, some .i64], none, 2, (.cons (.expr (.call (str% "readbits") (.cons .outPtr (.cons (.field .boff) (.cons (.var 1) .nil))))) (.cons (.expr (.call (str% "seekbit") (.cons (.var 1) (.cons (.bool true) .nil)))) .nil))⟩

/-- v1/minibuf.go:582-588 -/
def text_SetBit : List Str := [
  str% "",
  str% "// SetBit sets the bit located at the specified offset without modifying the internal offset value",
  str% "func (b *MiniBuffer) SetBit(off int64, data byte) {",
  str% "",
  str% "\tb.setbit(off, data)",
  str% "",
  str% "}"]

/-- v1/minibuf.go:582-588 -/
def fun_SetBit : Fun := ⟨(str% "SetBit"), [some .i64, some .u8], none, 2, (.cons (.expr (.call (str% "setbit") (.cons (.var 0) (.cons (.var 1) .nil)))) .nil)⟩

/-- v1/minibuf.go:589-595 -/
def text_SetBits : List Str := [
  str% "",
  str% "// SetBits sets the next n bits from the specified offset without modifying the internal offset value",
  str% "func (b *MiniBuffer) SetBits(off int64, data uint64, n int64) {",
  str% "",
  str% "\tb.setbits(off, data, n)",
  str% "",
  str% "}"]

/-- v1/minibuf.go:589-595 -/
def fun_SetBits : Fun := ⟨(str% "SetBits"), [some .i64, some .u64, some .i64], none, 3, (.cons (.expr (.call (str% "setbits") (.cons (.var 0) (.cons (.var 1) (.cons (.var 2) .nil))))) .nil)⟩

/-- v1/minibuf.go:596-603 -/
def text_SetBitNext : List Str := [
  str% "",
  str% "// SetBitNext sets the next bit from the current offset and moves the offset forward a bit",
  str% "func (b *MiniBuffer) SetBitNext(data byte) {",
  str% "",
  str% "\tb.setbit(b.boff, data)",
  str% "\tb.seekbit(1, true)",
  str% "",
  str% "}"]

/-- v1/minibuf.go:596-603 -/
def fun_SetBitNext : Fun := ⟨(str% "SetBitNext"), [some .u8], none, 1, (.cons (.expr (.call (str% "setbit") (.cons (.field .boff) (.cons (.var 0) .nil)))) (.cons (.expr (.call (str% "seekbit") (.cons (.lit 1) (.cons (.bool true) .nil)))) .nil))⟩

/-- v1/minibuf.go:604-611 -/
def text_SetBitsNext : List Str := [
  str% "",
  str% "// SetBitsNext sets the next n bits from the current offset and moves the offset forward the amount of bits set",
  str% "func (b *MiniBuffer) SetBitsNext(data uint64, n int64) {",
  str% "",
  str% "\tb.setbits(b.boff, data, n)",
  str% "\tb.seekbit(n, true)",
  str% "",
  str% "}"]

/-- v1/minibuf.go:604-611 -/
def fun_SetBitsNext : Fun := ⟨(str% "SetBitsNext"), [some .u64, some .i64], none, 2, (.cons (.expr (.call (str% "setbits") (.cons (.field .boff) (.cons (.var 0) (.cons (.var 1) .nil))))) (.cons (.expr (.call (str% "seekbit") (.cons (.var 1) (.cons (.bool true) .nil)))) .nil))⟩

/-- v1/minibuf.go:612-618 -/
def text_FlipBit : List Str := [
  str% "",
  str% "// FlipBit flips the bit located at the specified offset without modifying the internal offset value",
  str% "func (b *MiniBuffer) FlipBit(off int64) {",
  str% "",
  str% "\tb.flipbit(off)",
  str% "",
  str% "}"]

/-- v1/minibuf.go:612-618 -/
def fun_FlipBit : Fun := ⟨(str% "FlipBit"), [some .i64], none, 1, (.cons (.expr (.call (str% "flipbit") (.cons (.var 0) .nil))) .nil)⟩

/-- v1/minibuf.go:619-626 -/
def text_FlipBitNext : List Str := [
  str% "",
  str% "// FlipBitNext flips the next bit from the current offset and moves the offset forward a bit",
  str% "func (b *MiniBuffer) FlipBitNext() {",
  str% "",
  str% "\tb.flipbit(b.boff)",
  str% "\tb.seekbit(1, true)",
  str% "",
  str% "}"]

/-- v1/minibuf.go:619-626 -/
def fun_FlipBitNext : Fun := ⟨(str% "FlipBitNext"), [], none, 0, (.cons (.expr (.call (str% "flipbit") (.cons (.field .boff) .nil))) (.cons (.expr (.call (str% "seekbit") (.cons (.lit 1) (.cons (.bool true) .nil)))) .nil))⟩

/-- v1/minibuf.go:627-633 -/
def text_ClearAllBits : List Str := [
  str% "",
  str% "// ClearAllBits sets all of the buffer's bits to 0",
  str% "func (b *MiniBuffer) ClearAllBits() {",
  str% "",
  str% "\tb.clearallbits()",
  str% "",
  str% "}"]

/-- v1/minibuf.go:627-633 -/
def fun_ClearAllBits : Fun := ⟨(str% "ClearAllBits"), [], none, 0, (.cons (.expr (.call (str% "clearallbits") .nil)) .nil)⟩

/-- v1/minibuf.go:634-640 -/
def text_SetAllBits : List Str := [
  str% "",
  str% "// SetAllBits sets all of the buffer's bits to 1",
  str% "func (b *MiniBuffer) SetAllBits() {",
  str% "",
  str% "\tb.setallbits()",
  str% "",
  str% "}"]

/-- v1/minibuf.go:634-640 -/
def fun_SetAllBits : Fun := ⟨(str% "SetAllBits"), [], none, 0, (.cons (.expr (.call (str% "setallbits") .nil)) .nil)⟩

/-- v1/minibuf.go:641-647 -/
def text_FlipAllBits : List Str := [
  str% "",
  str% "// FlipAllBits flips all of the buffer's bits",
  str% "func (b *MiniBuffer) FlipAllBits() {",
  str% "",
  str% "\tb.flipallbits()",
  str% "",
  str% "}",
  str% ""]

/-- v1/minibuf.go:641-647 -/
def fun_FlipAllBits : Fun := ⟨(str% "FlipAllBits"), [], none, 0, (.cons (.expr (.call (str% "flipallbits") .nil)) .nil)⟩

/-- The text, in parts. -/
def text : List (List Str) := [text_0, text_NewMiniBuffer, text_readbit, text_readbits, text_setbit, text_setbits, text_flipbit, text_clearallbits, text_setallbits, text_flipallbits, text_seekbit, text_afterbit, text_write, text_writeComplex, text_read, text_readComplex, text_seek, text_after, text_grow, text_refresh, text_alignbit, text_alignbyte, text_Bytes, text_Capacity, text_BitCapacity, text_Offset, text_BitOffset, text_Refresh, text_Grow, text_Seek, text_SeekBit, text_AlignBit, text_AlignByte, text_After, text_AfterBit, text_ReadBytes, text_ReadComplex, text_ReadBytesNext, text_ReadComplexNext, text_WriteBytes, text_WriteComplex, text_WriteBytesNext, text_WriteComplexNext, text_ReadBit, text_ReadBits, text_ReadBitNext, text_ReadBitsNext, text_SetBit, text_SetBits, text_SetBitNext, text_SetBitsNext, text_FlipBit, text_FlipBitNext, text_ClearAllBits, text_SetAllBits, text_FlipAllBits]

/-- The functions. -/
def funs : List Fun := [fun_NewMiniBuffer, fun_readbit, fun_readbits, fun_setbit, fun_setbits, fun_flipbit, fun_clearallbits, fun_setallbits, fun_flipallbits, fun_seekbit, fun_afterbit, fun_write, fun_writeComplex, fun_read, fun_readComplex, fun_seek, fun_after, fun_grow, fun_refresh, fun_alignbit, fun_alignbyte, fun_Bytes, fun_Capacity, fun_BitCapacity, fun_Offset, fun_BitOffset, fun_Refresh, fun_Grow, fun_Seek, fun_SeekBit, fun_AlignBit, fun_AlignByte, fun_After, fun_AfterBit, fun_ReadBytes, fun_ReadComplex, fun_ReadBytesNext, fun_ReadComplexNext, fun_WriteBytes, fun_WriteComplex, fun_WriteBytesNext, fun_WriteComplexNext, fun_ReadBit, fun_ReadBits, fun_ReadBitNext, fun_ReadBitsNext, fun_SetBit, fun_SetBits, fun_SetBitNext, fun_SetBitsNext, fun_FlipBit, fun_FlipBitNext, fun_ClearAllBits, fun_SetAllBits, fun_FlipAllBits]

end Crunch.Src.V1Mini
