import Verif.Src.Sem

/-!
# v1/buffer.go

Written by tools/src_embed.py.
-/

namespace Crunch.Src.V1Buffer

open Crunch.Gen (Str)

/-- v1/buffer.go:1-28 -/
def text_0 : List Str := [
  str% "/*",
  str% "",
  str% "crunch - utilities for taking bytes out of things",
  str% "Copyright (c) 2019-2020 superwhiskers <whiskerdev@protonmail.com>",
  str% "",
  str% "This Source Code Form is subject to the terms of the Mozilla Public",
  str% "License, v. 2.0. If a copy of the MPL was not distributed with this",
  str% "file, You can obtain one at https://mozilla.org/MPL/2.0/.",
  str% "",
  str% "*/",
  str% "",
  str% "package v1",
  str% "",
  str% "import (",
  str% "\t\"encoding/binary\"",
  str% "\t\"sync\"",
  str% ")",
  str% "",
  str% "// Buffer implements a concurrent-safe buffer type in go that handles multiple types of data",
  str% "type Buffer struct {",
  str% "\tbuf  []byte",
  str% "\toff  int64",
  str% "\tcap  int64",
  str% "\tboff int64",
  str% "\tbcap int64",
  str% "",
  str% "\tsync.Mutex",
  str% "}"]

/-- v1/buffer.go:29-59 -/
def text_NewBuffer : List Str := [
  str% "",
  str% "// NewBuffer initilaizes a new Buffer with the provided byte slice(s) stored inside in the order provided",
  str% "func NewBuffer(slices ...[]byte) (buf *Buffer) {",
  str% "",
  str% "\tbuf = &Buffer{",
  str% "\t\tbuf:  []byte{},",
  str% "\t\toff:  0x00,",
  str% "\t\tboff: 0x00,",
  str% "\t}",
  str% "",
  str% "\tswitch len(slices) {",
  str% "",
  str% "\tcase 0:",
  str% "\t\tbreak",
  str% "",
  str% "\tcase 1:",
  str% "\t\tbuf.buf = slices[0]",
  str% "",
  str% "\tdefault:",
  str% "\t\tfor _, s := range slices {",
  str% "",
  str% "\t\t\tbuf.buf = append(buf.buf, s...)",
  str% "",
  str% "\t\t}",
  str% "",
  str% "\t}",
  str% "",
  str% "\tbuf.refresh()",
  str% "\treturn",
  str% "",
  str% "}"]

/-- v1/buffer.go:29-59 -/
def fun_NewBuffer : Fun := ⟨(str% "NewBuffer"), [none], none, 2, (.cons (.new (.bytes .nil) (.lit 0) (.lit 0) (.lit 0) (.lit 0)) (.cons (.switch (.len (.var 0)) (.cons (.case 0 (.cons .brk .nil)) (.cons (.case 1 (.cons (.setBuf (.index (.var 0) (.lit 0))) .nil)) (.cons (.default (.cons (.rangeVal 1 (.var 0) (.cons (.setBuf (.append .buf (.var 1))) .nil)) .nil)) .nil)))) (.cons (.expr (.call (str% "refresh") .nil)) (.cons .retNone .nil))))⟩

/-- v1/buffer.go:60-85 -/
def text_readbit : List Str := [
  str% "",
  str% "/* internal use methods */",
  str% "",
  str% "/* bitfield methods */",
  str% "",
  str% "// readbit reads a bit from the bitfield at the specified offset",
  str% "func (b *Buffer) readbit(off int64) byte {",
  str% "",
  str% "\tif off > (b.bcap - 1) {",
  str% "",
  str% "\t\tpanic(BufferOverreadError)",
  str% "",
  str% "\t}",
  str% "",
  str% "\tif off < 0x00 {",
  str% "",
  str% "\t\tpanic(BufferUnderreadError)",
  str% "",
  str% "\t}",
  str% "",
  str% "\tb.Lock()",
  str% "\tdefer b.Unlock()",
  str% "",
  str% "\treturn atob((b.buf[off/8] & (1 << uint(7-(off%8)))) != 0)",
  str% "",
  str% "}"]

/-- v1/buffer.go:60-85 -/
def fun_readbit : Fun := ⟨(str% "readbit"), [some .i64], some .u8, 1, (.cons (.ifs (.bin .gt (.var 0) (.bin .sub (.field .bcap) (.lit 1))) (.cons (.panic (str% "BufferOverreadError")) .nil) .nil) (.cons (.ifs (.bin .lt (.var 0) (.lit 0)) (.cons (.panic (str% "BufferUnderreadError")) .nil) .nil) (.cons .lock (.cons .deferUnlock (.cons (.ret (.call (str% "atob") (.cons (.bin .ne (.bin .and (.index .buf (.bin .div (.var 0) (.lit 8))) (.bin .shl (.lit 1) (.conv .u64 (.bin .sub (.lit 7) (.bin .rem (.var 0) (.lit 8)))))) (.lit 0)) .nil))) .nil)))))⟩

/-- v1/buffer.go:86-97 -/
def text_readbits : List Str := [
  str% "",
  str% "// readbits reads n bits from the bitfield at the specified offset",
  str% "func (b *Buffer) readbits(off, n int64) (v uint64) {",
  str% "",
  str% "\tfor i := int64(0); i < n; i++ {",
  str% "",
  str% "\t\tv = (v << uint64(1)) | uint64(b.readbit(off+i))",
  str% "",
  str% "\t}",
  str% "\treturn",
  str% "",
  str% "}"]

/-- v1/buffer.go:86-97 -/
def fun_readbits : Fun := ⟨(str% "readbits"), [some .i64, some .i64], some .u64, 4, (.cons (.zero 2 .u64) (.cons (.for (.set 3 (.conv .i64 (.lit 0))) (.bin .lt (.var 3) (.var 1)) (.set 3 (.bin .add (.var 3) (.lit 1))) (.cons (.set 2 (.bin .or (.bin .shl (.var 2) (.conv .u64 (.lit 1))) (.conv .u64 (.call (str% "readbit") (.cons (.bin .add (.var 0) (.var 3)) .nil))))) .nil)) (.cons (.ret (.var 2)) .nil)))⟩

/-- v1/buffer.go:98-130 -/
def text_setbit : List Str := [
  str% "",
  str% "// setbit sets a bit in the bitfield to the specified value",
  str% "func (b *Buffer) setbit(off int64, data byte) {",
  str% "",
  str% "\tif off > (b.bcap - 1) {",
  str% "",
  str% "\t\tpanic(BufferOverwriteError)",
  str% "",
  str% "\t}",
  str% "",
  str% "\tif off < 0x00 {",
  str% "",
  str% "\t\tpanic(BufferUnderwriteError)",
  str% "",
  str% "\t}",
  str% "",
  str% "\tb.Lock()",
  str% "\tdefer b.Unlock()",
  str% "",
  str% "\tswitch data {",
  str% "",
  str% "\tcase 0:",
  str% "\t\tb.buf[off/8] &= ^(1 << uint(7-(off%8)))",
  str% "",
  str% "\tcase 1:",
  str% "\t\tb.buf[off/8] |= (1 << uint(7-(off%8)))",
  str% "",
  str% "\tdefault:",
  str% "\t\tpanic(BufferInvalidBitError)",
  str% "",
  str% "\t}",
  str% "",
  str% "}"]

/-- v1/buffer.go:98-130 -/
def fun_setbit : Fun := ⟨(str% "setbit"), [some .i64, some .u8], none, 2, (.cons (.ifs (.bin .gt (.var 0) (.bin .sub (.field .bcap) (.lit 1))) (.cons (.panic (str% "BufferOverwriteError")) .nil) .nil) (.cons (.ifs (.bin .lt (.var 0) (.lit 0)) (.cons (.panic (str% "BufferUnderwriteError")) .nil) .nil) (.cons .lock (.cons .deferUnlock (.cons (.switch (.var 1) (.cons (.case 0 (.cons (.setBufAt (.bin .div (.var 0) (.lit 8)) (.bin .and (.index .buf (.bin .div (.var 0) (.lit 8))) (.compl (.bin .shl (.lit 1) (.conv .u64 (.bin .sub (.lit 7) (.bin .rem (.var 0) (.lit 8)))))))) .nil)) (.cons (.case 1 (.cons (.setBufAt (.bin .div (.var 0) (.lit 8)) (.bin .or (.index .buf (.bin .div (.var 0) (.lit 8))) (.bin .shl (.lit 1) (.conv .u64 (.bin .sub (.lit 7) (.bin .rem (.var 0) (.lit 8))))))) .nil)) (.cons (.default (.cons (.panic (str% "BufferInvalidBitError")) .nil)) .nil)))) .nil)))))⟩

/-- v1/buffer.go:131-141 -/
def text_setbits : List Str := [
  str% "",
  str% "// setbits sets n bits in the bitfield to the specified value at the specified offset",
  str% "func (b *Buffer) setbits(off int64, data uint64, n int64) {",
  str% "",
  str% "\tfor i := int64(0); i < n; i++ {",
  str% "",
  str% "\t\tb.setbit(off+i, byte((data>>uint64(n-i-1))&1))",
  str% "",
  str% "\t}",
  str% "",
  str% "}"]

/-- v1/buffer.go:131-141 -/
def fun_setbits : Fun := ⟨(str% "setbits"), [some .i64, some .u64, some .i64], none, 4, (.cons (.for (.set 3 (.conv .i64 (.lit 0))) (.bin .lt (.var 3) (.var 2)) (.set 3 (.bin .add (.var 3) (.lit 1))) (.cons (.expr (.call (str% "setbit") (.cons (.bin .add (.var 0) (.var 3)) (.cons (.conv .u8 (.bin .and (.bin .shr (.var 1) (.conv .u64 (.bin .sub (.bin .sub (.var 2) (.var 3)) (.lit 1)))) (.lit 1))) .nil)))) .nil)) .nil)⟩

/-- v1/buffer.go:142-163 -/
def text_flipbit : List Str := [
  str% "",
  str% "// flipbit flips a bit in the bitfield",
  str% "func (b *Buffer) flipbit(off int64) {",
  str% "",
  str% "\tif off > (b.bcap - 1) {",
  str% "",
  str% "\t\tpanic(BufferOverwriteError)",
  str% "",
  str% "\t}",
  str% "",
  str% "\tif off < 0x00 {",
  str% "",
  str% "\t\tpanic(BufferUnderwriteError)",
  str% "",
  str% "\t}",
  str% "",
  str% "\tb.Lock()",
  str% "\tdefer b.Unlock()",
  str% "",
  str% "\tb.buf[off/8] ^= (1 << uint(7-(off%8)))",
  str% "",
  str% "}"]

/-- v1/buffer.go:142-163 -/
def fun_flipbit : Fun := ⟨(str% "flipbit"), [some .i64], none, 1, (.cons (.ifs (.bin .gt (.var 0) (.bin .sub (.field .bcap) (.lit 1))) (.cons (.panic (str% "BufferOverwriteError")) .nil) .nil) (.cons (.ifs (.bin .lt (.var 0) (.lit 0)) (.cons (.panic (str% "BufferUnderwriteError")) .nil) .nil) (.cons .lock (.cons .deferUnlock (.cons (.setBufAt (.bin .div (.var 0) (.lit 8)) (.bin .xor (.index .buf (.bin .div (.var 0) (.lit 8))) (.bin .shl (.lit 1) (.conv .u64 (.bin .sub (.lit 7) (.bin .rem (.var 0) (.lit 8))))))) .nil)))))⟩

/-- v1/buffer.go:164-177 -/
def text_clearallbits : List Str := [
  str% "",
  str% "// clearallbits sets all of the buffer's bits to 0",
  str% "func (b *Buffer) clearallbits() {",
  str% "",
  str% "\tb.Lock()",
  str% "\tdefer b.Unlock()",
  str% "",
  str% "\tfor i := range b.buf {",
  str% "",
  str% "\t\tb.buf[i] = 0",
  str% "",
  str% "\t}",
  str% "",
  str% "}"]

/-- v1/buffer.go:164-177 -/
def fun_clearallbits : Fun := ⟨(str% "clearallbits"), [], none, 1, (.cons .lock (.cons .deferUnlock (.cons (.rangeIdx 0 .buf (.cons (.setBufAt (.var 0) (.lit 0)) .nil)) .nil)))⟩

/-- v1/buffer.go:178-191 -/
def text_setallbits : List Str := [
  str% "",
  str% "// setallbits sets all of the buffer's bits to 1",
  str% "func (b *Buffer) setallbits() {",
  str% "",
  str% "\tb.Lock()",
  str% "\tdefer b.Unlock()",
  str% "",
  str% "\tfor i := range b.buf {",
  str% "",
  str% "\t\tb.buf[i] = 0xFF",
  str% "",
  str% "\t}",
  str% "",
  str% "}"]

/-- v1/buffer.go:178-191 -/
def fun_setallbits : Fun := ⟨(str% "setallbits"), [], none, 1, (.cons .lock (.cons .deferUnlock (.cons (.rangeIdx 0 .buf (.cons (.setBufAt (.var 0) (.lit 255)) .nil)) .nil)))⟩

/-- v1/buffer.go:192-205 -/
def text_flipallbits : List Str := [
  str% "",
  str% "// flipallbits flips all of the buffer's bits",
  str% "func (b *Buffer) flipallbits() {",
  str% "",
  str% "\tb.Lock()",
  str% "\tdefer b.Unlock()",
  str% "",
  str% "\tfor i := range b.buf {",
  str% "",
  str% "\t\tb.buf[i] = ^b.buf[i]",
  str% "",
  str% "\t}",
  str% "",
  str% "}"]

/-- v1/buffer.go:192-205 -/
def fun_flipallbits : Fun := ⟨(str% "flipallbits"), [], none, 1, (.cons .lock (.cons .deferUnlock (.cons (.rangeIdx 0 .buf (.cons (.setBufAt (.var 0) (.compl (.index .buf (.var 0)))) .nil)) .nil)))⟩

/-- v1/buffer.go:206-223 -/
def text_seekbit : List Str := [
  str% "",
  str% "// seekbit seeks to position off of the bitfield relative to the current position or exact",
  str% "func (b *Buffer) seekbit(off int64, relative bool) {",
  str% "",
  str% "\tb.Lock()",
  str% "\tdefer b.Unlock()",
  str% "",
  str% "\tif relative {",
  str% "",
  str% "\t\tb.boff += off",
  str% "",
  str% "\t} else {",
  str% "",
  str% "\t\tb.boff = off",
  str% "",
  str% "\t}",
  str% "",
  str% "}"]

/-- v1/buffer.go:206-223 -/
def fun_seekbit : Fun := ⟨(str% "seekbit"), [some .i64, none], none, 2, (.cons .lock (.cons .deferUnlock (.cons (.ifs (.var 1) (.cons (.setField .boff (.bin .add (.field .boff) (.var 0))) .nil) (.cons (.setField .boff (.var 0)) .nil)) .nil)))⟩

/-- v1/buffer.go:224-235 -/
def text_afterbit : List Str := [
  str% "",
  str% "// afterbit returns the amount of bits located after the current position or the specified one",
  str% "func (b *Buffer) afterbit(off ...int64) int64 {",
  str% "",
  str% "\tif len(off) == 0 {",
  str% "",
  str% "\t\treturn b.bcap - b.boff - 1",
  str% "",
  str% "\t}",
  str% "\treturn b.bcap - off[0] - 1",
  str% "",
  str% "}"]

/-- v1/buffer.go:224-235 -/
def fun_afterbit : Fun := ⟨(str% "afterbit"), [none], some .i64, 1, (.cons (.ifs (.bin .eq (.len (.var 0)) (.lit 0)) (.cons (.ret (.bin .sub (.bin .sub (.field .bcap) (.field .boff)) (.lit 1))) .nil) .nil) (.cons (.ret (.bin .sub (.bin .sub (.field .bcap) (.index (.var 0) (.lit 0))) (.lit 1))) .nil))⟩

/-- v1/buffer.go:236-272 -/
def text_write : List Str := [
  str% "",
  str% "/* byte buffer methods */",
  str% "",
  str% "// write writes a slice of bytes to the buffer at the specified offset",
  str% "func (b *Buffer) write(off int64, data []byte) {",
  str% "",
  str% "\tif (off + int64(len(data))) > b.cap {",
  str% "",
  str% "\t\tpanic(BufferOverwriteError)",
  str% "",
  str% "\t}",
  str% "",
  str% "\tif off < 0x00 {",
  str% "",
  str% "\t\tpanic(BufferUnderwriteError)",
  str% "",
  str% "\t}",
  str% "",
  str% "\tb.Lock()",
  str% "",
  str% "\ti := int64(0)",
  str% "\tn := int64(len(data))",
  str% "",
  str% "\t{",
  str% "\twrite_loop:",
  str% "\t\tb.buf[off+i] = data[i]",
  str% "\t\ti++",
  str% "\t\tif i < n {",
  str% "",
  str% "\t\t\tgoto write_loop",
  str% "",
  str% "\t\t}",
  str% "\t}",
  str% "",
  str% "\tb.Unlock()",
  str% "",
  str% "}"]

/-- v1/buffer.go:236-272 -/
def fun_write : Fun := ⟨(str% "write"), [some .i64, none], none, 4, (.cons (.ifs (.bin .gt (.bin .add (.var 0) (.conv .i64 (.len (.var 1)))) (.field .cap)) (.cons (.panic (str% "BufferOverwriteError")) .nil) .nil) (.cons (.ifs (.bin .lt (.var 0) (.lit 0)) (.cons (.panic (str% "BufferUnderwriteError")) .nil) .nil) (.cons .lock (.cons (.set 2 (.conv .i64 (.lit 0))) (.cons (.set 3 (.conv .i64 (.len (.var 1)))) (.cons (.block (str% "write_loop") (.cons (.setBufAt (.bin .add (.var 0) (.var 2)) (.index (.var 1) (.var 2))) (.cons (.set 2 (.bin .add (.var 2) (.lit 1))) (.cons (.ifs (.bin .lt (.var 2) (.var 3)) (.cons (.goto (str% "write_loop")) .nil) .nil) .nil)))) (.cons .unlock .nil)))))))⟩

/-- v1/buffer.go:273-341 -/
def text_writeComplex : List Str := [
  str% "",
  str% "// writeComplex writes a slice of bytes to the buffer at the specified offset with the specified endianness and integer type",
  str% "func (b *Buffer) writeComplex(off int64, idata interface{}, size IntegerSize, endian binary.ByteOrder) {",
  str% "",
  str% "\tvar (",
  str% "\t\tdata  []byte",
  str% "\t\ttdata []byte",
  str% "\t)",
  str% "",
  str% "\tswitch size {",
  str% "",
  str% "\tcase Unsigned8:",
  str% "\t\tdata = idata.([]byte)",
  str% "",
  str% "\tcase Unsigned16:",
  str% "\t\tadata := idata.([]uint16)",
  str% "\t\tdata = make([]byte, 2*len(adata))",
  str% "\t\tfor i := 0; i < len(adata); i++ {",
  str% "",
  str% "\t\t\ttdata = []byte{0x00, 0x00}",
  str% "\t\t\tendian.PutUint16(tdata, adata[i])",
  str% "",
  str% "\t\t\tdata[0+(i*2)] = tdata[0]",
  str% "\t\t\tdata[1+(i*2)] = tdata[1]",
  str% "",
  str% "\t\t}",
  str% "",
  str% "\tcase Unsigned32:",
  str% "\t\tadata := idata.([]uint32)",
  str% "\t\tdata = make([]byte, 4*len(adata))",
  str% "\t\tfor i := 0; i < len(adata); i++ {",
  str% "",
  str% "\t\t\ttdata = []byte{0x00, 0x00, 0x00, 0x00}",
  str% "\t\t\tendian.PutUint32(tdata, adata[i])",
  str% "",
  str% "\t\t\tdata[0+(i*4)] = tdata[0]",
  str% "\t\t\tdata[1+(i*4)] = tdata[1]",
  str% "\t\t\tdata[2+(i*4)] = tdata[2]",
  str% "\t\t\tdata[3+(i*4)] = tdata[3]",
  str% "",
  str% "\t\t}",
  str% "",
  str% "\tcase Unsigned64:",
  str% "\t\tadata := idata.([]uint64)",
  str% "\t\tdata = make([]byte, 8*len(adata))",
  str% "\t\tfor i := 0; i < len(adata); i++ {",
  str% "",
  str% "\t\t\ttdata = []byte{0x00, 0x00, 0x00, 0x00, 0x00, 0x00, 0x00, 0x00}",
  str% "\t\t\tendian.PutUint64(tdata, adata[i])",
  str% "",
  str% "\t\t\tdata[0+(i*8)] = tdata[0]",
  str% "\t\t\tdata[1+(i*8)] = tdata[1]",
  str% "\t\t\tdata[2+(i*8)] = tdata[2]",
  str% "\t\t\tdata[3+(i*8)] = tdata[3]",
  str% "\t\t\tdata[4+(i*8)] = tdata[4]",
  str% "\t\t\tdata[5+(i*8)] = tdata[5]",
  str% "\t\t\tdata[6+(i*8)] = tdata[6]",
  str% "\t\t\tdata[7+(i*8)] = tdata[7]",
  str% "",
  str% "\t\t}",
  str% "",
  str% "\tdefault:",
  str% "\t\tpanic(BufferInvalidIntegerSizeError)",
  str% "",
  str% "\t}",
  str% "",
  str% "\tb.write(off, data)",
  str% "",
  str% "}"]

/-- v1/buffer.go:273-341 -/
def fun_writeComplex : Fun := ⟨(str% "writeComplex"), [some .i64, none, none, none], none, 12, (.cons (.nilBytes 4) (.cons (.nilBytes 5) (.cons (.switch (.var 2) (.cons (.case 1 (.cons (.set 4 (.assert .u8 (.var 1))) .nil)) (.cons (.case 2 (.cons (.set 6 (.assert .u16 (.var 1))) (.cons (.set 4 (.make (.bin .mul (.lit 2) (.len (.var 6))))) (.cons (.for (.set 7 (.lit 0)) (.bin .lt (.var 7) (.len (.var 6))) (.set 7 (.bin .add (.var 7) (.lit 1))) (.cons (.set 5 (.own (.cons (.lit 0) (.cons (.lit 0) .nil)))) (.cons (.put .u16 (.var 3) 5 (.index (.var 6) (.var 7))) (.cons (.setAt 4 (.bin .add (.lit 0) (.bin .mul (.var 7) (.lit 2))) (.index (.var 5) (.lit 0))) (.cons (.setAt 4 (.bin .add (.lit 1) (.bin .mul (.var 7) (.lit 2))) (.index (.var 5) (.lit 1))) .nil))))) .nil)))) (.cons (.case 4 (.cons (.set 8 (.assert .u32 (.var 1))) (.cons (.set 4 (.make (.bin .mul (.lit 4) (.len (.var 8))))) (.cons (.for (.set 9 (.lit 0)) (.bin .lt (.var 9) (.len (.var 8))) (.set 9 (.bin .add (.var 9) (.lit 1))) (.cons (.set 5 (.own (.cons (.lit 0) (.cons (.lit 0) (.cons (.lit 0) (.cons (.lit 0) .nil)))))) (.cons (.put .u32 (.var 3) 5 (.index (.var 8) (.var 9))) (.cons (.setAt 4 (.bin .add (.lit 0) (.bin .mul (.var 9) (.lit 4))) (.index (.var 5) (.lit 0))) (.cons (.setAt 4 (.bin .add (.lit 1) (.bin .mul (.var 9) (.lit 4))) (.index (.var 5) (.lit 1))) (.cons (.setAt 4 (.bin .add (.lit 2) (.bin .mul (.var 9) (.lit 4))) (.index (.var 5) (.lit 2))) (.cons (.setAt 4 (.bin .add (.lit 3) (.bin .mul (.var 9) (.lit 4))) (.index (.var 5) (.lit 3))) .nil))))))) .nil)))) (.cons (.case 8 (.cons (.set 10 (.assert .u64 (.var 1))) (.cons (.set 4 (.make (.bin .mul (.lit 8) (.len (.var 10))))) (.cons (.for (.set 11 (.lit 0)) (.bin .lt (.var 11) (.len (.var 10))) (.set 11 (.bin .add (.var 11) (.lit 1))) (.cons (.set 5 (.own (.cons (.lit 0) (.cons (.lit 0) (.cons (.lit 0) (.cons (.lit 0) (.cons (.lit 0) (.cons (.lit 0) (.cons (.lit 0) (.cons (.lit 0) .nil)))))))))) (.cons (.put .u64 (.var 3) 5 (.index (.var 10) (.var 11))) (.cons (.setAt 4 (.bin .add (.lit 0) (.bin .mul (.var 11) (.lit 8))) (.index (.var 5) (.lit 0))) (.cons (.setAt 4 (.bin .add (.lit 1) (.bin .mul (.var 11) (.lit 8))) (.index (.var 5) (.lit 1))) (.cons (.setAt 4 (.bin .add (.lit 2) (.bin .mul (.var 11) (.lit 8))) (.index (.var 5) (.lit 2))) (.cons (.setAt 4 (.bin .add (.lit 3) (.bin .mul (.var 11) (.lit 8))) (.index (.var 5) (.lit 3))) (.cons (.setAt 4 (.bin .add (.lit 4) (.bin .mul (.var 11) (.lit 8))) (.index (.var 5) (.lit 4))) (.cons (.setAt 4 (.bin .add (.lit 5) (.bin .mul (.var 11) (.lit 8))) (.index (.var 5) (.lit 5))) (.cons (.setAt 4 (.bin .add (.lit 6) (.bin .mul (.var 11) (.lit 8))) (.index (.var 5) (.lit 6))) (.cons (.setAt 4 (.bin .add (.lit 7) (.bin .mul (.var 11) (.lit 8))) (.index (.var 5) (.lit 7))) .nil))))))))))) .nil)))) (.cons (.default (.cons (.panic (str% "BufferInvalidIntegerSizeError")) .nil)) .nil)))))) (.cons (.expr (.call (str% "write") (.cons (.var 0) (.cons (.var 4) .nil)))) .nil))))⟩

/-- v1/buffer.go:342-363 -/
def text_read : List Str := [
  str% "",
  str% "// read reads n bytes from the buffer at the specified offset",
  str% "func (b *Buffer) read(off, n int64) []byte {",
  str% "",
  str% "\tif (off + n) > b.cap {",
  str% "",
  str% "\t\tpanic(BufferOverreadError)",
  str% "",
  str% "\t}",
  str% "",
  str% "\tif off < 0x00 {",
  str% "",
  str% "\t\tpanic(BufferUnderreadError)",
  str% "",
  str% "\t}",
  str% "",
  str% "\tb.Lock()",
  str% "\tdefer b.Unlock()",
  str% "",
  str% "\treturn b.buf[off : off+n]",
  str% "",
  str% "}"]

/-- v1/buffer.go:342-363 -/
def fun_read : Fun := ⟨(str% "read"), [some .i64, some .i64], none, 2, (.cons (.ifs (.bin .gt (.bin .add (.var 0) (.var 1)) (.field .cap)) (.cons (.panic (str% "BufferOverreadError")) .nil) .nil) (.cons (.ifs (.bin .lt (.var 0) (.lit 0)) (.cons (.panic (str% "BufferUnderreadError")) .nil) .nil) (.cons .lock (.cons .deferUnlock (.cons (.ret (.slice .buf (.var 0) (.bin .add (.var 0) (.var 1)))) .nil)))))⟩

/-- v1/buffer.go:364-410 -/
def text_readComplex : List Str := [
  str% "",
  str% "// readComplex reads a slice of bytes from the buffer at the specified offset with the specified endianness and integer type",
  str% "func (b *Buffer) readComplex(off, n int64, size IntegerSize, endian binary.ByteOrder) interface{} {",
  str% "",
  str% "\tdata := b.read(off, n)",
  str% "",
  str% "\tswitch size {",
  str% "",
  str% "\tcase Unsigned8:",
  str% "\t\treturn data",
  str% "",
  str% "\tcase Unsigned16:",
  str% "\t\tidata := make([]uint16, n)",
  str% "",
  str% "\t\tfor i := int64(0); i < n; i++ {",
  str% "",
  str% "\t\t\tidata[i] = endian.Uint16(data[i*2 : (i+1)*2])",
  str% "",
  str% "\t\t}",
  str% "\t\treturn idata",
  str% "",
  str% "\tcase Unsigned32:",
  str% "\t\tidata := make([]uint32, n)",
  str% "",
  str% "\t\tfor i := int64(0); i < n; i++ {",
  str% "",
  str% "\t\t\tidata[i] = endian.Uint32(data[i*4 : (i+1)*4])",
  str% "",
  str% "\t\t}",
  str% "\t\treturn idata",
  str% "",
  str% "\tcase Unsigned64:",
  str% "\t\tidata := make([]uint64, n)",
  str% "",
  str% "\t\tfor i := int64(0); i < n; i++ {",
  str% "",
  str% "\t\t\tidata[i] = endian.Uint64(data[i*8 : (i+1)*8])",
  str% "",
  str% "\t\t}",
  str% "\t\treturn idata",
  str% "",
  str% "\tdefault:",
  str% "\t\tpanic(BufferInvalidIntegerSizeError)",
  str% "",
  str% "\t}",
  str% "",
  str% "}"]

/-- v1/buffer.go:364-410 -/
def fun_readComplex : Fun := ⟨(str% "readComplex"), [some .i64, some .i64, none, none], none, 11, (.cons (.set 4 (.call (str% "read") (.cons (.var 0) (.cons (.var 1) .nil)))) (.cons (.switch (.var 2) (.cons (.case 1 (.cons (.ret (.var 4)) .nil)) (.cons (.case 2 (.cons (.set 5 (.makeT .u16 (.var 1))) (.cons (.for (.set 6 (.conv .i64 (.lit 0))) (.bin .lt (.var 6) (.var 1)) (.set 6 (.bin .add (.var 6) (.lit 1))) (.cons (.setAt 5 (.var 6) (.uint .u16 (.var 3) (.slice (.var 4) (.bin .mul (.var 6) (.lit 2)) (.bin .mul (.bin .add (.var 6) (.lit 1)) (.lit 2))))) .nil)) (.cons (.ret (.var 5)) .nil)))) (.cons (.case 4 (.cons (.set 7 (.makeT .u32 (.var 1))) (.cons (.for (.set 8 (.conv .i64 (.lit 0))) (.bin .lt (.var 8) (.var 1)) (.set 8 (.bin .add (.var 8) (.lit 1))) (.cons (.setAt 7 (.var 8) (.uint .u32 (.var 3) (.slice (.var 4) (.bin .mul (.var 8) (.lit 4)) (.bin .mul (.bin .add (.var 8) (.lit 1)) (.lit 4))))) .nil)) (.cons (.ret (.var 7)) .nil)))) (.cons (.case 8 (.cons (.set 9 (.makeT .u64 (.var 1))) (.cons (.for (.set 10 (.conv .i64 (.lit 0))) (.bin .lt (.var 10) (.var 1)) (.set 10 (.bin .add (.var 10) (.lit 1))) (.cons (.setAt 9 (.var 10) (.uint .u64 (.var 3) (.slice (.var 4) (.bin .mul (.var 10) (.lit 8)) (.bin .mul (.bin .add (.var 10) (.lit 1)) (.lit 8))))) .nil)) (.cons (.ret (.var 9)) .nil)))) (.cons (.default (.cons (.panic (str% "BufferInvalidIntegerSizeError")) .nil)) .nil)))))) .nil))⟩

/-- v1/buffer.go:411-428 -/
def text_seek : List Str := [
  str% "",
  str% "// seek seeks to position off of the byte buffer relative to the current position or exact",
  str% "func (b *Buffer) seek(off int64, relative bool) {",
  str% "",
  str% "\tb.Lock()",
  str% "\tdefer b.Unlock()",
  str% "",
  str% "\tif relative {",
  str% "",
  str% "\t\tb.off += off",
  str% "",
  str% "\t} else {",
  str% "",
  str% "\t\tb.off = off",
  str% "",
  str% "\t}",
  str% "",
  str% "}"]

/-- v1/buffer.go:411-428 -/
def fun_seek : Fun := ⟨(str% "seek"), [some .i64, none], none, 2, (.cons .lock (.cons .deferUnlock (.cons (.ifs (.var 1) (.cons (.setField .off (.bin .add (.field .off) (.var 0))) .nil) (.cons (.setField .off (.var 0)) .nil)) .nil)))⟩

/-- v1/buffer.go:429-440 -/
def text_after : List Str := [
  str% "",
  str% "// after returns the amount of bytes located after the current position or the specified one",
  str% "func (b *Buffer) after(off ...int64) int64 {",
  str% "",
  str% "\tif len(off) == 0 {",
  str% "",
  str% "\t\treturn b.cap - b.off - 1",
  str% "",
  str% "\t}",
  str% "\treturn b.cap - off[0] - 1",
  str% "",
  str% "}"]

/-- v1/buffer.go:429-440 -/
def fun_after : Fun := ⟨(str% "after"), [none], some .i64, 1, (.cons (.ifs (.bin .eq (.len (.var 0)) (.lit 0)) (.cons (.ret (.bin .sub (.bin .sub (.field .cap) (.field .off)) (.lit 1))) .nil) .nil) (.cons (.ret (.bin .sub (.bin .sub (.field .cap) (.index (.var 0) (.lit 0))) (.lit 1))) .nil))⟩

/-- v1/buffer.go:441-455 -/
def text_grow : List Str := [
  str% "",
  str% "/* generic methods */",
  str% "",
  str% "// grow grows the buffer by n bytes",
  str% "func (b *Buffer) grow(n int64) {",
  str% "",
  str% "\tb.Lock()",
  str% "",
  str% "\tb.buf = append(b.buf, make([]byte, n)...)",
  str% "",
  str% "\tb.Unlock()",
  str% "",
  str% "\tb.refresh()",
  str% "",
  str% "}"]

/-- v1/buffer.go:441-455 -/
def fun_grow : Fun := ⟨(str% "grow"), [some .i64], none, 1, (.cons .lock (.cons (.setBuf (.append .buf (.make (.var 0)))) (.cons .unlock (.cons (.expr (.call (str% "refresh") .nil)) .nil))))⟩

/-- v1/buffer.go:456-466 -/
def text_refresh : List Str := [
  str% "",
  str% "// refresh updates the internal statistics of the byte buffer forcefully",
  str% "func (b *Buffer) refresh() {",
  str% "",
  str% "\tb.Lock()",
  str% "\tdefer b.Unlock()",
  str% "",
  str% "\tb.cap = int64(len(b.buf))",
  str% "\tb.bcap = b.cap * 8",
  str% "",
  str% "}"]

/-- v1/buffer.go:456-466 -/
def fun_refresh : Fun := ⟨(str% "refresh"), [], none, 0, (.cons .lock (.cons .deferUnlock (.cons (.setField .cap (.conv .i64 (.len .buf))) (.cons (.setField .bcap (.bin .mul (.field .cap) (.lit 8))) .nil))))⟩

/-- v1/buffer.go:467-476 -/
def text_alignbit : List Str := [
  str% "",
  str% "// alignbit aligns the bit offset to the byte offset",
  str% "func (b *Buffer) alignbit() {",
  str% "",
  str% "\tb.Lock()",
  str% "\tdefer b.Unlock()",
  str% "",
  str% "\tb.boff = b.off * 8",
  str% "",
  str% "}"]

/-- v1/buffer.go:467-476 -/
def fun_alignbit : Fun := ⟨(str% "alignbit"), [], none, 0, (.cons .lock (.cons .deferUnlock (.cons (.setField .boff (.bin .mul (.field .off) (.lit 8))) .nil)))⟩

/-- v1/buffer.go:477-486 -/
def text_alignbyte : List Str := [
  str% "",
  str% "// alignbyte aligns the byte offset to the bit offset",
  str% "func (b *Buffer) alignbyte() {",
  str% "",
  str% "\tb.Lock()",
  str% "\tdefer b.Unlock()",
  str% "",
  str% "\tb.off = b.boff / 8",
  str% "",
  str% "}"]

/-- v1/buffer.go:477-486 -/
def fun_alignbyte : Fun := ⟨(str% "alignbyte"), [], none, 0, (.cons .lock (.cons .deferUnlock (.cons (.setField .off (.bin .div (.field .boff) (.lit 8))) .nil)))⟩

/-- v1/buffer.go:487-495 -/
def text_Bytes : List Str := [
  str% "",
  str% "/* public methods */",
  str% "",
  str% "// Bytes returns the internal byte slice of the buffer",
  str% "func (b *Buffer) Bytes() []byte {",
  str% "",
  str% "\treturn b.buf",
  str% "",
  str% "}"]

/-- v1/buffer.go:487-495 -/
def fun_Bytes : Fun := ⟨(str% "Bytes"), [], none, 0, (.cons (.ret .buf) .nil)⟩

/-- v1/buffer.go:496-502 -/
def text_Capacity : List Str := [
  str% "",
  str% "// Capacity returns the capacity of the buffer",
  str% "func (b *Buffer) Capacity() int64 {",
  str% "",
  str% "\treturn b.cap",
  str% "",
  str% "}"]

/-- v1/buffer.go:496-502 -/
def fun_Capacity : Fun := ⟨(str% "Capacity"), [], some .i64, 0, (.cons (.ret (.field .cap)) .nil)⟩

/-- v1/buffer.go:503-509 -/
def text_BitCapacity : List Str := [
  str% "",
  str% "// BitCapacity returns the bit capacity of the buffer",
  str% "func (b *Buffer) BitCapacity() int64 {",
  str% "",
  str% "\treturn b.bcap",
  str% "",
  str% "}"]

/-- v1/buffer.go:503-509 -/
def fun_BitCapacity : Fun := ⟨(str% "BitCapacity"), [], some .i64, 0, (.cons (.ret (.field .bcap)) .nil)⟩

/-- v1/buffer.go:510-516 -/
def text_Offset : List Str := [
  str% "",
  str% "// Offset returns the current offset of the buffer",
  str% "func (b *Buffer) Offset() int64 {",
  str% "",
  str% "\treturn b.off",
  str% "",
  str% "}"]

/-- v1/buffer.go:510-516 -/
def fun_Offset : Fun := ⟨(str% "Offset"), [], some .i64, 0, (.cons (.ret (.field .off)) .nil)⟩

/-- v1/buffer.go:517-523 -/
def text_BitOffset : List Str := [
  str% "",
  str% "// BitOffset returns the current bit offset of the buffer",
  str% "func (b *Buffer) BitOffset() int64 {",
  str% "",
  str% "\treturn b.boff",
  str% "",
  str% "}"]

/-- v1/buffer.go:517-523 -/
def fun_BitOffset : Fun := ⟨(str% "BitOffset"), [], some .i64, 0, (.cons (.ret (.field .boff)) .nil)⟩

/-- v1/buffer.go:524-530 -/
def text_Refresh : List Str := [
  str% "",
  str% "// Refresh updates the cached internal statistics of the buffer forcefully",
  str% "func (b *Buffer) Refresh() {",
  str% "",
  str% "\tb.refresh()",
  str% "",
  str% "}"]

/-- v1/buffer.go:524-530 -/
def fun_Refresh : Fun := ⟨(str% "Refresh"), [], none, 0, (.cons (.expr (.call (str% "refresh") .nil)) .nil)⟩

/-- v1/buffer.go:531-537 -/
def text_Grow : List Str := [
  str% "",
  str% "// Grow makes the buffer's capacity bigger by n bytes",
  str% "func (b *Buffer) Grow(n int64) {",
  str% "",
  str% "\tb.grow(n)",
  str% "",
  str% "}"]

/-- v1/buffer.go:531-537 -/
def fun_Grow : Fun := ⟨(str% "Grow"), [some .i64], none, 1, (.cons (.expr (.call (str% "grow") (.cons (.var 0) .nil))) .nil)⟩

/-- v1/buffer.go:538-544 -/
def text_Seek : List Str := [
  str% "",
  str% "// Seek seeks to position off of the buffer relative to the current position or exact",
  str% "func (b *Buffer) Seek(off int64, relative bool) {",
  str% "",
  str% "\tb.seek(off, relative)",
  str% "",
  str% "}"]

/-- v1/buffer.go:538-544 -/
def fun_Seek : Fun := ⟨(str% "Seek"), [some .i64, none], none, 2, (.cons (.expr (.call (str% "seek") (.cons (.var 0) (.cons (.var 1) .nil)))) .nil)⟩

/-- v1/buffer.go:545-551 -/
def text_SeekBit : List Str := [
  str% "",
  str% "// SeekBit seeks to bit position off of the the buffer relative to the current position or exact",
  str% "func (b *Buffer) SeekBit(off int64, relative bool) {",
  str% "",
  str% "\tb.seekbit(off, relative)",
  str% "",
  str% "}"]

/-- v1/buffer.go:545-551 -/
def fun_SeekBit : Fun := ⟨(str% "SeekBit"), [some .i64, none], none, 2, (.cons (.expr (.call (str% "seekbit") (.cons (.var 0) (.cons (.var 1) .nil)))) .nil)⟩

/-- v1/buffer.go:552-558 -/
def text_AlignBit : List Str := [
  str% "",
  str% "// AlignBit aligns the bit offset to the byte offset",
  str% "func (b *Buffer) AlignBit() {",
  str% "",
  str% "\tb.alignbit()",
  str% "",
  str% "}"]

/-- v1/buffer.go:552-558 -/
def fun_AlignBit : Fun := ⟨(str% "AlignBit"), [], none, 0, (.cons (.expr (.call (str% "alignbit") .nil)) .nil)⟩

/-- v1/buffer.go:559-565 -/
def text_AlignByte : List Str := [
  str% "",
  str% "// AlignByte aligns the byte offset to the bit offset",
  str% "func (b *Buffer) AlignByte() {",
  str% "",
  str% "\tb.alignbyte()",
  str% "",
  str% "}"]

/-- v1/buffer.go:559-565 -/
def fun_AlignByte : Fun := ⟨(str% "AlignByte"), [], none, 0, (.cons (.expr (.call (str% "alignbyte") .nil)) .nil)⟩

/-- v1/buffer.go:566-572 -/
def text_After : List Str := [
  str% "",
  str% "// After returns the amount of bytes located after the current position or the specified one",
  str% "func (b *Buffer) After(off ...int64) int64 {",
  str% "",
  str% "\treturn b.after(off...)",
  str% "",
  str% "}"]

/-- v1/buffer.go:566-572 -/
def fun_After : Fun := ⟨(str% "After"), [none], some .i64, 1, (.cons (.ret (.call (str% "after") (.cons (.var 0) .nil))) .nil)⟩

/-- v1/buffer.go:573-579 -/
def text_AfterBit : List Str := [
  str% "",
  str% "// AfterBit returns the amount of bits located after the current bit position or the specified one",
  str% "func (b *Buffer) AfterBit(off ...int64) int64 {",
  str% "",
  str% "\treturn b.afterbit(off...)",
  str% "",
  str% "}"]

/-- v1/buffer.go:573-579 -/
def fun_AfterBit : Fun := ⟨(str% "AfterBit"), [none], some .i64, 1, (.cons (.ret (.call (str% "afterbit") (.cons (.var 0) .nil))) .nil)⟩

/-- v1/buffer.go:580-586 -/
def text_ReadByte : List Str := [
  str% "",
  str% "// ReadByte returns the next byte from the specified offset without modifying the internal offset value",
  str% "func (b *Buffer) ReadByte(off int64) byte {",
  str% "",
  str% "\treturn b.read(off, 1)[0]",
  str% "",
  str% "}"]

/-- v1/buffer.go:580-586 -/
def fun_ReadByte : Fun := ⟨(str% "ReadByte"), [some .i64], some .u8, 1, (.cons (.ret (.index (.call (str% "read") (.cons (.var 0) (.cons (.lit 1) .nil))) (.lit 0))) .nil)⟩

/-- v1/buffer.go:587-593 -/
def text_ReadBytes : List Str := [
  str% "",
  str% "// ReadBytes returns the next n bytes from the specified offset without modifying the internal offset value",
  str% "func (b *Buffer) ReadBytes(off, n int64) []byte {",
  str% "",
  str% "\treturn b.read(off, n)",
  str% "",
  str% "}"]

/-- v1/buffer.go:587-593 -/
def fun_ReadBytes : Fun := ⟨(str% "ReadBytes"), [some .i64, some .i64], none, 2, (.cons (.ret (.call (str% "read") (.cons (.var 0) (.cons (.var 1) .nil)))) .nil)⟩

/-- v1/buffer.go:594-600 -/
def text_ReadComplex : List Str := [
  str% "",
  str% "// ReadComplex returns the next n uint8/uint16/uint32/uint64-s from the specified offset without modifying the internal offset value",
  str% "func (b *Buffer) ReadComplex(off, n int64, size IntegerSize, endian binary.ByteOrder) interface{} {",
  str% "",
  str% "\treturn b.readComplex(off, n, size, endian)",
  str% "",
  str% "}"]

/-- v1/buffer.go:594-600 -/
def fun_ReadComplex : Fun := ⟨(str% "ReadComplex"), [some .i64, some .i64, none, none], none, 4, (.cons (.ret (.call (str% "readComplex") (.cons (.var 0) (.cons (.var 1) (.cons (.var 2) (.cons (.var 3) .nil)))))) .nil)⟩

/-- v1/buffer.go:601-609 -/
def text_ReadByteNext : List Str := [
  str% "",
  str% "// ReadByteNext returns the next byte from the current offset and moves the offset forward a byte",
  str% "func (b *Buffer) ReadByteNext() (out byte) {",
  str% "",
  str% "\tout = b.read(b.off, 1)[0]",
  str% "\tb.seek(1, true)",
  str% "\treturn",
  str% "",
  str% "}"]

/-- v1/buffer.go:601-609 -/
def fun_ReadByteNext : Fun := ⟨(str% "ReadByteNext"), [], some .u8, 1, (.cons (.zero 0 .u8) (.cons (.set 0 (.index (.call (str% "read") (.cons (.field .off) (.cons (.lit 1) .nil))) (.lit 0))) (.cons (.expr (.call (str% "seek") (.cons (.lit 1) (.cons (.bool true) .nil)))) (.cons (.ret (.var 0)) .nil))))⟩

/-- v1/buffer.go:610-618 -/
def text_ReadBytesNext : List Str := [
  str% "",
  str% "// ReadBytesNext returns the next n bytes from the current offset and moves the offset forward the amount of bytes read",
  str% "func (b *Buffer) ReadBytesNext(n int64) (out []byte) {",
  str% "",
  str% "\tout = b.read(b.off, n)",
  str% "\tb.seek(n, true)",
  str% "\treturn",
  str% "",
  str% "}"]

/-- v1/buffer.go:610-618 -/
def fun_ReadBytesNext : Fun := ⟨(str% "ReadBytesNext"), [some .i64], none, 2, (.cons (.set 1 (.call (str% "read") (.cons (.field .off) (.cons (.var 0) .nil)))) (.cons (.expr (.call (str% "seek") (.cons (.var 0) (.cons (.bool true) .nil)))) (.cons (.ret (.var 1)) .nil)))⟩

/-- v1/buffer.go:619-627 -/
def text_ReadComplexNext : List Str := [
  str% "",
  str% "// ReadComplexNext returns the next n uint8/uint16/uint32/uint64-s from the current offset and moves the offset forward the amount of bytes read",
  str% "func (b *Buffer) ReadComplexNext(n int64, size IntegerSize, endian binary.ByteOrder) (out interface{}) {",
  str% "",
  str% "\tout = b.readComplex(b.off, n, size, endian)",
  str% "\tb.seek(n*int64(size), true)",
  str% "\treturn",
  str% "",
  str% "}"]

/-- v1/buffer.go:619-627 -/
def fun_ReadComplexNext : Fun := ⟨(str% "ReadComplexNext"), [some .i64, none, none], none, 4, (.cons (.set 3 (.call (str% "readComplex") (.cons (.field .off) (.cons (.var 0) (.cons (.var 1) (.cons (.var 2) .nil)))))) (.cons (.expr (.call (str% "seek") (.cons (.bin .mul (.var 0) (.conv .i64 (.var 1))) (.cons (.bool true) .nil)))) (.cons (.ret (.var 3)) .nil)))⟩

/-- v1/buffer.go:628-634 -/
def text_WriteByte : List Str := [
  str% "",
  str% "// WriteByte writes a byte to the buffer at the specified offset without modifying the internal offset value",
  str% "func (b *Buffer) WriteByte(off int64, data byte) {",
  str% "",
  str% "\tb.write(off, []byte{data})",
  str% "",
  str% "}"]

/-- v1/buffer.go:628-634 -/
def fun_WriteByte : Fun := ⟨(str% "WriteByte"), [some .i64, some .u8], none, 2, (.cons (.expr (.call (str% "write") (.cons (.var 0) (.cons (.bytes (.cons (.var 1) .nil)) .nil)))) .nil)⟩

/-- v1/buffer.go:635-641 -/
def text_WriteBytes : List Str := [
  str% "",
  str% "// WriteBytes writes bytes to the buffer at the specified offset without modifying the internal offset value",
  str% "func (b *Buffer) WriteBytes(off int64, data []byte) {",
  str% "",
  str% "\tb.write(off, data)",
  str% "",
  str% "}"]

/-- v1/buffer.go:635-641 -/
def fun_WriteBytes : Fun := ⟨(str% "WriteBytes"), [some .i64, none], none, 2, (.cons (.expr (.call (str% "write") (.cons (.var 0) (.cons (.var 1) .nil)))) .nil)⟩

/-- v1/buffer.go:642-648 -/
def text_WriteComplex : List Str := [
  str% "",
  str% "// WriteComplex writes a uint8/uint16/uint32/uint64 to the buffer at the specified offset without modifying the internal offset value",
  str% "func (b *Buffer) WriteComplex(off int64, data interface{}, size IntegerSize, endian binary.ByteOrder) {",
  str% "",
  str% "\tb.writeComplex(off, data, size, endian)",
  str% "",
  str% "}"]

/-- v1/buffer.go:642-648 -/
def fun_WriteComplex : Fun := ⟨(str% "WriteComplex"), [some .i64, none, none, none], none, 4, (.cons (.expr (.call (str% "writeComplex") (.cons (.var 0) (.cons (.var 1) (.cons (.var 2) (.cons (.var 3) .nil)))))) .nil)⟩

/-- v1/buffer.go:649-656 -/
def text_WriteByteNext : List Str := [
  str% "",
  str% "// WriteByteNext writes a byte to the buffer at the current offset and moves the offset forward the amount of bytes written",
  str% "func (b *Buffer) WriteByteNext(data byte) {",
  str% "",
  str% "\tb.write(b.off, []byte{data})",
  str% "\tb.seek(1, true)",
  str% "",
  str% "}"]

/-- v1/buffer.go:649-656 -/
def fun_WriteByteNext : Fun := ⟨(str% "WriteByteNext"), [some .u8], none, 1, (.cons (.expr (.call (str% "write") (.cons (.field .off) (.cons (.bytes (.cons (.var 0) .nil)) .nil)))) (.cons (.expr (.call (str% "seek") (.cons (.lit 1) (.cons (.bool true) .nil)))) .nil))⟩

/-- v1/buffer.go:657-664 -/
def text_WriteBytesNext : List Str := [
  str% "",
  str% "// WriteBytesNext writes bytes to the buffer at the current offset and moves the offset forward the amount of bytes written",
  str% "func (b *Buffer) WriteBytesNext(data []byte) {",
  str% "",
  str% "\tb.write(b.off, data)",
  str% "\tb.seek(int64(len(data)), true)",
  str% "",
  str% "}"]

/-- v1/buffer.go:657-664 -/
def fun_WriteBytesNext : Fun := ⟨(str% "WriteBytesNext"), [none], none, 1, (.cons (.expr (.call (str% "write") (.cons (.field .off) (.cons (.var 0) .nil)))) (.cons (.expr (.call (str% "seek") (.cons (.conv .i64 (.len (.var 0))) (.cons (.bool true) .nil)))) .nil))⟩

/-- v1/buffer.go:665-687 -/
def text_WriteComplexNext : List Str := [
  str% "",
  str% "// WriteComplexNext writes a uint8/uint16/uint32/uint64 to the buffer at the current offset and moves the offset forward the amount of bytes written",
  str% "func (b *Buffer) WriteComplexNext(data interface{}, size IntegerSize, endian binary.ByteOrder) {",
  str% "",
  str% "\tb.writeComplex(b.off, data, size, endian)",
  str% "",
  str% "\tswitch size {",
  str% "",
  str% "\tcase Unsigned8:",
  str% "\t\tb.seek(int64(len(data.([]uint8))*int(size)), true)",
  str% "",
  str% "\tcase Unsigned16:",
  str% "\t\tb.seek(int64(len(data.([]uint16))*int(size)), true)",
  str% "",
  str% "\tcase Unsigned32:",
  str% "\t\tb.seek(int64(len(data.([]uint32))*int(size)), true)",
  str% "",
  str% "\tcase Unsigned64:",
  str% "\t\tb.seek(int64(len(data.([]uint64))*int(size)), true)",
  str% "",
  str% "\t}",
  str% "",
  str% "}"]

/-- v1/buffer.go:665-687 -/
def fun_WriteComplexNext : Fun := ⟨(str% "WriteComplexNext"), [none, none, none], none, 3, (.cons (.expr (.call (str% "writeComplex") (.cons (.field .off) (.cons (.var 0) (.cons (.var 1) (.cons (.var 2) .nil)))))) (.cons (.switch (.var 1) (.cons (.case 1 (.cons (.expr (.call (str% "seek") (.cons (.conv .i64 (.bin .mul (.len (.assert .u8 (.var 0))) (.conv .i64 (.var 1)))) (.cons (.bool true) .nil)))) .nil)) (.cons (.case 2 (.cons (.expr (.call (str% "seek") (.cons (.conv .i64 (.bin .mul (.len (.assert .u16 (.var 0))) (.conv .i64 (.var 1)))) (.cons (.bool true) .nil)))) .nil)) (.cons (.case 4 (.cons (.expr (.call (str% "seek") (.cons (.conv .i64 (.bin .mul (.len (.assert .u32 (.var 0))) (.conv .i64 (.var 1)))) (.cons (.bool true) .nil)))) .nil)) (.cons (.case 8 (.cons (.expr (.call (str% "seek") (.cons (.conv .i64 (.bin .mul (.len (.assert .u64 (.var 0))) (.conv .i64 (.var 1)))) (.cons (.bool true) .nil)))) .nil)) .nil))))) .nil))⟩

/-- v1/buffer.go:688-694 -/
def text_ReadBit : List Str := [
  str% "",
  str% "// ReadBit returns the bit located at the specified offset without modifying the internal offset value",
  str% "func (b *Buffer) ReadBit(off int64) byte {",
  str% "",
  str% "\treturn b.readbit(off)",
  str% "",
  str% "}"]

/-- v1/buffer.go:688-694 -/
def fun_ReadBit : Fun := ⟨(str% "ReadBit"), [some .i64], some .u8, 1, (.cons (.ret (.call (str% "readbit") (.cons (.var 0) .nil))) .nil)⟩

/-- v1/buffer.go:695-701 -/
def text_ReadBits : List Str := [
  str% "",
  str% "// ReadBits returns the next n bits from the specified offset without modifying the internal offset value",
  str% "func (b *Buffer) ReadBits(off, n int64) uint64 {",
  str% "",
  str% "\treturn b.readbits(off, n)",
  str% "",
  str% "}"]

/-- v1/buffer.go:695-701 -/
def fun_ReadBits : Fun := ⟨(str% "ReadBits"), [some .i64, some .i64], some .u64, 2, (.cons (.ret (.call (str% "readbits") (.cons (.var 0) (.cons (.var 1) .nil)))) .nil)⟩

/-- v1/buffer.go:702-710 -/
def text_ReadBitNext : List Str := [
  str% "",
  str% "// ReadBitNext returns the next bit from the current offset and moves the offset forward a bit",
  str% "func (b *Buffer) ReadBitNext() (out byte) {",
  str% "",
  str% "\tout = b.readbit(b.boff)",
  str% "\tb.seekbit(1, true)",
  str% "\treturn",
  str% "",
  str% "}"]

/-- v1/buffer.go:702-710 -/
def fun_ReadBitNext : Fun := ⟨(str% "ReadBitNext"), [], some .u8, 1, (.cons (.zero 0 .u8) (.cons (.set 0 (.call (str% "readbit") (.cons (.field .boff) .nil))) (.cons (.expr (.call (str% "seekbit") (.cons (.lit 1) (.cons (.bool true) .nil)))) (.cons (.ret (.var 0)) .nil))))⟩

/-- v1/buffer.go:711-719 -/
def text_ReadBitsNext : List Str := [
  str% "",
  str% "// ReadBitsNext returns the next n bits from the current offset and moves the offset forward the amount of bits read",
  str% "func (b *Buffer) ReadBitsNext(n int64) (out uint64) {",
  str% "",
  str% "\tout = b.readbits(b.boff, n)",
  str% "\tb.seekbit(n, true)",
  str% "\treturn",
  str% "",
  str% "}"]

/-- v1/buffer.go:711-719 -/
def fun_ReadBitsNext : Fun := ⟨(str% "ReadBitsNext"), [some .i64], some .u64, 2, (.cons (.zero 1 .u64) (.cons (.set 1 (.call (str% "readbits") (.cons (.field .boff) (.cons (.var 0) .nil)))) (.cons (.expr (.call (str% "seekbit") (.cons (.var 0) (.cons (.bool true) .nil)))) (.cons (.ret (.var 1)) .nil))))⟩

/-- v1/buffer.go:720-726 -/
def text_SetBit : List Str := [
  str% "",
  str% "// SetBit sets the bit located at the specified offset without modifying the internal offset value",
  str% "func (b *Buffer) SetBit(off int64, data byte) {",
  str% "",
  str% "\tb.setbit(off, data)",
  str% "",
  str% "}"]

/-- v1/buffer.go:720-726 -/
def fun_SetBit : Fun := ⟨(str% "SetBit"), [some .i64, some .u8], none, 2, (.cons (.expr (.call (str% "setbit") (.cons (.var 0) (.cons (.var 1) .nil)))) .nil)⟩

/-- v1/buffer.go:727-733 -/
def text_SetBits : List Str := [
  str% "",
  str% "// SetBits sets the next n bits from the specified offset without modifying the internal offset value",
  str% "func (b *Buffer) SetBits(off int64, data uint64, n int64) {",
  str% "",
  str% "\tb.setbits(off, data, n)",
  str% "",
  str% "}"]

/-- v1/buffer.go:727-733 -/
def fun_SetBits : Fun := ⟨(str% "SetBits"), [some .i64, some .u64, some .i64], none, 3, (.cons (.expr (.call (str% "setbits") (.cons (.var 0) (.cons (.var 1) (.cons (.var 2) .nil))))) .nil)⟩

/-- v1/buffer.go:734-741 -/
def text_SetBitNext : List Str := [
  str% "",
  str% "// SetBitNext sets the next bit from the current offset and moves the offset forward a bit",
  str% "func (b *Buffer) SetBitNext(data byte) {",
  str% "",
  str% "\tb.setbit(b.boff, data)",
  str% "\tb.seekbit(1, true)",
  str% "",
  str% "}"]

/-- v1/buffer.go:734-741 -/
def fun_SetBitNext : Fun := ⟨(str% "SetBitNext"), [some .u8], none, 1, (.cons (.expr (.call (str% "setbit") (.cons (.field .boff) (.cons (.var 0) .nil)))) (.cons (.expr (.call (str% "seekbit") (.cons (.lit 1) (.cons (.bool true) .nil)))) .nil))⟩

/-- v1/buffer.go:742-749 -/
def text_SetBitsNext : List Str := [
  str% "",
  str% "// SetBitsNext sets the next n bits from the current offset and moves the offset forward the amount of bits set",
  str% "func (b *Buffer) SetBitsNext(data uint64, n int64) {",
  str% "",
  str% "\tb.setbits(b.boff, data, n)",
  str% "\tb.seekbit(n, true)",
  str% "",
  str% "}"]

/-- v1/buffer.go:742-749 -/
def fun_SetBitsNext : Fun := ⟨(str% "SetBitsNext"), [some .u64, some .i64], none, 2, (.cons (.expr (.call (str% "setbits") (.cons (.field .boff) (.cons (.var 0) (.cons (.var 1) .nil))))) (.cons (.expr (.call (str% "seekbit") (.cons (.var 1) (.cons (.bool true) .nil)))) .nil))⟩

/-- v1/buffer.go:750-756 -/
def text_FlipBit : List Str := [
  str% "",
  str% "// FlipBit flips the bit located at the specified offset without modifying the internal offset value",
  str% "func (b *Buffer) FlipBit(off int64) {",
  str% "",
  str% "\tb.flipbit(off)",
  str% "",
  str% "}"]

/-- v1/buffer.go:750-756 -/
def fun_FlipBit : Fun := ⟨(str% "FlipBit"), [some .i64], none, 1, (.cons (.expr (.call (str% "flipbit") (.cons (.var 0) .nil))) .nil)⟩

/-- v1/buffer.go:757-764 -/
def text_FlipBitNext : List Str := [
  str% "",
  str% "// FlipBitNext flips the next bit from the current offset and moves the offset forward a bit",
  str% "func (b *Buffer) FlipBitNext() {",
  str% "",
  str% "\tb.flipbit(b.boff)",
  str% "\tb.seekbit(1, true)",
  str% "",
  str% "}"]

/-- v1/buffer.go:757-764 -/
def fun_FlipBitNext : Fun := ⟨(str% "FlipBitNext"), [], none, 0, (.cons (.expr (.call (str% "flipbit") (.cons (.field .boff) .nil))) (.cons (.expr (.call (str% "seekbit") (.cons (.lit 1) (.cons (.bool true) .nil)))) .nil))⟩

/-- v1/buffer.go:765-771 -/
def text_ClearAllBits : List Str := [
  str% "",
  str% "// ClearAllBits sets all of the buffer's bits to 0",
  str% "func (b *Buffer) ClearAllBits() {",
  str% "",
  str% "\tb.clearallbits()",
  str% "",
  str% "}"]

/-- v1/buffer.go:765-771 -/
def fun_ClearAllBits : Fun := ⟨(str% "ClearAllBits"), [], none, 0, (.cons (.expr (.call (str% "clearallbits") .nil)) .nil)⟩

/-- v1/buffer.go:772-778 -/
def text_SetAllBits : List Str := [
  str% "",
  str% "// SetAllBits sets all of the buffer's bits to 1",
  str% "func (b *Buffer) SetAllBits() {",
  str% "",
  str% "\tb.setallbits()",
  str% "",
  str% "}"]

/-- v1/buffer.go:772-778 -/
def fun_SetAllBits : Fun := ⟨(str% "SetAllBits"), [], none, 0, (.cons (.expr (.call (str% "setallbits") .nil)) .nil)⟩

/-- v1/buffer.go:779-785 -/
def text_FlipAllBits : List Str := [
  str% "",
  str% "// FlipAllBits flips all of the buffer's bits",
  str% "func (b *Buffer) FlipAllBits() {",
  str% "",
  str% "\tb.flipallbits()",
  str% "",
  str% "}",
  str% ""]

/-- v1/buffer.go:779-785 -/
def fun_FlipAllBits : Fun := ⟨(str% "FlipAllBits"), [], none, 0, (.cons (.expr (.call (str% "flipallbits") .nil)) .nil)⟩

/-- The text, in parts. -/
def text : List (List Str) := [text_0, text_NewBuffer, text_readbit, text_readbits, text_setbit, text_setbits, text_flipbit, text_clearallbits, text_setallbits, text_flipallbits, text_seekbit, text_afterbit, text_write, text_writeComplex, text_read, text_readComplex, text_seek, text_after, text_grow, text_refresh, text_alignbit, text_alignbyte, text_Bytes, text_Capacity, text_BitCapacity, text_Offset, text_BitOffset, text_Refresh, text_Grow, text_Seek, text_SeekBit, text_AlignBit, text_AlignByte, text_After, text_AfterBit, text_ReadByte, text_ReadBytes, text_ReadComplex, text_ReadByteNext, text_ReadBytesNext, text_ReadComplexNext, text_WriteByte, text_WriteBytes, text_WriteComplex, text_WriteByteNext, text_WriteBytesNext, text_WriteComplexNext, text_ReadBit, text_ReadBits, text_ReadBitNext, text_ReadBitsNext, text_SetBit, text_SetBits, text_SetBitNext, text_SetBitsNext, text_FlipBit, text_FlipBitNext, text_ClearAllBits, text_SetAllBits, text_FlipAllBits]

/-- The functions. -/
def funs : List Fun := [fun_NewBuffer, fun_readbit, fun_readbits, fun_setbit, fun_setbits, fun_flipbit, fun_clearallbits, fun_setallbits, fun_flipallbits, fun_seekbit, fun_afterbit, fun_write, fun_writeComplex, fun_read, fun_readComplex, fun_seek, fun_after, fun_grow, fun_refresh, fun_alignbit, fun_alignbyte, fun_Bytes, fun_Capacity, fun_BitCapacity, fun_Offset, fun_BitOffset, fun_Refresh, fun_Grow, fun_Seek, fun_SeekBit, fun_AlignBit, fun_AlignByte, fun_After, fun_AfterBit, fun_ReadByte, fun_ReadBytes, fun_ReadComplex, fun_ReadByteNext, fun_ReadBytesNext, fun_ReadComplexNext, fun_WriteByte, fun_WriteBytes, fun_WriteComplex, fun_WriteByteNext, fun_WriteBytesNext, fun_WriteComplexNext, fun_ReadBit, fun_ReadBits, fun_ReadBitNext, fun_ReadBitsNext, fun_SetBit, fun_SetBits, fun_SetBitNext, fun_SetBitsNext, fun_FlipBit, fun_FlipBitNext, fun_ClearAllBits, fun_SetAllBits, fun_FlipAllBits]

end Crunch.Src.V1Buffer
