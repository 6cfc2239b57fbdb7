import Verif.Src.Sem

/-!
# v2/buffer.go

Written by tools/src_embed.py.
-/

namespace Crunch.Src.V2Buffer

open Crunch.Gen (Str)

/-- v2/buffer.go:1-25 -/
def text_0 : List Str := [
  str% "/*",
  str% "",
  str% "crunch - utilities for taking bytes out of things",
  str% "Copyright (c) 2019-2020 superwhiskers <whiskerdev@protonmail.com>",
  str% "",
  str% "This Source Code Form is subject to the terms of the Mozilla Public",
  str% "License, v. 2.0. If a copy of the MPL was not distributed with this",
  str% "file, You can obtain one at https://mozilla.org/MPL/2.0/.",
  str% "",
  str% "*/",
  str% "",
  str% "package v2",
  str% "",
  str% "import \"sync\"",
  str% "",
  str% "// Buffer implements a concurrent-safe buffer type in go that handles multiple types of data",
  str% "type Buffer struct {",
  str% "\tbuf  []byte",
  str% "\toff  int64",
  str% "\tcap  int64",
  str% "\tboff int64",
  str% "\tbcap int64",
  str% "",
  str% "\tsync.Mutex",
  str% "}"]

/-- v2/buffer.go:26-56 -/
def text_NewBuffer : List Str := [
  str% "",
  str% "// NewBuffer initilaizes a new Buffer with the provided byte slice(s) stored inside in the order provided",
  str% "func NewBuffer(slices ...[]byte) (buf *Buffer) {",
  str% "",
  str% "\tbuf = &Buffer{",
  str% "\t\tbuf:  []byte{},",
  str% "\t\toff:  0x00,",
  str% "\t\tboff: 0x00,",
  str% "\t}",
  str% "",
  str% "\tswitch len(slices) {",
  str% "",
  str% "\tcase 0:",
  str% "\t\tbreak",
  str% "",
  str% "\tcase 1:",
  str% "\t\tbuf.buf = slices[0]",
  str% "",
  str% "\tdefault:",
  str% "\t\tfor _, s := range slices {",
  str% "",
  str% "\t\t\tbuf.buf = append(buf.buf, s...)",
  str% "",
  str% "\t\t}",
  str% "",
  str% "\t}",
  str% "",
  str% "\tbuf.refresh()",
  str% "\treturn",
  str% "",
  str% "}"]

/-- v2/buffer.go:26-56 -/
def fun_NewBuffer : Fun := ⟨(str% "NewBuffer"), [none], none, 2, (.cons (.new (.bytes .nil) (.lit 0) (.lit 0) (.lit 0) (.lit 0)) (.cons (.switch (.len (.var 0)) (.cons (.case 0 (.cons .brk .nil)) (.cons (.case 1 (.cons (.setBuf (.index (.var 0) (.lit 0))) .nil)) (.cons (.default (.cons (.rangeVal 1 (.var 0) (.cons (.setBuf (.append .buf (.var 1))) .nil)) .nil)) .nil)))) (.cons (.expr (.call (str% "refresh") .nil)) (.cons .retNone .nil))))⟩

/-- v2/buffer.go:57-82 -/
def text_readbit : List Str := [
  str% "",
  str% "/* internal use methods */",
  str% "",
  str% "/* bitfield methods */",
  str% "",
  str% "// readbit reads a bit from the bitfield at the specified offset",
  str% "func (b *Buffer) readbit(off int64) byte {",
  str% "",
  str% "\tif off > (b.bcap - 1) {",
  str% "",
  str% "\t\tpanic(BufferOverreadError)",
  str% "",
  str% "\t}",
  str% "",
  str% "\tif off < 0x00 {",
  str% "",
  str% "\t\tpanic(BufferUnderreadError)",
  str% "",
  str% "\t}",
  str% "",
  str% "\tb.Lock()",
  str% "\tdefer b.Unlock()",
  str% "",
  str% "\treturn atob((b.buf[off/8] & (1 << uint(7-(off%8)))) != 0)",
  str% "",
  str% "}"]

/-- v2/buffer.go:57-82 -/
def fun_readbit : Fun := ⟨(str% "readbit"), [some .i64], some .u8, 1, (.cons (.ifs (.bin .gt (.var 0) (.bin .sub (.field .bcap) (.lit 1))) (.cons (.panic (str% "BufferOverreadError")) .nil) .nil) (.cons (.ifs (.bin .lt (.var 0) (.lit 0)) (.cons (.panic (str% "BufferUnderreadError")) .nil) .nil) (.cons .lock (.cons .deferUnlock (.cons (.ret (.call (str% "atob") (.cons (.bin .ne (.bin .and (.index .buf (.bin .div (.var 0) (.lit 8))) (.bin .shl (.lit 1) (.conv .u64 (.bin .sub (.lit 7) (.bin .rem (.var 0) (.lit 8)))))) (.lit 0)) .nil))) .nil)))))⟩

/-- v2/buffer.go:83-102 -/
def text_readbits : List Str := [
  str% "",
  str% "// readbits reads n bits from the bitfield at the specified offset",
  str% "func (b *Buffer) readbits(off, n int64) (out uint64) {",
  str% "",
  str% "\ti := int64(0)",
  str% "",
  str% "\t{",
  str% "\tread_loop:",
  str% "\t\tout = (out << uint64(1)) | uint64(b.readbit(off+i))",
  str% "\t\ti++",
  str% "\t\tif i < n {",
  str% "",
  str% "\t\t\tgoto read_loop",
  str% "",
  str% "\t\t}",
  str% "\t}",
  str% "",
  str% "\treturn",
  str% "",
  str% "}"]

/-- v2/buffer.go:83-102 -/
def fun_readbits : Fun := ⟨(str% "readbits"), [some .i64, some .i64], some .u64, 4, (.cons (.zero 2 .u64) (.cons (.set 3 (.conv .i64 (.lit 0))) (.cons (.block (str% "read_loop") (.cons (.set 2 (.bin .or (.bin .shl (.var 2) (.conv .u64 (.lit 1))) (.conv .u64 (.call (str% "readbit") (.cons (.bin .add (.var 0) (.var 3)) .nil))))) (.cons (.set 3 (.bin .add (.var 3) (.lit 1))) (.cons (.ifs (.bin .lt (.var 3) (.var 1)) (.cons (.goto (str% "read_loop")) .nil) .nil) .nil)))) (.cons (.ret (.var 2)) .nil))))⟩

/-- v2/buffer.go:103-135 -/
def text_setbit : List Str := [
  str% "",
  str% "// setbit sets a bit in the bitfield to the specified value",
  str% "func (b *Buffer) setbit(off int64, data byte) {",
  str% "",
  str% "\tif off > (b.bcap - 1) {",
  str% "",
  str% "\t\tpanic(BufferOverwriteError)",
  str% "",
  str% "\t}",
  str% "",
  str% "\tif off < 0x00 {",
  str% "",
  str% "\t\tpanic(BufferUnderwriteError)",
  str% "",
  str% "\t}",
  str% "",
  str% "\tb.Lock()",
  str% "\tdefer b.Unlock()",
  str% "",
  str% "\tswitch data {",
  str% "",
  str% "\tcase 0:",
  str% "\t\tb.buf[off/8] &= ^(1 << uint(7-(off%8)))",
  str% "",
  str% "\tcase 1:",
  str% "\t\tb.buf[off/8] |= (1 << uint(7-(off%8)))",
  str% "",
  str% "\tdefault:",
  str% "\t\tpanic(BufferInvalidBitError)",
  str% "",
  str% "\t}",
  str% "",
  str% "}"]

/-- v2/buffer.go:103-135 -/
def fun_setbit : Fun := ⟨(str% "setbit"), [some .i64, some .u8], none, 2, (.cons (.ifs (.bin .gt (.var 0) (.bin .sub (.field .bcap) (.lit 1))) (.cons (.panic (str% "BufferOverwriteError")) .nil) .nil) (.cons (.ifs (.bin .lt (.var 0) (.lit 0)) (.cons (.panic (str% "BufferUnderwriteError")) .nil) .nil) (.cons .lock (.cons .deferUnlock (.cons (.switch (.var 1) (.cons (.case 0 (.cons (.setBufAt (.bin .div (.var 0) (.lit 8)) (.bin .and (.index .buf (.bin .div (.var 0) (.lit 8))) (.compl (.bin .shl (.lit 1) (.conv .u64 (.bin .sub (.lit 7) (.bin .rem (.var 0) (.lit 8)))))))) .nil)) (.cons (.case 1 (.cons (.setBufAt (.bin .div (.var 0) (.lit 8)) (.bin .or (.index .buf (.bin .div (.var 0) (.lit 8))) (.bin .shl (.lit 1) (.conv .u64 (.bin .sub (.lit 7) (.bin .rem (.var 0) (.lit 8))))))) .nil)) (.cons (.default (.cons (.panic (str% "BufferInvalidBitError")) .nil)) .nil)))) .nil)))))⟩

/-- v2/buffer.go:136-153 -/
def text_setbits : List Str := [
  str% "",
  str% "// setbits sets n bits in the bitfield to the specified value at the specified offset",
  str% "func (b *Buffer) setbits(off int64, data uint64, n int64) {",
  str% "",
  str% "\ti := int64(0)",
  str% "",
  str% "\t{",
  str% "\twrite_loop:",
  str% "\t\tb.setbit(off+i, byte((data>>uint64(n-i-1))&1))",
  str% "\t\ti++",
  str% "\t\tif i < n {",
  str% "",
  str% "\t\t\tgoto write_loop",
  str% "",
  str% "\t\t}",
  str% "\t}",
  str% "",
  str% "}"]

/-- v2/buffer.go:136-153 -/
def fun_setbits : Fun := ⟨(str% "setbits"), [some .i64, some .u64, some .i64], none, 4, (.cons (.set 3 (.conv .i64 (.lit 0))) (.cons (.block (str% "write_loop") (.cons (.expr (.call (str% "setbit") (.cons (.bin .add (.var 0) (.var 3)) (.cons (.conv .u8 (.bin .and (.bin .shr (.var 1) (.conv .u64 (.bin .sub (.bin .sub (.var 2) (.var 3)) (.lit 1)))) (.lit 1))) .nil)))) (.cons (.set 3 (.bin .add (.var 3) (.lit 1))) (.cons (.ifs (.bin .lt (.var 3) (.var 2)) (.cons (.goto (str% "write_loop")) .nil) .nil) .nil)))) .nil))⟩

/-- v2/buffer.go:154-175 -/
def text_flipbit : List Str := [
  str% "",
  str% "// flipbit flips a bit in the bitfield",
  str% "func (b *Buffer) flipbit(off int64) {",
  str% "",
  str% "\tif off > (b.bcap - 1) {",
  str% "",
  str% "\t\tpanic(BufferOverwriteError)",
  str% "",
  str% "\t}",
  str% "",
  str% "\tif off < 0x00 {",
  str% "",
  str% "\t\tpanic(BufferUnderwriteError)",
  str% "",
  str% "\t}",
  str% "",
  str% "\tb.Lock()",
  str% "\tdefer b.Unlock()",
  str% "",
  str% "\tb.buf[off/8] ^= (1 << uint(7-(off%8)))",
  str% "",
  str% "}"]

/-- v2/buffer.go:154-175 -/
def fun_flipbit : Fun := ⟨(str% "flipbit"), [some .i64], none, 1, (.cons (.ifs (.bin .gt (.var 0) (.bin .sub (.field .bcap) (.lit 1))) (.cons (.panic (str% "BufferOverwriteError")) .nil) .nil) (.cons (.ifs (.bin .lt (.var 0) (.lit 0)) (.cons (.panic (str% "BufferUnderwriteError")) .nil) .nil) (.cons .lock (.cons .deferUnlock (.cons (.setBufAt (.bin .div (.var 0) (.lit 8)) (.bin .xor (.index .buf (.bin .div (.var 0) (.lit 8))) (.bin .shl (.lit 1) (.conv .u64 (.bin .sub (.lit 7) (.bin .rem (.var 0) (.lit 8))))))) .nil)))))⟩

/-- v2/buffer.go:176-198 -/
def text_clearallbits : List Str := [
  str% "",
  str% "// clearallbits sets all of the buffer's bits to 0",
  str% "func (b *Buffer) clearallbits() {",
  str% "",
  str% "\tb.Lock()",
  str% "\tdefer b.Unlock()",
  str% "",
  str% "\tvar (",
  str% "\t\ti = int64(0)",
  str% "\t\tn = int64(len(b.buf))",
  str% "\t)",
  str% "\t{",
  str% "\tclear_loop:",
  str% "\t\tb.buf[i] = 0",
  str% "\t\ti++",
  str% "\t\tif i < n {",
  str% "",
  str% "\t\t\tgoto clear_loop",
  str% "",
  str% "\t\t}",
  str% "\t}",
  str% "",
  str% "}"]

/-- v2/buffer.go:176-198 -/
def fun_clearallbits : Fun := ⟨(str% "clearallbits"), [], none, 2, (.cons .lock (.cons .deferUnlock (.cons (.set 0 (.conv .i64 (.lit 0))) (.cons (.set 1 (.conv .i64 (.len .buf))) (.cons (.block (str% "clear_loop") (.cons (.setBufAt (.var 0) (.lit 0)) (.cons (.set 0 (.bin .add (.var 0) (.lit 1))) (.cons (.ifs (.bin .lt (.var 0) (.var 1)) (.cons (.goto (str% "clear_loop")) .nil) .nil) .nil)))) .nil)))))⟩

/-- v2/buffer.go:199-221 -/
def text_setallbits : List Str := [
  str% "",
  str% "// setallbits sets all of the buffer's bits to 1",
  str% "func (b *Buffer) setallbits() {",
  str% "",
  str% "\tb.Lock()",
  str% "\tdefer b.Unlock()",
  str% "",
  str% "\tvar (",
  str% "\t\ti = int64(0)",
  str% "\t\tn = int64(len(b.buf))",
  str% "\t)",
  str% "\t{",
  str% "\tset_loop:",
  str% "\t\tb.buf[i] = 0xFF",
  str% "\t\ti++",
  str% "\t\tif i < n {",
  str% "",
  str% "\t\t\tgoto set_loop",
  str% "",
  str% "\t\t}",
  str% "\t}",
  str% "",
  str% "}"]

/-- v2/buffer.go:199-221 -/
def fun_setallbits : Fun := ⟨(str% "setallbits"), [], none, 2, (.cons .lock (.cons .deferUnlock (.cons (.set 0 (.conv .i64 (.lit 0))) (.cons (.set 1 (.conv .i64 (.len .buf))) (.cons (.block (str% "set_loop") (.cons (.setBufAt (.var 0) (.lit 255)) (.cons (.set 0 (.bin .add (.var 0) (.lit 1))) (.cons (.ifs (.bin .lt (.var 0) (.var 1)) (.cons (.goto (str% "set_loop")) .nil) .nil) .nil)))) .nil)))))⟩

/-- v2/buffer.go:222-245 -/
def text_flipallbits : List Str := [
  str% "",
  str% "// flipallbits flips all of the buffer's bits",
  str% "func (b *Buffer) flipallbits() {",
  str% "",
  str% "\tb.Lock()",
  str% "\tdefer b.Unlock()",
  str% "",
  str% "\tvar (",
  str% "\t\ti = int64(0)",
  str% "\t\tn = int64(len(b.buf))",
  str% "\t)",
  str% "\t{",
  str% "\tflip_loop:",
  str% "\t\tb.buf[i] = ^b.buf[i]",
  str% "\t\ti++",
  str% "\t\tif i < n {",
  str% "",
  str% "\t\t\tgoto flip_loop",
  str% "",
  str% "\t\t}",
  str% "",
  str% "\t}",
  str% "",
  str% "}"]

/-- v2/buffer.go:222-245 -/
def fun_flipallbits : Fun := ⟨(str% "flipallbits"), [], none, 2, (.cons .lock (.cons .deferUnlock (.cons (.set 0 (.conv .i64 (.lit 0))) (.cons (.set 1 (.conv .i64 (.len .buf))) (.cons (.block (str% "flip_loop") (.cons (.setBufAt (.var 0) (.compl (.index .buf (.var 0)))) (.cons (.set 0 (.bin .add (.var 0) (.lit 1))) (.cons (.ifs (.bin .lt (.var 0) (.var 1)) (.cons (.goto (str% "flip_loop")) .nil) .nil) .nil)))) .nil)))))⟩

/-- v2/buffer.go:246-263 -/
def text_seekbit : List Str := [
  str% "",
  str% "// seekbit seeks to position off of the bitfield relative to the current position or exact",
  str% "func (b *Buffer) seekbit(off int64, relative bool) {",
  str% "",
  str% "\tb.Lock()",
  str% "\tdefer b.Unlock()",
  str% "",
  str% "\tif relative {",
  str% "",
  str% "\t\tb.boff += off",
  str% "",
  str% "\t} else {",
  str% "",
  str% "\t\tb.boff = off",
  str% "",
  str% "\t}",
  str% "",
  str% "}"]

/-- v2/buffer.go:246-263 -/
def fun_seekbit : Fun := ⟨(str% "seekbit"), [some .i64, none], none, 2, (.cons .lock (.cons .deferUnlock (.cons (.ifs (.var 1) (.cons (.setField .boff (.bin .add (.field .boff) (.var 0))) .nil) (.cons (.setField .boff (.var 0)) .nil)) .nil)))⟩

/-- v2/buffer.go:264-275 -/
def text_afterbit : List Str := [
  str% "",
  str% "// afterbit returns the amount of bits located after the current position or the specified one",
  str% "func (b *Buffer) afterbit(off ...int64) int64 {",
  str% "",
  str% "\tif len(off) == 0 {",
  str% "",
  str% "\t\treturn b.bcap - b.boff - 1",
  str% "",
  str% "\t}",
  str% "\treturn b.bcap - off[0] - 1",
  str% "",
  str% "}"]

/-- v2/buffer.go:264-275 -/
def fun_afterbit : Fun := ⟨(str% "afterbit"), [none], some .i64, 1, (.cons (.ifs (.bin .eq (.len (.var 0)) (.lit 0)) (.cons (.ret (.bin .sub (.bin .sub (.field .bcap) (.field .boff)) (.lit 1))) .nil) .nil) (.cons (.ret (.bin .sub (.bin .sub (.field .bcap) (.index (.var 0) (.lit 0))) (.lit 1))) .nil))⟩

/-- v2/buffer.go:276-313 -/
def text_write : List Str := [
  str% "",
  str% "/* byte buffer methods */",
  str% "",
  str% "// write writes a slice of bytes to the buffer at the specified offset",
  str% "func (b *Buffer) write(off int64, data []byte) {",
  str% "",
  str% "\tif (off + int64(len(data))) > b.cap {",
  str% "",
  str% "\t\tpanic(BufferOverwriteError)",
  str% "",
  str% "\t}",
  str% "",
  str% "\tif off < 0x00 {",
  str% "",
  str% "\t\tpanic(BufferUnderwriteError)",
  str% "",
  str% "\t}",
  str% "",
  str% "\tb.Lock()",
  str% "",
  str% "\tvar (",
  str% "\t\ti = int64(0)",
  str% "\t\tn = int64(len(data))",
  str% "\t)",
  str% "\t{",
  str% "\twrite_loop:",
  str% "\t\tb.buf[off+i] = data[i]",
  str% "\t\ti++",
  str% "\t\tif i < n {",
  str% "",
  str% "\t\t\tgoto write_loop",
  str% "",
  str% "\t\t}",
  str% "\t}",
  str% "",
  str% "\tb.Unlock()",
  str% "",
  str% "}"]

/-- v2/buffer.go:276-313 -/
def fun_write : Fun := ⟨(str% "write"), [some .i64, none], none, 4, (.cons (.ifs (.bin .gt (.bin .add (.var 0) (.conv .i64 (.len (.var 1)))) (.field .cap)) (.cons (.panic (str% "BufferOverwriteError")) .nil) .nil) (.cons (.ifs (.bin .lt (.var 0) (.lit 0)) (.cons (.panic (str% "BufferUnderwriteError")) .nil) .nil) (.cons .lock (.cons (.set 2 (.conv .i64 (.lit 0))) (.cons (.set 3 (.conv .i64 (.len (.var 1)))) (.cons (.block (str% "write_loop") (.cons (.setBufAt (.bin .add (.var 0) (.var 2)) (.index (.var 1) (.var 2))) (.cons (.set 2 (.bin .add (.var 2) (.lit 1))) (.cons (.ifs (.bin .lt (.var 2) (.var 3)) (.cons (.goto (str% "write_loop")) .nil) .nil) .nil)))) (.cons .unlock .nil)))))))⟩

/-- v2/buffer.go:314-351 -/
def text_writeU16LE : List Str := [
  str% "",
  str% "// writeU16LE writes a slice of uint16s to the buffer at the specified offset in little-endian",
  str% "func (b *Buffer) writeU16LE(off int64, data []uint16) {",
  str% "",
  str% "\tif (off + int64(len(data))*2) > b.cap {",
  str% "",
  str% "\t\tpanic(BufferOverwriteError)",
  str% "",
  str% "\t}",
  str% "",
  str% "\tif off < 0x00 {",
  str% "",
  str% "\t\tpanic(BufferUnderwriteError)",
  str% "",
  str% "\t}",
  str% "",
  str% "\tb.Lock()",
  str% "",
  str% "\tvar (",
  str% "\t\ti = 0",
  str% "\t\tn = len(data)",
  str% "\t)",
  str% "\t{",
  str% "\twrite_loop:",
  str% "\t\tb.buf[off+int64(i*2)] = byte(data[i])",
  str% "\t\tb.buf[off+int64(1+(i*2))] = byte(data[i] >> 8)",
  str% "",
  str% "\t\ti++",
  str% "\t\tif i < n {",
  str% "",
  str% "\t\t\tgoto write_loop",
  str% "",
  str% "\t\t}",
  str% "\t}",
  str% "",
  str% "\tb.Unlock()",
  str% "",
  str% "}"]

/-- v2/buffer.go:314-351 -/
def fun_writeU16LE : Fun := ⟨(str% "writeU16LE"), [some .i64, none], none, 4, (.cons (.ifs (.bin .gt (.bin .add (.var 0) (.bin .mul (.conv .i64 (.len (.var 1))) (.lit 2))) (.field .cap)) (.cons (.panic (str% "BufferOverwriteError")) .nil) .nil) (.cons (.ifs (.bin .lt (.var 0) (.lit 0)) (.cons (.panic (str% "BufferUnderwriteError")) .nil) .nil) (.cons .lock (.cons (.set 2 (.lit 0)) (.cons (.set 3 (.len (.var 1))) (.cons (.block (str% "write_loop") (.cons (.setBufAt (.bin .add (.var 0) (.conv .i64 (.bin .mul (.var 2) (.lit 2)))) (.conv .u8 (.index (.var 1) (.var 2)))) (.cons (.setBufAt (.bin .add (.var 0) (.conv .i64 (.bin .add (.lit 1) (.bin .mul (.var 2) (.lit 2))))) (.conv .u8 (.bin .shr (.index (.var 1) (.var 2)) (.lit 8)))) (.cons (.set 2 (.bin .add (.var 2) (.lit 1))) (.cons (.ifs (.bin .lt (.var 2) (.var 3)) (.cons (.goto (str% "write_loop")) .nil) .nil) .nil))))) (.cons .unlock .nil)))))))⟩

/-- v2/buffer.go:352-389 -/
def text_writeU16BE : List Str := [
  str% "",
  str% "// writeU16BE writes a slice of uint16s to the buffer at the specified offset in big-endian",
  str% "func (b *Buffer) writeU16BE(off int64, data []uint16) {",
  str% "",
  str% "\tif (off + int64(len(data))*2) > b.cap {",
  str% "",
  str% "\t\tpanic(BufferOverwriteError)",
  str% "",
  str% "\t}",
  str% "",
  str% "\tif off < 0x00 {",
  str% "",
  str% "\t\tpanic(BufferUnderwriteError)",
  str% "",
  str% "\t}",
  str% "",
  str% "\tb.Lock()",
  str% "",
  str% "\tvar (",
  str% "\t\ti = 0",
  str% "\t\tn = len(data)",
  str% "\t)",
  str% "\t{",
  str% "\twrite_loop:",
  str% "\t\tb.buf[off+int64(i*2)] = byte(data[i] >> 8)",
  str% "\t\tb.buf[off+int64(1+(i*2))] = byte(data[i])",
  str% "",
  str% "\t\ti++",
  str% "\t\tif i < n {",
  str% "",
  str% "\t\t\tgoto write_loop",
  str% "",
  str% "\t\t}",
  str% "\t}",
  str% "",
  str% "\tb.Unlock()",
  str% "",
  str% "}"]

/-- v2/buffer.go:352-389 -/
def fun_writeU16BE : Fun := ⟨(str% "writeU16BE"), [some .i64, none], none, 4, (.cons (.ifs (.bin .gt (.bin .add (.var 0) (.bin .mul (.conv .i64 (.len (.var 1))) (.lit 2))) (.field .cap)) (.cons (.panic (str% "BufferOverwriteError")) .nil) .nil) (.cons (.ifs (.bin .lt (.var 0) (.lit 0)) (.cons (.panic (str% "BufferUnderwriteError")) .nil) .nil) (.cons .lock (.cons (.set 2 (.lit 0)) (.cons (.set 3 (.len (.var 1))) (.cons (.block (str% "write_loop") (.cons (.setBufAt (.bin .add (.var 0) (.conv .i64 (.bin .mul (.var 2) (.lit 2)))) (.conv .u8 (.bin .shr (.index (.var 1) (.var 2)) (.lit 8)))) (.cons (.setBufAt (.bin .add (.var 0) (.conv .i64 (.bin .add (.lit 1) (.bin .mul (.var 2) (.lit 2))))) (.conv .u8 (.index (.var 1) (.var 2)))) (.cons (.set 2 (.bin .add (.var 2) (.lit 1))) (.cons (.ifs (.bin .lt (.var 2) (.var 3)) (.cons (.goto (str% "write_loop")) .nil) .nil) .nil))))) (.cons .unlock .nil)))))))⟩

/-- v2/buffer.go:390-429 -/
def text_writeU32LE : List Str := [
  str% "",
  str% "// writeU32LE writes a slice of uint32s to the buffer at the specified offset in little-endian",
  str% "func (b *Buffer) writeU32LE(off int64, data []uint32) {",
  str% "",
  str% "\tif (off + int64(len(data))*4) > b.cap {",
  str% "",
  str% "\t\tpanic(BufferOverwriteError)",
  str% "",
  str% "\t}",
  str% "",
  str% "\tif off < 0x00 {",
  str% "",
  str% "\t\tpanic(BufferUnderwriteError)",
  str% "",
  str% "\t}",
  str% "",
  str% "\tb.Lock()",
  str% "",
  str% "\tvar (",
  str% "\t\ti = 0",
  str% "\t\tn = len(data)",
  str% "\t)",
  str% "\t{",
  str% "\twrite_loop:",
  str% "\t\tb.buf[off+int64(i*4)] = byte(data[i])",
  str% "\t\tb.buf[off+int64(1+(i*4))] = byte(data[i] >> 8)",
  str% "\t\tb.buf[off+int64(2+(i*4))] = byte(data[i] >> 16)",
  str% "\t\tb.buf[off+int64(3+(i*4))] = byte(data[i] >> 24)",
  str% "",
  str% "\t\ti++",
  str% "\t\tif i < n {",
  str% "",
  str% "\t\t\tgoto write_loop",
  str% "",
  str% "\t\t}",
  str% "\t}",
  str% "",
  str% "\tb.Unlock()",
  str% "",
  str% "}"]

/-- v2/buffer.go:390-429 -/
def fun_writeU32LE : Fun := ⟨(str% "writeU32LE"), [some .i64, none], none, 4, (.cons (.ifs (.bin .gt (.bin .add (.var 0) (.bin .mul (.conv .i64 (.len (.var 1))) (.lit 4))) (.field .cap)) (.cons (.panic (str% "BufferOverwriteError")) .nil) .nil) (.cons (.ifs (.bin .lt (.var 0) (.lit 0)) (.cons (.panic (str% "BufferUnderwriteError")) .nil) .nil) (.cons .lock (.cons (.set 2 (.lit 0)) (.cons (.set 3 (.len (.var 1))) (.cons (.block (str% "write_loop") (.cons (.setBufAt (.bin .add (.var 0) (.conv .i64 (.bin .mul (.var 2) (.lit 4)))) (.conv .u8 (.index (.var 1) (.var 2)))) (.cons (.setBufAt (.bin .add (.var 0) (.conv .i64 (.bin .add (.lit 1) (.bin .mul (.var 2) (.lit 4))))) (.conv .u8 (.bin .shr (.index (.var 1) (.var 2)) (.lit 8)))) (.cons (.setBufAt (.bin .add (.var 0) (.conv .i64 (.bin .add (.lit 2) (.bin .mul (.var 2) (.lit 4))))) (.conv .u8 (.bin .shr (.index (.var 1) (.var 2)) (.lit 16)))) (.cons (.setBufAt (.bin .add (.var 0) (.conv .i64 (.bin .add (.lit 3) (.bin .mul (.var 2) (.lit 4))))) (.conv .u8 (.bin .shr (.index (.var 1) (.var 2)) (.lit 24)))) (.cons (.set 2 (.bin .add (.var 2) (.lit 1))) (.cons (.ifs (.bin .lt (.var 2) (.var 3)) (.cons (.goto (str% "write_loop")) .nil) .nil) .nil))))))) (.cons .unlock .nil)))))))⟩

/-- v2/buffer.go:430-469 -/
def text_writeU32BE : List Str := [
  str% "",
  str% "// writeU32BE writes a slice of uint32s to the buffer at the specified offset in big-endian",
  str% "func (b *Buffer) writeU32BE(off int64, data []uint32) {",
  str% "",
  str% "\tif (off + int64(len(data))*4) > b.cap {",
  str% "",
  str% "\t\tpanic(BufferOverwriteError)",
  str% "",
  str% "\t}",
  str% "",
  str% "\tif off < 0x00 {",
  str% "",
  str% "\t\tpanic(BufferUnderwriteError)",
  str% "",
  str% "\t}",
  str% "",
  str% "\tb.Lock()",
  str% "",
  str% "\tvar (",
  str% "\t\ti = 0",
  str% "\t\tn = len(data)",
  str% "\t)",
  str% "\t{",
  str% "\twrite_loop:",
  str% "\t\tb.buf[off+int64(i*4)] = byte(data[i] >> 24)",
  str% "\t\tb.buf[off+int64(1+(i*4))] = byte(data[i] >> 16)",
  str% "\t\tb.buf[off+int64(2+(i*4))] = byte(data[i] >> 8)",
  str% "\t\tb.buf[off+int64(3+(i*4))] = byte(data[i])",
  str% "",
  str% "\t\ti++",
  str% "\t\tif i < n {",
  str% "",
  str% "\t\t\tgoto write_loop",
  str% "",
  str% "\t\t}",
  str% "\t}",
  str% "",
  str% "\tb.Unlock()",
  str% "",
  str% "}"]

/-- v2/buffer.go:430-469 -/
def fun_writeU32BE : Fun := ⟨(str% "writeU32BE"), [some .i64, none], none, 4, (.cons (.ifs (.bin .gt (.bin .add (.var 0) (.bin .mul (.conv .i64 (.len (.var 1))) (.lit 4))) (.field .cap)) (.cons (.panic (str% "BufferOverwriteError")) .nil) .nil) (.cons (.ifs (.bin .lt (.var 0) (.lit 0)) (.cons (.panic (str% "BufferUnderwriteError")) .nil) .nil) (.cons .lock (.cons (.set 2 (.lit 0)) (.cons (.set 3 (.len (.var 1))) (.cons (.block (str% "write_loop") (.cons (.setBufAt (.bin .add (.var 0) (.conv .i64 (.bin .mul (.var 2) (.lit 4)))) (.conv .u8 (.bin .shr (.index (.var 1) (.var 2)) (.lit 24)))) (.cons (.setBufAt (.bin .add (.var 0) (.conv .i64 (.bin .add (.lit 1) (.bin .mul (.var 2) (.lit 4))))) (.conv .u8 (.bin .shr (.index (.var 1) (.var 2)) (.lit 16)))) (.cons (.setBufAt (.bin .add (.var 0) (.conv .i64 (.bin .add (.lit 2) (.bin .mul (.var 2) (.lit 4))))) (.conv .u8 (.bin .shr (.index (.var 1) (.var 2)) (.lit 8)))) (.cons (.setBufAt (.bin .add (.var 0) (.conv .i64 (.bin .add (.lit 3) (.bin .mul (.var 2) (.lit 4))))) (.conv .u8 (.index (.var 1) (.var 2)))) (.cons (.set 2 (.bin .add (.var 2) (.lit 1))) (.cons (.ifs (.bin .lt (.var 2) (.var 3)) (.cons (.goto (str% "write_loop")) .nil) .nil) .nil))))))) (.cons .unlock .nil)))))))⟩

/-- v2/buffer.go:470-513 -/
def text_writeU64LE : List Str := [
  str% "",
  str% "// writeU64LE writes a slice of uint64s to the buffer at the specified offset in little-endian",
  str% "func (b *Buffer) writeU64LE(off int64, data []uint64) {",
  str% "",
  str% "\tif (off + int64(len(data))*8) > b.cap {",
  str% "",
  str% "\t\tpanic(BufferOverwriteError)",
  str% "",
  str% "\t}",
  str% "",
  str% "\tif off < 0x00 {",
  str% "",
  str% "\t\tpanic(BufferUnderwriteError)",
  str% "",
  str% "\t}",
  str% "",
  str% "\tb.Lock()",
  str% "",
  str% "\tvar (",
  str% "\t\ti = 0",
  str% "\t\tn = len(data)",
  str% "\t)",
  str% "\t{",
  str% "\twrite_loop:",
  str% "\t\tb.buf[off+int64(i*8)] = byte(data[i])",
  str% "\t\tb.buf[off+int64(1+(i*8))] = byte(data[i] >> 8)",
  str% "\t\tb.buf[off+int64(2+(i*8))] = byte(data[i] >> 16)",
  str% "\t\tb.buf[off+int64(3+(i*8))] = byte(data[i] >> 24)",
  str% "\t\tb.buf[off+int64(4+(i*8))] = byte(data[i] >> 32)",
  str% "\t\tb.buf[off+int64(5+(i*8))] = byte(data[i] >> 40)",
  str% "\t\tb.buf[off+int64(6+(i*8))] = byte(data[i] >> 48)",
  str% "\t\tb.buf[off+int64(7+(i*8))] = byte(data[i] >> 56)",
  str% "",
  str% "\t\ti++",
  str% "\t\tif i < n {",
  str% "",
  str% "\t\t\tgoto write_loop",
  str% "",
  str% "\t\t}",
  str% "\t}",
  str% "",
  str% "\tb.Unlock()",
  str% "",
  str% "}"]

/-- v2/buffer.go:470-513 -/
def fun_writeU64LE : Fun := ⟨(str% "writeU64LE"), [some .i64, none], none, 4, (.cons (.ifs (.bin .gt (.bin .add (.var 0) (.bin .mul (.conv .i64 (.len (.var 1))) (.lit 8))) (.field .cap)) (.cons (.panic (str% "BufferOverwriteError")) .nil) .nil) (.cons (.ifs (.bin .lt (.var 0) (.lit 0)) (.cons (.panic (str% "BufferUnderwriteError")) .nil) .nil) (.cons .lock (.cons (.set 2 (.lit 0)) (.cons (.set 3 (.len (.var 1))) (.cons (.block (str% "write_loop") (.cons (.setBufAt (.bin .add (.var 0) (.conv .i64 (.bin .mul (.var 2) (.lit 8)))) (.conv .u8 (.index (.var 1) (.var 2)))) (.cons (.setBufAt (.bin .add (.var 0) (.conv .i64 (.bin .add (.lit 1) (.bin .mul (.var 2) (.lit 8))))) (.conv .u8 (.bin .shr (.index (.var 1) (.var 2)) (.lit 8)))) (.cons (.setBufAt (.bin .add (.var 0) (.conv .i64 (.bin .add (.lit 2) (.bin .mul (.var 2) (.lit 8))))) (.conv .u8 (.bin .shr (.index (.var 1) (.var 2)) (.lit 16)))) (.cons (.setBufAt (.bin .add (.var 0) (.conv .i64 (.bin .add (.lit 3) (.bin .mul (.var 2) (.lit 8))))) (.conv .u8 (.bin .shr (.index (.var 1) (.var 2)) (.lit 24)))) (.cons (.setBufAt (.bin .add (.var 0) (.conv .i64 (.bin .add (.lit 4) (.bin .mul (.var 2) (.lit 8))))) (.conv .u8 (.bin .shr (.index (.var 1) (.var 2)) (.lit 32)))) (.cons (.setBufAt (.bin .add (.var 0) (.conv .i64 (.bin .add (.lit 5) (.bin .mul (.var 2) (.lit 8))))) (.conv .u8 (.bin .shr (.index (.var 1) (.var 2)) (.lit 40)))) (.cons (.setBufAt (.bin .add (.var 0) (.conv .i64 (.bin .add (.lit 6) (.bin .mul (.var 2) (.lit 8))))) (.conv .u8 (.bin .shr (.index (.var 1) (.var 2)) (.lit 48)))) (.cons (.setBufAt (.bin .add (.var 0) (.conv .i64 (.bin .add (.lit 7) (.bin .mul (.var 2) (.lit 8))))) (.conv .u8 (.bin .shr (.index (.var 1) (.var 2)) (.lit 56)))) (.cons (.set 2 (.bin .add (.var 2) (.lit 1))) (.cons (.ifs (.bin .lt (.var 2) (.var 3)) (.cons (.goto (str% "write_loop")) .nil) .nil) .nil))))))))))) (.cons .unlock .nil)))))))⟩

/-- v2/buffer.go:514-557 -/
def text_writeU64BE : List Str := [
  str% "",
  str% "// writeU64BE writes a slice of uint64s to the buffer at the specified offset in big-endian",
  str% "func (b *Buffer) writeU64BE(off int64, data []uint64) {",
  str% "",
  str% "\tif (off + int64(len(data))*8) > b.cap {",
  str% "",
  str% "\t\tpanic(BufferOverwriteError)",
  str% "",
  str% "\t}",
  str% "",
  str% "\tif off < 0x00 {",
  str% "",
  str% "\t\tpanic(BufferUnderwriteError)",
  str% "",
  str% "\t}",
  str% "",
  str% "\tb.Lock()",
  str% "",
  str% "\tvar (",
  str% "\t\ti = 0",
  str% "\t\tn = len(data)",
  str% "\t)",
  str% "\t{",
  str% "\twrite_loop:",
  str% "\t\tb.buf[off+int64(i*8)] = byte(data[i] >> 56)",
  str% "\t\tb.buf[off+int64(1+(i*8))] = byte(data[i] >> 48)",
  str% "\t\tb.buf[off+int64(2+(i*8))] = byte(data[i] >> 40)",
  str% "\t\tb.buf[off+int64(3+(i*8))] = byte(data[i] >> 32)",
  str% "\t\tb.buf[off+int64(4+(i*8))] = byte(data[i] >> 24)",
  str% "\t\tb.buf[off+int64(5+(i*8))] = byte(data[i] >> 16)",
  str% "\t\tb.buf[off+int64(6+(i*8))] = byte(data[i] >> 8)",
  str% "\t\tb.buf[off+int64(7+(i*8))] = byte(data[i])",
  str% "",
  str% "\t\ti++",
  str% "\t\tif i < n {",
  str% "",
  str% "\t\t\tgoto write_loop",
  str% "",
  str% "\t\t}",
  str% "\t}",
  str% "",
  str% "\tb.Unlock()",
  str% "",
  str% "}"]

/-- v2/buffer.go:514-557 -/
def fun_writeU64BE : Fun := ⟨(str% "writeU64BE"), [some .i64, none], none, 4, (.cons (.ifs (.bin .gt (.bin .add (.var 0) (.bin .mul (.conv .i64 (.len (.var 1))) (.lit 8))) (.field .cap)) (.cons (.panic (str% "BufferOverwriteError")) .nil) .nil) (.cons (.ifs (.bin .lt (.var 0) (.lit 0)) (.cons (.panic (str% "BufferUnderwriteError")) .nil) .nil) (.cons .lock (.cons (.set 2 (.lit 0)) (.cons (.set 3 (.len (.var 1))) (.cons (.block (str% "write_loop") (.cons (.setBufAt (.bin .add (.var 0) (.conv .i64 (.bin .mul (.var 2) (.lit 8)))) (.conv .u8 (.bin .shr (.index (.var 1) (.var 2)) (.lit 56)))) (.cons (.setBufAt (.bin .add (.var 0) (.conv .i64 (.bin .add (.lit 1) (.bin .mul (.var 2) (.lit 8))))) (.conv .u8 (.bin .shr (.index (.var 1) (.var 2)) (.lit 48)))) (.cons (.setBufAt (.bin .add (.var 0) (.conv .i64 (.bin .add (.lit 2) (.bin .mul (.var 2) (.lit 8))))) (.conv .u8 (.bin .shr (.index (.var 1) (.var 2)) (.lit 40)))) (.cons (.setBufAt (.bin .add (.var 0) (.conv .i64 (.bin .add (.lit 3) (.bin .mul (.var 2) (.lit 8))))) (.conv .u8 (.bin .shr (.index (.var 1) (.var 2)) (.lit 32)))) (.cons (.setBufAt (.bin .add (.var 0) (.conv .i64 (.bin .add (.lit 4) (.bin .mul (.var 2) (.lit 8))))) (.conv .u8 (.bin .shr (.index (.var 1) (.var 2)) (.lit 24)))) (.cons (.setBufAt (.bin .add (.var 0) (.conv .i64 (.bin .add (.lit 5) (.bin .mul (.var 2) (.lit 8))))) (.conv .u8 (.bin .shr (.index (.var 1) (.var 2)) (.lit 16)))) (.cons (.setBufAt (.bin .add (.var 0) (.conv .i64 (.bin .add (.lit 6) (.bin .mul (.var 2) (.lit 8))))) (.conv .u8 (.bin .shr (.index (.var 1) (.var 2)) (.lit 8)))) (.cons (.setBufAt (.bin .add (.var 0) (.conv .i64 (.bin .add (.lit 7) (.bin .mul (.var 2) (.lit 8))))) (.conv .u8 (.index (.var 1) (.var 2)))) (.cons (.set 2 (.bin .add (.var 2) (.lit 1))) (.cons (.ifs (.bin .lt (.var 2) (.var 3)) (.cons (.goto (str% "write_loop")) .nil) .nil) .nil))))))))))) (.cons .unlock .nil)))))))⟩

/-- v2/buffer.go:558-579 -/
def text_read : List Str := [
  str% "",
  str% "// read reads n bytes from the buffer at the specified offset",
  str% "func (b *Buffer) read(off, n int64) []byte {",
  str% "",
  str% "\tif (off + n) > b.cap {",
  str% "",
  str% "\t\tpanic(BufferOverreadError)",
  str% "",
  str% "\t}",
  str% "",
  str% "\tif off < 0x00 {",
  str% "",
  str% "\t\tpanic(BufferUnderreadError)",
  str% "",
  str% "\t}",
  str% "",
  str% "\tb.Lock()",
  str% "\tdefer b.Unlock()",
  str% "",
  str% "\treturn b.buf[off : off+n]",
  str% "",
  str% "}"]

/-- v2/buffer.go:558-579 -/
def fun_read : Fun := ⟨(str% "read"), [some .i64, some .i64], none, 2, (.cons (.ifs (.bin .gt (.bin .add (.var 0) (.var 1)) (.field .cap)) (.cons (.panic (str% "BufferOverreadError")) .nil) .nil) (.cons (.ifs (.bin .lt (.var 0) (.lit 0)) (.cons (.panic (str% "BufferUnderreadError")) .nil) .nil) (.cons .lock (.cons .deferUnlock (.cons (.ret (.slice .buf (.var 0) (.bin .add (.var 0) (.var 1)))) .nil)))))⟩

/-- v2/buffer.go:580-617 -/
def text_readU16LE : List Str := [
  str% "",
  str% "// readU16LE reads a slice of uint16s from the buffer at the specified offset in little-endian",
  str% "func (b *Buffer) readU16LE(off, n int64) (out []uint16) {",
  str% "",
  str% "\tif (off + n*2) > b.cap {",
  str% "",
  str% "\t\tpanic(BufferOverreadError)",
  str% "",
  str% "\t}",
  str% "",
  str% "\tif off < 0x00 {",
  str% "",
  str% "\t\tpanic(BufferUnderreadError)",
  str% "",
  str% "\t}",
  str% "",
  str% "\tout = make([]uint16, n)",
  str% "",
  str% "\tb.Lock()",
  str% "\tdefer b.Unlock()",
  str% "",
  str% "\ti := int64(0)",
  str% "\t{",
  str% "\tread_loop:",
  str% "\t\tout[i] = uint16(b.buf[off+(i*2)]) |",
  str% "\t\t\tuint16(b.buf[off+(1+(i*2))])<<8",
  str% "",
  str% "\t\ti++",
  str% "\t\tif i < n {",
  str% "",
  str% "\t\t\tgoto read_loop",
  str% "",
  str% "\t\t}",
  str% "\t}",
  str% "",
  str% "\treturn",
  str% "",
  str% "}"]

/-- v2/buffer.go:580-617 -/
def fun_readU16LE : Fun := ⟨(str% "readU16LE"), [some .i64, some .i64], none, 4, (.cons (.ifs (.bin .gt (.bin .add (.var 0) (.bin .mul (.var 1) (.lit 2))) (.field .cap)) (.cons (.panic (str% "BufferOverreadError")) .nil) .nil) (.cons (.ifs (.bin .lt (.var 0) (.lit 0)) (.cons (.panic (str% "BufferUnderreadError")) .nil) .nil) (.cons (.set 2 (.makeT .u16 (.var 1))) (.cons .lock (.cons .deferUnlock (.cons (.set 3 (.conv .i64 (.lit 0))) (.cons (.block (str% "read_loop") (.cons (.setAt 2 (.var 3) (.bin .or (.conv .u16 (.index .buf (.bin .add (.var 0) (.bin .mul (.var 3) (.lit 2))))) (.bin .shl (.conv .u16 (.index .buf (.bin .add (.var 0) (.bin .add (.lit 1) (.bin .mul (.var 3) (.lit 2)))))) (.lit 8)))) (.cons (.set 3 (.bin .add (.var 3) (.lit 1))) (.cons (.ifs (.bin .lt (.var 3) (.var 1)) (.cons (.goto (str% "read_loop")) .nil) .nil) .nil)))) (.cons (.ret (.var 2)) .nil))))))))⟩

/-- v2/buffer.go:618-655 -/
def text_readU16BE : List Str := [
  str% "",
  str% "// readU16BE reads a slice of uint16s from the buffer at the specified offset in big-endian",
  str% "func (b *Buffer) readU16BE(off, n int64) (out []uint16) {",
  str% "",
  str% "\tif (off + n*2) > b.cap {",
  str% "",
  str% "\t\tpanic(BufferOverreadError)",
  str% "",
  str% "\t}",
  str% "",
  str% "\tif off < 0x00 {",
  str% "",
  str% "\t\tpanic(BufferUnderreadError)",
  str% "",
  str% "\t}",
  str% "",
  str% "\tout = make([]uint16, n)",
  str% "",
  str% "\tb.Lock()",
  str% "\tdefer b.Unlock()",
  str% "",
  str% "\ti := int64(0)",
  str% "\t{",
  str% "\tread_loop:",
  str% "\t\tout[i] = uint16(b.buf[off+(1+(i*2))]) |",
  str% "\t\t\tuint16(b.buf[off+(i*2)])<<8",
  str% "",
  str% "\t\ti++",
  str% "\t\tif i < n {",
  str% "",
  str% "\t\t\tgoto read_loop",
  str% "",
  str% "\t\t}",
  str% "\t}",
  str% "",
  str% "\treturn",
  str% "",
  str% "}"]

/-- v2/buffer.go:618-655 -/
def fun_readU16BE : Fun := ⟨(str% "readU16BE"), [some .i64, some .i64], none, 4, (.cons (.ifs (.bin .gt (.bin .add (.var 0) (.bin .mul (.var 1) (.lit 2))) (.field .cap)) (.cons (.panic (str% "BufferOverreadError")) .nil) .nil) (.cons (.ifs (.bin .lt (.var 0) (.lit 0)) (.cons (.panic (str% "BufferUnderreadError")) .nil) .nil) (.cons (.set 2 (.makeT .u16 (.var 1))) (.cons .lock (.cons .deferUnlock (.cons (.set 3 (.conv .i64 (.lit 0))) (.cons (.block (str% "read_loop") (.cons (.setAt 2 (.var 3) (.bin .or (.conv .u16 (.index .buf (.bin .add (.var 0) (.bin .add (.lit 1) (.bin .mul (.var 3) (.lit 2)))))) (.bin .shl (.conv .u16 (.index .buf (.bin .add (.var 0) (.bin .mul (.var 3) (.lit 2))))) (.lit 8)))) (.cons (.set 3 (.bin .add (.var 3) (.lit 1))) (.cons (.ifs (.bin .lt (.var 3) (.var 1)) (.cons (.goto (str% "read_loop")) .nil) .nil) .nil)))) (.cons (.ret (.var 2)) .nil))))))))⟩

/-- v2/buffer.go:656-695 -/
def text_readU32LE : List Str := [
  str% "",
  str% "// readU32LE reads a slice of uint32s from the buffer at the specified offset in little-endian",
  str% "func (b *Buffer) readU32LE(off, n int64) (out []uint32) {",
  str% "",
  str% "\tif (off + n*4) > b.cap {",
  str% "",
  str% "\t\tpanic(BufferOverreadError)",
  str% "",
  str% "\t}",
  str% "",
  str% "\tif off < 0x00 {",
  str% "",
  str% "\t\tpanic(BufferUnderreadError)",
  str% "",
  str% "\t}",
  str% "",
  str% "\tout = make([]uint32, n)",
  str% "",
  str% "\tb.Lock()",
  str% "\tdefer b.Unlock()",
  str% "",
  str% "\ti := int64(0)",
  str% "\t{",
  str% "\tread_loop:",
  str% "\t\tout[i] = uint32(b.buf[off+(i*4)]) |",
  str% "\t\t\tuint32(b.buf[off+(1+(i*4))])<<8 |",
  str% "\t\t\tuint32(b.buf[off+(2+(i*4))])<<16 |",
  str% "\t\t\tuint32(b.buf[off+(3+(i*4))])<<24",
  str% "",
  str% "\t\ti++",
  str% "\t\tif i < n {",
  str% "",
  str% "\t\t\tgoto read_loop",
  str% "",
  str% "\t\t}",
  str% "\t}",
  str% "",
  str% "\treturn",
  str% "",
  str% "}"]

/-- v2/buffer.go:656-695 -/
def fun_readU32LE : Fun := ⟨(str% "readU32LE"), [some .i64, some .i64], none, 4, (.cons (.ifs (.bin .gt (.bin .add (.var 0) (.bin .mul (.var 1) (.lit 4))) (.field .cap)) (.cons (.panic (str% "BufferOverreadError")) .nil) .nil) (.cons (.ifs (.bin .lt (.var 0) (.lit 0)) (.cons (.panic (str% "BufferUnderreadError")) .nil) .nil) (.cons (.set 2 (.makeT .u32 (.var 1))) (.cons .lock (.cons .deferUnlock (.cons (.set 3 (.conv .i64 (.lit 0))) (.cons (.block (str% "read_loop") (.cons (.setAt 2 (.var 3) (.bin .or (.bin .or (.bin .or (.conv .u32 (.index .buf (.bin .add (.var 0) (.bin .mul (.var 3) (.lit 4))))) (.bin .shl (.conv .u32 (.index .buf (.bin .add (.var 0) (.bin .add (.lit 1) (.bin .mul (.var 3) (.lit 4)))))) (.lit 8))) (.bin .shl (.conv .u32 (.index .buf (.bin .add (.var 0) (.bin .add (.lit 2) (.bin .mul (.var 3) (.lit 4)))))) (.lit 16))) (.bin .shl (.conv .u32 (.index .buf (.bin .add (.var 0) (.bin .add (.lit 3) (.bin .mul (.var 3) (.lit 4)))))) (.lit 24)))) (.cons (.set 3 (.bin .add (.var 3) (.lit 1))) (.cons (.ifs (.bin .lt (.var 3) (.var 1)) (.cons (.goto (str% "read_loop")) .nil) .nil) .nil)))) (.cons (.ret (.var 2)) .nil))))))))⟩

/-- v2/buffer.go:696-735 -/
def text_readU32BE : List Str := [
  str% "",
  str% "// readU32BE reads a slice of uint32s from the buffer at the specified offset in big-endian",
  str% "func (b *Buffer) readU32BE(off, n int64) (out []uint32) {",
  str% "",
  str% "\tif (off + n*4) > b.cap {",
  str% "",
  str% "\t\tpanic(BufferOverreadError)",
  str% "",
  str% "\t}",
  str% "",
  str% "\tif off < 0x00 {",
  str% "",
  str% "\t\tpanic(BufferUnderreadError)",
  str% "",
  str% "\t}",
  str% "",
  str% "\tout = make([]uint32, n)",
  str% "",
  str% "\tb.Lock()",
  str% "\tdefer b.Unlock()",
  str% "",
  str% "\ti := int64(0)",
  str% "\t{",
  str% "\tread_loop:",
  str% "\t\tout[i] = uint32(b.buf[off+(3+(i*4))]) |",
  str% "\t\t\tuint32(b.buf[off+(2+(i*4))])<<8 |",
  str% "\t\t\tuint32(b.buf[off+(1+(i*4))])<<16 |",
  str% "\t\t\tuint32(b.buf[off+(i*4)])<<24",
  str% "",
  str% "\t\ti++",
  str% "\t\tif i < n {",
  str% "",
  str% "\t\t\tgoto read_loop",
  str% "",
  str% "\t\t}",
  str% "\t}",
  str% "",
  str% "\treturn",
  str% "",
  str% "}"]

/-- v2/buffer.go:696-735 -/
def fun_readU32BE : Fun := ⟨(str% "readU32BE"), [some .i64, some .i64], none, 4, (.cons (.ifs (.bin .gt (.bin .add (.var 0) (.bin .mul (.var 1) (.lit 4))) (.field .cap)) (.cons (.panic (str% "BufferOverreadError")) .nil) .nil) (.cons (.ifs (.bin .lt (.var 0) (.lit 0)) (.cons (.panic (str% "BufferUnderreadError")) .nil) .nil) (.cons (.set 2 (.makeT .u32 (.var 1))) (.cons .lock (.cons .deferUnlock (.cons (.set 3 (.conv .i64 (.lit 0))) (.cons (.block (str% "read_loop") (.cons (.setAt 2 (.var 3) (.bin .or (.bin .or (.bin .or (.conv .u32 (.index .buf (.bin .add (.var 0) (.bin .add (.lit 3) (.bin .mul (.var 3) (.lit 4)))))) (.bin .shl (.conv .u32 (.index .buf (.bin .add (.var 0) (.bin .add (.lit 2) (.bin .mul (.var 3) (.lit 4)))))) (.lit 8))) (.bin .shl (.conv .u32 (.index .buf (.bin .add (.var 0) (.bin .add (.lit 1) (.bin .mul (.var 3) (.lit 4)))))) (.lit 16))) (.bin .shl (.conv .u32 (.index .buf (.bin .add (.var 0) (.bin .mul (.var 3) (.lit 4))))) (.lit 24)))) (.cons (.set 3 (.bin .add (.var 3) (.lit 1))) (.cons (.ifs (.bin .lt (.var 3) (.var 1)) (.cons (.goto (str% "read_loop")) .nil) .nil) .nil)))) (.cons (.ret (.var 2)) .nil))))))))⟩

/-- v2/buffer.go:736-779 -/
def text_readU64LE : List Str := [
  str% "",
  str% "// readU64LE reads a slice of uint64s from the buffer at the specified offset in little-endian",
  str% "func (b *Buffer) readU64LE(off, n int64) (out []uint64) {",
  str% "",
  str% "\tif (off + n*8) > b.cap {",
  str% "",
  str% "\t\tpanic(BufferOverreadError)",
  str% "",
  str% "\t}",
  str% "",
  str% "\tif off < 0x00 {",
  str% "",
  str% "\t\tpanic(BufferUnderreadError)",
  str% "",
  str% "\t}",
  str% "",
  str% "\tout = make([]uint64, n)",
  str% "",
  str% "\tb.Lock()",
  str% "\tdefer b.Unlock()",
  str% "",
  str% "\ti := int64(0)",
  str% "\t{",
  str% "\tread_loop:",
  str% "\t\tout[i] = uint64(b.buf[off+(i*8)]) |",
  str% "\t\t\tuint64(b.buf[off+(1+(i*8))])<<8 |",
  str% "\t\t\tuint64(b.buf[off+(2+(i*8))])<<16 |",
  str% "\t\t\tuint64(b.buf[off+(3+(i*8))])<<24 |",
  str% "\t\t\tuint64(b.buf[off+(4+(i*8))])<<32 |",
  str% "\t\t\tuint64(b.buf[off+(5+(i*8))])<<40 |",
  str% "\t\t\tuint64(b.buf[off+(6+(i*8))])<<48 |",
  str% "\t\t\tuint64(b.buf[off+(7+(i*8))])<<56",
  str% "",
  str% "\t\ti++",
  str% "\t\tif i < n {",
  str% "",
  str% "\t\t\tgoto read_loop",
  str% "",
  str% "\t\t}",
  str% "\t}",
  str% "",
  str% "\treturn",
  str% "",
  str% "}"]

/-- v2/buffer.go:736-779 -/
def fun_readU64LE : Fun := ⟨(str% "readU64LE"), [some .i64, some .i64], none, 4, (.cons (.ifs (.bin .gt (.bin .add (.var 0) (.bin .mul (.var 1) (.lit 8))) (.field .cap)) (.cons (.panic (str% "BufferOverreadError")) .nil) .nil) (.cons (.ifs (.bin .lt (.var 0) (.lit 0)) (.cons (.panic (str% "BufferUnderreadError")) .nil) .nil) (.cons (.set 2 (.makeT .u64 (.var 1))) (.cons .lock (.cons .deferUnlock (.cons (.set 3 (.conv .i64 (.lit 0))) (.cons (.block (str% "read_loop") (.cons (.setAt 2 (.var 3) (.bin .or (.bin .or (.bin .or (.bin .or (.bin .or (.bin .or (.bin .or (.conv .u64 (.index .buf (.bin .add (.var 0) (.bin .mul (.var 3) (.lit 8))))) (.bin .shl (.conv .u64 (.index .buf (.bin .add (.var 0) (.bin .add (.lit 1) (.bin .mul (.var 3) (.lit 8)))))) (.lit 8))) (.bin .shl (.conv .u64 (.index .buf (.bin .add (.var 0) (.bin .add (.lit 2) (.bin .mul (.var 3) (.lit 8)))))) (.lit 16))) (.bin .shl (.conv .u64 (.index .buf (.bin .add (.var 0) (.bin .add (.lit 3) (.bin .mul (.var 3) (.lit 8)))))) (.lit 24))) (.bin .shl (.conv .u64 (.index .buf (.bin .add (.var 0) (.bin .add (.lit 4) (.bin .mul (.var 3) (.lit 8)))))) (.lit 32))) (.bin .shl (.conv .u64 (.index .buf (.bin .add (.var 0) (.bin .add (.lit 5) (.bin .mul (.var 3) (.lit 8)))))) (.lit 40))) (.bin .shl (.conv .u64 (.index .buf (.bin .add (.var 0) (.bin .add (.lit 6) (.bin .mul (.var 3) (.lit 8)))))) (.lit 48))) (.bin .shl (.conv .u64 (.index .buf (.bin .add (.var 0) (.bin .add (.lit 7) (.bin .mul (.var 3) (.lit 8)))))) (.lit 56)))) (.cons (.set 3 (.bin .add (.var 3) (.lit 1))) (.cons (.ifs (.bin .lt (.var 3) (.var 1)) (.cons (.goto (str% "read_loop")) .nil) .nil) .nil)))) (.cons (.ret (.var 2)) .nil))))))))⟩

/-- v2/buffer.go:780-822 -/
def text_readU64BE : List Str := [
  str% "",
  str% "// readU64BE reads a slice of uint64s from the buffer at the specified offset in big-endian",
  str% "func (b *Buffer) readU64BE(off, n int64) (out []uint64) {",
  str% "",
  str% "\tif (off + n*8) > b.cap {",
  str% "",
  str% "\t\tpanic(BufferOverreadError)",
  str% "",
  str% "\t}",
  str% "",
  str% "\tif off < 0x00 {",
  str% "",
  str% "\t\tpanic(BufferUnderreadError)",
  str% "",
  str% "\t}",
  str% "",
  str% "\tout = make([]uint64, n)",
  str% "",
  str% "\tb.Lock()",
  str% "\tdefer b.Unlock()",
  str% "\ti := int64(0)",
  str% "\t{",
  str% "\tread_loop:",
  str% "\t\tout[i] = uint64(b.buf[off+(7+(i*8))]) |",
  str% "\t\t\tuint64(b.buf[off+(6+(i*8))])<<8 |",
  str% "\t\t\tuint64(b.buf[off+(5+(i*8))])<<16 |",
  str% "\t\t\tuint64(b.buf[off+(4+(i*8))])<<24 |",
  str% "\t\t\tuint64(b.buf[off+(3+(i*8))])<<32 |",
  str% "\t\t\tuint64(b.buf[off+(2+(i*8))])<<40 |",
  str% "\t\t\tuint64(b.buf[off+(1+(i*8))])<<48 |",
  str% "\t\t\tuint64(b.buf[off+(i*8)])<<56",
  str% "",
  str% "\t\ti++",
  str% "\t\tif i < n {",
  str% "",
  str% "\t\t\tgoto read_loop",
  str% "",
  str% "\t\t}",
  str% "\t}",
  str% "",
  str% "\treturn",
  str% "",
  str% "}"]

/-- v2/buffer.go:780-822 -/
def fun_readU64BE : Fun := ⟨(str% "readU64BE"), [some .i64, some .i64], none, 4, (.cons (.ifs (.bin .gt (.bin .add (.var 0) (.bin .mul (.var 1) (.lit 8))) (.field .cap)) (.cons (.panic (str% "BufferOverreadError")) .nil) .nil) (.cons (.ifs (.bin .lt (.var 0) (.lit 0)) (.cons (.panic (str% "BufferUnderreadError")) .nil) .nil) (.cons (.set 2 (.makeT .u64 (.var 1))) (.cons .lock (.cons .deferUnlock (.cons (.set 3 (.conv .i64 (.lit 0))) (.cons (.block (str% "read_loop") (.cons (.setAt 2 (.var 3) (.bin .or (.bin .or (.bin .or (.bin .or (.bin .or (.bin .or (.bin .or (.conv .u64 (.index .buf (.bin .add (.var 0) (.bin .add (.lit 7) (.bin .mul (.var 3) (.lit 8)))))) (.bin .shl (.conv .u64 (.index .buf (.bin .add (.var 0) (.bin .add (.lit 6) (.bin .mul (.var 3) (.lit 8)))))) (.lit 8))) (.bin .shl (.conv .u64 (.index .buf (.bin .add (.var 0) (.bin .add (.lit 5) (.bin .mul (.var 3) (.lit 8)))))) (.lit 16))) (.bin .shl (.conv .u64 (.index .buf (.bin .add (.var 0) (.bin .add (.lit 4) (.bin .mul (.var 3) (.lit 8)))))) (.lit 24))) (.bin .shl (.conv .u64 (.index .buf (.bin .add (.var 0) (.bin .add (.lit 3) (.bin .mul (.var 3) (.lit 8)))))) (.lit 32))) (.bin .shl (.conv .u64 (.index .buf (.bin .add (.var 0) (.bin .add (.lit 2) (.bin .mul (.var 3) (.lit 8)))))) (.lit 40))) (.bin .shl (.conv .u64 (.index .buf (.bin .add (.var 0) (.bin .add (.lit 1) (.bin .mul (.var 3) (.lit 8)))))) (.lit 48))) (.bin .shl (.conv .u64 (.index .buf (.bin .add (.var 0) (.bin .mul (.var 3) (.lit 8))))) (.lit 56)))) (.cons (.set 3 (.bin .add (.var 3) (.lit 1))) (.cons (.ifs (.bin .lt (.var 3) (.var 1)) (.cons (.goto (str% "read_loop")) .nil) .nil) .nil)))) (.cons (.ret (.var 2)) .nil))))))))⟩

/-- v2/buffer.go:823-840 -/
def text_seek : List Str := [
  str% "",
  str% "// seek seeks to position off of the byte buffer relative to the current position or exact",
  str% "func (b *Buffer) seek(off int64, relative bool) {",
  str% "",
  str% "\tb.Lock()",
  str% "\tdefer b.Unlock()",
  str% "",
  str% "\tif relative {",
  str% "",
  str% "\t\tb.off += off",
  str% "",
  str% "\t} else {",
  str% "",
  str% "\t\tb.off = off",
  str% "",
  str% "\t}",
  str% "",
  str% "}"]

/-- v2/buffer.go:823-840 -/
def fun_seek : Fun := ⟨(str% "seek"), [some .i64, none], none, 2, (.cons .lock (.cons .deferUnlock (.cons (.ifs (.var 1) (.cons (.setField .off (.bin .add (.field .off) (.var 0))) .nil) (.cons (.setField .off (.var 0)) .nil)) .nil)))⟩

/-- v2/buffer.go:841-852 -/
def text_after : List Str := [
  str% "",
  str% "// after returns the amount of bytes located after the current position or the specified one",
  str% "func (b *Buffer) after(off ...int64) int64 {",
  str% "",
  str% "\tif len(off) == 0 {",
  str% "",
  str% "\t\treturn b.cap - b.off - 1",
  str% "",
  str% "\t}",
  str% "\treturn b.cap - off[0] - 1",
  str% "",
  str% "}"]

/-- v2/buffer.go:841-852 -/
def fun_after : Fun := ⟨(str% "after"), [none], some .i64, 1, (.cons (.ifs (.bin .eq (.len (.var 0)) (.lit 0)) (.cons (.ret (.bin .sub (.bin .sub (.field .cap) (.field .off)) (.lit 1))) .nil) .nil) (.cons (.ret (.bin .sub (.bin .sub (.field .cap) (.index (.var 0) (.lit 0))) (.lit 1))) .nil))⟩

/-- v2/buffer.go:853-867 -/
def text_grow : List Str := [
  str% "",
  str% "/* generic methods */",
  str% "",
  str% "// grow grows the buffer by n bytes",
  str% "func (b *Buffer) grow(n int64) {",
  str% "",
  str% "\tb.Lock()",
  str% "",
  str% "\tb.buf = append(b.buf, make([]byte, n)...)",
  str% "",
  str% "\tb.Unlock()",
  str% "",
  str% "\tb.refresh()",
  str% "",
  str% "}"]

/-- v2/buffer.go:853-867 -/
def fun_grow : Fun := ⟨(str% "grow"), [some .i64], none, 1, (.cons .lock (.cons (.setBuf (.append .buf (.make (.var 0)))) (.cons .unlock (.cons (.expr (.call (str% "refresh") .nil)) .nil))))⟩

/-- v2/buffer.go:868-878 -/
def text_refresh : List Str := [
  str% "",
  str% "// refresh updates the internal statistics of the byte buffer forcefully",
  str% "func (b *Buffer) refresh() {",
  str% "",
  str% "\tb.Lock()",
  str% "\tdefer b.Unlock()",
  str% "",
  str% "\tb.cap = int64(len(b.buf))",
  str% "\tb.bcap = b.cap * 8",
  str% "",
  str% "}"]

/-- v2/buffer.go:868-878 -/
def fun_refresh : Fun := ⟨(str% "refresh"), [], none, 0, (.cons .lock (.cons .deferUnlock (.cons (.setField .cap (.conv .i64 (.len .buf))) (.cons (.setField .bcap (.bin .mul (.field .cap) (.lit 8))) .nil))))⟩

/-- v2/buffer.go:879-888 -/
def text_alignbit : List Str := [
  str% "",
  str% "// alignbit aligns the bit offset to the byte offset",
  str% "func (b *Buffer) alignbit() {",
  str% "",
  str% "\tb.Lock()",
  str% "\tdefer b.Unlock()",
  str% "",
  str% "\tb.boff = b.off * 8",
  str% "",
  str% "}"]

/-- v2/buffer.go:879-888 -/
def fun_alignbit : Fun := ⟨(str% "alignbit"), [], none, 0, (.cons .lock (.cons .deferUnlock (.cons (.setField .boff (.bin .mul (.field .off) (.lit 8))) .nil)))⟩

/-- v2/buffer.go:889-898 -/
def text_alignbyte : List Str := [
  str% "",
  str% "// alignbyte aligns the byte offset to the bit offset",
  str% "func (b *Buffer) alignbyte() {",
  str% "",
  str% "\tb.Lock()",
  str% "\tdefer b.Unlock()",
  str% "",
  str% "\tb.off = b.boff / 8",
  str% "",
  str% "}"]

/-- v2/buffer.go:889-898 -/
def fun_alignbyte : Fun := ⟨(str% "alignbyte"), [], none, 0, (.cons .lock (.cons .deferUnlock (.cons (.setField .off (.bin .div (.field .boff) (.lit 8))) .nil)))⟩

/-- v2/buffer.go:899-912 -/
def text_reset : List Str := [
  str% "",
  str% "// reset resets the buffer",
  str% "func (b *Buffer) reset() {",
  str% "",
  str% "\tb.Lock()",
  str% "\tdefer b.Unlock()",
  str% "",
  str% "\tb.buf = []byte{}",
  str% "\tb.off = 0x00",
  str% "\tb.boff = 0x00",
  str% "\tb.cap = 0",
  str% "\tb.bcap = 0",
  str% "",
  str% "}"]

/-- v2/buffer.go:899-912 -/
def fun_reset : Fun := ⟨(str% "reset"), [], none, 0, (.cons .lock (.cons .deferUnlock (.cons (.setBuf (.bytes .nil)) (.cons (.setField .off (.lit 0)) (.cons (.setField .boff (.lit 0)) (.cons (.setField .cap (.lit 0)) (.cons (.setField .bcap (.lit 0)) .nil)))))))⟩

/-- v2/buffer.go:913-921 -/
def text_Bytes : List Str := [
  str% "",
  str% "/* public methods */",
  str% "",
  str% "// Bytes returns the internal byte slice of the buffer",
  str% "func (b *Buffer) Bytes() []byte {",
  str% "",
  str% "\treturn b.buf",
  str% "",
  str% "}"]

/-- v2/buffer.go:913-921 -/
def fun_Bytes : Fun := ⟨(str% "Bytes"), [], none, 0, (.cons (.ret .buf) .nil)⟩

/-- v2/buffer.go:922-928 -/
def text_Capacity : List Str := [
  str% "",
  str% "// Capacity returns the capacity of the buffer",
  str% "func (b *Buffer) Capacity() int64 {",
  str% "",
  str% "\treturn b.cap",
  str% "",
  str% "}"]

/-- v2/buffer.go:922-928 -/
def fun_Capacity : Fun := ⟨(str% "Capacity"), [], some .i64, 0, (.cons (.ret (.field .cap)) .nil)⟩

/-- v2/buffer.go:929-935 -/
def text_BitCapacity : List Str := [
  str% "",
  str% "// BitCapacity returns the bit capacity of the buffer",
  str% "func (b *Buffer) BitCapacity() int64 {",
  str% "",
  str% "\treturn b.bcap",
  str% "",
  str% "}"]

/-- v2/buffer.go:929-935 -/
def fun_BitCapacity : Fun := ⟨(str% "BitCapacity"), [], some .i64, 0, (.cons (.ret (.field .bcap)) .nil)⟩

/-- v2/buffer.go:936-942 -/
def text_Offset : List Str := [
  str% "",
  str% "// Offset returns the current offset of the buffer",
  str% "func (b *Buffer) Offset() int64 {",
  str% "",
  str% "\treturn b.off",
  str% "",
  str% "}"]

/-- v2/buffer.go:936-942 -/
def fun_Offset : Fun := ⟨(str% "Offset"), [], some .i64, 0, (.cons (.ret (.field .off)) .nil)⟩

/-- v2/buffer.go:943-949 -/
def text_BitOffset : List Str := [
  str% "",
  str% "// BitOffset returns the current bit offset of the buffer",
  str% "func (b *Buffer) BitOffset() int64 {",
  str% "",
  str% "\treturn b.boff",
  str% "",
  str% "}"]

/-- v2/buffer.go:943-949 -/
def fun_BitOffset : Fun := ⟨(str% "BitOffset"), [], some .i64, 0, (.cons (.ret (.field .boff)) .nil)⟩

/-- v2/buffer.go:950-956 -/
def text_Refresh : List Str := [
  str% "",
  str% "// Refresh updates the cached internal statistics of the buffer forcefully",
  str% "func (b *Buffer) Refresh() {",
  str% "",
  str% "\tb.refresh()",
  str% "",
  str% "}"]

/-- v2/buffer.go:950-956 -/
def fun_Refresh : Fun := ⟨(str% "Refresh"), [], none, 0, (.cons (.expr (.call (str% "refresh") .nil)) .nil)⟩

/-- v2/buffer.go:957-963 -/
def text_Reset : List Str := [
  str% "",
  str% "// Reset resets the entire buffer",
  str% "func (b *Buffer) Reset() {",
  str% "",
  str% "\tb.reset()",
  str% "",
  str% "}"]

/-- v2/buffer.go:957-963 -/
def fun_Reset : Fun := ⟨(str% "Reset"), [], none, 0, (.cons (.expr (.call (str% "reset") .nil)) .nil)⟩

/-- v2/buffer.go:964-970 -/
def text_Grow : List Str := [
  str% "",
  str% "// Grow makes the buffer's capacity bigger by n bytes",
  str% "func (b *Buffer) Grow(n int64) {",
  str% "",
  str% "\tb.grow(n)",
  str% "",
  str% "}"]

/-- v2/buffer.go:964-970 -/
def fun_Grow : Fun := ⟨(str% "Grow"), [some .i64], none, 1, (.cons (.expr (.call (str% "grow") (.cons (.var 0) .nil))) .nil)⟩

/-- v2/buffer.go:971-977 -/
def text_Seek : List Str := [
  str% "",
  str% "// Seek seeks to position off of the buffer relative to the current position or exact",
  str% "func (b *Buffer) Seek(off int64, relative bool) {",
  str% "",
  str% "\tb.seek(off, relative)",
  str% "",
  str% "}"]

/-- v2/buffer.go:971-977 -/
def fun_Seek : Fun := ⟨(str% "Seek"), [some .i64, none], none, 2, (.cons (.expr (.call (str% "seek") (.cons (.var 0) (.cons (.var 1) .nil)))) .nil)⟩

/-- v2/buffer.go:978-984 -/
def text_SeekBit : List Str := [
  str% "",
  str% "// SeekBit seeks to bit position off of the the buffer relative to the current position or exact",
  str% "func (b *Buffer) SeekBit(off int64, relative bool) {",
  str% "",
  str% "\tb.seekbit(off, relative)",
  str% "",
  str% "}"]

/-- v2/buffer.go:978-984 -/
def fun_SeekBit : Fun := ⟨(str% "SeekBit"), [some .i64, none], none, 2, (.cons (.expr (.call (str% "seekbit") (.cons (.var 0) (.cons (.var 1) .nil)))) .nil)⟩

/-- v2/buffer.go:985-991 -/
def text_AlignBit : List Str := [
  str% "",
  str% "// AlignBit aligns the bit offset to the byte offset",
  str% "func (b *Buffer) AlignBit() {",
  str% "",
  str% "\tb.alignbit()",
  str% "",
  str% "}"]

/-- v2/buffer.go:985-991 -/
def fun_AlignBit : Fun := ⟨(str% "AlignBit"), [], none, 0, (.cons (.expr (.call (str% "alignbit") .nil)) .nil)⟩

/-- v2/buffer.go:992-998 -/
def text_AlignByte : List Str := [
  str% "",
  str% "// AlignByte aligns the byte offset to the bit offset",
  str% "func (b *Buffer) AlignByte() {",
  str% "",
  str% "\tb.alignbyte()",
  str% "",
  str% "}"]

/-- v2/buffer.go:992-998 -/
def fun_AlignByte : Fun := ⟨(str% "AlignByte"), [], none, 0, (.cons (.expr (.call (str% "alignbyte") .nil)) .nil)⟩

/-- v2/buffer.go:999-1005 -/
def text_After : List Str := [
  str% "",
  str% "// After returns the amount of bytes located after the current position or the specified one",
  str% "func (b *Buffer) After(off ...int64) int64 {",
  str% "",
  str% "\treturn b.after(off...)",
  str% "",
  str% "}"]

/-- v2/buffer.go:999-1005 -/
def fun_After : Fun := ⟨(str% "After"), [none], some .i64, 1, (.cons (.ret (.call (str% "after") (.cons (.var 0) .nil))) .nil)⟩

/-- v2/buffer.go:1006-1012 -/
def text_AfterBit : List Str := [
  str% "",
  str% "// AfterBit returns the amount of bits located after the current bit position or the specified one",
  str% "func (b *Buffer) AfterBit(off ...int64) int64 {",
  str% "",
  str% "\treturn b.afterbit(off...)",
  str% "",
  str% "}"]

/-- v2/buffer.go:1006-1012 -/
def fun_AfterBit : Fun := ⟨(str% "AfterBit"), [none], some .i64, 1, (.cons (.ret (.call (str% "afterbit") (.cons (.var 0) .nil))) .nil)⟩

/-- v2/buffer.go:1013-1019 -/
def text_ReadByte : List Str := [
  str% "",
  str% "// ReadByte returns the next byte from the specified offset without modifying the internal offset value",
  str% "func (b *Buffer) ReadByte(off int64) byte {",
  str% "",
  str% "\treturn b.read(off, 1)[0]",
  str% "",
  str% "}"]

/-- v2/buffer.go:1013-1019 -/
def fun_ReadByte : Fun := ⟨(str% "ReadByte"), [some .i64], some .u8, 1, (.cons (.ret (.index (.call (str% "read") (.cons (.var 0) (.cons (.lit 1) .nil))) (.lit 0))) .nil)⟩

/-- v2/buffer.go:1020-1026 -/
def text_ReadBytes : List Str := [
  str% "",
  str% "// ReadBytes returns the next n bytes from the specified offset without modifying the internal offset value",
  str% "func (b *Buffer) ReadBytes(off, n int64) []byte {",
  str% "",
  str% "\treturn b.read(off, n)",
  str% "",
  str% "}"]

/-- v2/buffer.go:1020-1026 -/
def fun_ReadBytes : Fun := ⟨(str% "ReadBytes"), [some .i64, some .i64], none, 2, (.cons (.ret (.call (str% "read") (.cons (.var 0) (.cons (.var 1) .nil)))) .nil)⟩

/-- v2/buffer.go:1027-1033 -/
def text_ReadU16LE : List Str := [
  str% "",
  str% "// ReadU16LE reads a slice of uint16s from the buffer at the specified offset in little-endian without modifying the internal offset value",
  str% "func (b *Buffer) ReadU16LE(off, n int64) []uint16 {",
  str% "",
  str% "\treturn b.readU16LE(off, n)",
  str% "",
  str% "}"]

/-- v2/buffer.go:1027-1033 -/
def fun_ReadU16LE : Fun := ⟨(str% "ReadU16LE"), [some .i64, some .i64], none, 2, (.cons (.ret (.call (str% "readU16LE") (.cons (.var 0) (.cons (.var 1) .nil)))) .nil)⟩

/-- v2/buffer.go:1034-1040 -/
def text_ReadU16BE : List Str := [
  str% "",
  str% "// ReadU16BE reads a slice of uint16s from the buffer at the specified offset in big-endian without modifying the internal offset value",
  str% "func (b *Buffer) ReadU16BE(off, n int64) []uint16 {",
  str% "",
  str% "\treturn b.readU16BE(off, n)",
  str% "",
  str% "}"]

/-- v2/buffer.go:1034-1040 -/
def fun_ReadU16BE : Fun := ⟨(str% "ReadU16BE"), [some .i64, some .i64], none, 2, (.cons (.ret (.call (str% "readU16BE") (.cons (.var 0) (.cons (.var 1) .nil)))) .nil)⟩

/-- v2/buffer.go:1041-1047 -/
def text_ReadU32LE : List Str := [
  str% "",
  str% "// ReadU32LE reads a slice of uint32s from the buffer at the specified offset in little-endian without modifying the internal offset value",
  str% "func (b *Buffer) ReadU32LE(off, n int64) []uint32 {",
  str% "",
  str% "\treturn b.readU32LE(off, n)",
  str% "",
  str% "}"]

/-- v2/buffer.go:1041-1047 -/
def fun_ReadU32LE : Fun := ⟨(str% "ReadU32LE"), [some .i64, some .i64], none, 2, (.cons (.ret (.call (str% "readU32LE") (.cons (.var 0) (.cons (.var 1) .nil)))) .nil)⟩

/-- v2/buffer.go:1048-1054 -/
def text_ReadU32BE : List Str := [
  str% "",
  str% "// ReadU32BE reads a slice of uint32s from the buffer at the specified offset in big-endian without modifying the internal offset value",
  str% "func (b *Buffer) ReadU32BE(off, n int64) []uint32 {",
  str% "",
  str% "\treturn b.readU32BE(off, n)",
  str% "",
  str% "}"]

/-- v2/buffer.go:1048-1054 -/
def fun_ReadU32BE : Fun := ⟨(str% "ReadU32BE"), [some .i64, some .i64], none, 2, (.cons (.ret (.call (str% "readU32BE") (.cons (.var 0) (.cons (.var 1) .nil)))) .nil)⟩

/-- v2/buffer.go:1055-1061 -/
def text_ReadU64LE : List Str := [
  str% "",
  str% "// ReadU64LE reads a slice of uint64s from the buffer at the specified offset in little-endian without modifying the internal offset value",
  str% "func (b *Buffer) ReadU64LE(off, n int64) []uint64 {",
  str% "",
  str% "\treturn b.readU64LE(off, n)",
  str% "",
  str% "}"]

/-- v2/buffer.go:1055-1061 -/
def fun_ReadU64LE : Fun := ⟨(str% "ReadU64LE"), [some .i64, some .i64], none, 2, (.cons (.ret (.call (str% "readU64LE") (.cons (.var 0) (.cons (.var 1) .nil)))) .nil)⟩

/-- v2/buffer.go:1062-1068 -/
def text_ReadU64BE : List Str := [
  str% "",
  str% "// ReadU64BE reads a slice of uint64s from the buffer at the specified offset in big-endian without modifying the internal offset value",
  str% "func (b *Buffer) ReadU64BE(off, n int64) []uint64 {",
  str% "",
  str% "\treturn b.readU64BE(off, n)",
  str% "",
  str% "}"]

/-- v2/buffer.go:1062-1068 -/
def fun_ReadU64BE : Fun := ⟨(str% "ReadU64BE"), [some .i64, some .i64], none, 2, (.cons (.ret (.call (str% "readU64BE") (.cons (.var 0) (.cons (.var 1) .nil)))) .nil)⟩

/-- v2/buffer.go:1069-1077 -/
def text_ReadByteNext : List Str := [
  str% "",
  str% "// ReadByteNext returns the next byte from the current offset and moves the offset forward a byte",
  str% "func (b *Buffer) ReadByteNext() (out byte) {",
  str% "",
  str% "\tout = b.read(b.off, 1)[0]",
  str% "\tb.seek(1, true)",
  str% "\treturn",
  str% "",
  str% "}"]

/-- v2/buffer.go:1069-1077 -/
def fun_ReadByteNext : Fun := ⟨(str% "ReadByteNext"), [], some .u8, 1, (.cons (.zero 0 .u8) (.cons (.set 0 (.index (.call (str% "read") (.cons (.field .off) (.cons (.lit 1) .nil))) (.lit 0))) (.cons (.expr (.call (str% "seek") (.cons (.lit 1) (.cons (.bool true) .nil)))) (.cons (.ret (.var 0)) .nil))))⟩

/-- v2/buffer.go:1078-1086 -/
def text_ReadBytesNext : List Str := [
  str% "",
  str% "// ReadBytesNext returns the next n bytes from the current offset and moves the offset forward the amount of bytes read",
  str% "func (b *Buffer) ReadBytesNext(n int64) (out []byte) {",
  str% "",
  str% "\tout = b.read(b.off, n)",
  str% "\tb.seek(n, true)",
  str% "\treturn",
  str% "",
  str% "}"]

/-- v2/buffer.go:1078-1086 -/
def fun_ReadBytesNext : Fun := ⟨(str% "ReadBytesNext"), [some .i64], none, 2, (.cons (.set 1 (.call (str% "read") (.cons (.field .off) (.cons (.var 0) .nil)))) (.cons (.expr (.call (str% "seek") (.cons (.var 0) (.cons (.bool true) .nil)))) (.cons (.ret (.var 1)) .nil)))⟩

/-- v2/buffer.go:1087-1095 -/
def text_ReadU16LENext : List Str := [
  str% "",
  str% "// ReadU16LENext reads a slice of uint16s from the buffer at the current offset in little-endian and moves the offset forward the amount of bytes read",
  str% "func (b *Buffer) ReadU16LENext(n int64) (out []uint16) {",
  str% "",
  str% "\tout = b.readU16LE(b.off, n)",
  str% "\tb.seek(n*2, true)",
  str% "\treturn",
  str% "",
  str% "}"]

/-- v2/buffer.go:1087-1095 -/
def fun_ReadU16LENext : Fun := ⟨(str% "ReadU16LENext"), [some .i64], none, 2, (.cons (.set 1 (.call (str% "readU16LE") (.cons (.field .off) (.cons (.var 0) .nil)))) (.cons (.expr (.call (str% "seek") (.cons (.bin .mul (.var 0) (.lit 2)) (.cons (.bool true) .nil)))) (.cons (.ret (.var 1)) .nil)))⟩

/-- v2/buffer.go:1096-1104 -/
def text_ReadU16BENext : List Str := [
  str% "",
  str% "// ReadU16BENext reads a slice of uint16s from the buffer at the current offset in big-endian and moves the offset forward the amount of bytes read",
  str% "func (b *Buffer) ReadU16BENext(n int64) (out []uint16) {",
  str% "",
  str% "\tout = b.readU16BE(b.off, n)",
  str% "\tb.seek(n*2, true)",
  str% "\treturn",
  str% "",
  str% "}"]

/-- v2/buffer.go:1096-1104 -/
def fun_ReadU16BENext : Fun := ⟨(str% "ReadU16BENext"), [some .i64], none, 2, (.cons (.set 1 (.call (str% "readU16BE") (.cons (.field .off) (.cons (.var 0) .nil)))) (.cons (.expr (.call (str% "seek") (.cons (.bin .mul (.var 0) (.lit 2)) (.cons (.bool true) .nil)))) (.cons (.ret (.var 1)) .nil)))⟩

/-- v2/buffer.go:1105-1113 -/
def text_ReadU32LENext : List Str := [
  str% "",
  str% "// ReadU32LENext reads a slice of uint32s from the buffer at the current offset in little-endian and moves the offset forward the amount of bytes read",
  str% "func (b *Buffer) ReadU32LENext(n int64) (out []uint32) {",
  str% "",
  str% "\tout = b.readU32LE(b.off, n)",
  str% "\tb.seek(n*4, true)",
  str% "\treturn",
  str% "",
  str% "}"]

/-- v2/buffer.go:1105-1113 -/
def fun_ReadU32LENext : Fun := ⟨(str% "ReadU32LENext"), [some .i64], none, 2, (.cons (.set 1 (.call (str% "readU32LE") (.cons (.field .off) (.cons (.var 0) .nil)))) (.cons (.expr (.call (str% "seek") (.cons (.bin .mul (.var 0) (.lit 4)) (.cons (.bool true) .nil)))) (.cons (.ret (.var 1)) .nil)))⟩

/-- v2/buffer.go:1114-1122 -/
def text_ReadU32BENext : List Str := [
  str% "",
  str% "// ReadU32BENext reads a slice of uint32s from the buffer at the current offset in big-endian and moves the offset forward the amount of bytes read",
  str% "func (b *Buffer) ReadU32BENext(n int64) (out []uint32) {",
  str% "",
  str% "\tout = b.readU32BE(b.off, n)",
  str% "\tb.seek(n*4, true)",
  str% "\treturn",
  str% "",
  str% "}"]

/-- v2/buffer.go:1114-1122 -/
def fun_ReadU32BENext : Fun := ⟨(str% "ReadU32BENext"), [some .i64], none, 2, (.cons (.set 1 (.call (str% "readU32BE") (.cons (.field .off) (.cons (.var 0) .nil)))) (.cons (.expr (.call (str% "seek") (.cons (.bin .mul (.var 0) (.lit 4)) (.cons (.bool true) .nil)))) (.cons (.ret (.var 1)) .nil)))⟩

/-- v2/buffer.go:1123-1131 -/
def text_ReadU64LENext : List Str := [
  str% "",
  str% "// ReadU64LENext reads a slice of uint64s from the buffer at the current offset in little-endian and moves the offset forward the amount of bytes read",
  str% "func (b *Buffer) ReadU64LENext(n int64) (out []uint64) {",
  str% "",
  str% "\tout = b.readU64LE(b.off, n)",
  str% "\tb.seek(n*8, true)",
  str% "\treturn",
  str% "",
  str% "}"]

/-- v2/buffer.go:1123-1131 -/
def fun_ReadU64LENext : Fun := ⟨(str% "ReadU64LENext"), [some .i64], none, 2, (.cons (.set 1 (.call (str% "readU64LE") (.cons (.field .off) (.cons (.var 0) .nil)))) (.cons (.expr (.call (str% "seek") (.cons (.bin .mul (.var 0) (.lit 8)) (.cons (.bool true) .nil)))) (.cons (.ret (.var 1)) .nil)))⟩

/-- v2/buffer.go:1132-1140 -/
def text_ReadU64BENext : List Str := [
  str% "",
  str% "// ReadU64BENext reads a slice of uint64s from the buffer at the current offset in big-endian and moves the offset forward the amount of bytes read",
  str% "func (b *Buffer) ReadU64BENext(n int64) (out []uint64) {",
  str% "",
  str% "\tout = b.readU64BE(b.off, n)",
  str% "\tb.seek(n*8, true)",
  str% "\treturn",
  str% "",
  str% "}"]

/-- v2/buffer.go:1132-1140 -/
def fun_ReadU64BENext : Fun := ⟨(str% "ReadU64BENext"), [some .i64], none, 2, (.cons (.set 1 (.call (str% "readU64BE") (.cons (.field .off) (.cons (.var 0) .nil)))) (.cons (.expr (.call (str% "seek") (.cons (.bin .mul (.var 0) (.lit 8)) (.cons (.bool true) .nil)))) (.cons (.ret (.var 1)) .nil)))⟩

/-- v2/buffer.go:1141-1147 -/
def text_WriteByte : List Str := [
  str% "",
  str% "// WriteByte writes a byte to the buffer at the specified offset without modifying the internal offset value",
  str% "func (b *Buffer) WriteByte(off int64, data byte) {",
  str% "",
  str% "\tb.write(off, []byte{data})",
  str% "",
  str% "}"]

/-- v2/buffer.go:1141-1147 -/
def fun_WriteByte : Fun := ⟨(str% "WriteByte"), [some .i64, some .u8], none, 2, (.cons (.expr (.call (str% "write") (.cons (.var 0) (.cons (.bytes (.cons (.var 1) .nil)) .nil)))) .nil)⟩

/-- v2/buffer.go:1148-1154 -/
def text_WriteBytes : List Str := [
  str% "",
  str% "// WriteBytes writes bytes to the buffer at the specified offset without modifying the internal offset value",
  str% "func (b *Buffer) WriteBytes(off int64, data []byte) {",
  str% "",
  str% "\tb.write(off, data)",
  str% "",
  str% "}"]

/-- v2/buffer.go:1148-1154 -/
def fun_WriteBytes : Fun := ⟨(str% "WriteBytes"), [some .i64, none], none, 2, (.cons (.expr (.call (str% "write") (.cons (.var 0) (.cons (.var 1) .nil)))) .nil)⟩

/-- v2/buffer.go:1155-1161 -/
def text_WriteU16LE : List Str := [
  str% "",
  str% "// WriteU16LE writes a slice of uint16s to the buffer at the specified offset in little-endian without modifying the internal offset value",
  str% "func (b *Buffer) WriteU16LE(off int64, data []uint16) {",
  str% "",
  str% "\tb.writeU16LE(off, data)",
  str% "",
  str% "}"]

/-- v2/buffer.go:1155-1161 -/
def fun_WriteU16LE : Fun := ⟨(str% "WriteU16LE"), [some .i64, none], none, 2, (.cons (.expr (.call (str% "writeU16LE") (.cons (.var 0) (.cons (.var 1) .nil)))) .nil)⟩

/-- v2/buffer.go:1162-1168 -/
def text_WriteU16BE : List Str := [
  str% "",
  str% "// WriteU16BE writes a slice of uint16s to the buffer at the specified offset in big-endian without modifying the internal offset value",
  str% "func (b *Buffer) WriteU16BE(off int64, data []uint16) {",
  str% "",
  str% "\tb.writeU16BE(off, data)",
  str% "",
  str% "}"]

/-- v2/buffer.go:1162-1168 -/
def fun_WriteU16BE : Fun := ⟨(str% "WriteU16BE"), [some .i64, none], none, 2, (.cons (.expr (.call (str% "writeU16BE") (.cons (.var 0) (.cons (.var 1) .nil)))) .nil)⟩

/-- v2/buffer.go:1169-1175 -/
def text_WriteU32LE : List Str := [
  str% "",
  str% "// WriteU32LE writes a slice of uint32s to the buffer at the specified offset in little-endian without modifying the internal offset value",
  str% "func (b *Buffer) WriteU32LE(off int64, data []uint32) {",
  str% "",
  str% "\tb.writeU32LE(off, data)",
  str% "",
  str% "}"]

/-- v2/buffer.go:1169-1175 -/
def fun_WriteU32LE : Fun := ⟨(str% "WriteU32LE"), [some .i64, none], none, 2, (.cons (.expr (.call (str% "writeU32LE") (.cons (.var 0) (.cons (.var 1) .nil)))) .nil)⟩

/-- v2/buffer.go:1176-1182 -/
def text_WriteU32BE : List Str := [
  str% "",
  str% "// WriteU32BE writes a slice of uint32s to the buffer at the specified offset in big-endian without modifying the internal offset value",
  str% "func (b *Buffer) WriteU32BE(off int64, data []uint32) {",
  str% "",
  str% "\tb.writeU32BE(off, data)",
  str% "",
  str% "}"]

/-- v2/buffer.go:1176-1182 -/
def fun_WriteU32BE : Fun := ⟨(str% "WriteU32BE"), [some .i64, none], none, 2, (.cons (.expr (.call (str% "writeU32BE") (.cons (.var 0) (.cons (.var 1) .nil)))) .nil)⟩

/-- v2/buffer.go:1183-1189 -/
def text_WriteU64LE : List Str := [
  str% "",
  str% "// WriteU64LE writes a slice of uint64s to the buffer at the specfied offset in little-endian without modifying the internal offset value",
  str% "func (b *Buffer) WriteU64LE(off int64, data []uint64) {",
  str% "",
  str% "\tb.writeU64LE(off, data)",
  str% "",
  str% "}"]

/-- v2/buffer.go:1183-1189 -/
def fun_WriteU64LE : Fun := ⟨(str% "WriteU64LE"), [some .i64, none], none, 2, (.cons (.expr (.call (str% "writeU64LE") (.cons (.var 0) (.cons (.var 1) .nil)))) .nil)⟩

/-- v2/buffer.go:1190-1196 -/
def text_WriteU64BE : List Str := [
  str% "",
  str% "// WriteU64BE writes a slice of uint64s to the buffer at the specified offset in big-endian without modifying the internal offset value",
  str% "func (b *Buffer) WriteU64BE(off int64, data []uint64) {",
  str% "",
  str% "\tb.writeU64BE(off, data)",
  str% "",
  str% "}"]

/-- v2/buffer.go:1190-1196 -/
def fun_WriteU64BE : Fun := ⟨(str% "WriteU64BE"), [some .i64, none], none, 2, (.cons (.expr (.call (str% "writeU64BE") (.cons (.var 0) (.cons (.var 1) .nil)))) .nil)⟩

/-- v2/buffer.go:1197-1204 -/
def text_WriteByteNext : List Str := [
  str% "",
  str% "// WriteByteNext writes a byte to the buffer at the current offset and moves the offset forward the amount of bytes written",
  str% "func (b *Buffer) WriteByteNext(data byte) {",
  str% "",
  str% "\tb.write(b.off, []byte{data})",
  str% "\tb.seek(1, true)",
  str% "",
  str% "}"]

/-- v2/buffer.go:1197-1204 -/
def fun_WriteByteNext : Fun := ⟨(str% "WriteByteNext"), [some .u8], none, 1, (.cons (.expr (.call (str% "write") (.cons (.field .off) (.cons (.bytes (.cons (.var 0) .nil)) .nil)))) (.cons (.expr (.call (str% "seek") (.cons (.lit 1) (.cons (.bool true) .nil)))) .nil))⟩

/-- v2/buffer.go:1205-1212 -/
def text_WriteBytesNext : List Str := [
  str% "",
  str% "// WriteBytesNext writes bytes to the buffer at the current offset and moves the offset forward the amount of bytes written",
  str% "func (b *Buffer) WriteBytesNext(data []byte) {",
  str% "",
  str% "\tb.write(b.off, data)",
  str% "\tb.seek(int64(len(data)), true)",
  str% "",
  str% "}"]

/-- v2/buffer.go:1205-1212 -/
def fun_WriteBytesNext : Fun := ⟨(str% "WriteBytesNext"), [none], none, 1, (.cons (.expr (.call (str% "write") (.cons (.field .off) (.cons (.var 0) .nil)))) (.cons (.expr (.call (str% "seek") (.cons (.conv .i64 (.len (.var 0))) (.cons (.bool true) .nil)))) .nil))⟩

/-- v2/buffer.go:1213-1220 -/
def text_WriteU16LENext : List Str := [
  str% "",
  str% "// WriteU16LENext writes a slice of uint16s to the buffer at the current offset in little-endian and moves the offset forward the amount of bytes written",
  str% "func (b *Buffer) WriteU16LENext(data []uint16) {",
  str% "",
  str% "\tb.writeU16LE(b.off, data)",
  str% "\tb.seek(int64(len(data))*2, true)",
  str% "",
  str% "}"]

/-- v2/buffer.go:1213-1220 -/
def fun_WriteU16LENext : Fun := ⟨(str% "WriteU16LENext"), [none], none, 1, (.cons (.expr (.call (str% "writeU16LE") (.cons (.field .off) (.cons (.var 0) .nil)))) (.cons (.expr (.call (str% "seek") (.cons (.bin .mul (.conv .i64 (.len (.var 0))) (.lit 2)) (.cons (.bool true) .nil)))) .nil))⟩

/-- v2/buffer.go:1221-1228 -/
def text_WriteU16BENext : List Str := [
  str% "",
  str% "// WriteU16BENext writes a slice of uint16s to the buffer at the current offset in big-endian and moves the offset forward the amount of bytes written",
  str% "func (b *Buffer) WriteU16BENext(data []uint16) {",
  str% "",
  str% "\tb.writeU16BE(b.off, data)",
  str% "\tb.seek(int64(len(data))*2, true)",
  str% "",
  str% "}"]

/-- v2/buffer.go:1221-1228 -/
def fun_WriteU16BENext : Fun := ⟨(str% "WriteU16BENext"), [none], none, 1, (.cons (.expr (.call (str% "writeU16BE") (.cons (.field .off) (.cons (.var 0) .nil)))) (.cons (.expr (.call (str% "seek") (.cons (.bin .mul (.conv .i64 (.len (.var 0))) (.lit 2)) (.cons (.bool true) .nil)))) .nil))⟩

/-- v2/buffer.go:1229-1236 -/
def text_WriteU32LENext : List Str := [
  str% "",
  str% "// WriteU32LENext writes a slice of uint32s to the buffer at the current offset in little-endian and moves the offset forward the amount of bytes written",
  str% "func (b *Buffer) WriteU32LENext(data []uint32) {",
  str% "",
  str% "\tb.writeU32LE(b.off, data)",
  str% "\tb.seek(int64(len(data))*4, true)",
  str% "",
  str% "}"]

/-- v2/buffer.go:1229-1236 -/
def fun_WriteU32LENext : Fun := ⟨(str% "WriteU32LENext"), [none], none, 1, (.cons (.expr (.call (str% "writeU32LE") (.cons (.field .off) (.cons (.var 0) .nil)))) (.cons (.expr (.call (str% "seek") (.cons (.bin .mul (.conv .i64 (.len (.var 0))) (.lit 4)) (.cons (.bool true) .nil)))) .nil))⟩

/-- v2/buffer.go:1237-1244 -/
def text_WriteU32BENext : List Str := [
  str% "",
  str% "// WriteU32BENext writes a slice of uint32s to the buffer at the current offset in big-endian and moves the offset forward the amount of bytes written",
  str% "func (b *Buffer) WriteU32BENext(data []uint32) {",
  str% "",
  str% "\tb.writeU32BE(b.off, data)",
  str% "\tb.seek(int64(len(data))*4, true)",
  str% "",
  str% "}"]

/-- v2/buffer.go:1237-1244 -/
def fun_WriteU32BENext : Fun := ⟨(str% "WriteU32BENext"), [none], none, 1, (.cons (.expr (.call (str% "writeU32BE") (.cons (.field .off) (.cons (.var 0) .nil)))) (.cons (.expr (.call (str% "seek") (.cons (.bin .mul (.conv .i64 (.len (.var 0))) (.lit 4)) (.cons (.bool true) .nil)))) .nil))⟩

/-- v2/buffer.go:1245-1252 -/
def text_WriteU64LENext : List Str := [
  str% "",
  str% "// WriteU64LENext writes a slice of uint64s to the buffer at the current offset in little-endian and moves the offset forward the amount of bytes written",
  str% "func (b *Buffer) WriteU64LENext(data []uint64) {",
  str% "",
  str% "\tb.writeU64LE(b.off, data)",
  str% "\tb.seek(int64(len(data))*8, true)",
  str% "",
  str% "}"]

/-- v2/buffer.go:1245-1252 -/
def fun_WriteU64LENext : Fun := ⟨(str% "WriteU64LENext"), [none], none, 1, (.cons (.expr (.call (str% "writeU64LE") (.cons (.field .off) (.cons (.var 0) .nil)))) (.cons (.expr (.call (str% "seek") (.cons (.bin .mul (.conv .i64 (.len (.var 0))) (.lit 8)) (.cons (.bool true) .nil)))) .nil))⟩

/-- v2/buffer.go:1253-1260 -/
def text_WriteU64BENext : List Str := [
  str% "",
  str% "// WriteU64BENext writes a slice of uint64s to the buffer at the current offset in big-endian and moves the offset forward the amount of bytes written",
  str% "func (b *Buffer) WriteU64BENext(data []uint64) {",
  str% "",
  str% "\tb.writeU64BE(b.off, data)",
  str% "\tb.seek(int64(len(data))*8, true)",
  str% "",
  str% "}"]

/-- v2/buffer.go:1253-1260 -/
def fun_WriteU64BENext : Fun := ⟨(str% "WriteU64BENext"), [none], none, 1, (.cons (.expr (.call (str% "writeU64BE") (.cons (.field .off) (.cons (.var 0) .nil)))) (.cons (.expr (.call (str% "seek") (.cons (.bin .mul (.conv .i64 (.len (.var 0))) (.lit 8)) (.cons (.bool true) .nil)))) .nil))⟩

/-- v2/buffer.go:1261-1267 -/
def text_ReadBit : List Str := [
  str% "",
  str% "// ReadBit returns the bit located at the specified offset without modifying the internal offset value",
  str% "func (b *Buffer) ReadBit(off int64) byte {",
  str% "",
  str% "\treturn b.readbit(off)",
  str% "",
  str% "}"]

/-- v2/buffer.go:1261-1267 -/
def fun_ReadBit : Fun := ⟨(str% "ReadBit"), [some .i64], some .u8, 1, (.cons (.ret (.call (str% "readbit") (.cons (.var 0) .nil))) .nil)⟩

/-- v2/buffer.go:1268-1274 -/
def text_ReadBits : List Str := [
  str% "",
  str% "// ReadBits returns the next n bits from the specified offset without modifying the internal offset value",
  str% "func (b *Buffer) ReadBits(off, n int64) uint64 {",
  str% "",
  str% "\treturn b.readbits(off, n)",
  str% "",
  str% "}"]

/-- v2/buffer.go:1268-1274 -/
def fun_ReadBits : Fun := ⟨(str% "ReadBits"), [some .i64, some .i64], some .u64, 2, (.cons (.ret (.call (str% "readbits") (.cons (.var 0) (.cons (.var 1) .nil)))) .nil)⟩

/-- v2/buffer.go:1275-1283 -/
def text_ReadBitNext : List Str := [
  str% "",
  str% "// ReadBitNext returns the next bit from the current offset and moves the offset forward a bit",
  str% "func (b *Buffer) ReadBitNext() (out byte) {",
  str% "",
  str% "\tout = b.readbit(b.boff)",
  str% "\tb.seekbit(1, true)",
  str% "\treturn",
  str% "",
  str% "}"]

/-- v2/buffer.go:1275-1283 -/
def fun_ReadBitNext : Fun := ⟨(str% "ReadBitNext"), [], some .u8, 1, (.cons (.zero 0 .u8) (.cons (.set 0 (.call (str% "readbit") (.cons (.field .boff) .nil))) (.cons (.expr (.call (str% "seekbit") (.cons (.lit 1) (.cons (.bool true) .nil)))) (.cons (.ret (.var 0)) .nil))))⟩

/-- v2/buffer.go:1284-1292 -/
def text_ReadBitsNext : List Str := [
  str% "",
  str% "// ReadBitsNext returns the next n bits from the current offset and moves the offset forward the amount of bits read",
  str% "func (b *Buffer) ReadBitsNext(n int64) (out uint64) {",
  str% "",
  str% "\tout = b.readbits(b.boff, n)",
  str% "\tb.seekbit(n, true)",
  str% "\treturn",
  str% "",
  str% "}"]

/-- v2/buffer.go:1284-1292 -/
def fun_ReadBitsNext : Fun := ⟨(str% "ReadBitsNext"), [some .i64], some .u64, 2, (.cons (.zero 1 .u64) (.cons (.set 1 (.call (str% "readbits") (.cons (.field .boff) (.cons (.var 0) .nil)))) (.cons (.expr (.call (str% "seekbit") (.cons (.var 0) (.cons (.bool true) .nil)))) (.cons (.ret (.var 1)) .nil))))⟩

/-- v2/buffer.go:1293-1299 -/
def text_SetBit : List Str := [
  str% "",
  str% "// SetBit sets the bit located at the specified offset without modifying the internal offset value",
  str% "func (b *Buffer) SetBit(off int64, data byte) {",
  str% "",
  str% "\tb.setbit(off, data)",
  str% "",
  str% "}"]

/-- v2/buffer.go:1293-1299 -/
def fun_SetBit : Fun := ⟨(str% "SetBit"), [some .i64, some .u8], none, 2, (.cons (.expr (.call (str% "setbit") (.cons (.var 0) (.cons (.var 1) .nil)))) .nil)⟩

/-- v2/buffer.go:1300-1306 -/
def text_SetBits : List Str := [
  str% "",
  str% "// SetBits sets the next n bits from the specified offset without modifying the internal offset value",
  str% "func (b *Buffer) SetBits(off int64, data uint64, n int64) {",
  str% "",
  str% "\tb.setbits(off, data, n)",
  str% "",
  str% "}"]

/-- v2/buffer.go:1300-1306 -/
def fun_SetBits : Fun := ⟨(str% "SetBits"), [some .i64, some .u64, some .i64], none, 3, (.cons (.expr (.call (str% "setbits") (.cons (.var 0) (.cons (.var 1) (.cons (.var 2) .nil))))) .nil)⟩

/-- v2/buffer.go:1307-1314 -/
def text_SetBitNext : List Str := [
  str% "",
  str% "// SetBitNext sets the next bit from the current offset and moves the offset forward a bit",
  str% "func (b *Buffer) SetBitNext(data byte) {",
  str% "",
  str% "\tb.setbit(b.boff, data)",
  str% "\tb.seekbit(1, true)",
  str% "",
  str% "}"]

/-- v2/buffer.go:1307-1314 -/
def fun_SetBitNext : Fun := ⟨(str% "SetBitNext"), [some .u8], none, 1, (.cons (.expr (.call (str% "setbit") (.cons (.field .boff) (.cons (.var 0) .nil)))) (.cons (.expr (.call (str% "seekbit") (.cons (.lit 1) (.cons (.bool true) .nil)))) .nil))⟩

/-- v2/buffer.go:1315-1322 -/
def text_SetBitsNext : List Str := [
  str% "",
  str% "// SetBitsNext sets the next n bits from the current offset and moves the offset forward the amount of bits set",
  str% "func (b *Buffer) SetBitsNext(data uint64, n int64) {",
  str% "",
  str% "\tb.setbits(b.boff, data, n)",
  str% "\tb.seekbit(n, true)",
  str% "",
  str% "}"]

/-- v2/buffer.go:1315-1322 -/
def fun_SetBitsNext : Fun := ⟨(str% "SetBitsNext"), [some .u64, some .i64], none, 2, (.cons (.expr (.call (str% "setbits") (.cons (.field .boff) (.cons (.var 0) (.cons (.var 1) .nil))))) (.cons (.expr (.call (str% "seekbit") (.cons (.var 1) (.cons (.bool true) .nil)))) .nil))⟩

/-- v2/buffer.go:1323-1329 -/
def text_FlipBit : List Str := [
  str% "",
  str% "// FlipBit flips the bit located at the specified offset without modifying the internal offset value",
  str% "func (b *Buffer) FlipBit(off int64) {",
  str% "",
  str% "\tb.flipbit(off)",
  str% "",
  str% "}"]

/-- v2/buffer.go:1323-1329 -/
def fun_FlipBit : Fun := ⟨(str% "FlipBit"), [some .i64], none, 1, (.cons (.expr (.call (str% "flipbit") (.cons (.var 0) .nil))) .nil)⟩

/-- v2/buffer.go:1330-1337 -/
def text_FlipBitNext : List Str := [
  str% "",
  str% "// FlipBitNext flips the next bit from the current offset and moves the offset forward a bit",
  str% "func (b *Buffer) FlipBitNext() {",
  str% "",
  str% "\tb.flipbit(b.boff)",
  str% "\tb.seekbit(1, true)",
  str% "",
  str% "}"]

/-- v2/buffer.go:1330-1337 -/
def fun_FlipBitNext : Fun := ⟨(str% "FlipBitNext"), [], none, 0, (.cons (.expr (.call (str% "flipbit") (.cons (.field .boff) .nil))) (.cons (.expr (.call (str% "seekbit") (.cons (.lit 1) (.cons (.bool true) .nil)))) .nil))⟩

/-- v2/buffer.go:1338-1344 -/
def text_ClearAllBits : List Str := [
  str% "",
  str% "// ClearAllBits sets all of the buffer's bits to 0",
  str% "func (b *Buffer) ClearAllBits() {",
  str% "",
  str% "\tb.clearallbits()",
  str% "",
  str% "}"]

/-- v2/buffer.go:1338-1344 -/
def fun_ClearAllBits : Fun := ⟨(str% "ClearAllBits"), [], none, 0, (.cons (.expr (.call (str% "clearallbits") .nil)) .nil)⟩

/-- v2/buffer.go:1345-1351 -/
def text_SetAllBits : List Str := [
  str% "",
  str% "// SetAllBits sets all of the buffer's bits to 1",
  str% "func (b *Buffer) SetAllBits() {",
  str% "",
  str% "\tb.setallbits()",
  str% "",
  str% "}"]

/-- v2/buffer.go:1345-1351 -/
def fun_SetAllBits : Fun := ⟨(str% "SetAllBits"), [], none, 0, (.cons (.expr (.call (str% "setallbits") .nil)) .nil)⟩

/-- v2/buffer.go:1352-1358 -/
def text_FlipAllBits : List Str := [
  str% "",
  str% "// FlipAllBits flips all of the buffer's bits",
  str% "func (b *Buffer) FlipAllBits() {",
  str% "",
  str% "\tb.flipallbits()",
  str% "",
  str% "}",
  str% ""]

/-- v2/buffer.go:1352-1358 -/
def fun_FlipAllBits : Fun := ⟨(str% "FlipAllBits"), [], none, 0, (.cons (.expr (.call (str% "flipallbits") .nil)) .nil)⟩

/-- The text, in parts. -/
def text : List (List Str) := [text_0, text_NewBuffer, text_readbit, text_readbits, text_setbit, text_setbits, text_flipbit, text_clearallbits, text_setallbits, text_flipallbits, text_seekbit, text_afterbit, text_write, text_writeU16LE, text_writeU16BE, text_writeU32LE, text_writeU32BE, text_writeU64LE, text_writeU64BE, text_read, text_readU16LE, text_readU16BE, text_readU32LE, text_readU32BE, text_readU64LE, text_readU64BE, text_seek, text_after, text_grow, text_refresh, text_alignbit, text_alignbyte, text_reset, text_Bytes, text_Capacity, text_BitCapacity, text_Offset, text_BitOffset, text_Refresh, text_Reset, text_Grow, text_Seek, text_SeekBit, text_AlignBit, text_AlignByte, text_After, text_AfterBit, text_ReadByte, text_ReadBytes, text_ReadU16LE, text_ReadU16BE, text_ReadU32LE, text_ReadU32BE, text_ReadU64LE, text_ReadU64BE, text_ReadByteNext, text_ReadBytesNext, text_ReadU16LENext, text_ReadU16BENext, text_ReadU32LENext, text_ReadU32BENext, text_ReadU64LENext, text_ReadU64BENext, text_WriteByte, text_WriteBytes, text_WriteU16LE, text_WriteU16BE, text_WriteU32LE, text_WriteU32BE, text_WriteU64LE, text_WriteU64BE, text_WriteByteNext, text_WriteBytesNext, text_WriteU16LENext, text_WriteU16BENext, text_WriteU32LENext, text_WriteU32BENext, text_WriteU64LENext, text_WriteU64BENext, text_ReadBit, text_ReadBits, text_ReadBitNext, text_ReadBitsNext, text_SetBit, text_SetBits, text_SetBitNext, text_SetBitsNext, text_FlipBit, text_FlipBitNext, text_ClearAllBits, text_SetAllBits, text_FlipAllBits]

/-- The functions. -/
def funs : List Fun := [fun_NewBuffer, fun_readbit, fun_readbits, fun_setbit, fun_setbits, fun_flipbit, fun_clearallbits, fun_setallbits, fun_flipallbits, fun_seekbit, fun_afterbit, fun_write, fun_writeU16LE, fun_writeU16BE, fun_writeU32LE, fun_writeU32BE, fun_writeU64LE, fun_writeU64BE, fun_read, fun_readU16LE, fun_readU16BE, fun_readU32LE, fun_readU32BE, fun_readU64LE, fun_readU64BE, fun_seek, fun_after, fun_grow, fun_refresh, fun_alignbit, fun_alignbyte, fun_reset, fun_Bytes, fun_Capacity, fun_BitCapacity, fun_Offset, fun_BitOffset, fun_Refresh, fun_Reset, fun_Grow, fun_Seek, fun_SeekBit, fun_AlignBit, fun_AlignByte, fun_After, fun_AfterBit, fun_ReadByte, fun_ReadBytes, fun_ReadU16LE, fun_ReadU16BE, fun_ReadU32LE, fun_ReadU32BE, fun_ReadU64LE, fun_ReadU64BE, fun_ReadByteNext, fun_ReadBytesNext, fun_ReadU16LENext, fun_ReadU16BENext, fun_ReadU32LENext, fun_ReadU32BENext, fun_ReadU64LENext, fun_ReadU64BENext, fun_WriteByte, fun_WriteBytes, fun_WriteU16LE, fun_WriteU16BE, fun_WriteU32LE, fun_WriteU32BE, fun_WriteU64LE, fun_WriteU64BE, fun_WriteByteNext, fun_WriteBytesNext, fun_WriteU16LENext, fun_WriteU16BENext, fun_WriteU32LENext, fun_WriteU32BENext, fun_WriteU64LENext, fun_WriteU64BENext, fun_ReadBit, fun_ReadBits, fun_ReadBitNext, fun_ReadBitsNext, fun_SetBit, fun_SetBits, fun_SetBitNext, fun_SetBitsNext, fun_FlipBit, fun_FlipBitNext, fun_ClearAllBits, fun_SetAllBits, fun_FlipAllBits]

end Crunch.Src.V2Buffer
