import Verif.Src.Sem

/-!
# v3/buffer.generated.go

Written by tools/src_embed.py.
-/

namespace Crunch.Src.V3Buffer

open Crunch.Gen (Str)

/-- v3/buffer.generated.go:1-24 -/
def text_0 : List Str := [
  str% "/*",
  str% "",
  str% "crunch - utilities for taking bytes out of things",
  str% "Copyright (c) 2019-2020 superwhiskers <whiskerdev@protonmail.com>",
  str% "",
  str% "This Source Code Form is subject to the terms of the Mozilla Public",
  str% "License, v. 2.0. If a copy of the MPL was not distributed with this",
  str% "file, You can obtain one at https://mozilla.org/MPL/2.0/.",
  str% "",
  str% "*/",
  str% "",
  str% "package v3",
  str% "",
  str% "import \"unsafe\"",
  str% "",
  str% "// Buffer implements a buffer type in go that handles multiple types",
  str% "// of data easily. it has overwrite/read checks for extra safety",
  str% "type Buffer struct {",
  str% "\tbuf  []byte",
  str% "\toff  int64",
  str% "\tcap  int64",
  str% "\tboff int64",
  str% "\tbcap int64",
  str% "}"]

/-- v3/buffer.generated.go:25-65 -/
def text_NewBuffer : List Str := [
  str% "",
  str% "// NewBuffer initilaizes a new Buffer with the provided byte slice(s)",
  str% "// stored inside in the order provided",
  str% "func NewBuffer(slices ...[]byte) (buf *Buffer) {",
  str% "",
  str% "\tbuf = &Buffer{",
  str% "\t\tbuf:  []byte{},",
  str% "\t\toff:  0x00,",
  str% "\t\tboff: 0x00,",
  str% "\t}",
  str% "",
  str% "\tswitch len(slices) {",
  str% "",
  str% "\tcase 0:",
  str% "\t\tbreak",
  str% "",
  str% "\tcase 1:",
  str% "\t\tbuf.buf = slices[0]",
  str% "",
  str% "\tdefault:",
  str% "\t\tvar (",
  str% "\t\t\ti = int64(0)",
  str% "\t\t\tn = int64(len(slices))",
  str% "\t\t)",
  str% "\t\t{",
  str% "\t\tappend_loop:",
  str% "\t\t\tbuf.buf = append(buf.buf, slices[i]...)",
  str% "\t\t\ti++",
  str% "\t\t\tif i < n {",
  str% "",
  str% "\t\t\t\tgoto append_loop",
  str% "",
  str% "\t\t\t}",
  str% "\t\t}",
  str% "",
  str% "\t}",
  str% "",
  str% "\tbuf.Refresh()",
  str% "\treturn",
  str% "",
  str% "}"]

/-- v3/buffer.generated.go:25-65 -/
def fun_NewBuffer : Fun := ⟨(str% "NewBuffer"), [none], none, 3, (.cons (.new (.bytes .nil) (.lit 0) (.lit 0) (.lit 0) (.lit 0)) (.cons (.switch (.len (.var 0)) (.cons (.case 0 (.cons .brk .nil)) (.cons (.case 1 (.cons (.setBuf (.index (.var 0) (.lit 0))) .nil)) (.cons (.default (.cons (.set 1 (.conv .i64 (.lit 0))) (.cons (.set 2 (.conv .i64 (.len (.var 0)))) (.cons (.block (str% "append_loop") (.cons (.setBuf (.append .buf (.index (.var 0) (.var 1)))) (.cons (.set 1 (.bin .add (.var 1) (.lit 1))) (.cons (.ifs (.bin .lt (.var 1) (.var 2)) (.cons (.goto (str% "append_loop")) .nil) .nil) .nil)))) .nil)))) .nil)))) (.cons (.expr (.call (str% "Refresh") .nil)) (.cons .retNone .nil))))⟩

/-- v3/buffer.generated.go:66-89 -/
def text_ReadBit : List Str := [
  str% "",
  str% "/* internal use methods */",
  str% "",
  str% "/* bitfield methods */",
  str% "",
  str% "// ReadBit returns the bit located at the specified offset without",
  str% "// modifying the internal offset value",
  str% "func (b *Buffer) ReadBit(off int64) byte {",
  str% "",
  str% "\tif off > (b.bcap - 1) {",
  str% "",
  str% "\t\tpanic(BufferOverreadError)",
  str% "",
  str% "\t}",
  str% "",
  str% "\tif off < 0x00 {",
  str% "",
  str% "\t\tpanic(BufferUnderreadError)",
  str% "",
  str% "\t}",
  str% "",
  str% "\treturn (b.buf[off/8] >> (7 - uint64(off%8))) & 1",
  str% "",
  str% "}"]

/-- v3/buffer.generated.go:66-89 -/
def fun_ReadBit : Fun := ⟨(str% "ReadBit"), [some .i64], some .u8, 1, (.cons (.ifs (.bin .gt (.var 0) (.bin .sub (.field .bcap) (.lit 1))) (.cons (.panic (str% "BufferOverreadError")) .nil) .nil) (.cons (.ifs (.bin .lt (.var 0) (.lit 0)) (.cons (.panic (str% "BufferUnderreadError")) .nil) .nil) (.cons (.ret (.bin .and (.bin .shr (.index .buf (.bin .div (.var 0) (.lit 8))) (.bin .sub (.lit 7) (.conv .u64 (.bin .rem (.var 0) (.lit 8))))) (.lit 1))) .nil)))⟩

/-- v3/buffer.generated.go:90-99 -/
def text_ReadBitNext : List Str := [
  str% "",
  str% "// ReadBitNext returns the next bit from the current offset and moves",
  str% "// the offset forward a bit",
  str% "func (b *Buffer) ReadBitNext() (out byte) {",
  str% "",
  str% "\tout = b.ReadBit(b.boff)",
  str% "\tb.SeekBit(1, true)",
  str% "\treturn",
  str% "",
  str% "}"]

/-- v3/buffer.generated.go:90-99 -/
def fun_ReadBitNext : Fun := ⟨(str% "ReadBitNext"), [], some .u8, 1, (.cons (.zero 0 .u8) (.cons (.set 0 (.call (str% "ReadBit") (.cons (.field .boff) .nil))) (.cons (.expr (.call (str% "SeekBit") (.cons (.lit 1) (.cons (.bool true) .nil)))) (.cons (.ret (.var 0)) .nil))))⟩

/-- v3/buffer.generated.go:100-120 -/
def text_ReadBits : List Str := [
  str% "",
  str% "// ReadBits returns the next n bits from the specified offset without",
  str% "// modifying the internal offset value",
  str% "func (b *Buffer) ReadBits(off, n int64) (out uint64) {",
  str% "",
  str% "\ti := int64(0)",
  str% "",
  str% "\t{",
  str% "\tread_loop:",
  str% "\t\tout = (out << uint64(1)) | uint64(b.ReadBit(off+i))",
  str% "\t\ti++",
  str% "\t\tif i < n {",
  str% "",
  str% "\t\t\tgoto read_loop",
  str% "",
  str% "\t\t}",
  str% "\t}",
  str% "",
  str% "\treturn",
  str% "",
  str% "}"]

/-- v3/buffer.generated.go:100-120 -/
def fun_ReadBits : Fun := ⟨(str% "ReadBits"), [some .i64, some .i64], some .u64, 4, (.cons (.zero 2 .u64) (.cons (.set 3 (.conv .i64 (.lit 0))) (.cons (.block (str% "read_loop") (.cons (.set 2 (.bin .or (.bin .shl (.var 2) (.conv .u64 (.lit 1))) (.conv .u64 (.call (str% "ReadBit") (.cons (.bin .add (.var 0) (.var 3)) .nil))))) (.cons (.set 3 (.bin .add (.var 3) (.lit 1))) (.cons (.ifs (.bin .lt (.var 3) (.var 1)) (.cons (.goto (str% "read_loop")) .nil) .nil) .nil)))) (.cons (.ret (.var 2)) .nil))))⟩

/-- v3/buffer.generated.go:121-130 -/
def text_ReadBitsNext : List Str := [
  str% "",
  str% "// ReadBitsNext returns the next n bits from the current offset and",
  str% "// moves the offset forward the amount of bits read",
  str% "func (b *Buffer) ReadBitsNext(n int64) (out uint64) {",
  str% "",
  str% "\tout = b.ReadBits(b.boff, n)",
  str% "\tb.SeekBit(n, true)",
  str% "\treturn",
  str% "",
  str% "}"]

/-- v3/buffer.generated.go:121-130 -/
def fun_ReadBitsNext : Fun := ⟨(str% "ReadBitsNext"), [some .i64], some .u64, 2, (.cons (.zero 1 .u64) (.cons (.set 1 (.call (str% "ReadBits") (.cons (.field .boff) (.cons (.var 0) .nil)))) (.cons (.expr (.call (str% "SeekBit") (.cons (.var 0) (.cons (.bool true) .nil)))) (.cons (.ret (.var 1)) .nil))))⟩

/-- v3/buffer.generated.go:131-150 -/
def text_SetBit : List Str := [
  str% "",
  str% "// SetBit sets the bit located at the specified offset without",
  str% "// modifying the internal offset value",
  str% "func (b *Buffer) SetBit(off int64) {",
  str% "",
  str% "\tif off > (b.bcap - 1) {",
  str% "",
  str% "\t\tpanic(BufferOverwriteError)",
  str% "",
  str% "\t}",
  str% "",
  str% "\tif off < 0x00 {",
  str% "",
  str% "\t\tpanic(BufferUnderwriteError)",
  str% "",
  str% "\t}",
  str% "",
  str% "\tb.buf[off/8] |= (1 << uint(7-(off%8)))",
  str% "",
  str% "}"]

/-- v3/buffer.generated.go:131-150 -/
def fun_SetBit : Fun := ⟨(str% "SetBit"), [some .i64], none, 1, (.cons (.ifs (.bin .gt (.var 0) (.bin .sub (.field .bcap) (.lit 1))) (.cons (.panic (str% "BufferOverwriteError")) .nil) .nil) (.cons (.ifs (.bin .lt (.var 0) (.lit 0)) (.cons (.panic (str% "BufferUnderwriteError")) .nil) .nil) (.cons (.setBufAt (.bin .div (.var 0) (.lit 8)) (.bin .or (.index .buf (.bin .div (.var 0) (.lit 8))) (.bin .shl (.lit 1) (.conv .u64 (.bin .sub (.lit 7) (.bin .rem (.var 0) (.lit 8))))))) .nil)))⟩

/-- v3/buffer.generated.go:151-159 -/
def text_SetBitNext : List Str := [
  str% "",
  str% "// SetBitNext sets the next bit from the current offset and moves the",
  str% "// offset forward a bit",
  str% "func (b *Buffer) SetBitNext() {",
  str% "",
  str% "\tb.SetBit(b.boff)",
  str% "\tb.SeekBit(1, true)",
  str% "",
  str% "}"]

/-- v3/buffer.generated.go:151-159 -/
def fun_SetBitNext : Fun := ⟨(str% "SetBitNext"), [], none, 0, (.cons (.expr (.call (str% "SetBit") (.cons (.field .boff) .nil))) (.cons (.expr (.call (str% "SeekBit") (.cons (.lit 1) (.cons (.bool true) .nil)))) .nil))⟩

/-- v3/buffer.generated.go:160-179 -/
def text_ClearBit : List Str := [
  str% "",
  str% "// ClearBit clears the bit located at the specified offset without",
  str% "// modifying the internal offset value",
  str% "func (b *Buffer) ClearBit(off int64) {",
  str% "",
  str% "\tif off > (b.bcap - 1) {",
  str% "",
  str% "\t\tpanic(BufferOverwriteError)",
  str% "",
  str% "\t}",
  str% "",
  str% "\tif off < 0x00 {",
  str% "",
  str% "\t\tpanic(BufferUnderwriteError)",
  str% "",
  str% "\t}",
  str% "",
  str% "\tb.buf[off/8] &= ^(1 << uint(7-(off%8)))",
  str% "",
  str% "}"]

/-- v3/buffer.generated.go:160-179 -/
def fun_ClearBit : Fun := ⟨(str% "ClearBit"), [some .i64], none, 1, (.cons (.ifs (.bin .gt (.var 0) (.bin .sub (.field .bcap) (.lit 1))) (.cons (.panic (str% "BufferOverwriteError")) .nil) .nil) (.cons (.ifs (.bin .lt (.var 0) (.lit 0)) (.cons (.panic (str% "BufferUnderwriteError")) .nil) .nil) (.cons (.setBufAt (.bin .div (.var 0) (.lit 8)) (.bin .and (.index .buf (.bin .div (.var 0) (.lit 8))) (.compl (.bin .shl (.lit 1) (.conv .u64 (.bin .sub (.lit 7) (.bin .rem (.var 0) (.lit 8)))))))) .nil)))⟩

/-- v3/buffer.generated.go:180-188 -/
def text_ClearBitNext : List Str := [
  str% "",
  str% "// ClearBitNext clears the next bit from the current offset and moves",
  str% "// the offset forward a bit",
  str% "func (b *Buffer) ClearBitNext() {",
  str% "",
  str% "\tb.ClearBit(b.boff)",
  str% "\tb.SeekBit(1, true)",
  str% "",
  str% "}"]

/-- v3/buffer.generated.go:180-188 -/
def fun_ClearBitNext : Fun := ⟨(str% "ClearBitNext"), [], none, 0, (.cons (.expr (.call (str% "ClearBit") (.cons (.field .boff) .nil))) (.cons (.expr (.call (str% "SeekBit") (.cons (.lit 1) (.cons (.bool true) .nil)))) .nil))⟩

/-- v3/buffer.generated.go:189-215 -/
def text_SetBits : List Str := [
  str% "",
  str% "// SetBits sets the next n bits from the specified offset without",
  str% "// modifying the internal offset value",
  str% "func (b *Buffer) SetBits(off int64, data uint64, n int64) {",
  str% "",
  str% "\ti := int64(0)",
  str% "",
  str% "\t{",
  str% "\twrite_loop:",
  str% "\t\tif byte((data>>uint64(n-i-1))&1) == 0 {",
  str% "",
  str% "\t\t\tb.ClearBit(off + i)",
  str% "",
  str% "\t\t} else {",
  str% "",
  str% "\t\t\tb.SetBit(off + i)",
  str% "",
  str% "\t\t}",
  str% "\t\ti++",
  str% "\t\tif i < n {",
  str% "",
  str% "\t\t\tgoto write_loop",
  str% "",
  str% "\t\t}",
  str% "\t}",
  str% "",
  str% "}"]

/-- v3/buffer.generated.go:189-215 -/
def fun_SetBits : Fun := ⟨(str% "SetBits"), [some .i64, some .u64, some .i64], none, 4, (.cons (.set 3 (.conv .i64 (.lit 0))) (.cons (.block (str% "write_loop") (.cons (.ifs (.bin .eq (.conv .u8 (.bin .and (.bin .shr (.var 1) (.conv .u64 (.bin .sub (.bin .sub (.var 2) (.var 3)) (.lit 1)))) (.lit 1))) (.lit 0)) (.cons (.expr (.call (str% "ClearBit") (.cons (.bin .add (.var 0) (.var 3)) .nil))) .nil) (.cons (.expr (.call (str% "SetBit") (.cons (.bin .add (.var 0) (.var 3)) .nil))) .nil)) (.cons (.set 3 (.bin .add (.var 3) (.lit 1))) (.cons (.ifs (.bin .lt (.var 3) (.var 2)) (.cons (.goto (str% "write_loop")) .nil) .nil) .nil)))) .nil))⟩

/-- v3/buffer.generated.go:216-224 -/
def text_SetBitsNext : List Str := [
  str% "",
  str% "// SetBitsNext sets the next n bits from the current offset and moves",
  str% "// the offset forward the amount of bits set",
  str% "func (b *Buffer) SetBitsNext(data uint64, n int64) {",
  str% "",
  str% "\tb.SetBits(b.boff, data, n)",
  str% "\tb.SeekBit(n, true)",
  str% "",
  str% "}"]

/-- v3/buffer.generated.go:216-224 -/
def fun_SetBitsNext : Fun := ⟨(str% "SetBitsNext"), [some .u64, some .i64], none, 2, (.cons (.expr (.call (str% "SetBits") (.cons (.field .boff) (.cons (.var 0) (.cons (.var 1) .nil))))) (.cons (.expr (.call (str% "SeekBit") (.cons (.var 1) (.cons (.bool true) .nil)))) .nil))⟩

/-- v3/buffer.generated.go:225-244 -/
def text_FlipBit : List Str := [
  str% "",
  str% "// FlipBit flips the bit located at the specified offset without",
  str% "// modifying the internal offset value",
  str% "func (b *Buffer) FlipBit(off int64) {",
  str% "",
  str% "\tif off > (b.bcap - 1) {",
  str% "",
  str% "\t\tpanic(BufferOverwriteError)",
  str% "",
  str% "\t}",
  str% "",
  str% "\tif off < 0x00 {",
  str% "",
  str% "\t\tpanic(BufferUnderwriteError)",
  str% "",
  str% "\t}",
  str% "",
  str% "\tb.buf[off/8] ^= (1 << uint(7-(off%8)))",
  str% "",
  str% "}"]

/-- v3/buffer.generated.go:225-244 -/
def fun_FlipBit : Fun := ⟨(str% "FlipBit"), [some .i64], none, 1, (.cons (.ifs (.bin .gt (.var 0) (.bin .sub (.field .bcap) (.lit 1))) (.cons (.panic (str% "BufferOverwriteError")) .nil) .nil) (.cons (.ifs (.bin .lt (.var 0) (.lit 0)) (.cons (.panic (str% "BufferUnderwriteError")) .nil) .nil) (.cons (.setBufAt (.bin .div (.var 0) (.lit 8)) (.bin .xor (.index .buf (.bin .div (.var 0) (.lit 8))) (.bin .shl (.lit 1) (.conv .u64 (.bin .sub (.lit 7) (.bin .rem (.var 0) (.lit 8))))))) .nil)))⟩

/-- v3/buffer.generated.go:245-253 -/
def text_FlipBitNext : List Str := [
  str% "",
  str% "// FlipBitNext flips the next bit from the current offset and moves",
  str% "// the offset forward a bit",
  str% "func (b *Buffer) FlipBitNext() {",
  str% "",
  str% "\tb.FlipBit(b.boff)",
  str% "\tb.SeekBit(1, true)",
  str% "",
  str% "}"]

/-- v3/buffer.generated.go:245-253 -/
def fun_FlipBitNext : Fun := ⟨(str% "FlipBitNext"), [], none, 0, (.cons (.expr (.call (str% "FlipBit") (.cons (.field .boff) .nil))) (.cons (.expr (.call (str% "SeekBit") (.cons (.lit 1) (.cons (.bool true) .nil)))) .nil))⟩

/-- v3/buffer.generated.go:254-273 -/
def text_ClearAllBits : List Str := [
  str% "",
  str% "// ClearAllBits sets all of the buffer's bits to 0",
  str% "func (b *Buffer) ClearAllBits() {",
  str% "",
  str% "\tvar (",
  str% "\t\ti = int64(0)",
  str% "\t\tn = int64(len(b.buf))",
  str% "\t)",
  str% "\t{",
  str% "\tclear_loop:",
  str% "\t\tb.buf[i] = 0",
  str% "\t\ti++",
  str% "\t\tif i < n {",
  str% "",
  str% "\t\t\tgoto clear_loop",
  str% "",
  str% "\t\t}",
  str% "\t}",
  str% "",
  str% "}"]

/-- v3/buffer.generated.go:254-273 -/
def fun_ClearAllBits : Fun := ⟨(str% "ClearAllBits"), [], none, 2, (.cons (.set 0 (.conv .i64 (.lit 0))) (.cons (.set 1 (.conv .i64 (.len .buf))) (.cons (.block (str% "clear_loop") (.cons (.setBufAt (.var 0) (.lit 0)) (.cons (.set 0 (.bin .add (.var 0) (.lit 1))) (.cons (.ifs (.bin .lt (.var 0) (.var 1)) (.cons (.goto (str% "clear_loop")) .nil) .nil) .nil)))) .nil)))⟩

/-- v3/buffer.generated.go:274-293 -/
def text_SetAllBits : List Str := [
  str% "",
  str% "// SetAllBits sets all of the buffer's bits to 1",
  str% "func (b *Buffer) SetAllBits() {",
  str% "",
  str% "\tvar (",
  str% "\t\ti = int64(0)",
  str% "\t\tn = int64(len(b.buf))",
  str% "\t)",
  str% "\t{",
  str% "\tset_loop:",
  str% "\t\tb.buf[i] = 0xFF",
  str% "\t\ti++",
  str% "\t\tif i < n {",
  str% "",
  str% "\t\t\tgoto set_loop",
  str% "",
  str% "\t\t}",
  str% "\t}",
  str% "",
  str% "}"]

/-- v3/buffer.generated.go:274-293 -/
def fun_SetAllBits : Fun := ⟨(str% "SetAllBits"), [], none, 2, (.cons (.set 0 (.conv .i64 (.lit 0))) (.cons (.set 1 (.conv .i64 (.len .buf))) (.cons (.block (str% "set_loop") (.cons (.setBufAt (.var 0) (.lit 255)) (.cons (.set 0 (.bin .add (.var 0) (.lit 1))) (.cons (.ifs (.bin .lt (.var 0) (.var 1)) (.cons (.goto (str% "set_loop")) .nil) .nil) .nil)))) .nil)))⟩

/-- v3/buffer.generated.go:294-314 -/
def text_FlipAllBits : List Str := [
  str% "",
  str% "// FlipAllBits flips all of the buffer's bits",
  str% "func (b *Buffer) FlipAllBits() {",
  str% "",
  str% "\tvar (",
  str% "\t\ti = int64(0)",
  str% "\t\tn = int64(len(b.buf))",
  str% "\t)",
  str% "\t{",
  str% "\tflip_loop:",
  str% "\t\tb.buf[i] = ^b.buf[i]",
  str% "\t\ti++",
  str% "\t\tif i < n {",
  str% "",
  str% "\t\t\tgoto flip_loop",
  str% "",
  str% "\t\t}",
  str% "",
  str% "\t}",
  str% "",
  str% "}"]

/-- v3/buffer.generated.go:294-314 -/
def fun_FlipAllBits : Fun := ⟨(str% "FlipAllBits"), [], none, 2, (.cons (.set 0 (.conv .i64 (.lit 0))) (.cons (.set 1 (.conv .i64 (.len .buf))) (.cons (.block (str% "flip_loop") (.cons (.setBufAt (.var 0) (.compl (.index .buf (.var 0)))) (.cons (.set 0 (.bin .add (.var 0) (.lit 1))) (.cons (.ifs (.bin .lt (.var 0) (.var 1)) (.cons (.goto (str% "flip_loop")) .nil) .nil) .nil)))) .nil)))⟩

/-- v3/buffer.generated.go:315-330 -/
def text_SeekBit : List Str := [
  str% "",
  str% "// SeekBit seeks to bit position off of the the buffer relative to",
  str% "// the current position or exact",
  str% "func (b *Buffer) SeekBit(off int64, relative bool) {",
  str% "",
  str% "\tif relative {",
  str% "",
  str% "\t\tb.boff += off",
  str% "",
  str% "\t} else {",
  str% "",
  str% "\t\tb.boff = off",
  str% "",
  str% "\t}",
  str% "",
  str% "}"]

/-- v3/buffer.generated.go:315-330 -/
def fun_SeekBit : Fun := ⟨(str% "SeekBit"), [some .i64, none], none, 2, (.cons (.ifs (.var 1) (.cons (.setField .boff (.bin .add (.field .boff) (.var 0))) .nil) (.cons (.setField .boff (.var 0)) .nil)) .nil)⟩

/-- v3/buffer.generated.go:331-343 -/
def text_AfterBit : List Str := [
  str% "",
  str% "// AfterBit returns the amount of bits located after the current bit",
  str% "// position or the specified one",
  str% "func (b *Buffer) AfterBit(off ...int64) int64 {",
  str% "",
  str% "\tif len(off) == 0 {",
  str% "",
  str% "\t\treturn b.bcap - b.boff - 1",
  str% "",
  str% "\t}",
  str% "\treturn b.bcap - off[0] - 1",
  str% "",
  str% "}"]

/-- v3/buffer.generated.go:331-343 -/
def fun_AfterBit : Fun := ⟨(str% "AfterBit"), [none], some .i64, 1, (.cons (.ifs (.bin .eq (.len (.var 0)) (.lit 0)) (.cons (.ret (.bin .sub (.bin .sub (.field .bcap) (.field .boff)) (.lit 1))) .nil) .nil) (.cons (.ret (.bin .sub (.bin .sub (.field .bcap) (.index (.var 0) (.lit 0))) (.lit 1))) .nil))⟩

/-- v3/buffer.generated.go:344-350 -/
def text_AlignBit : List Str := [
  str% "",
  str% "// AlignBit aligns the bit offset to the byte offset",
  str% "func (b *Buffer) AlignBit() {",
  str% "",
  str% "\tb.boff = b.off * 8",
  str% "",
  str% "}"]

/-- v3/buffer.generated.go:344-350 -/
def fun_AlignBit : Fun := ⟨(str% "AlignBit"), [], none, 0, (.cons (.setField .boff (.bin .mul (.field .off) (.lit 8))) .nil)⟩

/-- v3/buffer.generated.go:351-372 -/
def text_WriteBytes : List Str := [
  str% "",
  str% "/* byte buffer methods */",
  str% "",
  str% "// WriteBytes writes bytes to the buffer at the specified offset",
  str% "// without modifying the internal offset value",
  str% "func (b *Buffer) WriteBytes(off int64, data []byte) {",
  str% "",
  str% "\tif (off + int64(len(data))) > b.cap {",
  str% "",
  str% "\t\tpanic(BufferOverwriteError)",
  str% "",
  str% "\t}",
  str% "",
  str% "\tif off < 0x00 {",
  str% "",
  str% "\t\tpanic(BufferUnderwriteError)",
  str% "",
  str% "\t}",
  str% "",
  str% "\tcopy(b.buf[off:], data)",
  str% "",
  str% "}"]

/-- v3/buffer.generated.go:351-372 -/
def fun_WriteBytes : Fun := ⟨(str% "WriteBytes"), [some .i64, none], none, 2, (.cons (.ifs (.bin .gt (.bin .add (.var 0) (.conv .i64 (.len (.var 1)))) (.field .cap)) (.cons (.panic (str% "BufferOverwriteError")) .nil) .nil) (.cons (.ifs (.bin .lt (.var 0) (.lit 0)) (.cons (.panic (str% "BufferUnderwriteError")) .nil) .nil) (.cons (.copy (.sliceFrom .buf (.var 0)) (.var 1)) .nil)))⟩

/-- v3/buffer.generated.go:373-381 -/
def text_WriteBytesNext : List Str := [
  str% "",
  str% "// WriteBytesNext writes bytes to the buffer at the current offset",
  str% "// and moves the offset forward the amount of bytes written",
  str% "func (b *Buffer) WriteBytesNext(data []byte) {",
  str% "",
  str% "\tb.WriteBytes(b.off, data)",
  str% "\tb.SeekByte(int64(len(data)), true)",
  str% "",
  str% "}"]

/-- v3/buffer.generated.go:373-381 -/
def fun_WriteBytesNext : Fun := ⟨(str% "WriteBytesNext"), [none], none, 1, (.cons (.expr (.call (str% "WriteBytes") (.cons (.field .off) (.cons (.var 0) .nil)))) (.cons (.expr (.call (str% "SeekByte") (.cons (.conv .i64 (.len (.var 0))) (.cons (.bool true) .nil)))) .nil))⟩

/-- v3/buffer.generated.go:382-389 -/
def text_WriteByte : List Str := [
  str% "",
  str% "// WriteByte writes a byte to the buffer at the specified offset",
  str% "// without modifying the internal offset value",
  str% "func (b *Buffer) WriteByte(off int64, data byte) {",
  str% "",
  str% "\tb.WriteBytes(off, []byte{data})",
  str% "",
  str% "}"]

/-- v3/buffer.generated.go:382-389 -/
def fun_WriteByte : Fun := ⟨(str% "WriteByte"), [some .i64, some .u8], none, 2, (.cons (.expr (.call (str% "WriteBytes") (.cons (.var 0) (.cons (.bytes (.cons (.var 1) .nil)) .nil)))) .nil)⟩

/-- v3/buffer.generated.go:390-398 -/
def text_WriteByteNext : List Str := [
  str% "",
  str% "// WriteByteNext writes a byte to the buffer at the current",
  str% "// offset and moves the offset forward the amount of bytes written",
  str% "func (b *Buffer) WriteByteNext(data byte) {",
  str% "",
  str% "\tb.WriteBytes(b.off, []byte{data})",
  str% "\tb.SeekByte(1, true)",
  str% "",
  str% "}"]

/-- v3/buffer.generated.go:390-398 -/
def fun_WriteByteNext : Fun := ⟨(str% "WriteByteNext"), [some .u8], none, 1, (.cons (.expr (.call (str% "WriteBytes") (.cons (.field .off) (.cons (.bytes (.cons (.var 0) .nil)) .nil)))) (.cons (.expr (.call (str% "SeekByte") (.cons (.lit 1) (.cons (.bool true) .nil)))) .nil))⟩

/-- v3/buffer.generated.go:399-421 -/
def text_WriteU16LE : List Str := [
  str% "",
  str% "// WriteU16LE writes a slice of uint16s to the buffer at the",
  str% "// specified offset in little-endian without modifying the internal",
  str% "// offset value",
  str% "func (b *Buffer) WriteU16LE(off int64, data []uint16) {",
  str% "\tif (off + int64(len(data))*2) > b.cap {",
  str% "\t\tpanic(BufferOverwriteError)",
  str% "\t}",
  str% "\tif off < 0 {",
  str% "\t\tpanic(BufferUnderwriteError)",
  str% "\t}",
  str% "\ti := 0",
  str% "\tn := len(data)",
  str% "\t{",
  str% "\twrite_loop:",
  str% "\t\tb.buf[off+int64(i*2)] = byte(data[i])",
  str% "\t\tb.buf[off+int64(1+(i*2))] = byte(data[i] >> 8)",
  str% "\t\ti++",
  str% "\t\tif i < n {",
  str% "\t\t\tgoto write_loop",
  str% "\t\t}",
  str% "\t}",
  str% "}"]

/-- v3/buffer.generated.go:399-421 -/
def fun_WriteU16LE : Fun := ⟨(str% "WriteU16LE"), [some .i64, none], none, 4, (.cons (.ifs (.bin .gt (.bin .add (.var 0) (.bin .mul (.conv .i64 (.len (.var 1))) (.lit 2))) (.field .cap)) (.cons (.panic (str% "BufferOverwriteError")) .nil) .nil) (.cons (.ifs (.bin .lt (.var 0) (.lit 0)) (.cons (.panic (str% "BufferUnderwriteError")) .nil) .nil) (.cons (.set 2 (.lit 0)) (.cons (.set 3 (.len (.var 1))) (.cons (.block (str% "write_loop") (.cons (.setBufAt (.bin .add (.var 0) (.conv .i64 (.bin .mul (.var 2) (.lit 2)))) (.conv .u8 (.index (.var 1) (.var 2)))) (.cons (.setBufAt (.bin .add (.var 0) (.conv .i64 (.bin .add (.lit 1) (.bin .mul (.var 2) (.lit 2))))) (.conv .u8 (.bin .shr (.index (.var 1) (.var 2)) (.lit 8)))) (.cons (.set 2 (.bin .add (.var 2) (.lit 1))) (.cons (.ifs (.bin .lt (.var 2) (.var 3)) (.cons (.goto (str% "write_loop")) .nil) .nil) .nil))))) .nil)))))⟩

/-- v3/buffer.generated.go:422-429 -/
def text_WriteU16LENext : List Str := [
  str% "",
  str% "// WriteU16LENext writes a slice of uint16s to the buffer at the",
  str% "// current offset in little-endian and moves the offset forward the",
  str% "// amount of bytes written",
  str% "func (b *Buffer) WriteU16LENext(data []uint16) {",
  str% "\tb.WriteU16LE(b.off, data)",
  str% "\tb.SeekByte(int64(len(data))*2, true)",
  str% "}"]

/-- v3/buffer.generated.go:422-429 -/
def fun_WriteU16LENext : Fun := ⟨(str% "WriteU16LENext"), [none], none, 1, (.cons (.expr (.call (str% "WriteU16LE") (.cons (.field .off) (.cons (.var 0) .nil)))) (.cons (.expr (.call (str% "SeekByte") (.cons (.bin .mul (.conv .i64 (.len (.var 0))) (.lit 2)) (.cons (.bool true) .nil)))) .nil))⟩

/-- v3/buffer.generated.go:430-452 -/
def text_WriteU16BE : List Str := [
  str% "",
  str% "// WriteU16BE writes a slice of uint16s to the buffer at the",
  str% "// specified offset in big-endian without modifying the internal",
  str% "// offset value",
  str% "func (b *Buffer) WriteU16BE(off int64, data []uint16) {",
  str% "\tif (off + int64(len(data))*2) > b.cap {",
  str% "\t\tpanic(BufferOverwriteError)",
  str% "\t}",
  str% "\tif off < 0 {",
  str% "\t\tpanic(BufferUnderwriteError)",
  str% "\t}",
  str% "\ti := 0",
  str% "\tn := len(data)",
  str% "\t{",
  str% "\twrite_loop:",
  str% "\t\tb.buf[off+int64(i*2)] = byte(data[i] >> 8)",
  str% "\t\tb.buf[off+int64(1+(i*2))] = byte(data[i])",
  str% "\t\ti++",
  str% "\t\tif i < n {",
  str% "\t\t\tgoto write_loop",
  str% "\t\t}",
  str% "\t}",
  str% "}"]

/-- v3/buffer.generated.go:430-452 -/
def fun_WriteU16BE : Fun := ⟨(str% "WriteU16BE"), [some .i64, none], none, 4, (.cons (.ifs (.bin .gt (.bin .add (.var 0) (.bin .mul (.conv .i64 (.len (.var 1))) (.lit 2))) (.field .cap)) (.cons (.panic (str% "BufferOverwriteError")) .nil) .nil) (.cons (.ifs (.bin .lt (.var 0) (.lit 0)) (.cons (.panic (str% "BufferUnderwriteError")) .nil) .nil) (.cons (.set 2 (.lit 0)) (.cons (.set 3 (.len (.var 1))) (.cons (.block (str% "write_loop") (.cons (.setBufAt (.bin .add (.var 0) (.conv .i64 (.bin .mul (.var 2) (.lit 2)))) (.conv .u8 (.bin .shr (.index (.var 1) (.var 2)) (.lit 8)))) (.cons (.setBufAt (.bin .add (.var 0) (.conv .i64 (.bin .add (.lit 1) (.bin .mul (.var 2) (.lit 2))))) (.conv .u8 (.index (.var 1) (.var 2)))) (.cons (.set 2 (.bin .add (.var 2) (.lit 1))) (.cons (.ifs (.bin .lt (.var 2) (.var 3)) (.cons (.goto (str% "write_loop")) .nil) .nil) .nil))))) .nil)))))⟩

/-- v3/buffer.generated.go:453-460 -/
def text_WriteU16BENext : List Str := [
  str% "",
  str% "// WriteU16BENext writes a slice of uint16s to the buffer at the",
  str% "// current offset in big-endian and moves the offset forward the",
  str% "// amount of bytes written",
  str% "func (b *Buffer) WriteU16BENext(data []uint16) {",
  str% "\tb.WriteU16BE(b.off, data)",
  str% "\tb.SeekByte(int64(len(data))*2, true)",
  str% "}"]

/-- v3/buffer.generated.go:453-460 -/
def fun_WriteU16BENext : Fun := ⟨(str% "WriteU16BENext"), [none], none, 1, (.cons (.expr (.call (str% "WriteU16BE") (.cons (.field .off) (.cons (.var 0) .nil)))) (.cons (.expr (.call (str% "SeekByte") (.cons (.bin .mul (.conv .i64 (.len (.var 0))) (.lit 2)) (.cons (.bool true) .nil)))) .nil))⟩

/-- v3/buffer.generated.go:461-485 -/
def text_WriteU32LE : List Str := [
  str% "",
  str% "// WriteU32LE writes a slice of uint32s to the buffer at the",
  str% "// specified offset in little-endian without modifying the internal",
  str% "// offset value",
  str% "func (b *Buffer) WriteU32LE(off int64, data []uint32) {",
  str% "\tif (off + int64(len(data))*4) > b.cap {",
  str% "\t\tpanic(BufferOverwriteError)",
  str% "\t}",
  str% "\tif off < 0 {",
  str% "\t\tpanic(BufferUnderwriteError)",
  str% "\t}",
  str% "\ti := 0",
  str% "\tn := len(data)",
  str% "\t{",
  str% "\twrite_loop:",
  str% "\t\tb.buf[off+int64(i*4)] = byte(data[i])",
  str% "\t\tb.buf[off+int64(1+(i*4))] = byte(data[i] >> 8)",
  str% "\t\tb.buf[off+int64(2+(i*4))] = byte(data[i] >> 16)",
  str% "\t\tb.buf[off+int64(3+(i*4))] = byte(data[i] >> 24)",
  str% "\t\ti++",
  str% "\t\tif i < n {",
  str% "\t\t\tgoto write_loop",
  str% "\t\t}",
  str% "\t}",
  str% "}"]

/-- v3/buffer.generated.go:461-485 -/
def fun_WriteU32LE : Fun := ⟨(str% "WriteU32LE"), [some .i64, none], none, 4, (.cons (.ifs (.bin .gt (.bin .add (.var 0) (.bin .mul (.conv .i64 (.len (.var 1))) (.lit 4))) (.field .cap)) (.cons (.panic (str% "BufferOverwriteError")) .nil) .nil) (.cons (.ifs (.bin .lt (.var 0) (.lit 0)) (.cons (.panic (str% "BufferUnderwriteError")) .nil) .nil) (.cons (.set 2 (.lit 0)) (.cons (.set 3 (.len (.var 1))) (.cons (.block (str% "write_loop") (.cons (.setBufAt (.bin .add (.var 0) (.conv .i64 (.bin .mul (.var 2) (.lit 4)))) (.conv .u8 (.index (.var 1) (.var 2)))) (.cons (.setBufAt (.bin .add (.var 0) (.conv .i64 (.bin .add (.lit 1) (.bin .mul (.var 2) (.lit 4))))) (.conv .u8 (.bin .shr (.index (.var 1) (.var 2)) (.lit 8)))) (.cons (.setBufAt (.bin .add (.var 0) (.conv .i64 (.bin .add (.lit 2) (.bin .mul (.var 2) (.lit 4))))) (.conv .u8 (.bin .shr (.index (.var 1) (.var 2)) (.lit 16)))) (.cons (.setBufAt (.bin .add (.var 0) (.conv .i64 (.bin .add (.lit 3) (.bin .mul (.var 2) (.lit 4))))) (.conv .u8 (.bin .shr (.index (.var 1) (.var 2)) (.lit 24)))) (.cons (.set 2 (.bin .add (.var 2) (.lit 1))) (.cons (.ifs (.bin .lt (.var 2) (.var 3)) (.cons (.goto (str% "write_loop")) .nil) .nil) .nil))))))) .nil)))))⟩

/-- v3/buffer.generated.go:486-493 -/
def text_WriteU32LENext : List Str := [
  str% "",
  str% "// WriteU32LENext writes a slice of uint32s to the buffer at the",
  str% "// current offset in little-endian and moves the offset forward the",
  str% "// amount of bytes written",
  str% "func (b *Buffer) WriteU32LENext(data []uint32) {",
  str% "\tb.WriteU32LE(b.off, data)",
  str% "\tb.SeekByte(int64(len(data))*4, true)",
  str% "}"]

/-- v3/buffer.generated.go:486-493 -/
def fun_WriteU32LENext : Fun := ⟨(str% "WriteU32LENext"), [none], none, 1, (.cons (.expr (.call (str% "WriteU32LE") (.cons (.field .off) (.cons (.var 0) .nil)))) (.cons (.expr (.call (str% "SeekByte") (.cons (.bin .mul (.conv .i64 (.len (.var 0))) (.lit 4)) (.cons (.bool true) .nil)))) .nil))⟩

/-- v3/buffer.generated.go:494-518 -/
def text_WriteU32BE : List Str := [
  str% "",
  str% "// WriteU32BE writes a slice of uint32s to the buffer at the",
  str% "// specified offset in big-endian without modifying the internal",
  str% "// offset value",
  str% "func (b *Buffer) WriteU32BE(off int64, data []uint32) {",
  str% "\tif (off + int64(len(data))*4) > b.cap {",
  str% "\t\tpanic(BufferOverwriteError)",
  str% "\t}",
  str% "\tif off < 0 {",
  str% "\t\tpanic(BufferUnderwriteError)",
  str% "\t}",
  str% "\ti := 0",
  str% "\tn := len(data)",
  str% "\t{",
  str% "\twrite_loop:",
  str% "\t\tb.buf[off+int64(i*4)] = byte(data[i] >> 24)",
  str% "\t\tb.buf[off+int64(1+(i*4))] = byte(data[i] >> 16)",
  str% "\t\tb.buf[off+int64(2+(i*4))] = byte(data[i] >> 8)",
  str% "\t\tb.buf[off+int64(3+(i*4))] = byte(data[i])",
  str% "\t\ti++",
  str% "\t\tif i < n {",
  str% "\t\t\tgoto write_loop",
  str% "\t\t}",
  str% "\t}",
  str% "}"]

/-- v3/buffer.generated.go:494-518 -/
def fun_WriteU32BE : Fun := ⟨(str% "WriteU32BE"), [some .i64, none], none, 4, (.cons (.ifs (.bin .gt (.bin .add (.var 0) (.bin .mul (.conv .i64 (.len (.var 1))) (.lit 4))) (.field .cap)) (.cons (.panic (str% "BufferOverwriteError")) .nil) .nil) (.cons (.ifs (.bin .lt (.var 0) (.lit 0)) (.cons (.panic (str% "BufferUnderwriteError")) .nil) .nil) (.cons (.set 2 (.lit 0)) (.cons (.set 3 (.len (.var 1))) (.cons (.block (str% "write_loop") (.cons (.setBufAt (.bin .add (.var 0) (.conv .i64 (.bin .mul (.var 2) (.lit 4)))) (.conv .u8 (.bin .shr (.index (.var 1) (.var 2)) (.lit 24)))) (.cons (.setBufAt (.bin .add (.var 0) (.conv .i64 (.bin .add (.lit 1) (.bin .mul (.var 2) (.lit 4))))) (.conv .u8 (.bin .shr (.index (.var 1) (.var 2)) (.lit 16)))) (.cons (.setBufAt (.bin .add (.var 0) (.conv .i64 (.bin .add (.lit 2) (.bin .mul (.var 2) (.lit 4))))) (.conv .u8 (.bin .shr (.index (.var 1) (.var 2)) (.lit 8)))) (.cons (.setBufAt (.bin .add (.var 0) (.conv .i64 (.bin .add (.lit 3) (.bin .mul (.var 2) (.lit 4))))) (.conv .u8 (.index (.var 1) (.var 2)))) (.cons (.set 2 (.bin .add (.var 2) (.lit 1))) (.cons (.ifs (.bin .lt (.var 2) (.var 3)) (.cons (.goto (str% "write_loop")) .nil) .nil) .nil))))))) .nil)))))⟩

/-- v3/buffer.generated.go:519-526 -/
def text_WriteU32BENext : List Str := [
  str% "",
  str% "// WriteU32BENext writes a slice of uint32s to the buffer at the",
  str% "// current offset in big-endian and moves the offset forward the",
  str% "// amount of bytes written",
  str% "func (b *Buffer) WriteU32BENext(data []uint32) {",
  str% "\tb.WriteU32BE(b.off, data)",
  str% "\tb.SeekByte(int64(len(data))*4, true)",
  str% "}"]

/-- v3/buffer.generated.go:519-526 -/
def fun_WriteU32BENext : Fun := ⟨(str% "WriteU32BENext"), [none], none, 1, (.cons (.expr (.call (str% "WriteU32BE") (.cons (.field .off) (.cons (.var 0) .nil)))) (.cons (.expr (.call (str% "SeekByte") (.cons (.bin .mul (.conv .i64 (.len (.var 0))) (.lit 4)) (.cons (.bool true) .nil)))) .nil))⟩

/-- v3/buffer.generated.go:527-555 -/
def text_WriteU64LE : List Str := [
  str% "",
  str% "// WriteU64LE writes a slice of uint64s to the buffer at the",
  str% "// specified offset in little-endian without modifying the internal",
  str% "// offset value",
  str% "func (b *Buffer) WriteU64LE(off int64, data []uint64) {",
  str% "\tif (off + int64(len(data))*8) > b.cap {",
  str% "\t\tpanic(BufferOverwriteError)",
  str% "\t}",
  str% "\tif off < 0 {",
  str% "\t\tpanic(BufferUnderwriteError)",
  str% "\t}",
  str% "\ti := 0",
  str% "\tn := len(data)",
  str% "\t{",
  str% "\twrite_loop:",
  str% "\t\tb.buf[off+int64(i*8)] = byte(data[i])",
  str% "\t\tb.buf[off+int64(1+(i*8))] = byte(data[i] >> 8)",
  str% "\t\tb.buf[off+int64(2+(i*8))] = byte(data[i] >> 16)",
  str% "\t\tb.buf[off+int64(3+(i*8))] = byte(data[i] >> 24)",
  str% "\t\tb.buf[off+int64(4+(i*8))] = byte(data[i] >> 32)",
  str% "\t\tb.buf[off+int64(5+(i*8))] = byte(data[i] >> 40)",
  str% "\t\tb.buf[off+int64(6+(i*8))] = byte(data[i] >> 48)",
  str% "\t\tb.buf[off+int64(7+(i*8))] = byte(data[i] >> 56)",
  str% "\t\ti++",
  str% "\t\tif i < n {",
  str% "\t\t\tgoto write_loop",
  str% "\t\t}",
  str% "\t}",
  str% "}"]

/-- v3/buffer.generated.go:527-555 -/
def fun_WriteU64LE : Fun := ⟨(str% "WriteU64LE"), [some .i64, none], none, 4, (.cons (.ifs (.bin .gt (.bin .add (.var 0) (.bin .mul (.conv .i64 (.len (.var 1))) (.lit 8))) (.field .cap)) (.cons (.panic (str% "BufferOverwriteError")) .nil) .nil) (.cons (.ifs (.bin .lt (.var 0) (.lit 0)) (.cons (.panic (str% "BufferUnderwriteError")) .nil) .nil) (.cons (.set 2 (.lit 0)) (.cons (.set 3 (.len (.var 1))) (.cons (.block (str% "write_loop") (.cons (.setBufAt (.bin .add (.var 0) (.conv .i64 (.bin .mul (.var 2) (.lit 8)))) (.conv .u8 (.index (.var 1) (.var 2)))) (.cons (.setBufAt (.bin .add (.var 0) (.conv .i64 (.bin .add (.lit 1) (.bin .mul (.var 2) (.lit 8))))) (.conv .u8 (.bin .shr (.index (.var 1) (.var 2)) (.lit 8)))) (.cons (.setBufAt (.bin .add (.var 0) (.conv .i64 (.bin .add (.lit 2) (.bin .mul (.var 2) (.lit 8))))) (.conv .u8 (.bin .shr (.index (.var 1) (.var 2)) (.lit 16)))) (.cons (.setBufAt (.bin .add (.var 0) (.conv .i64 (.bin .add (.lit 3) (.bin .mul (.var 2) (.lit 8))))) (.conv .u8 (.bin .shr (.index (.var 1) (.var 2)) (.lit 24)))) (.cons (.setBufAt (.bin .add (.var 0) (.conv .i64 (.bin .add (.lit 4) (.bin .mul (.var 2) (.lit 8))))) (.conv .u8 (.bin .shr (.index (.var 1) (.var 2)) (.lit 32)))) (.cons (.setBufAt (.bin .add (.var 0) (.conv .i64 (.bin .add (.lit 5) (.bin .mul (.var 2) (.lit 8))))) (.conv .u8 (.bin .shr (.index (.var 1) (.var 2)) (.lit 40)))) (.cons (.setBufAt (.bin .add (.var 0) (.conv .i64 (.bin .add (.lit 6) (.bin .mul (.var 2) (.lit 8))))) (.conv .u8 (.bin .shr (.index (.var 1) (.var 2)) (.lit 48)))) (.cons (.setBufAt (.bin .add (.var 0) (.conv .i64 (.bin .add (.lit 7) (.bin .mul (.var 2) (.lit 8))))) (.conv .u8 (.bin .shr (.index (.var 1) (.var 2)) (.lit 56)))) (.cons (.set 2 (.bin .add (.var 2) (.lit 1))) (.cons (.ifs (.bin .lt (.var 2) (.var 3)) (.cons (.goto (str% "write_loop")) .nil) .nil) .nil))))))))))) .nil)))))⟩

/-- v3/buffer.generated.go:556-563 -/
def text_WriteU64LENext : List Str := [
  str% "",
  str% "// WriteU64LENext writes a slice of uint64s to the buffer at the",
  str% "// current offset in little-endian and moves the offset forward the",
  str% "// amount of bytes written",
  str% "func (b *Buffer) WriteU64LENext(data []uint64) {",
  str% "\tb.WriteU64LE(b.off, data)",
  str% "\tb.SeekByte(int64(len(data))*8, true)",
  str% "}"]

/-- v3/buffer.generated.go:556-563 -/
def fun_WriteU64LENext : Fun := ⟨(str% "WriteU64LENext"), [none], none, 1, (.cons (.expr (.call (str% "WriteU64LE") (.cons (.field .off) (.cons (.var 0) .nil)))) (.cons (.expr (.call (str% "SeekByte") (.cons (.bin .mul (.conv .i64 (.len (.var 0))) (.lit 8)) (.cons (.bool true) .nil)))) .nil))⟩

/-- v3/buffer.generated.go:564-592 -/
def text_WriteU64BE : List Str := [
  str% "",
  str% "// WriteU64BE writes a slice of uint64s to the buffer at the",
  str% "// specified offset in big-endian without modifying the internal",
  str% "// offset value",
  str% "func (b *Buffer) WriteU64BE(off int64, data []uint64) {",
  str% "\tif (off + int64(len(data))*8) > b.cap {",
  str% "\t\tpanic(BufferOverwriteError)",
  str% "\t}",
  str% "\tif off < 0 {",
  str% "\t\tpanic(BufferUnderwriteError)",
  str% "\t}",
  str% "\ti := 0",
  str% "\tn := len(data)",
  str% "\t{",
  str% "\twrite_loop:",
  str% "\t\tb.buf[off+int64(i*8)] = byte(data[i] >> 56)",
  str% "\t\tb.buf[off+int64(1+(i*8))] = byte(data[i] >> 48)",
  str% "\t\tb.buf[off+int64(2+(i*8))] = byte(data[i] >> 40)",
  str% "\t\tb.buf[off+int64(3+(i*8))] = byte(data[i] >> 32)",
  str% "\t\tb.buf[off+int64(4+(i*8))] = byte(data[i] >> 24)",
  str% "\t\tb.buf[off+int64(5+(i*8))] = byte(data[i] >> 16)",
  str% "\t\tb.buf[off+int64(6+(i*8))] = byte(data[i] >> 8)",
  str% "\t\tb.buf[off+int64(7+(i*8))] = byte(data[i])",
  str% "\t\ti++",
  str% "\t\tif i < n {",
  str% "\t\t\tgoto write_loop",
  str% "\t\t}",
  str% "\t}",
  str% "}"]

/-- v3/buffer.generated.go:564-592 -/
def fun_WriteU64BE : Fun := ⟨(str% "WriteU64BE"), [some .i64, none], none, 4, (.cons (.ifs (.bin .gt (.bin .add (.var 0) (.bin .mul (.conv .i64 (.len (.var 1))) (.lit 8))) (.field .cap)) (.cons (.panic (str% "BufferOverwriteError")) .nil) .nil) (.cons (.ifs (.bin .lt (.var 0) (.lit 0)) (.cons (.panic (str% "BufferUnderwriteError")) .nil) .nil) (.cons (.set 2 (.lit 0)) (.cons (.set 3 (.len (.var 1))) (.cons (.block (str% "write_loop") (.cons (.setBufAt (.bin .add (.var 0) (.conv .i64 (.bin .mul (.var 2) (.lit 8)))) (.conv .u8 (.bin .shr (.index (.var 1) (.var 2)) (.lit 56)))) (.cons (.setBufAt (.bin .add (.var 0) (.conv .i64 (.bin .add (.lit 1) (.bin .mul (.var 2) (.lit 8))))) (.conv .u8 (.bin .shr (.index (.var 1) (.var 2)) (.lit 48)))) (.cons (.setBufAt (.bin .add (.var 0) (.conv .i64 (.bin .add (.lit 2) (.bin .mul (.var 2) (.lit 8))))) (.conv .u8 (.bin .shr (.index (.var 1) (.var 2)) (.lit 40)))) (.cons (.setBufAt (.bin .add (.var 0) (.conv .i64 (.bin .add (.lit 3) (.bin .mul (.var 2) (.lit 8))))) (.conv .u8 (.bin .shr (.index (.var 1) (.var 2)) (.lit 32)))) (.cons (.setBufAt (.bin .add (.var 0) (.conv .i64 (.bin .add (.lit 4) (.bin .mul (.var 2) (.lit 8))))) (.conv .u8 (.bin .shr (.index (.var 1) (.var 2)) (.lit 24)))) (.cons (.setBufAt (.bin .add (.var 0) (.conv .i64 (.bin .add (.lit 5) (.bin .mul (.var 2) (.lit 8))))) (.conv .u8 (.bin .shr (.index (.var 1) (.var 2)) (.lit 16)))) (.cons (.setBufAt (.bin .add (.var 0) (.conv .i64 (.bin .add (.lit 6) (.bin .mul (.var 2) (.lit 8))))) (.conv .u8 (.bin .shr (.index (.var 1) (.var 2)) (.lit 8)))) (.cons (.setBufAt (.bin .add (.var 0) (.conv .i64 (.bin .add (.lit 7) (.bin .mul (.var 2) (.lit 8))))) (.conv .u8 (.index (.var 1) (.var 2)))) (.cons (.set 2 (.bin .add (.var 2) (.lit 1))) (.cons (.ifs (.bin .lt (.var 2) (.var 3)) (.cons (.goto (str% "write_loop")) .nil) .nil) .nil))))))))))) .nil)))))⟩

/-- v3/buffer.generated.go:593-600 -/
def text_WriteU64BENext : List Str := [
  str% "",
  str% "// WriteU64BENext writes a slice of uint64s to the buffer at the",
  str% "// current offset in big-endian and moves the offset forward the",
  str% "// amount of bytes written",
  str% "func (b *Buffer) WriteU64BENext(data []uint64) {",
  str% "\tb.WriteU64BE(b.off, data)",
  str% "\tb.SeekByte(int64(len(data))*8, true)",
  str% "}"]

/-- v3/buffer.generated.go:593-600 -/
def fun_WriteU64BENext : Fun := ⟨(str% "WriteU64BENext"), [none], none, 1, (.cons (.expr (.call (str% "WriteU64BE") (.cons (.field .off) (.cons (.var 0) .nil)))) (.cons (.expr (.call (str% "SeekByte") (.cons (.bin .mul (.conv .i64 (.len (.var 0))) (.lit 8)) (.cons (.bool true) .nil)))) .nil))⟩

/-- v3/buffer.generated.go:601-623 -/
def text_WriteI16LE : List Str := [
  str% "",
  str% "// WriteI16LE writes a slice of int16s to the buffer at the",
  str% "// specified offset in little-endian without modifying the internal",
  str% "// offset value",
  str% "func (b *Buffer) WriteI16LE(off int64, data []int16) {",
  str% "\tif (off + int64(len(data))*2) > b.cap {",
  str% "\t\tpanic(BufferOverwriteError)",
  str% "\t}",
  str% "\tif off < 0 {",
  str% "\t\tpanic(BufferUnderwriteError)",
  str% "\t}",
  str% "\ti := 0",
  str% "\tn := len(data)",
  str% "\t{",
  str% "\twrite_loop:",
  str% "\t\tb.buf[off+int64(i*2)] = byte(data[i])",
  str% "\t\tb.buf[off+int64(1+(i*2))] = byte(data[i] >> 8)",
  str% "\t\ti++",
  str% "\t\tif i < n {",
  str% "\t\t\tgoto write_loop",
  str% "\t\t}",
  str% "\t}",
  str% "}"]

/-- v3/buffer.generated.go:601-623 -/
def fun_WriteI16LE : Fun := ⟨(str% "WriteI16LE"), [some .i64, none], none, 4, (.cons (.ifs (.bin .gt (.bin .add (.var 0) (.bin .mul (.conv .i64 (.len (.var 1))) (.lit 2))) (.field .cap)) (.cons (.panic (str% "BufferOverwriteError")) .nil) .nil) (.cons (.ifs (.bin .lt (.var 0) (.lit 0)) (.cons (.panic (str% "BufferUnderwriteError")) .nil) .nil) (.cons (.set 2 (.lit 0)) (.cons (.set 3 (.len (.var 1))) (.cons (.block (str% "write_loop") (.cons (.setBufAt (.bin .add (.var 0) (.conv .i64 (.bin .mul (.var 2) (.lit 2)))) (.conv .u8 (.index (.var 1) (.var 2)))) (.cons (.setBufAt (.bin .add (.var 0) (.conv .i64 (.bin .add (.lit 1) (.bin .mul (.var 2) (.lit 2))))) (.conv .u8 (.bin .shr (.index (.var 1) (.var 2)) (.lit 8)))) (.cons (.set 2 (.bin .add (.var 2) (.lit 1))) (.cons (.ifs (.bin .lt (.var 2) (.var 3)) (.cons (.goto (str% "write_loop")) .nil) .nil) .nil))))) .nil)))))⟩

/-- v3/buffer.generated.go:624-631 -/
def text_WriteI16LENext : List Str := [
  str% "",
  str% "// WriteI16LENext writes a slice of int16s to the buffer at the",
  str% "// current offset in little-endian and moves the offset forward the",
  str% "// amount of bytes written",
  str% "func (b *Buffer) WriteI16LENext(data []int16) {",
  str% "\tb.WriteI16LE(b.off, data)",
  str% "\tb.SeekByte(int64(len(data))*2, true)",
  str% "}"]

/-- v3/buffer.generated.go:624-631 -/
def fun_WriteI16LENext : Fun := ⟨(str% "WriteI16LENext"), [none], none, 1, (.cons (.expr (.call (str% "WriteI16LE") (.cons (.field .off) (.cons (.var 0) .nil)))) (.cons (.expr (.call (str% "SeekByte") (.cons (.bin .mul (.conv .i64 (.len (.var 0))) (.lit 2)) (.cons (.bool true) .nil)))) .nil))⟩

/-- v3/buffer.generated.go:632-654 -/
def text_WriteI16BE : List Str := [
  str% "",
  str% "// WriteI16BE writes a slice of int16s to the buffer at the",
  str% "// specified offset in big-endian without modifying the internal",
  str% "// offset value",
  str% "func (b *Buffer) WriteI16BE(off int64, data []int16) {",
  str% "\tif (off + int64(len(data))*2) > b.cap {",
  str% "\t\tpanic(BufferOverwriteError)",
  str% "\t}",
  str% "\tif off < 0 {",
  str% "\t\tpanic(BufferUnderwriteError)",
  str% "\t}",
  str% "\ti := 0",
  str% "\tn := len(data)",
  str% "\t{",
  str% "\twrite_loop:",
  str% "\t\tb.buf[off+int64(i*2)] = byte(data[i] >> 8)",
  str% "\t\tb.buf[off+int64(1+(i*2))] = byte(data[i])",
  str% "\t\ti++",
  str% "\t\tif i < n {",
  str% "\t\t\tgoto write_loop",
  str% "\t\t}",
  str% "\t}",
  str% "}"]

/-- v3/buffer.generated.go:632-654 -/
def fun_WriteI16BE : Fun := ⟨(str% "WriteI16BE"), [some .i64, none], none, 4, (.cons (.ifs (.bin .gt (.bin .add (.var 0) (.bin .mul (.conv .i64 (.len (.var 1))) (.lit 2))) (.field .cap)) (.cons (.panic (str% "BufferOverwriteError")) .nil) .nil) (.cons (.ifs (.bin .lt (.var 0) (.lit 0)) (.cons (.panic (str% "BufferUnderwriteError")) .nil) .nil) (.cons (.set 2 (.lit 0)) (.cons (.set 3 (.len (.var 1))) (.cons (.block (str% "write_loop") (.cons (.setBufAt (.bin .add (.var 0) (.conv .i64 (.bin .mul (.var 2) (.lit 2)))) (.conv .u8 (.bin .shr (.index (.var 1) (.var 2)) (.lit 8)))) (.cons (.setBufAt (.bin .add (.var 0) (.conv .i64 (.bin .add (.lit 1) (.bin .mul (.var 2) (.lit 2))))) (.conv .u8 (.index (.var 1) (.var 2)))) (.cons (.set 2 (.bin .add (.var 2) (.lit 1))) (.cons (.ifs (.bin .lt (.var 2) (.var 3)) (.cons (.goto (str% "write_loop")) .nil) .nil) .nil))))) .nil)))))⟩

/-- v3/buffer.generated.go:655-662 -/
def text_WriteI16BENext : List Str := [
  str% "",
  str% "// WriteI16BENext writes a slice of int16s to the buffer at the",
  str% "// current offset in big-endian and moves the offset forward the",
  str% "// amount of bytes written",
  str% "func (b *Buffer) WriteI16BENext(data []int16) {",
  str% "\tb.WriteI16BE(b.off, data)",
  str% "\tb.SeekByte(int64(len(data))*2, true)",
  str% "}"]

/-- v3/buffer.generated.go:655-662 -/
def fun_WriteI16BENext : Fun := ⟨(str% "WriteI16BENext"), [none], none, 1, (.cons (.expr (.call (str% "WriteI16BE") (.cons (.field .off) (.cons (.var 0) .nil)))) (.cons (.expr (.call (str% "SeekByte") (.cons (.bin .mul (.conv .i64 (.len (.var 0))) (.lit 2)) (.cons (.bool true) .nil)))) .nil))⟩

/-- v3/buffer.generated.go:663-687 -/
def text_WriteI32LE : List Str := [
  str% "",
  str% "// WriteI32LE writes a slice of int32s to the buffer at the",
  str% "// specified offset in little-endian without modifying the internal",
  str% "// offset value",
  str% "func (b *Buffer) WriteI32LE(off int64, data []int32) {",
  str% "\tif (off + int64(len(data))*4) > b.cap {",
  str% "\t\tpanic(BufferOverwriteError)",
  str% "\t}",
  str% "\tif off < 0 {",
  str% "\t\tpanic(BufferUnderwriteError)",
  str% "\t}",
  str% "\ti := 0",
  str% "\tn := len(data)",
  str% "\t{",
  str% "\twrite_loop:",
  str% "\t\tb.buf[off+int64(i*4)] = byte(data[i])",
  str% "\t\tb.buf[off+int64(1+(i*4))] = byte(data[i] >> 8)",
  str% "\t\tb.buf[off+int64(2+(i*4))] = byte(data[i] >> 16)",
  str% "\t\tb.buf[off+int64(3+(i*4))] = byte(data[i] >> 24)",
  str% "\t\ti++",
  str% "\t\tif i < n {",
  str% "\t\t\tgoto write_loop",
  str% "\t\t}",
  str% "\t}",
  str% "}"]

/-- v3/buffer.generated.go:663-687 -/
def fun_WriteI32LE : Fun := ⟨(str% "WriteI32LE"), [some .i64, none], none, 4, (.cons (.ifs (.bin .gt (.bin .add (.var 0) (.bin .mul (.conv .i64 (.len (.var 1))) (.lit 4))) (.field .cap)) (.cons (.panic (str% "BufferOverwriteError")) .nil) .nil) (.cons (.ifs (.bin .lt (.var 0) (.lit 0)) (.cons (.panic (str% "BufferUnderwriteError")) .nil) .nil) (.cons (.set 2 (.lit 0)) (.cons (.set 3 (.len (.var 1))) (.cons (.block (str% "write_loop") (.cons (.setBufAt (.bin .add (.var 0) (.conv .i64 (.bin .mul (.var 2) (.lit 4)))) (.conv .u8 (.index (.var 1) (.var 2)))) (.cons (.setBufAt (.bin .add (.var 0) (.conv .i64 (.bin .add (.lit 1) (.bin .mul (.var 2) (.lit 4))))) (.conv .u8 (.bin .shr (.index (.var 1) (.var 2)) (.lit 8)))) (.cons (.setBufAt (.bin .add (.var 0) (.conv .i64 (.bin .add (.lit 2) (.bin .mul (.var 2) (.lit 4))))) (.conv .u8 (.bin .shr (.index (.var 1) (.var 2)) (.lit 16)))) (.cons (.setBufAt (.bin .add (.var 0) (.conv .i64 (.bin .add (.lit 3) (.bin .mul (.var 2) (.lit 4))))) (.conv .u8 (.bin .shr (.index (.var 1) (.var 2)) (.lit 24)))) (.cons (.set 2 (.bin .add (.var 2) (.lit 1))) (.cons (.ifs (.bin .lt (.var 2) (.var 3)) (.cons (.goto (str% "write_loop")) .nil) .nil) .nil))))))) .nil)))))⟩

/-- v3/buffer.generated.go:688-695 -/
def text_WriteI32LENext : List Str := [
  str% "",
  str% "// WriteI32LENext writes a slice of int32s to the buffer at the",
  str% "// current offset in little-endian and moves the offset forward the",
  str% "// amount of bytes written",
  str% "func (b *Buffer) WriteI32LENext(data []int32) {",
  str% "\tb.WriteI32LE(b.off, data)",
  str% "\tb.SeekByte(int64(len(data))*4, true)",
  str% "}"]

/-- v3/buffer.generated.go:688-695 -/
def fun_WriteI32LENext : Fun := ⟨(str% "WriteI32LENext"), [none], none, 1, (.cons (.expr (.call (str% "WriteI32LE") (.cons (.field .off) (.cons (.var 0) .nil)))) (.cons (.expr (.call (str% "SeekByte") (.cons (.bin .mul (.conv .i64 (.len (.var 0))) (.lit 4)) (.cons (.bool true) .nil)))) .nil))⟩

/-- v3/buffer.generated.go:696-720 -/
def text_WriteI32BE : List Str := [
  str% "",
  str% "// WriteI32BE writes a slice of int32s to the buffer at the",
  str% "// specified offset in big-endian without modifying the internal",
  str% "// offset value",
  str% "func (b *Buffer) WriteI32BE(off int64, data []int32) {",
  str% "\tif (off + int64(len(data))*4) > b.cap {",
  str% "\t\tpanic(BufferOverwriteError)",
  str% "\t}",
  str% "\tif off < 0 {",
  str% "\t\tpanic(BufferUnderwriteError)",
  str% "\t}",
  str% "\ti := 0",
  str% "\tn := len(data)",
  str% "\t{",
  str% "\twrite_loop:",
  str% "\t\tb.buf[off+int64(i*4)] = byte(data[i] >> 24)",
  str% "\t\tb.buf[off+int64(1+(i*4))] = byte(data[i] >> 16)",
  str% "\t\tb.buf[off+int64(2+(i*4))] = byte(data[i] >> 8)",
  str% "\t\tb.buf[off+int64(3+(i*4))] = byte(data[i])",
  str% "\t\ti++",
  str% "\t\tif i < n {",
  str% "\t\t\tgoto write_loop",
  str% "\t\t}",
  str% "\t}",
  str% "}"]

/-- v3/buffer.generated.go:696-720 -/
def fun_WriteI32BE : Fun := ⟨(str% "WriteI32BE"), [some .i64, none], none, 4, (.cons (.ifs (.bin .gt (.bin .add (.var 0) (.bin .mul (.conv .i64 (.len (.var 1))) (.lit 4))) (.field .cap)) (.cons (.panic (str% "BufferOverwriteError")) .nil) .nil) (.cons (.ifs (.bin .lt (.var 0) (.lit 0)) (.cons (.panic (str% "BufferUnderwriteError")) .nil) .nil) (.cons (.set 2 (.lit 0)) (.cons (.set 3 (.len (.var 1))) (.cons (.block (str% "write_loop") (.cons (.setBufAt (.bin .add (.var 0) (.conv .i64 (.bin .mul (.var 2) (.lit 4)))) (.conv .u8 (.bin .shr (.index (.var 1) (.var 2)) (.lit 24)))) (.cons (.setBufAt (.bin .add (.var 0) (.conv .i64 (.bin .add (.lit 1) (.bin .mul (.var 2) (.lit 4))))) (.conv .u8 (.bin .shr (.index (.var 1) (.var 2)) (.lit 16)))) (.cons (.setBufAt (.bin .add (.var 0) (.conv .i64 (.bin .add (.lit 2) (.bin .mul (.var 2) (.lit 4))))) (.conv .u8 (.bin .shr (.index (.var 1) (.var 2)) (.lit 8)))) (.cons (.setBufAt (.bin .add (.var 0) (.conv .i64 (.bin .add (.lit 3) (.bin .mul (.var 2) (.lit 4))))) (.conv .u8 (.index (.var 1) (.var 2)))) (.cons (.set 2 (.bin .add (.var 2) (.lit 1))) (.cons (.ifs (.bin .lt (.var 2) (.var 3)) (.cons (.goto (str% "write_loop")) .nil) .nil) .nil))))))) .nil)))))⟩

/-- v3/buffer.generated.go:721-728 -/
def text_WriteI32BENext : List Str := [
  str% "",
  str% "// WriteI32BENext writes a slice of int32s to the buffer at the",
  str% "// current offset in big-endian and moves the offset forward the",
  str% "// amount of bytes written",
  str% "func (b *Buffer) WriteI32BENext(data []int32) {",
  str% "\tb.WriteI32BE(b.off, data)",
  str% "\tb.SeekByte(int64(len(data))*4, true)",
  str% "}"]

/-- v3/buffer.generated.go:721-728 -/
def fun_WriteI32BENext : Fun := ⟨(str% "WriteI32BENext"), [none], none, 1, (.cons (.expr (.call (str% "WriteI32BE") (.cons (.field .off) (.cons (.var 0) .nil)))) (.cons (.expr (.call (str% "SeekByte") (.cons (.bin .mul (.conv .i64 (.len (.var 0))) (.lit 4)) (.cons (.bool true) .nil)))) .nil))⟩

/-- v3/buffer.generated.go:729-757 -/
def text_WriteI64LE : List Str := [
  str% "",
  str% "// WriteI64LE writes a slice of int64s to the buffer at the",
  str% "// specified offset in little-endian without modifying the internal",
  str% "// offset value",
  str% "func (b *Buffer) WriteI64LE(off int64, data []int64) {",
  str% "\tif (off + int64(len(data))*8) > b.cap {",
  str% "\t\tpanic(BufferOverwriteError)",
  str% "\t}",
  str% "\tif off < 0 {",
  str% "\t\tpanic(BufferUnderwriteError)",
  str% "\t}",
  str% "\ti := 0",
  str% "\tn := len(data)",
  str% "\t{",
  str% "\twrite_loop:",
  str% "\t\tb.buf[off+int64(i*8)] = byte(data[i])",
  str% "\t\tb.buf[off+int64(1+(i*8))] = byte(data[i] >> 8)",
  str% "\t\tb.buf[off+int64(2+(i*8))] = byte(data[i] >> 16)",
  str% "\t\tb.buf[off+int64(3+(i*8))] = byte(data[i] >> 24)",
  str% "\t\tb.buf[off+int64(4+(i*8))] = byte(data[i] >> 32)",
  str% "\t\tb.buf[off+int64(5+(i*8))] = byte(data[i] >> 40)",
  str% "\t\tb.buf[off+int64(6+(i*8))] = byte(data[i] >> 48)",
  str% "\t\tb.buf[off+int64(7+(i*8))] = byte(data[i] >> 56)",
  str% "\t\ti++",
  str% "\t\tif i < n {",
  str% "\t\t\tgoto write_loop",
  str% "\t\t}",
  str% "\t}",
  str% "}"]

/-- v3/buffer.generated.go:729-757 -/
def fun_WriteI64LE : Fun := ⟨(str% "WriteI64LE"), [some .i64, none], none, 4, (.cons (.ifs (.bin .gt (.bin .add (.var 0) (.bin .mul (.conv .i64 (.len (.var 1))) (.lit 8))) (.field .cap)) (.cons (.panic (str% "BufferOverwriteError")) .nil) .nil) (.cons (.ifs (.bin .lt (.var 0) (.lit 0)) (.cons (.panic (str% "BufferUnderwriteError")) .nil) .nil) (.cons (.set 2 (.lit 0)) (.cons (.set 3 (.len (.var 1))) (.cons (.block (str% "write_loop") (.cons (.setBufAt (.bin .add (.var 0) (.conv .i64 (.bin .mul (.var 2) (.lit 8)))) (.conv .u8 (.index (.var 1) (.var 2)))) (.cons (.setBufAt (.bin .add (.var 0) (.conv .i64 (.bin .add (.lit 1) (.bin .mul (.var 2) (.lit 8))))) (.conv .u8 (.bin .shr (.index (.var 1) (.var 2)) (.lit 8)))) (.cons (.setBufAt (.bin .add (.var 0) (.conv .i64 (.bin .add (.lit 2) (.bin .mul (.var 2) (.lit 8))))) (.conv .u8 (.bin .shr (.index (.var 1) (.var 2)) (.lit 16)))) (.cons (.setBufAt (.bin .add (.var 0) (.conv .i64 (.bin .add (.lit 3) (.bin .mul (.var 2) (.lit 8))))) (.conv .u8 (.bin .shr (.index (.var 1) (.var 2)) (.lit 24)))) (.cons (.setBufAt (.bin .add (.var 0) (.conv .i64 (.bin .add (.lit 4) (.bin .mul (.var 2) (.lit 8))))) (.conv .u8 (.bin .shr (.index (.var 1) (.var 2)) (.lit 32)))) (.cons (.setBufAt (.bin .add (.var 0) (.conv .i64 (.bin .add (.lit 5) (.bin .mul (.var 2) (.lit 8))))) (.conv .u8 (.bin .shr (.index (.var 1) (.var 2)) (.lit 40)))) (.cons (.setBufAt (.bin .add (.var 0) (.conv .i64 (.bin .add (.lit 6) (.bin .mul (.var 2) (.lit 8))))) (.conv .u8 (.bin .shr (.index (.var 1) (.var 2)) (.lit 48)))) (.cons (.setBufAt (.bin .add (.var 0) (.conv .i64 (.bin .add (.lit 7) (.bin .mul (.var 2) (.lit 8))))) (.conv .u8 (.bin .shr (.index (.var 1) (.var 2)) (.lit 56)))) (.cons (.set 2 (.bin .add (.var 2) (.lit 1))) (.cons (.ifs (.bin .lt (.var 2) (.var 3)) (.cons (.goto (str% "write_loop")) .nil) .nil) .nil))))))))))) .nil)))))⟩

/-- v3/buffer.generated.go:758-765 -/
def text_WriteI64LENext : List Str := [
  str% "",
  str% "// WriteI64LENext writes a slice of int64s to the buffer at the",
  str% "// current offset in little-endian and moves the offset forward the",
  str% "// amount of bytes written",
  str% "func (b *Buffer) WriteI64LENext(data []int64) {",
  str% "\tb.WriteI64LE(b.off, data)",
  str% "\tb.SeekByte(int64(len(data))*8, true)",
  str% "}"]

/-- v3/buffer.generated.go:758-765 -/
def fun_WriteI64LENext : Fun := ⟨(str% "WriteI64LENext"), [none], none, 1, (.cons (.expr (.call (str% "WriteI64LE") (.cons (.field .off) (.cons (.var 0) .nil)))) (.cons (.expr (.call (str% "SeekByte") (.cons (.bin .mul (.conv .i64 (.len (.var 0))) (.lit 8)) (.cons (.bool true) .nil)))) .nil))⟩

/-- v3/buffer.generated.go:766-794 -/
def text_WriteI64BE : List Str := [
  str% "",
  str% "// WriteI64BE writes a slice of int64s to the buffer at the",
  str% "// specified offset in big-endian without modifying the internal",
  str% "// offset value",
  str% "func (b *Buffer) WriteI64BE(off int64, data []int64) {",
  str% "\tif (off + int64(len(data))*8) > b.cap {",
  str% "\t\tpanic(BufferOverwriteError)",
  str% "\t}",
  str% "\tif off < 0 {",
  str% "\t\tpanic(BufferUnderwriteError)",
  str% "\t}",
  str% "\ti := 0",
  str% "\tn := len(data)",
  str% "\t{",
  str% "\twrite_loop:",
  str% "\t\tb.buf[off+int64(i*8)] = byte(data[i] >> 56)",
  str% "\t\tb.buf[off+int64(1+(i*8))] = byte(data[i] >> 48)",
  str% "\t\tb.buf[off+int64(2+(i*8))] = byte(data[i] >> 40)",
  str% "\t\tb.buf[off+int64(3+(i*8))] = byte(data[i] >> 32)",
  str% "\t\tb.buf[off+int64(4+(i*8))] = byte(data[i] >> 24)",
  str% "\t\tb.buf[off+int64(5+(i*8))] = byte(data[i] >> 16)",
  str% "\t\tb.buf[off+int64(6+(i*8))] = byte(data[i] >> 8)",
  str% "\t\tb.buf[off+int64(7+(i*8))] = byte(data[i])",
  str% "\t\ti++",
  str% "\t\tif i < n {",
  str% "\t\t\tgoto write_loop",
  str% "\t\t}",
  str% "\t}",
  str% "}"]

/-- v3/buffer.generated.go:766-794 -/
def fun_WriteI64BE : Fun := ⟨(str% "WriteI64BE"), [some .i64, none], none, 4, (.cons (.ifs (.bin .gt (.bin .add (.var 0) (.bin .mul (.conv .i64 (.len (.var 1))) (.lit 8))) (.field .cap)) (.cons (.panic (str% "BufferOverwriteError")) .nil) .nil) (.cons (.ifs (.bin .lt (.var 0) (.lit 0)) (.cons (.panic (str% "BufferUnderwriteError")) .nil) .nil) (.cons (.set 2 (.lit 0)) (.cons (.set 3 (.len (.var 1))) (.cons (.block (str% "write_loop") (.cons (.setBufAt (.bin .add (.var 0) (.conv .i64 (.bin .mul (.var 2) (.lit 8)))) (.conv .u8 (.bin .shr (.index (.var 1) (.var 2)) (.lit 56)))) (.cons (.setBufAt (.bin .add (.var 0) (.conv .i64 (.bin .add (.lit 1) (.bin .mul (.var 2) (.lit 8))))) (.conv .u8 (.bin .shr (.index (.var 1) (.var 2)) (.lit 48)))) (.cons (.setBufAt (.bin .add (.var 0) (.conv .i64 (.bin .add (.lit 2) (.bin .mul (.var 2) (.lit 8))))) (.conv .u8 (.bin .shr (.index (.var 1) (.var 2)) (.lit 40)))) (.cons (.setBufAt (.bin .add (.var 0) (.conv .i64 (.bin .add (.lit 3) (.bin .mul (.var 2) (.lit 8))))) (.conv .u8 (.bin .shr (.index (.var 1) (.var 2)) (.lit 32)))) (.cons (.setBufAt (.bin .add (.var 0) (.conv .i64 (.bin .add (.lit 4) (.bin .mul (.var 2) (.lit 8))))) (.conv .u8 (.bin .shr (.index (.var 1) (.var 2)) (.lit 24)))) (.cons (.setBufAt (.bin .add (.var 0) (.conv .i64 (.bin .add (.lit 5) (.bin .mul (.var 2) (.lit 8))))) (.conv .u8 (.bin .shr (.index (.var 1) (.var 2)) (.lit 16)))) (.cons (.setBufAt (.bin .add (.var 0) (.conv .i64 (.bin .add (.lit 6) (.bin .mul (.var 2) (.lit 8))))) (.conv .u8 (.bin .shr (.index (.var 1) (.var 2)) (.lit 8)))) (.cons (.setBufAt (.bin .add (.var 0) (.conv .i64 (.bin .add (.lit 7) (.bin .mul (.var 2) (.lit 8))))) (.conv .u8 (.index (.var 1) (.var 2)))) (.cons (.set 2 (.bin .add (.var 2) (.lit 1))) (.cons (.ifs (.bin .lt (.var 2) (.var 3)) (.cons (.goto (str% "write_loop")) .nil) .nil) .nil))))))))))) .nil)))))⟩

/-- v3/buffer.generated.go:795-802 -/
def text_WriteI64BENext : List Str := [
  str% "",
  str% "// WriteI64BENext writes a slice of int64s to the buffer at the",
  str% "// current offset in big-endian and moves the offset forward the",
  str% "// amount of bytes written",
  str% "func (b *Buffer) WriteI64BENext(data []int64) {",
  str% "\tb.WriteI64BE(b.off, data)",
  str% "\tb.SeekByte(int64(len(data))*8, true)",
  str% "}"]

/-- v3/buffer.generated.go:795-802 -/
def fun_WriteI64BENext : Fun := ⟨(str% "WriteI64BENext"), [none], none, 1, (.cons (.expr (.call (str% "WriteI64BE") (.cons (.field .off) (.cons (.var 0) .nil)))) (.cons (.expr (.call (str% "SeekByte") (.cons (.bin .mul (.conv .i64 (.len (.var 0))) (.lit 8)) (.cons (.bool true) .nil)))) .nil))⟩

/-- v3/buffer.generated.go:803-827 -/
def text_WriteF32LE : List Str := [
  str% "",
  str% "// WriteF32LE writes a slice of float32s to the buffer at the",
  str% "// specified offset in little-endian without modifying the internal",
  str% "// offset value",
  str% "func (b *Buffer) WriteF32LE(off int64, data []float32) {",
  str% "\tif (off + int64(len(data))*4) > b.cap {",
  str% "\t\tpanic(BufferOverwriteError)",
  str% "\t}",
  str% "\tif off < 0 {",
  str% "\t\tpanic(BufferUnderwriteError)",
  str% "\t}",
  str% "\ti := 0",
  str% "\tn := len(data)",
  str% "\t{",
  str% "\twrite_loop:",
  str% "\t\tb.buf[off+int64(i*4)] = byte(*(*uint32)(unsafe.Pointer(&data[i])))",
  str% "\t\tb.buf[off+int64(1+(i*4))] = byte(*(*uint32)(unsafe.Pointer(&data[i])) >> 8)",
  str% "\t\tb.buf[off+int64(2+(i*4))] = byte(*(*uint32)(unsafe.Pointer(&data[i])) >> 16)",
  str% "\t\tb.buf[off+int64(3+(i*4))] = byte(*(*uint32)(unsafe.Pointer(&data[i])) >> 24)",
  str% "\t\ti++",
  str% "\t\tif i < n {",
  str% "\t\t\tgoto write_loop",
  str% "\t\t}",
  str% "\t}",
  str% "}"]

/-- v3/buffer.generated.go:803-827 -/
def fun_WriteF32LE : Fun := ⟨(str% "WriteF32LE"), [some .i64, none], none, 4, (.cons (.ifs (.bin .gt (.bin .add (.var 0) (.bin .mul (.conv .i64 (.len (.var 1))) (.lit 4))) (.field .cap)) (.cons (.panic (str% "BufferOverwriteError")) .nil) .nil) (.cons (.ifs (.bin .lt (.var 0) (.lit 0)) (.cons (.panic (str% "BufferUnderwriteError")) .nil) .nil) (.cons (.set 2 (.lit 0)) (.cons (.set 3 (.len (.var 1))) (.cons (.block (str% "write_loop") (.cons (.setBufAt (.bin .add (.var 0) (.conv .i64 (.bin .mul (.var 2) (.lit 4)))) (.conv .u8 (.bits .u32 (.index (.var 1) (.var 2))))) (.cons (.setBufAt (.bin .add (.var 0) (.conv .i64 (.bin .add (.lit 1) (.bin .mul (.var 2) (.lit 4))))) (.conv .u8 (.bin .shr (.bits .u32 (.index (.var 1) (.var 2))) (.lit 8)))) (.cons (.setBufAt (.bin .add (.var 0) (.conv .i64 (.bin .add (.lit 2) (.bin .mul (.var 2) (.lit 4))))) (.conv .u8 (.bin .shr (.bits .u32 (.index (.var 1) (.var 2))) (.lit 16)))) (.cons (.setBufAt (.bin .add (.var 0) (.conv .i64 (.bin .add (.lit 3) (.bin .mul (.var 2) (.lit 4))))) (.conv .u8 (.bin .shr (.bits .u32 (.index (.var 1) (.var 2))) (.lit 24)))) (.cons (.set 2 (.bin .add (.var 2) (.lit 1))) (.cons (.ifs (.bin .lt (.var 2) (.var 3)) (.cons (.goto (str% "write_loop")) .nil) .nil) .nil))))))) .nil)))))⟩

/-- v3/buffer.generated.go:828-835 -/
def text_WriteF32LENext : List Str := [
  str% "",
  str% "// WriteF32LENext writes a slice of float32s to the buffer at the",
  str% "// current offset in little-endian and moves the offset forward the",
  str% "// amount of bytes written",
  str% "func (b *Buffer) WriteF32LENext(data []float32) {",
  str% "\tb.WriteF32LE(b.off, data)",
  str% "\tb.SeekByte(int64(len(data))*4, true)",
  str% "}"]

/-- v3/buffer.generated.go:828-835 -/
def fun_WriteF32LENext : Fun := ⟨(str% "WriteF32LENext"), [none], none, 1, (.cons (.expr (.call (str% "WriteF32LE") (.cons (.field .off) (.cons (.var 0) .nil)))) (.cons (.expr (.call (str% "SeekByte") (.cons (.bin .mul (.conv .i64 (.len (.var 0))) (.lit 4)) (.cons (.bool true) .nil)))) .nil))⟩

/-- v3/buffer.generated.go:836-860 -/
def text_WriteF32BE : List Str := [
  str% "",
  str% "// WriteF32BE writes a slice of float32s to the buffer at the",
  str% "// specified offset in big-endian without modifying the internal",
  str% "// offset value",
  str% "func (b *Buffer) WriteF32BE(off int64, data []float32) {",
  str% "\tif (off + int64(len(data))*4) > b.cap {",
  str% "\t\tpanic(BufferOverwriteError)",
  str% "\t}",
  str% "\tif off < 0 {",
  str% "\t\tpanic(BufferUnderwriteError)",
  str% "\t}",
  str% "\ti := 0",
  str% "\tn := len(data)",
  str% "\t{",
  str% "\twrite_loop:",
  str% "\t\tb.buf[off+int64(i*4)] = byte(*(*uint32)(unsafe.Pointer(&data[i])) >> 24)",
  str% "\t\tb.buf[off+int64(1+(i*4))] = byte(*(*uint32)(unsafe.Pointer(&data[i])) >> 16)",
  str% "\t\tb.buf[off+int64(2+(i*4))] = byte(*(*uint32)(unsafe.Pointer(&data[i])) >> 8)",
  str% "\t\tb.buf[off+int64(3+(i*4))] = byte(*(*uint32)(unsafe.Pointer(&data[i])))",
  str% "\t\ti++",
  str% "\t\tif i < n {",
  str% "\t\t\tgoto write_loop",
  str% "\t\t}",
  str% "\t}",
  str% "}"]

/-- v3/buffer.generated.go:836-860 -/
def fun_WriteF32BE : Fun := ⟨(str% "WriteF32BE"), [some .i64, none], none, 4, (.cons (.ifs (.bin .gt (.bin .add (.var 0) (.bin .mul (.conv .i64 (.len (.var 1))) (.lit 4))) (.field .cap)) (.cons (.panic (str% "BufferOverwriteError")) .nil) .nil) (.cons (.ifs (.bin .lt (.var 0) (.lit 0)) (.cons (.panic (str% "BufferUnderwriteError")) .nil) .nil) (.cons (.set 2 (.lit 0)) (.cons (.set 3 (.len (.var 1))) (.cons (.block (str% "write_loop") (.cons (.setBufAt (.bin .add (.var 0) (.conv .i64 (.bin .mul (.var 2) (.lit 4)))) (.conv .u8 (.bin .shr (.bits .u32 (.index (.var 1) (.var 2))) (.lit 24)))) (.cons (.setBufAt (.bin .add (.var 0) (.conv .i64 (.bin .add (.lit 1) (.bin .mul (.var 2) (.lit 4))))) (.conv .u8 (.bin .shr (.bits .u32 (.index (.var 1) (.var 2))) (.lit 16)))) (.cons (.setBufAt (.bin .add (.var 0) (.conv .i64 (.bin .add (.lit 2) (.bin .mul (.var 2) (.lit 4))))) (.conv .u8 (.bin .shr (.bits .u32 (.index (.var 1) (.var 2))) (.lit 8)))) (.cons (.setBufAt (.bin .add (.var 0) (.conv .i64 (.bin .add (.lit 3) (.bin .mul (.var 2) (.lit 4))))) (.conv .u8 (.bits .u32 (.index (.var 1) (.var 2))))) (.cons (.set 2 (.bin .add (.var 2) (.lit 1))) (.cons (.ifs (.bin .lt (.var 2) (.var 3)) (.cons (.goto (str% "write_loop")) .nil) .nil) .nil))))))) .nil)))))⟩

/-- v3/buffer.generated.go:861-868 -/
def text_WriteF32BENext : List Str := [
  str% "",
  str% "// WriteF32BENext writes a slice of float32s to the buffer at the",
  str% "// current offset in big-endian and moves the offset forward the",
  str% "// amount of bytes written",
  str% "func (b *Buffer) WriteF32BENext(data []float32) {",
  str% "\tb.WriteF32BE(b.off, data)",
  str% "\tb.SeekByte(int64(len(data))*4, true)",
  str% "}"]

/-- v3/buffer.generated.go:861-868 -/
def fun_WriteF32BENext : Fun := ⟨(str% "WriteF32BENext"), [none], none, 1, (.cons (.expr (.call (str% "WriteF32BE") (.cons (.field .off) (.cons (.var 0) .nil)))) (.cons (.expr (.call (str% "SeekByte") (.cons (.bin .mul (.conv .i64 (.len (.var 0))) (.lit 4)) (.cons (.bool true) .nil)))) .nil))⟩

/-- v3/buffer.generated.go:869-897 -/
def text_WriteF64LE : List Str := [
  str% "",
  str% "// WriteF64LE writes a slice of float64s to the buffer at the",
  str% "// specified offset in little-endian without modifying the internal",
  str% "// offset value",
  str% "func (b *Buffer) WriteF64LE(off int64, data []float64) {",
  str% "\tif (off + int64(len(data))*8) > b.cap {",
  str% "\t\tpanic(BufferOverwriteError)",
  str% "\t}",
  str% "\tif off < 0 {",
  str% "\t\tpanic(BufferUnderwriteError)",
  str% "\t}",
  str% "\ti := 0",
  str% "\tn := len(data)",
  str% "\t{",
  str% "\twrite_loop:",
  str% "\t\tb.buf[off+int64(i*8)] = byte(*(*uint64)(unsafe.Pointer(&data[i])))",
  str% "\t\tb.buf[off+int64(1+(i*8))] = byte(*(*uint64)(unsafe.Pointer(&data[i])) >> 8)",
  str% "\t\tb.buf[off+int64(2+(i*8))] = byte(*(*uint64)(unsafe.Pointer(&data[i])) >> 16)",
  str% "\t\tb.buf[off+int64(3+(i*8))] = byte(*(*uint64)(unsafe.Pointer(&data[i])) >> 24)",
  str% "\t\tb.buf[off+int64(4+(i*8))] = byte(*(*uint64)(unsafe.Pointer(&data[i])) >> 32)",
  str% "\t\tb.buf[off+int64(5+(i*8))] = byte(*(*uint64)(unsafe.Pointer(&data[i])) >> 40)",
  str% "\t\tb.buf[off+int64(6+(i*8))] = byte(*(*uint64)(unsafe.Pointer(&data[i])) >> 48)",
  str% "\t\tb.buf[off+int64(7+(i*8))] = byte(*(*uint64)(unsafe.Pointer(&data[i])) >> 56)",
  str% "\t\ti++",
  str% "\t\tif i < n {",
  str% "\t\t\tgoto write_loop",
  str% "\t\t}",
  str% "\t}",
  str% "}"]

/-- v3/buffer.generated.go:869-897 -/
def fun_WriteF64LE : Fun := ⟨(str% "WriteF64LE"), [some .i64, none], none, 4, (.cons (.ifs (.bin .gt (.bin .add (.var 0) (.bin .mul (.conv .i64 (.len (.var 1))) (.lit 8))) (.field .cap)) (.cons (.panic (str% "BufferOverwriteError")) .nil) .nil) (.cons (.ifs (.bin .lt (.var 0) (.lit 0)) (.cons (.panic (str% "BufferUnderwriteError")) .nil) .nil) (.cons (.set 2 (.lit 0)) (.cons (.set 3 (.len (.var 1))) (.cons (.block (str% "write_loop") (.cons (.setBufAt (.bin .add (.var 0) (.conv .i64 (.bin .mul (.var 2) (.lit 8)))) (.conv .u8 (.bits .u64 (.index (.var 1) (.var 2))))) (.cons (.setBufAt (.bin .add (.var 0) (.conv .i64 (.bin .add (.lit 1) (.bin .mul (.var 2) (.lit 8))))) (.conv .u8 (.bin .shr (.bits .u64 (.index (.var 1) (.var 2))) (.lit 8)))) (.cons (.setBufAt (.bin .add (.var 0) (.conv .i64 (.bin .add (.lit 2) (.bin .mul (.var 2) (.lit 8))))) (.conv .u8 (.bin .shr (.bits .u64 (.index (.var 1) (.var 2))) (.lit 16)))) (.cons (.setBufAt (.bin .add (.var 0) (.conv .i64 (.bin .add (.lit 3) (.bin .mul (.var 2) (.lit 8))))) (.conv .u8 (.bin .shr (.bits .u64 (.index (.var 1) (.var 2))) (.lit 24)))) (.cons (.setBufAt (.bin .add (.var 0) (.conv .i64 (.bin .add (.lit 4) (.bin .mul (.var 2) (.lit 8))))) (.conv .u8 (.bin .shr (.bits .u64 (.index (.var 1) (.var 2))) (.lit 32)))) (.cons (.setBufAt (.bin .add (.var 0) (.conv .i64 (.bin .add (.lit 5) (.bin .mul (.var 2) (.lit 8))))) (.conv .u8 (.bin .shr (.bits .u64 (.index (.var 1) (.var 2))) (.lit 40)))) (.cons (.setBufAt (.bin .add (.var 0) (.conv .i64 (.bin .add (.lit 6) (.bin .mul (.var 2) (.lit 8))))) (.conv .u8 (.bin .shr (.bits .u64 (.index (.var 1) (.var 2))) (.lit 48)))) (.cons (.setBufAt (.bin .add (.var 0) (.conv .i64 (.bin .add (.lit 7) (.bin .mul (.var 2) (.lit 8))))) (.conv .u8 (.bin .shr (.bits .u64 (.index (.var 1) (.var 2))) (.lit 56)))) (.cons (.set 2 (.bin .add (.var 2) (.lit 1))) (.cons (.ifs (.bin .lt (.var 2) (.var 3)) (.cons (.goto (str% "write_loop")) .nil) .nil) .nil))))))))))) .nil)))))⟩

/-- v3/buffer.generated.go:898-905 -/
def text_WriteF64LENext : List Str := [
  str% "",
  str% "// WriteF64LENext writes a slice of float64s to the buffer at the",
  str% "// current offset in little-endian and moves the offset forward the",
  str% "// amount of bytes written",
  str% "func (b *Buffer) WriteF64LENext(data []float64) {",
  str% "\tb.WriteF64LE(b.off, data)",
  str% "\tb.SeekByte(int64(len(data))*8, true)",
  str% "}"]

/-- v3/buffer.generated.go:898-905 -/
def fun_WriteF64LENext : Fun := ⟨(str% "WriteF64LENext"), [none], none, 1, (.cons (.expr (.call (str% "WriteF64LE") (.cons (.field .off) (.cons (.var 0) .nil)))) (.cons (.expr (.call (str% "SeekByte") (.cons (.bin .mul (.conv .i64 (.len (.var 0))) (.lit 8)) (.cons (.bool true) .nil)))) .nil))⟩

/-- v3/buffer.generated.go:906-934 -/
def text_WriteF64BE : List Str := [
  str% "",
  str% "// WriteF64BE writes a slice of float64s to the buffer at the",
  str% "// specified offset in big-endian without modifying the internal",
  str% "// offset value",
  str% "func (b *Buffer) WriteF64BE(off int64, data []float64) {",
  str% "\tif (off + int64(len(data))*8) > b.cap {",
  str% "\t\tpanic(BufferOverwriteError)",
  str% "\t}",
  str% "\tif off < 0 {",
  str% "\t\tpanic(BufferUnderwriteError)",
  str% "\t}",
  str% "\ti := 0",
  str% "\tn := len(data)",
  str% "\t{",
  str% "\twrite_loop:",
  str% "\t\tb.buf[off+int64(i*8)] = byte(*(*uint64)(unsafe.Pointer(&data[i])) >> 56)",
  str% "\t\tb.buf[off+int64(1+(i*8))] = byte(*(*uint64)(unsafe.Pointer(&data[i])) >> 48)",
  str% "\t\tb.buf[off+int64(2+(i*8))] = byte(*(*uint64)(unsafe.Pointer(&data[i])) >> 40)",
  str% "\t\tb.buf[off+int64(3+(i*8))] = byte(*(*uint64)(unsafe.Pointer(&data[i])) >> 32)",
  str% "\t\tb.buf[off+int64(4+(i*8))] = byte(*(*uint64)(unsafe.Pointer(&data[i])) >> 24)",
  str% "\t\tb.buf[off+int64(5+(i*8))] = byte(*(*uint64)(unsafe.Pointer(&data[i])) >> 16)",
  str% "\t\tb.buf[off+int64(6+(i*8))] = byte(*(*uint64)(unsafe.Pointer(&data[i])) >> 8)",
  str% "\t\tb.buf[off+int64(7+(i*8))] = byte(*(*uint64)(unsafe.Pointer(&data[i])))",
  str% "\t\ti++",
  str% "\t\tif i < n {",
  str% "\t\t\tgoto write_loop",
  str% "\t\t}",
  str% "\t}",
  str% "}"]

/-- v3/buffer.generated.go:906-934 -/
def fun_WriteF64BE : Fun := ⟨(str% "WriteF64BE"), [some .i64, none], none, 4, (.cons (.ifs (.bin .gt (.bin .add (.var 0) (.bin .mul (.conv .i64 (.len (.var 1))) (.lit 8))) (.field .cap)) (.cons (.panic (str% "BufferOverwriteError")) .nil) .nil) (.cons (.ifs (.bin .lt (.var 0) (.lit 0)) (.cons (.panic (str% "BufferUnderwriteError")) .nil) .nil) (.cons (.set 2 (.lit 0)) (.cons (.set 3 (.len (.var 1))) (.cons (.block (str% "write_loop") (.cons (.setBufAt (.bin .add (.var 0) (.conv .i64 (.bin .mul (.var 2) (.lit 8)))) (.conv .u8 (.bin .shr (.bits .u64 (.index (.var 1) (.var 2))) (.lit 56)))) (.cons (.setBufAt (.bin .add (.var 0) (.conv .i64 (.bin .add (.lit 1) (.bin .mul (.var 2) (.lit 8))))) (.conv .u8 (.bin .shr (.bits .u64 (.index (.var 1) (.var 2))) (.lit 48)))) (.cons (.setBufAt (.bin .add (.var 0) (.conv .i64 (.bin .add (.lit 2) (.bin .mul (.var 2) (.lit 8))))) (.conv .u8 (.bin .shr (.bits .u64 (.index (.var 1) (.var 2))) (.lit 40)))) (.cons (.setBufAt (.bin .add (.var 0) (.conv .i64 (.bin .add (.lit 3) (.bin .mul (.var 2) (.lit 8))))) (.conv .u8 (.bin .shr (.bits .u64 (.index (.var 1) (.var 2))) (.lit 32)))) (.cons (.setBufAt (.bin .add (.var 0) (.conv .i64 (.bin .add (.lit 4) (.bin .mul (.var 2) (.lit 8))))) (.conv .u8 (.bin .shr (.bits .u64 (.index (.var 1) (.var 2))) (.lit 24)))) (.cons (.setBufAt (.bin .add (.var 0) (.conv .i64 (.bin .add (.lit 5) (.bin .mul (.var 2) (.lit 8))))) (.conv .u8 (.bin .shr (.bits .u64 (.index (.var 1) (.var 2))) (.lit 16)))) (.cons (.setBufAt (.bin .add (.var 0) (.conv .i64 (.bin .add (.lit 6) (.bin .mul (.var 2) (.lit 8))))) (.conv .u8 (.bin .shr (.bits .u64 (.index (.var 1) (.var 2))) (.lit 8)))) (.cons (.setBufAt (.bin .add (.var 0) (.conv .i64 (.bin .add (.lit 7) (.bin .mul (.var 2) (.lit 8))))) (.conv .u8 (.bits .u64 (.index (.var 1) (.var 2))))) (.cons (.set 2 (.bin .add (.var 2) (.lit 1))) (.cons (.ifs (.bin .lt (.var 2) (.var 3)) (.cons (.goto (str% "write_loop")) .nil) .nil) .nil))))))))))) .nil)))))⟩

/-- v3/buffer.generated.go:935-942 -/
def text_WriteF64BENext : List Str := [
  str% "",
  str% "// WriteF64BENext writes a slice of float64s to the buffer at the",
  str% "// current offset in big-endian and moves the offset forward the",
  str% "// amount of bytes written",
  str% "func (b *Buffer) WriteF64BENext(data []float64) {",
  str% "\tb.WriteF64BE(b.off, data)",
  str% "\tb.SeekByte(int64(len(data))*8, true)",
  str% "}"]

/-- v3/buffer.generated.go:935-942 -/
def fun_WriteF64BENext : Fun := ⟨(str% "WriteF64BENext"), [none], none, 1, (.cons (.expr (.call (str% "WriteF64BE") (.cons (.field .off) (.cons (.var 0) .nil)))) (.cons (.expr (.call (str% "SeekByte") (.cons (.bin .mul (.conv .i64 (.len (.var 0))) (.lit 8)) (.cons (.bool true) .nil)))) .nil))⟩

/-- v3/buffer.generated.go:943-962 -/
def text_ReadBytes : List Str := [
  str% "",
  str% "// ReadBytes returns the next n bytes from the specified offset",
  str% "// without modifying the internal offset value",
  str% "func (b *Buffer) ReadBytes(off, n int64) []byte {",
  str% "",
  str% "\tif (off + n) > b.cap {",
  str% "",
  str% "\t\tpanic(BufferOverreadError)",
  str% "",
  str% "\t}",
  str% "",
  str% "\tif off < 0x00 {",
  str% "",
  str% "\t\tpanic(BufferUnderreadError)",
  str% "",
  str% "\t}",
  str% "",
  str% "\treturn b.buf[off : off+n]",
  str% "",
  str% "}"]

/-- v3/buffer.generated.go:943-962 -/
def fun_ReadBytes : Fun := ⟨(str% "ReadBytes"), [some .i64, some .i64], none, 2, (.cons (.ifs (.bin .gt (.bin .add (.var 0) (.var 1)) (.field .cap)) (.cons (.panic (str% "BufferOverreadError")) .nil) .nil) (.cons (.ifs (.bin .lt (.var 0) (.lit 0)) (.cons (.panic (str% "BufferUnderreadError")) .nil) .nil) (.cons (.ret (.slice .buf (.var 0) (.bin .add (.var 0) (.var 1)))) .nil)))⟩

/-- v3/buffer.generated.go:963-972 -/
def text_ReadBytesNext : List Str := [
  str% "",
  str% "// ReadBytesNext returns the next n bytes from the current offset",
  str% "// and moves the offset forward the amount of bytes read",
  str% "func (b *Buffer) ReadBytesNext(n int64) (out []byte) {",
  str% "",
  str% "\tout = b.ReadBytes(b.off, n)",
  str% "\tb.SeekByte(n, true)",
  str% "\treturn",
  str% "",
  str% "}"]

/-- v3/buffer.generated.go:963-972 -/
def fun_ReadBytesNext : Fun := ⟨(str% "ReadBytesNext"), [some .i64], none, 2, (.cons (.set 1 (.call (str% "ReadBytes") (.cons (.field .off) (.cons (.var 0) .nil)))) (.cons (.expr (.call (str% "SeekByte") (.cons (.var 0) (.cons (.bool true) .nil)))) (.cons (.ret (.var 1)) .nil)))⟩

/-- v3/buffer.generated.go:973-980 -/
def text_ReadByte : List Str := [
  str% "",
  str% "// ReadByte returns the next byte from the specified offset without",
  str% "// modifying the internal offset value",
  str% "func (b *Buffer) ReadByte(off int64) byte {",
  str% "",
  str% "\treturn b.ReadBytes(off, 1)[0]",
  str% "",
  str% "}"]

/-- v3/buffer.generated.go:973-980 -/
def fun_ReadByte : Fun := ⟨(str% "ReadByte"), [some .i64], some .u8, 1, (.cons (.ret (.index (.call (str% "ReadBytes") (.cons (.var 0) (.cons (.lit 1) .nil))) (.lit 0))) .nil)⟩

/-- v3/buffer.generated.go:981-990 -/
def text_ReadByteNext : List Str := [
  str% "",
  str% "// ReadByteNext returns the next byte from the current offset and",
  str% "// moves the offset forward a byte",
  str% "func (b *Buffer) ReadByteNext() (out byte) {",
  str% "",
  str% "\tout = b.ReadBytes(b.off, 1)[0]",
  str% "\tb.SeekByte(1, true)",
  str% "\treturn",
  str% "",
  str% "}"]

/-- v3/buffer.generated.go:981-990 -/
def fun_ReadByteNext : Fun := ⟨(str% "ReadByteNext"), [], some .u8, 1, (.cons (.zero 0 .u8) (.cons (.set 0 (.index (.call (str% "ReadBytes") (.cons (.field .off) (.cons (.lit 1) .nil))) (.lit 0))) (.cons (.expr (.call (str% "SeekByte") (.cons (.lit 1) (.cons (.bool true) .nil)))) (.cons (.ret (.var 0)) .nil))))⟩

/-- v3/buffer.generated.go:991-1013 -/
def text_ReadU16LE : List Str := [
  str% "",
  str% "// ReadU16LE reads a slice of uint16s from the buffer at the",
  str% "// specified offset in little-endian without modifying the internal",
  str% "// offset value",
  str% "func (b *Buffer) ReadU16LE(off, n int64) (out []uint16) {",
  str% "\tif (off + n*2) > b.cap {",
  str% "\t\tpanic(BufferOverreadError)",
  str% "\t}",
  str% "\tif off < 0 {",
  str% "\t\tpanic(BufferUnderreadError)",
  str% "\t}",
  str% "\tout = make([]uint16, n)",
  str% "\ti := int64(0)",
  str% "\t{",
  str% "\tread_loop:",
  str% "\t\tout[i] = uint16(b.buf[off+(i*2)]) | uint16(b.buf[off+(1+(i*2))])<<8",
  str% "\t\ti++",
  str% "\t\tif i < n {",
  str% "\t\t\tgoto read_loop",
  str% "\t\t}",
  str% "\t}",
  str% "\treturn",
  str% "}"]

/-- v3/buffer.generated.go:991-1013 -/
def fun_ReadU16LE : Fun := ⟨(str% "ReadU16LE"), [some .i64, some .i64], none, 4, (.cons (.ifs (.bin .gt (.bin .add (.var 0) (.bin .mul (.var 1) (.lit 2))) (.field .cap)) (.cons (.panic (str% "BufferOverreadError")) .nil) .nil) (.cons (.ifs (.bin .lt (.var 0) (.lit 0)) (.cons (.panic (str% "BufferUnderreadError")) .nil) .nil) (.cons (.set 2 (.makeT .u16 (.var 1))) (.cons (.set 3 (.conv .i64 (.lit 0))) (.cons (.block (str% "read_loop") (.cons (.setAt 2 (.var 3) (.bin .or (.conv .u16 (.index .buf (.bin .add (.var 0) (.bin .mul (.var 3) (.lit 2))))) (.bin .shl (.conv .u16 (.index .buf (.bin .add (.var 0) (.bin .add (.lit 1) (.bin .mul (.var 3) (.lit 2)))))) (.lit 8)))) (.cons (.set 3 (.bin .add (.var 3) (.lit 1))) (.cons (.ifs (.bin .lt (.var 3) (.var 1)) (.cons (.goto (str% "read_loop")) .nil) .nil) .nil)))) (.cons (.ret (.var 2)) .nil))))))⟩

/-- v3/buffer.generated.go:1014-1022 -/
def text_ReadU16LENext : List Str := [
  str% "",
  str% "// ReadU16LENext reads a slice of uint16s from the buffer at the",
  str% "// current offset in little-endian and moves the offset forward the",
  str% "// amount of bytes written",
  str% "func (b *Buffer) ReadU16LENext(n int64) (out []uint16) {",
  str% "\tout = b.ReadU16LE(b.off, n)",
  str% "\tb.SeekByte(n*2, true)",
  str% "\treturn",
  str% "}"]

/-- v3/buffer.generated.go:1014-1022 -/
def fun_ReadU16LENext : Fun := ⟨(str% "ReadU16LENext"), [some .i64], none, 2, (.cons (.set 1 (.call (str% "ReadU16LE") (.cons (.field .off) (.cons (.var 0) .nil)))) (.cons (.expr (.call (str% "SeekByte") (.cons (.bin .mul (.var 0) (.lit 2)) (.cons (.bool true) .nil)))) (.cons (.ret (.var 1)) .nil)))⟩

/-- v3/buffer.generated.go:1023-1045 -/
def text_ReadU16BE : List Str := [
  str% "",
  str% "// ReadU16BE reads a slice of uint16s from the buffer at the",
  str% "// specified offset in big-endian without modifying the internal",
  str% "// offset value",
  str% "func (b *Buffer) ReadU16BE(off, n int64) (out []uint16) {",
  str% "\tif (off + n*2) > b.cap {",
  str% "\t\tpanic(BufferOverreadError)",
  str% "\t}",
  str% "\tif off < 0 {",
  str% "\t\tpanic(BufferUnderreadError)",
  str% "\t}",
  str% "\tout = make([]uint16, n)",
  str% "\ti := int64(0)",
  str% "\t{",
  str% "\tread_loop:",
  str% "\t\tout[i] = uint16(b.buf[off+(1+(i*2))]) | uint16(b.buf[off+(i*2)])<<8",
  str% "\t\ti++",
  str% "\t\tif i < n {",
  str% "\t\t\tgoto read_loop",
  str% "\t\t}",
  str% "\t}",
  str% "\treturn",
  str% "}"]

/-- v3/buffer.generated.go:1023-1045 -/
def fun_ReadU16BE : Fun := ⟨(str% "ReadU16BE"), [some .i64, some .i64], none, 4, (.cons (.ifs (.bin .gt (.bin .add (.var 0) (.bin .mul (.var 1) (.lit 2))) (.field .cap)) (.cons (.panic (str% "BufferOverreadError")) .nil) .nil) (.cons (.ifs (.bin .lt (.var 0) (.lit 0)) (.cons (.panic (str% "BufferUnderreadError")) .nil) .nil) (.cons (.set 2 (.makeT .u16 (.var 1))) (.cons (.set 3 (.conv .i64 (.lit 0))) (.cons (.block (str% "read_loop") (.cons (.setAt 2 (.var 3) (.bin .or (.conv .u16 (.index .buf (.bin .add (.var 0) (.bin .add (.lit 1) (.bin .mul (.var 3) (.lit 2)))))) (.bin .shl (.conv .u16 (.index .buf (.bin .add (.var 0) (.bin .mul (.var 3) (.lit 2))))) (.lit 8)))) (.cons (.set 3 (.bin .add (.var 3) (.lit 1))) (.cons (.ifs (.bin .lt (.var 3) (.var 1)) (.cons (.goto (str% "read_loop")) .nil) .nil) .nil)))) (.cons (.ret (.var 2)) .nil))))))⟩

/-- v3/buffer.generated.go:1046-1054 -/
def text_ReadU16BENext : List Str := [
  str% "",
  str% "// ReadU16BENext reads a slice of uint16s from the buffer at the",
  str% "// current offset in big-endian and moves the offset forward the",
  str% "// amount of bytes written",
  str% "func (b *Buffer) ReadU16BENext(n int64) (out []uint16) {",
  str% "\tout = b.ReadU16BE(b.off, n)",
  str% "\tb.SeekByte(n*2, true)",
  str% "\treturn",
  str% "}"]

/-- v3/buffer.generated.go:1046-1054 -/
def fun_ReadU16BENext : Fun := ⟨(str% "ReadU16BENext"), [some .i64], none, 2, (.cons (.set 1 (.call (str% "ReadU16BE") (.cons (.field .off) (.cons (.var 0) .nil)))) (.cons (.expr (.call (str% "SeekByte") (.cons (.bin .mul (.var 0) (.lit 2)) (.cons (.bool true) .nil)))) (.cons (.ret (.var 1)) .nil)))⟩

/-- v3/buffer.generated.go:1055-1077 -/
def text_ReadU32LE : List Str := [
  str% "",
  str% "// ReadU32LE reads a slice of uint32s from the buffer at the",
  str% "// specified offset in little-endian without modifying the internal",
  str% "// offset value",
  str% "func (b *Buffer) ReadU32LE(off, n int64) (out []uint32) {",
  str% "\tif (off + n*4) > b.cap {",
  str% "\t\tpanic(BufferOverreadError)",
  str% "\t}",
  str% "\tif off < 0 {",
  str% "\t\tpanic(BufferUnderreadError)",
  str% "\t}",
  str% "\tout = make([]uint32, n)",
  str% "\ti := int64(0)",
  str% "\t{",
  str% "\tread_loop:",
  str% "\t\tout[i] = uint32(b.buf[off+(i*4)]) | uint32(b.buf[off+(1+(i*4))])<<8 | uint32(b.buf[off+(2+(i*4))])<<16 | uint32(b.buf[off+(3+(i*4))])<<24",
  str% "\t\ti++",
  str% "\t\tif i < n {",
  str% "\t\t\tgoto read_loop",
  str% "\t\t}",
  str% "\t}",
  str% "\treturn",
  str% "}"]

/-- v3/buffer.generated.go:1055-1077 -/
def fun_ReadU32LE : Fun := ⟨(str% "ReadU32LE"), [some .i64, some .i64], none, 4, (.cons (.ifs (.bin .gt (.bin .add (.var 0) (.bin .mul (.var 1) (.lit 4))) (.field .cap)) (.cons (.panic (str% "BufferOverreadError")) .nil) .nil) (.cons (.ifs (.bin .lt (.var 0) (.lit 0)) (.cons (.panic (str% "BufferUnderreadError")) .nil) .nil) (.cons (.set 2 (.makeT .u32 (.var 1))) (.cons (.set 3 (.conv .i64 (.lit 0))) (.cons (.block (str% "read_loop") (.cons (.setAt 2 (.var 3) (.bin .or (.bin .or (.bin .or (.conv .u32 (.index .buf (.bin .add (.var 0) (.bin .mul (.var 3) (.lit 4))))) (.bin .shl (.conv .u32 (.index .buf (.bin .add (.var 0) (.bin .add (.lit 1) (.bin .mul (.var 3) (.lit 4)))))) (.lit 8))) (.bin .shl (.conv .u32 (.index .buf (.bin .add (.var 0) (.bin .add (.lit 2) (.bin .mul (.var 3) (.lit 4)))))) (.lit 16))) (.bin .shl (.conv .u32 (.index .buf (.bin .add (.var 0) (.bin .add (.lit 3) (.bin .mul (.var 3) (.lit 4)))))) (.lit 24)))) (.cons (.set 3 (.bin .add (.var 3) (.lit 1))) (.cons (.ifs (.bin .lt (.var 3) (.var 1)) (.cons (.goto (str% "read_loop")) .nil) .nil) .nil)))) (.cons (.ret (.var 2)) .nil))))))⟩

/-- v3/buffer.generated.go:1078-1086 -/
def text_ReadU32LENext : List Str := [
  str% "",
  str% "// ReadU32LENext reads a slice of uint32s from the buffer at the",
  str% "// current offset in little-endian and moves the offset forward the",
  str% "// amount of bytes written",
  str% "func (b *Buffer) ReadU32LENext(n int64) (out []uint32) {",
  str% "\tout = b.ReadU32LE(b.off, n)",
  str% "\tb.SeekByte(n*4, true)",
  str% "\treturn",
  str% "}"]

/-- v3/buffer.generated.go:1078-1086 -/
def fun_ReadU32LENext : Fun := ⟨(str% "ReadU32LENext"), [some .i64], none, 2, (.cons (.set 1 (.call (str% "ReadU32LE") (.cons (.field .off) (.cons (.var 0) .nil)))) (.cons (.expr (.call (str% "SeekByte") (.cons (.bin .mul (.var 0) (.lit 4)) (.cons (.bool true) .nil)))) (.cons (.ret (.var 1)) .nil)))⟩

/-- v3/buffer.generated.go:1087-1109 -/
def text_ReadU32BE : List Str := [
  str% "",
  str% "// ReadU32BE reads a slice of uint32s from the buffer at the",
  str% "// specified offset in big-endian without modifying the internal",
  str% "// offset value",
  str% "func (b *Buffer) ReadU32BE(off, n int64) (out []uint32) {",
  str% "\tif (off + n*4) > b.cap {",
  str% "\t\tpanic(BufferOverreadError)",
  str% "\t}",
  str% "\tif off < 0 {",
  str% "\t\tpanic(BufferUnderreadError)",
  str% "\t}",
  str% "\tout = make([]uint32, n)",
  str% "\ti := int64(0)",
  str% "\t{",
  str% "\tread_loop:",
  str% "\t\tout[i] = uint32(b.buf[off+(3+(i*4))]) | uint32(b.buf[off+(2+(i*4))])<<8 | uint32(b.buf[off+(1+(i*4))])<<16 | uint32(b.buf[off+(i*4)])<<24",
  str% "\t\ti++",
  str% "\t\tif i < n {",
  str% "\t\t\tgoto read_loop",
  str% "\t\t}",
  str% "\t}",
  str% "\treturn",
  str% "}"]

/-- v3/buffer.generated.go:1087-1109 -/
def fun_ReadU32BE : Fun := ⟨(str% "ReadU32BE"), [some .i64, some .i64], none, 4, (.cons (.ifs (.bin .gt (.bin .add (.var 0) (.bin .mul (.var 1) (.lit 4))) (.field .cap)) (.cons (.panic (str% "BufferOverreadError")) .nil) .nil) (.cons (.ifs (.bin .lt (.var 0) (.lit 0)) (.cons (.panic (str% "BufferUnderreadError")) .nil) .nil) (.cons (.set 2 (.makeT .u32 (.var 1))) (.cons (.set 3 (.conv .i64 (.lit 0))) (.cons (.block (str% "read_loop") (.cons (.setAt 2 (.var 3) (.bin .or (.bin .or (.bin .or (.conv .u32 (.index .buf (.bin .add (.var 0) (.bin .add (.lit 3) (.bin .mul (.var 3) (.lit 4)))))) (.bin .shl (.conv .u32 (.index .buf (.bin .add (.var 0) (.bin .add (.lit 2) (.bin .mul (.var 3) (.lit 4)))))) (.lit 8))) (.bin .shl (.conv .u32 (.index .buf (.bin .add (.var 0) (.bin .add (.lit 1) (.bin .mul (.var 3) (.lit 4)))))) (.lit 16))) (.bin .shl (.conv .u32 (.index .buf (.bin .add (.var 0) (.bin .mul (.var 3) (.lit 4))))) (.lit 24)))) (.cons (.set 3 (.bin .add (.var 3) (.lit 1))) (.cons (.ifs (.bin .lt (.var 3) (.var 1)) (.cons (.goto (str% "read_loop")) .nil) .nil) .nil)))) (.cons (.ret (.var 2)) .nil))))))⟩

/-- v3/buffer.generated.go:1110-1118 -/
def text_ReadU32BENext : List Str := [
  str% "",
  str% "// ReadU32BENext reads a slice of uint32s from the buffer at the",
  str% "// current offset in big-endian and moves the offset forward the",
  str% "// amount of bytes written",
  str% "func (b *Buffer) ReadU32BENext(n int64) (out []uint32) {",
  str% "\tout = b.ReadU32BE(b.off, n)",
  str% "\tb.SeekByte(n*4, true)",
  str% "\treturn",
  str% "}"]

/-- v3/buffer.generated.go:1110-1118 -/
def fun_ReadU32BENext : Fun := ⟨(str% "ReadU32BENext"), [some .i64], none, 2, (.cons (.set 1 (.call (str% "ReadU32BE") (.cons (.field .off) (.cons (.var 0) .nil)))) (.cons (.expr (.call (str% "SeekByte") (.cons (.bin .mul (.var 0) (.lit 4)) (.cons (.bool true) .nil)))) (.cons (.ret (.var 1)) .nil)))⟩

/-- v3/buffer.generated.go:1119-1141 -/
def text_ReadU64LE : List Str := [
  str% "",
  str% "// ReadU64LE reads a slice of uint64s from the buffer at the",
  str% "// specified offset in little-endian without modifying the internal",
  str% "// offset value",
  str% "func (b *Buffer) ReadU64LE(off, n int64) (out []uint64) {",
  str% "\tif (off + n*8) > b.cap {",
  str% "\t\tpanic(BufferOverreadError)",
  str% "\t}",
  str% "\tif off < 0 {",
  str% "\t\tpanic(BufferUnderreadError)",
  str% "\t}",
  str% "\tout = make([]uint64, n)",
  str% "\ti := int64(0)",
  str% "\t{",
  str% "\tread_loop:",
  str% "\t\tout[i] = uint64(b.buf[off+(i*8)]) | uint64(b.buf[off+(1+(i*8))])<<8 | uint64(b.buf[off+(2+(i*8))])<<16 | uint64(b.buf[off+(3+(i*8))])<<24 | uint64(b.buf[off+(4+(i*8))])<<32 | uint64(b.buf[off+(5+(i*8))])<<40 | uint64(b.buf[off+(6+(i*8))])<<48 | uint64(b.buf[off+(7+(i*8))])<<56",
  str% "\t\ti++",
  str% "\t\tif i < n {",
  str% "\t\t\tgoto read_loop",
  str% "\t\t}",
  str% "\t}",
  str% "\treturn",
  str% "}"]

/-- v3/buffer.generated.go:1119-1141 -/
def fun_ReadU64LE : Fun := ⟨(str% "ReadU64LE"), [some .i64, some .i64], none, 4, (.cons (.ifs (.bin .gt (.bin .add (.var 0) (.bin .mul (.var 1) (.lit 8))) (.field .cap)) (.cons (.panic (str% "BufferOverreadError")) .nil) .nil) (.cons (.ifs (.bin .lt (.var 0) (.lit 0)) (.cons (.panic (str% "BufferUnderreadError")) .nil) .nil) (.cons (.set 2 (.makeT .u64 (.var 1))) (.cons (.set 3 (.conv .i64 (.lit 0))) (.cons (.block (str% "read_loop") (.cons (.setAt 2 (.var 3) (.bin .or (.bin .or (.bin .or (.bin .or (.bin .or (.bin .or (.bin .or (.conv .u64 (.index .buf (.bin .add (.var 0) (.bin .mul (.var 3) (.lit 8))))) (.bin .shl (.conv .u64 (.index .buf (.bin .add (.var 0) (.bin .add (.lit 1) (.bin .mul (.var 3) (.lit 8)))))) (.lit 8))) (.bin .shl (.conv .u64 (.index .buf (.bin .add (.var 0) (.bin .add (.lit 2) (.bin .mul (.var 3) (.lit 8)))))) (.lit 16))) (.bin .shl (.conv .u64 (.index .buf (.bin .add (.var 0) (.bin .add (.lit 3) (.bin .mul (.var 3) (.lit 8)))))) (.lit 24))) (.bin .shl (.conv .u64 (.index .buf (.bin .add (.var 0) (.bin .add (.lit 4) (.bin .mul (.var 3) (.lit 8)))))) (.lit 32))) (.bin .shl (.conv .u64 (.index .buf (.bin .add (.var 0) (.bin .add (.lit 5) (.bin .mul (.var 3) (.lit 8)))))) (.lit 40))) (.bin .shl (.conv .u64 (.index .buf (.bin .add (.var 0) (.bin .add (.lit 6) (.bin .mul (.var 3) (.lit 8)))))) (.lit 48))) (.bin .shl (.conv .u64 (.index .buf (.bin .add (.var 0) (.bin .add (.lit 7) (.bin .mul (.var 3) (.lit 8)))))) (.lit 56)))) (.cons (.set 3 (.bin .add (.var 3) (.lit 1))) (.cons (.ifs (.bin .lt (.var 3) (.var 1)) (.cons (.goto (str% "read_loop")) .nil) .nil) .nil)))) (.cons (.ret (.var 2)) .nil))))))⟩

/-- v3/buffer.generated.go:1142-1150 -/
def text_ReadU64LENext : List Str := [
  str% "",
  str% "// ReadU64LENext reads a slice of uint64s from the buffer at the",
  str% "// current offset in little-endian and moves the offset forward the",
  str% "// amount of bytes written",
  str% "func (b *Buffer) ReadU64LENext(n int64) (out []uint64) {",
  str% "\tout = b.ReadU64LE(b.off, n)",
  str% "\tb.SeekByte(n*8, true)",
  str% "\treturn",
  str% "}"]

/-- v3/buffer.generated.go:1142-1150 -/
def fun_ReadU64LENext : Fun := ⟨(str% "ReadU64LENext"), [some .i64], none, 2, (.cons (.set 1 (.call (str% "ReadU64LE") (.cons (.field .off) (.cons (.var 0) .nil)))) (.cons (.expr (.call (str% "SeekByte") (.cons (.bin .mul (.var 0) (.lit 8)) (.cons (.bool true) .nil)))) (.cons (.ret (.var 1)) .nil)))⟩

/-- v3/buffer.generated.go:1151-1173 -/
def text_ReadU64BE : List Str := [
  str% "",
  str% "// ReadU64BE reads a slice of uint64s from the buffer at the",
  str% "// specified offset in big-endian without modifying the internal",
  str% "// offset value",
  str% "func (b *Buffer) ReadU64BE(off, n int64) (out []uint64) {",
  str% "\tif (off + n*8) > b.cap {",
  str% "\t\tpanic(BufferOverreadError)",
  str% "\t}",
  str% "\tif off < 0 {",
  str% "\t\tpanic(BufferUnderreadError)",
  str% "\t}",
  str% "\tout = make([]uint64, n)",
  str% "\ti := int64(0)",
  str% "\t{",
  str% "\tread_loop:",
  str% "\t\tout[i] = uint64(b.buf[off+(7+(i*8))]) | uint64(b.buf[off+(6+(i*8))])<<8 | uint64(b.buf[off+(5+(i*8))])<<16 | uint64(b.buf[off+(4+(i*8))])<<24 | uint64(b.buf[off+(3+(i*8))])<<32 | uint64(b.buf[off+(2+(i*8))])<<40 | uint64(b.buf[off+(1+(i*8))])<<48 | uint64(b.buf[off+(i*8)])<<56",
  str% "\t\ti++",
  str% "\t\tif i < n {",
  str% "\t\t\tgoto read_loop",
  str% "\t\t}",
  str% "\t}",
  str% "\treturn",
  str% "}"]

/-- v3/buffer.generated.go:1151-1173 -/
def fun_ReadU64BE : Fun := ⟨(str% "ReadU64BE"), [some .i64, some .i64], none, 4, (.cons (.ifs (.bin .gt (.bin .add (.var 0) (.bin .mul (.var 1) (.lit 8))) (.field .cap)) (.cons (.panic (str% "BufferOverreadError")) .nil) .nil) (.cons (.ifs (.bin .lt (.var 0) (.lit 0)) (.cons (.panic (str% "BufferUnderreadError")) .nil) .nil) (.cons (.set 2 (.makeT .u64 (.var 1))) (.cons (.set 3 (.conv .i64 (.lit 0))) (.cons (.block (str% "read_loop") (.cons (.setAt 2 (.var 3) (.bin .or (.bin .or (.bin .or (.bin .or (.bin .or (.bin .or (.bin .or (.conv .u64 (.index .buf (.bin .add (.var 0) (.bin .add (.lit 7) (.bin .mul (.var 3) (.lit 8)))))) (.bin .shl (.conv .u64 (.index .buf (.bin .add (.var 0) (.bin .add (.lit 6) (.bin .mul (.var 3) (.lit 8)))))) (.lit 8))) (.bin .shl (.conv .u64 (.index .buf (.bin .add (.var 0) (.bin .add (.lit 5) (.bin .mul (.var 3) (.lit 8)))))) (.lit 16))) (.bin .shl (.conv .u64 (.index .buf (.bin .add (.var 0) (.bin .add (.lit 4) (.bin .mul (.var 3) (.lit 8)))))) (.lit 24))) (.bin .shl (.conv .u64 (.index .buf (.bin .add (.var 0) (.bin .add (.lit 3) (.bin .mul (.var 3) (.lit 8)))))) (.lit 32))) (.bin .shl (.conv .u64 (.index .buf (.bin .add (.var 0) (.bin .add (.lit 2) (.bin .mul (.var 3) (.lit 8)))))) (.lit 40))) (.bin .shl (.conv .u64 (.index .buf (.bin .add (.var 0) (.bin .add (.lit 1) (.bin .mul (.var 3) (.lit 8)))))) (.lit 48))) (.bin .shl (.conv .u64 (.index .buf (.bin .add (.var 0) (.bin .mul (.var 3) (.lit 8))))) (.lit 56)))) (.cons (.set 3 (.bin .add (.var 3) (.lit 1))) (.cons (.ifs (.bin .lt (.var 3) (.var 1)) (.cons (.goto (str% "read_loop")) .nil) .nil) .nil)))) (.cons (.ret (.var 2)) .nil))))))⟩

/-- v3/buffer.generated.go:1174-1182 -/
def text_ReadU64BENext : List Str := [
  str% "",
  str% "// ReadU64BENext reads a slice of uint64s from the buffer at the",
  str% "// current offset in big-endian and moves the offset forward the",
  str% "// amount of bytes written",
  str% "func (b *Buffer) ReadU64BENext(n int64) (out []uint64) {",
  str% "\tout = b.ReadU64BE(b.off, n)",
  str% "\tb.SeekByte(n*8, true)",
  str% "\treturn",
  str% "}"]

/-- v3/buffer.generated.go:1174-1182 -/
def fun_ReadU64BENext : Fun := ⟨(str% "ReadU64BENext"), [some .i64], none, 2, (.cons (.set 1 (.call (str% "ReadU64BE") (.cons (.field .off) (.cons (.var 0) .nil)))) (.cons (.expr (.call (str% "SeekByte") (.cons (.bin .mul (.var 0) (.lit 8)) (.cons (.bool true) .nil)))) (.cons (.ret (.var 1)) .nil)))⟩

/-- v3/buffer.generated.go:1183-1205 -/
def text_ReadI16LE : List Str := [
  str% "",
  str% "// ReadI16LE reads a slice of int16s from the buffer at the",
  str% "// specified offset in little-endian without modifying the internal",
  str% "// offset value",
  str% "func (b *Buffer) ReadI16LE(off, n int64) (out []int16) {",
  str% "\tif (off + n*2) > b.cap {",
  str% "\t\tpanic(BufferOverreadError)",
  str% "\t}",
  str% "\tif off < 0 {",
  str% "\t\tpanic(BufferUnderreadError)",
  str% "\t}",
  str% "\tout = make([]int16, n)",
  str% "\ti := int64(0)",
  str% "\t{",
  str% "\tread_loop:",
  str% "\t\tout[i] = int16(b.buf[off+(i*2)]) | int16(b.buf[off+(1+(i*2))])<<8",
  str% "\t\ti++",
  str% "\t\tif i < n {",
  str% "\t\t\tgoto read_loop",
  str% "\t\t}",
  str% "\t}",
  str% "\treturn",
  str% "}"]

/-- v3/buffer.generated.go:1183-1205 -/
def fun_ReadI16LE : Fun := ⟨(str% "ReadI16LE"), [some .i64, some .i64], none, 4, (.cons (.ifs (.bin .gt (.bin .add (.var 0) (.bin .mul (.var 1) (.lit 2))) (.field .cap)) (.cons (.panic (str% "BufferOverreadError")) .nil) .nil) (.cons (.ifs (.bin .lt (.var 0) (.lit 0)) (.cons (.panic (str% "BufferUnderreadError")) .nil) .nil) (.cons (.set 2 (.makeT .i16 (.var 1))) (.cons (.set 3 (.conv .i64 (.lit 0))) (.cons (.block (str% "read_loop") (.cons (.setAt 2 (.var 3) (.bin .or (.conv .i16 (.index .buf (.bin .add (.var 0) (.bin .mul (.var 3) (.lit 2))))) (.bin .shl (.conv .i16 (.index .buf (.bin .add (.var 0) (.bin .add (.lit 1) (.bin .mul (.var 3) (.lit 2)))))) (.lit 8)))) (.cons (.set 3 (.bin .add (.var 3) (.lit 1))) (.cons (.ifs (.bin .lt (.var 3) (.var 1)) (.cons (.goto (str% "read_loop")) .nil) .nil) .nil)))) (.cons (.ret (.var 2)) .nil))))))⟩

/-- v3/buffer.generated.go:1206-1214 -/
def text_ReadI16LENext : List Str := [
  str% "",
  str% "// ReadI16LENext reads a slice of int16s from the buffer at the",
  str% "// current offset in little-endian and moves the offset forward the",
  str% "// amount of bytes written",
  str% "func (b *Buffer) ReadI16LENext(n int64) (out []int16) {",
  str% "\tout = b.ReadI16LE(b.off, n)",
  str% "\tb.SeekByte(n*2, true)",
  str% "\treturn",
  str% "}"]

/-- v3/buffer.generated.go:1206-1214 -/
def fun_ReadI16LENext : Fun := ⟨(str% "ReadI16LENext"), [some .i64], none, 2, (.cons (.set 1 (.call (str% "ReadI16LE") (.cons (.field .off) (.cons (.var 0) .nil)))) (.cons (.expr (.call (str% "SeekByte") (.cons (.bin .mul (.var 0) (.lit 2)) (.cons (.bool true) .nil)))) (.cons (.ret (.var 1)) .nil)))⟩

/-- v3/buffer.generated.go:1215-1237 -/
def text_ReadI16BE : List Str := [
  str% "",
  str% "// ReadI16BE reads a slice of int16s from the buffer at the",
  str% "// specified offset in big-endian without modifying the internal",
  str% "// offset value",
  str% "func (b *Buffer) ReadI16BE(off, n int64) (out []int16) {",
  str% "\tif (off + n*2) > b.cap {",
  str% "\t\tpanic(BufferOverreadError)",
  str% "\t}",
  str% "\tif off < 0 {",
  str% "\t\tpanic(BufferUnderreadError)",
  str% "\t}",
  str% "\tout = make([]int16, n)",
  str% "\ti := int64(0)",
  str% "\t{",
  str% "\tread_loop:",
  str% "\t\tout[i] = int16(b.buf[off+(1+(i*2))]) | int16(b.buf[off+(i*2)])<<8",
  str% "\t\ti++",
  str% "\t\tif i < n {",
  str% "\t\t\tgoto read_loop",
  str% "\t\t}",
  str% "\t}",
  str% "\treturn",
  str% "}"]

/-- v3/buffer.generated.go:1215-1237 -/
def fun_ReadI16BE : Fun := ⟨(str% "ReadI16BE"), [some .i64, some .i64], none, 4, (.cons (.ifs (.bin .gt (.bin .add (.var 0) (.bin .mul (.var 1) (.lit 2))) (.field .cap)) (.cons (.panic (str% "BufferOverreadError")) .nil) .nil) (.cons (.ifs (.bin .lt (.var 0) (.lit 0)) (.cons (.panic (str% "BufferUnderreadError")) .nil) .nil) (.cons (.set 2 (.makeT .i16 (.var 1))) (.cons (.set 3 (.conv .i64 (.lit 0))) (.cons (.block (str% "read_loop") (.cons (.setAt 2 (.var 3) (.bin .or (.conv .i16 (.index .buf (.bin .add (.var 0) (.bin .add (.lit 1) (.bin .mul (.var 3) (.lit 2)))))) (.bin .shl (.conv .i16 (.index .buf (.bin .add (.var 0) (.bin .mul (.var 3) (.lit 2))))) (.lit 8)))) (.cons (.set 3 (.bin .add (.var 3) (.lit 1))) (.cons (.ifs (.bin .lt (.var 3) (.var 1)) (.cons (.goto (str% "read_loop")) .nil) .nil) .nil)))) (.cons (.ret (.var 2)) .nil))))))⟩

/-- v3/buffer.generated.go:1238-1246 -/
def text_ReadI16BENext : List Str := [
  str% "",
  str% "// ReadI16BENext reads a slice of int16s from the buffer at the",
  str% "// current offset in big-endian and moves the offset forward the",
  str% "// amount of bytes written",
  str% "func (b *Buffer) ReadI16BENext(n int64) (out []int16) {",
  str% "\tout = b.ReadI16BE(b.off, n)",
  str% "\tb.SeekByte(n*2, true)",
  str% "\treturn",
  str% "}"]

/-- v3/buffer.generated.go:1238-1246 -/
def fun_ReadI16BENext : Fun := ⟨(str% "ReadI16BENext"), [some .i64], none, 2, (.cons (.set 1 (.call (str% "ReadI16BE") (.cons (.field .off) (.cons (.var 0) .nil)))) (.cons (.expr (.call (str% "SeekByte") (.cons (.bin .mul (.var 0) (.lit 2)) (.cons (.bool true) .nil)))) (.cons (.ret (.var 1)) .nil)))⟩

/-- v3/buffer.generated.go:1247-1269 -/
def text_ReadI32LE : List Str := [
  str% "",
  str% "// ReadI32LE reads a slice of int32s from the buffer at the",
  str% "// specified offset in little-endian without modifying the internal",
  str% "// offset value",
  str% "func (b *Buffer) ReadI32LE(off, n int64) (out []int32) {",
  str% "\tif (off + n*4) > b.cap {",
  str% "\t\tpanic(BufferOverreadError)",
  str% "\t}",
  str% "\tif off < 0 {",
  str% "\t\tpanic(BufferUnderreadError)",
  str% "\t}",
  str% "\tout = make([]int32, n)",
  str% "\ti := int64(0)",
  str% "\t{",
  str% "\tread_loop:",
  str% "\t\tout[i] = int32(b.buf[off+(i*4)]) | int32(b.buf[off+(1+(i*4))])<<8 | int32(b.buf[off+(2+(i*4))])<<16 | int32(b.buf[off+(3+(i*4))])<<24",
  str% "\t\ti++",
  str% "\t\tif i < n {",
  str% "\t\t\tgoto read_loop",
  str% "\t\t}",
  str% "\t}",
  str% "\treturn",
  str% "}"]

/-- v3/buffer.generated.go:1247-1269 -/
def fun_ReadI32LE : Fun := ⟨(str% "ReadI32LE"), [some .i64, some .i64], none, 4, (.cons (.ifs (.bin .gt (.bin .add (.var 0) (.bin .mul (.var 1) (.lit 4))) (.field .cap)) (.cons (.panic (str% "BufferOverreadError")) .nil) .nil) (.cons (.ifs (.bin .lt (.var 0) (.lit 0)) (.cons (.panic (str% "BufferUnderreadError")) .nil) .nil) (.cons (.set 2 (.makeT .i32 (.var 1))) (.cons (.set 3 (.conv .i64 (.lit 0))) (.cons (.block (str% "read_loop") (.cons (.setAt 2 (.var 3) (.bin .or (.bin .or (.bin .or (.conv .i32 (.index .buf (.bin .add (.var 0) (.bin .mul (.var 3) (.lit 4))))) (.bin .shl (.conv .i32 (.index .buf (.bin .add (.var 0) (.bin .add (.lit 1) (.bin .mul (.var 3) (.lit 4)))))) (.lit 8))) (.bin .shl (.conv .i32 (.index .buf (.bin .add (.var 0) (.bin .add (.lit 2) (.bin .mul (.var 3) (.lit 4)))))) (.lit 16))) (.bin .shl (.conv .i32 (.index .buf (.bin .add (.var 0) (.bin .add (.lit 3) (.bin .mul (.var 3) (.lit 4)))))) (.lit 24)))) (.cons (.set 3 (.bin .add (.var 3) (.lit 1))) (.cons (.ifs (.bin .lt (.var 3) (.var 1)) (.cons (.goto (str% "read_loop")) .nil) .nil) .nil)))) (.cons (.ret (.var 2)) .nil))))))⟩

/-- v3/buffer.generated.go:1270-1278 -/
def text_ReadI32LENext : List Str := [
  str% "",
  str% "// ReadI32LENext reads a slice of int32s from the buffer at the",
  str% "// current offset in little-endian and moves the offset forward the",
  str% "// amount of bytes written",
  str% "func (b *Buffer) ReadI32LENext(n int64) (out []int32) {",
  str% "\tout = b.ReadI32LE(b.off, n)",
  str% "\tb.SeekByte(n*4, true)",
  str% "\treturn",
  str% "}"]

/-- v3/buffer.generated.go:1270-1278 -/
def fun_ReadI32LENext : Fun := ⟨(str% "ReadI32LENext"), [some .i64], none, 2, (.cons (.set 1 (.call (str% "ReadI32LE") (.cons (.field .off) (.cons (.var 0) .nil)))) (.cons (.expr (.call (str% "SeekByte") (.cons (.bin .mul (.var 0) (.lit 4)) (.cons (.bool true) .nil)))) (.cons (.ret (.var 1)) .nil)))⟩

/-- v3/buffer.generated.go:1279-1301 -/
def text_ReadI32BE : List Str := [
  str% "",
  str% "// ReadI32BE reads a slice of int32s from the buffer at the",
  str% "// specified offset in big-endian without modifying the internal",
  str% "// offset value",
  str% "func (b *Buffer) ReadI32BE(off, n int64) (out []int32) {",
  str% "\tif (off + n*4) > b.cap {",
  str% "\t\tpanic(BufferOverreadError)",
  str% "\t}",
  str% "\tif off < 0 {",
  str% "\t\tpanic(BufferUnderreadError)",
  str% "\t}",
  str% "\tout = make([]int32, n)",
  str% "\ti := int64(0)",
  str% "\t{",
  str% "\tread_loop:",
  str% "\t\tout[i] = int32(b.buf[off+(3+(i*4))]) | int32(b.buf[off+(2+(i*4))])<<8 | int32(b.buf[off+(1+(i*4))])<<16 | int32(b.buf[off+(i*4)])<<24",
  str% "\t\ti++",
  str% "\t\tif i < n {",
  str% "\t\t\tgoto read_loop",
  str% "\t\t}",
  str% "\t}",
  str% "\treturn",
  str% "}"]

/-- v3/buffer.generated.go:1279-1301 -/
def fun_ReadI32BE : Fun := ⟨(str% "ReadI32BE"), [some .i64, some .i64], none, 4, (.cons (.ifs (.bin .gt (.bin .add (.var 0) (.bin .mul (.var 1) (.lit 4))) (.field .cap)) (.cons (.panic (str% "BufferOverreadError")) .nil) .nil) (.cons (.ifs (.bin .lt (.var 0) (.lit 0)) (.cons (.panic (str% "BufferUnderreadError")) .nil) .nil) (.cons (.set 2 (.makeT .i32 (.var 1))) (.cons (.set 3 (.conv .i64 (.lit 0))) (.cons (.block (str% "read_loop") (.cons (.setAt 2 (.var 3) (.bin .or (.bin .or (.bin .or (.conv .i32 (.index .buf (.bin .add (.var 0) (.bin .add (.lit 3) (.bin .mul (.var 3) (.lit 4)))))) (.bin .shl (.conv .i32 (.index .buf (.bin .add (.var 0) (.bin .add (.lit 2) (.bin .mul (.var 3) (.lit 4)))))) (.lit 8))) (.bin .shl (.conv .i32 (.index .buf (.bin .add (.var 0) (.bin .add (.lit 1) (.bin .mul (.var 3) (.lit 4)))))) (.lit 16))) (.bin .shl (.conv .i32 (.index .buf (.bin .add (.var 0) (.bin .mul (.var 3) (.lit 4))))) (.lit 24)))) (.cons (.set 3 (.bin .add (.var 3) (.lit 1))) (.cons (.ifs (.bin .lt (.var 3) (.var 1)) (.cons (.goto (str% "read_loop")) .nil) .nil) .nil)))) (.cons (.ret (.var 2)) .nil))))))⟩

/-- v3/buffer.generated.go:1302-1310 -/
def text_ReadI32BENext : List Str := [
  str% "",
  str% "// ReadI32BENext reads a slice of int32s from the buffer at the",
  str% "// current offset in big-endian and moves the offset forward the",
  str% "// amount of bytes written",
  str% "func (b *Buffer) ReadI32BENext(n int64) (out []int32) {",
  str% "\tout = b.ReadI32BE(b.off, n)",
  str% "\tb.SeekByte(n*4, true)",
  str% "\treturn",
  str% "}"]

/-- v3/buffer.generated.go:1302-1310 -/
def fun_ReadI32BENext : Fun := ⟨(str% "ReadI32BENext"), [some .i64], none, 2, (.cons (.set 1 (.call (str% "ReadI32BE") (.cons (.field .off) (.cons (.var 0) .nil)))) (.cons (.expr (.call (str% "SeekByte") (.cons (.bin .mul (.var 0) (.lit 4)) (.cons (.bool true) .nil)))) (.cons (.ret (.var 1)) .nil)))⟩

/-- v3/buffer.generated.go:1311-1333 -/
def text_ReadI64LE : List Str := [
  str% "",
  str% "// ReadI64LE reads a slice of int64s from the buffer at the",
  str% "// specified offset in little-endian without modifying the internal",
  str% "// offset value",
  str% "func (b *Buffer) ReadI64LE(off, n int64) (out []int64) {",
  str% "\tif (off + n*8) > b.cap {",
  str% "\t\tpanic(BufferOverreadError)",
  str% "\t}",
  str% "\tif off < 0 {",
  str% "\t\tpanic(BufferUnderreadError)",
  str% "\t}",
  str% "\tout = make([]int64, n)",
  str% "\ti := int64(0)",
  str% "\t{",
  str% "\tread_loop:",
  str% "\t\tout[i] = int64(b.buf[off+(i*8)]) | int64(b.buf[off+(1+(i*8))])<<8 | int64(b.buf[off+(2+(i*8))])<<16 | int64(b.buf[off+(3+(i*8))])<<24 | int64(b.buf[off+(4+(i*8))])<<32 | int64(b.buf[off+(5+(i*8))])<<40 | int64(b.buf[off+(6+(i*8))])<<48 | int64(b.buf[off+(7+(i*8))])<<56",
  str% "\t\ti++",
  str% "\t\tif i < n {",
  str% "\t\t\tgoto read_loop",
  str% "\t\t}",
  str% "\t}",
  str% "\treturn",
  str% "}"]

/-- v3/buffer.generated.go:1311-1333 -/
def fun_ReadI64LE : Fun := ⟨(str% "ReadI64LE"), [some .i64, some .i64], none, 4, (.cons (.ifs (.bin .gt (.bin .add (.var 0) (.bin .mul (.var 1) (.lit 8))) (.field .cap)) (.cons (.panic (str% "BufferOverreadError")) .nil) .nil) (.cons (.ifs (.bin .lt (.var 0) (.lit 0)) (.cons (.panic (str% "BufferUnderreadError")) .nil) .nil) (.cons (.set 2 (.makeT .i64 (.var 1))) (.cons (.set 3 (.conv .i64 (.lit 0))) (.cons (.block (str% "read_loop") (.cons (.setAt 2 (.var 3) (.bin .or (.bin .or (.bin .or (.bin .or (.bin .or (.bin .or (.bin .or (.conv .i64 (.index .buf (.bin .add (.var 0) (.bin .mul (.var 3) (.lit 8))))) (.bin .shl (.conv .i64 (.index .buf (.bin .add (.var 0) (.bin .add (.lit 1) (.bin .mul (.var 3) (.lit 8)))))) (.lit 8))) (.bin .shl (.conv .i64 (.index .buf (.bin .add (.var 0) (.bin .add (.lit 2) (.bin .mul (.var 3) (.lit 8)))))) (.lit 16))) (.bin .shl (.conv .i64 (.index .buf (.bin .add (.var 0) (.bin .add (.lit 3) (.bin .mul (.var 3) (.lit 8)))))) (.lit 24))) (.bin .shl (.conv .i64 (.index .buf (.bin .add (.var 0) (.bin .add (.lit 4) (.bin .mul (.var 3) (.lit 8)))))) (.lit 32))) (.bin .shl (.conv .i64 (.index .buf (.bin .add (.var 0) (.bin .add (.lit 5) (.bin .mul (.var 3) (.lit 8)))))) (.lit 40))) (.bin .shl (.conv .i64 (.index .buf (.bin .add (.var 0) (.bin .add (.lit 6) (.bin .mul (.var 3) (.lit 8)))))) (.lit 48))) (.bin .shl (.conv .i64 (.index .buf (.bin .add (.var 0) (.bin .add (.lit 7) (.bin .mul (.var 3) (.lit 8)))))) (.lit 56)))) (.cons (.set 3 (.bin .add (.var 3) (.lit 1))) (.cons (.ifs (.bin .lt (.var 3) (.var 1)) (.cons (.goto (str% "read_loop")) .nil) .nil) .nil)))) (.cons (.ret (.var 2)) .nil))))))⟩

/-- v3/buffer.generated.go:1334-1342 -/
def text_ReadI64LENext : List Str := [
  str% "",
  str% "// ReadI64LENext reads a slice of int64s from the buffer at the",
  str% "// current offset in little-endian and moves the offset forward the",
  str% "// amount of bytes written",
  str% "func (b *Buffer) ReadI64LENext(n int64) (out []int64) {",
  str% "\tout = b.ReadI64LE(b.off, n)",
  str% "\tb.SeekByte(n*8, true)",
  str% "\treturn",
  str% "}"]

/-- v3/buffer.generated.go:1334-1342 -/
def fun_ReadI64LENext : Fun := ⟨(str% "ReadI64LENext"), [some .i64], none, 2, (.cons (.set 1 (.call (str% "ReadI64LE") (.cons (.field .off) (.cons (.var 0) .nil)))) (.cons (.expr (.call (str% "SeekByte") (.cons (.bin .mul (.var 0) (.lit 8)) (.cons (.bool true) .nil)))) (.cons (.ret (.var 1)) .nil)))⟩

/-- v3/buffer.generated.go:1343-1365 -/
def text_ReadI64BE : List Str := [
  str% "",
  str% "// ReadI64BE reads a slice of int64s from the buffer at the",
  str% "// specified offset in big-endian without modifying the internal",
  str% "// offset value",
  str% "func (b *Buffer) ReadI64BE(off, n int64) (out []int64) {",
  str% "\tif (off + n*8) > b.cap {",
  str% "\t\tpanic(BufferOverreadError)",
  str% "\t}",
  str% "\tif off < 0 {",
  str% "\t\tpanic(BufferUnderreadError)",
  str% "\t}",
  str% "\tout = make([]int64, n)",
  str% "\ti := int64(0)",
  str% "\t{",
  str% "\tread_loop:",
  str% "\t\tout[i] = int64(b.buf[off+(7+(i*8))]) | int64(b.buf[off+(6+(i*8))])<<8 | int64(b.buf[off+(5+(i*8))])<<16 | int64(b.buf[off+(4+(i*8))])<<24 | int64(b.buf[off+(3+(i*8))])<<32 | int64(b.buf[off+(2+(i*8))])<<40 | int64(b.buf[off+(1+(i*8))])<<48 | int64(b.buf[off+(i*8)])<<56",
  str% "\t\ti++",
  str% "\t\tif i < n {",
  str% "\t\t\tgoto read_loop",
  str% "\t\t}",
  str% "\t}",
  str% "\treturn",
  str% "}"]

/-- v3/buffer.generated.go:1343-1365 -/
def fun_ReadI64BE : Fun := ⟨(str% "ReadI64BE"), [some .i64, some .i64], none, 4, (.cons (.ifs (.bin .gt (.bin .add (.var 0) (.bin .mul (.var 1) (.lit 8))) (.field .cap)) (.cons (.panic (str% "BufferOverreadError")) .nil) .nil) (.cons (.ifs (.bin .lt (.var 0) (.lit 0)) (.cons (.panic (str% "BufferUnderreadError")) .nil) .nil) (.cons (.set 2 (.makeT .i64 (.var 1))) (.cons (.set 3 (.conv .i64 (.lit 0))) (.cons (.block (str% "read_loop") (.cons (.setAt 2 (.var 3) (.bin .or (.bin .or (.bin .or (.bin .or (.bin .or (.bin .or (.bin .or (.conv .i64 (.index .buf (.bin .add (.var 0) (.bin .add (.lit 7) (.bin .mul (.var 3) (.lit 8)))))) (.bin .shl (.conv .i64 (.index .buf (.bin .add (.var 0) (.bin .add (.lit 6) (.bin .mul (.var 3) (.lit 8)))))) (.lit 8))) (.bin .shl (.conv .i64 (.index .buf (.bin .add (.var 0) (.bin .add (.lit 5) (.bin .mul (.var 3) (.lit 8)))))) (.lit 16))) (.bin .shl (.conv .i64 (.index .buf (.bin .add (.var 0) (.bin .add (.lit 4) (.bin .mul (.var 3) (.lit 8)))))) (.lit 24))) (.bin .shl (.conv .i64 (.index .buf (.bin .add (.var 0) (.bin .add (.lit 3) (.bin .mul (.var 3) (.lit 8)))))) (.lit 32))) (.bin .shl (.conv .i64 (.index .buf (.bin .add (.var 0) (.bin .add (.lit 2) (.bin .mul (.var 3) (.lit 8)))))) (.lit 40))) (.bin .shl (.conv .i64 (.index .buf (.bin .add (.var 0) (.bin .add (.lit 1) (.bin .mul (.var 3) (.lit 8)))))) (.lit 48))) (.bin .shl (.conv .i64 (.index .buf (.bin .add (.var 0) (.bin .mul (.var 3) (.lit 8))))) (.lit 56)))) (.cons (.set 3 (.bin .add (.var 3) (.lit 1))) (.cons (.ifs (.bin .lt (.var 3) (.var 1)) (.cons (.goto (str% "read_loop")) .nil) .nil) .nil)))) (.cons (.ret (.var 2)) .nil))))))⟩

/-- v3/buffer.generated.go:1366-1374 -/
def text_ReadI64BENext : List Str := [
  str% "",
  str% "// ReadI64BENext reads a slice of int64s from the buffer at the",
  str% "// current offset in big-endian and moves the offset forward the",
  str% "// amount of bytes written",
  str% "func (b *Buffer) ReadI64BENext(n int64) (out []int64) {",
  str% "\tout = b.ReadI64BE(b.off, n)",
  str% "\tb.SeekByte(n*8, true)",
  str% "\treturn",
  str% "}"]

/-- v3/buffer.generated.go:1366-1374 -/
def fun_ReadI64BENext : Fun := ⟨(str% "ReadI64BENext"), [some .i64], none, 2, (.cons (.set 1 (.call (str% "ReadI64BE") (.cons (.field .off) (.cons (.var 0) .nil)))) (.cons (.expr (.call (str% "SeekByte") (.cons (.bin .mul (.var 0) (.lit 8)) (.cons (.bool true) .nil)))) (.cons (.ret (.var 1)) .nil)))⟩

/-- v3/buffer.generated.go:1375-1399 -/
def text_ReadF32LE : List Str := [
  str% "",
  str% "// ReadF32LE reads a slice of float32s from the buffer at the",
  str% "// specified offset in little-endian without modifying the internal",
  str% "// offset value",
  str% "func (b *Buffer) ReadF32LE(off, n int64) (out []float32) {",
  str% "\tif (off + n*4) > b.cap {",
  str% "\t\tpanic(BufferOverreadError)",
  str% "\t}",
  str% "\tif off < 0 {",
  str% "\t\tpanic(BufferUnderreadError)",
  str% "\t}",
  str% "\tout = make([]float32, n)",
  str% "\ti := int64(0)",
  str% "\tvar u uint32",
  str% "\t{",
  str% "\tread_loop:",
  str% "\t\tu = (uint32(b.buf[off+(i*4)]) | uint32(b.buf[off+(1+(i*4))])<<8 | uint32(b.buf[off+(2+(i*4))])<<16 | uint32(b.buf[off+(3+(i*4))])<<24)",
  str% "\t\tout[i] = *(*float32)(unsafe.Pointer(&u))",
  str% "\t\ti++",
  str% "\t\tif i < n {",
  str% "\t\t\tgoto read_loop",
  str% "\t\t}",
  str% "\t}",
  str% "\treturn",
  str% "}"]

/-- v3/buffer.generated.go:1375-1399 -/
def fun_ReadF32LE : Fun := ⟨(str% "ReadF32LE"), [some .i64, some .i64], none, 5, (.cons (.ifs (.bin .gt (.bin .add (.var 0) (.bin .mul (.var 1) (.lit 4))) (.field .cap)) (.cons (.panic (str% "BufferOverreadError")) .nil) .nil) (.cons (.ifs (.bin .lt (.var 0) (.lit 0)) (.cons (.panic (str% "BufferUnderreadError")) .nil) .nil) (.cons (.set 2 (.makeT .f32 (.var 1))) (.cons (.set 3 (.conv .i64 (.lit 0))) (.cons (.zero 4 .u32) (.cons (.block (str% "read_loop") (.cons (.set 4 (.bin .or (.bin .or (.bin .or (.conv .u32 (.index .buf (.bin .add (.var 0) (.bin .mul (.var 3) (.lit 4))))) (.bin .shl (.conv .u32 (.index .buf (.bin .add (.var 0) (.bin .add (.lit 1) (.bin .mul (.var 3) (.lit 4)))))) (.lit 8))) (.bin .shl (.conv .u32 (.index .buf (.bin .add (.var 0) (.bin .add (.lit 2) (.bin .mul (.var 3) (.lit 4)))))) (.lit 16))) (.bin .shl (.conv .u32 (.index .buf (.bin .add (.var 0) (.bin .add (.lit 3) (.bin .mul (.var 3) (.lit 4)))))) (.lit 24)))) (.cons (.setAt 2 (.var 3) (.bits .f32 (.var 4))) (.cons (.set 3 (.bin .add (.var 3) (.lit 1))) (.cons (.ifs (.bin .lt (.var 3) (.var 1)) (.cons (.goto (str% "read_loop")) .nil) .nil) .nil))))) (.cons (.ret (.var 2)) .nil)))))))⟩

/-- v3/buffer.generated.go:1400-1408 -/
def text_ReadF32LENext : List Str := [
  str% "",
  str% "// ReadF32LENext reads a slice of float32s from the buffer at the",
  str% "// current offset in little-endian and moves the offset forward the",
  str% "// amount of bytes written",
  str% "func (b *Buffer) ReadF32LENext(n int64) (out []float32) {",
  str% "\tout = b.ReadF32LE(b.off, n)",
  str% "\tb.SeekByte(n*4, true)",
  str% "\treturn",
  str% "}"]

/-- v3/buffer.generated.go:1400-1408 -/
def fun_ReadF32LENext : Fun := ⟨(str% "ReadF32LENext"), [some .i64], none, 2, (.cons (.set 1 (.call (str% "ReadF32LE") (.cons (.field .off) (.cons (.var 0) .nil)))) (.cons (.expr (.call (str% "SeekByte") (.cons (.bin .mul (.var 0) (.lit 4)) (.cons (.bool true) .nil)))) (.cons (.ret (.var 1)) .nil)))⟩

/-- v3/buffer.generated.go:1409-1433 -/
def text_ReadF32BE : List Str := [
  str% "",
  str% "// ReadF32BE reads a slice of float32s from the buffer at the",
  str% "// specified offset in big-endian without modifying the internal",
  str% "// offset value",
  str% "func (b *Buffer) ReadF32BE(off, n int64) (out []float32) {",
  str% "\tif (off + n*4) > b.cap {",
  str% "\t\tpanic(BufferOverreadError)",
  str% "\t}",
  str% "\tif off < 0 {",
  str% "\t\tpanic(BufferUnderreadError)",
  str% "\t}",
  str% "\tout = make([]float32, n)",
  str% "\ti := int64(0)",
  str% "\tvar u uint32",
  str% "\t{",
  str% "\tread_loop:",
  str% "\t\tu = (uint32(b.buf[off+(3+(i*4))]) | uint32(b.buf[off+(2+(i*4))])<<8 | uint32(b.buf[off+(1+(i*4))])<<16 | uint32(b.buf[off+(i*4)])<<24)",
  str% "\t\tout[i] = *(*float32)(unsafe.Pointer(&u))",
  str% "\t\ti++",
  str% "\t\tif i < n {",
  str% "\t\t\tgoto read_loop",
  str% "\t\t}",
  str% "\t}",
  str% "\treturn",
  str% "}"]

/-- v3/buffer.generated.go:1409-1433 -/
def fun_ReadF32BE : Fun := ⟨(str% "ReadF32BE"), [some .i64, some .i64], none, 5, (.cons (.ifs (.bin .gt (.bin .add (.var 0) (.bin .mul (.var 1) (.lit 4))) (.field .cap)) (.cons (.panic (str% "BufferOverreadError")) .nil) .nil) (.cons (.ifs (.bin .lt (.var 0) (.lit 0)) (.cons (.panic (str% "BufferUnderreadError")) .nil) .nil) (.cons (.set 2 (.makeT .f32 (.var 1))) (.cons (.set 3 (.conv .i64 (.lit 0))) (.cons (.zero 4 .u32) (.cons (.block (str% "read_loop") (.cons (.set 4 (.bin .or (.bin .or (.bin .or (.conv .u32 (.index .buf (.bin .add (.var 0) (.bin .add (.lit 3) (.bin .mul (.var 3) (.lit 4)))))) (.bin .shl (.conv .u32 (.index .buf (.bin .add (.var 0) (.bin .add (.lit 2) (.bin .mul (.var 3) (.lit 4)))))) (.lit 8))) (.bin .shl (.conv .u32 (.index .buf (.bin .add (.var 0) (.bin .add (.lit 1) (.bin .mul (.var 3) (.lit 4)))))) (.lit 16))) (.bin .shl (.conv .u32 (.index .buf (.bin .add (.var 0) (.bin .mul (.var 3) (.lit 4))))) (.lit 24)))) (.cons (.setAt 2 (.var 3) (.bits .f32 (.var 4))) (.cons (.set 3 (.bin .add (.var 3) (.lit 1))) (.cons (.ifs (.bin .lt (.var 3) (.var 1)) (.cons (.goto (str% "read_loop")) .nil) .nil) .nil))))) (.cons (.ret (.var 2)) .nil)))))))⟩

/-- v3/buffer.generated.go:1434-1442 -/
def text_ReadF32BENext : List Str := [
  str% "",
  str% "// ReadF32BENext reads a slice of float32s from the buffer at the",
  str% "// current offset in big-endian and moves the offset forward the",
  str% "// amount of bytes written",
  str% "func (b *Buffer) ReadF32BENext(n int64) (out []float32) {",
  str% "\tout = b.ReadF32BE(b.off, n)",
  str% "\tb.SeekByte(n*4, true)",
  str% "\treturn",
  str% "}"]

/-- v3/buffer.generated.go:1434-1442 -/
def fun_ReadF32BENext : Fun := ⟨(str% "ReadF32BENext"), [some .i64], none, 2, (.cons (.set 1 (.call (str% "ReadF32BE") (.cons (.field .off) (.cons (.var 0) .nil)))) (.cons (.expr (.call (str% "SeekByte") (.cons (.bin .mul (.var 0) (.lit 4)) (.cons (.bool true) .nil)))) (.cons (.ret (.var 1)) .nil)))⟩

/-- v3/buffer.generated.go:1443-1467 -/
def text_ReadF64LE : List Str := [
  str% "",
  str% "// ReadF64LE reads a slice of float64s from the buffer at the",
  str% "// specified offset in little-endian without modifying the internal",
  str% "// offset value",
  str% "func (b *Buffer) ReadF64LE(off, n int64) (out []float64) {",
  str% "\tif (off + n*8) > b.cap {",
  str% "\t\tpanic(BufferOverreadError)",
  str% "\t}",
  str% "\tif off < 0 {",
  str% "\t\tpanic(BufferUnderreadError)",
  str% "\t}",
  str% "\tout = make([]float64, n)",
  str% "\ti := int64(0)",
  str% "\tvar u uint64",
  str% "\t{",
  str% "\tread_loop:",
  str% "\t\tu = (uint64(b.buf[off+(i*8)]) | uint64(b.buf[off+(1+(i*8))])<<8 | uint64(b.buf[off+(2+(i*8))])<<16 | uint64(b.buf[off+(3+(i*8))])<<24 | uint64(b.buf[off+(4+(i*8))])<<32 | uint64(b.buf[off+(5+(i*8))])<<40 | uint64(b.buf[off+(6+(i*8))])<<48 | uint64(b.buf[off+(7+(i*8))])<<56)",
  str% "\t\tout[i] = *(*float64)(unsafe.Pointer(&u))",
  str% "\t\ti++",
  str% "\t\tif i < n {",
  str% "\t\t\tgoto read_loop",
  str% "\t\t}",
  str% "\t}",
  str% "\treturn",
  str% "}"]

/-- v3/buffer.generated.go:1443-1467 -/
def fun_ReadF64LE : Fun := ⟨(str% "ReadF64LE"), [some .i64, some .i64], none, 5, (.cons (.ifs (.bin .gt (.bin .add (.var 0) (.bin .mul (.var 1) (.lit 8))) (.field .cap)) (.cons (.panic (str% "BufferOverreadError")) .nil) .nil) (.cons (.ifs (.bin .lt (.var 0) (.lit 0)) (.cons (.panic (str% "BufferUnderreadError")) .nil) .nil) (.cons (.set 2 (.makeT .f64 (.var 1))) (.cons (.set 3 (.conv .i64 (.lit 0))) (.cons (.zero 4 .u64) (.cons (.block (str% "read_loop") (.cons (.set 4 (.bin .or (.bin .or (.bin .or (.bin .or (.bin .or (.bin .or (.bin .or (.conv .u64 (.index .buf (.bin .add (.var 0) (.bin .mul (.var 3) (.lit 8))))) (.bin .shl (.conv .u64 (.index .buf (.bin .add (.var 0) (.bin .add (.lit 1) (.bin .mul (.var 3) (.lit 8)))))) (.lit 8))) (.bin .shl (.conv .u64 (.index .buf (.bin .add (.var 0) (.bin .add (.lit 2) (.bin .mul (.var 3) (.lit 8)))))) (.lit 16))) (.bin .shl (.conv .u64 (.index .buf (.bin .add (.var 0) (.bin .add (.lit 3) (.bin .mul (.var 3) (.lit 8)))))) (.lit 24))) (.bin .shl (.conv .u64 (.index .buf (.bin .add (.var 0) (.bin .add (.lit 4) (.bin .mul (.var 3) (.lit 8)))))) (.lit 32))) (.bin .shl (.conv .u64 (.index .buf (.bin .add (.var 0) (.bin .add (.lit 5) (.bin .mul (.var 3) (.lit 8)))))) (.lit 40))) (.bin .shl (.conv .u64 (.index .buf (.bin .add (.var 0) (.bin .add (.lit 6) (.bin .mul (.var 3) (.lit 8)))))) (.lit 48))) (.bin .shl (.conv .u64 (.index .buf (.bin .add (.var 0) (.bin .add (.lit 7) (.bin .mul (.var 3) (.lit 8)))))) (.lit 56)))) (.cons (.setAt 2 (.var 3) (.bits .f64 (.var 4))) (.cons (.set 3 (.bin .add (.var 3) (.lit 1))) (.cons (.ifs (.bin .lt (.var 3) (.var 1)) (.cons (.goto (str% "read_loop")) .nil) .nil) .nil))))) (.cons (.ret (.var 2)) .nil)))))))⟩

/-- v3/buffer.generated.go:1468-1476 -/
def text_ReadF64LENext : List Str := [
  str% "",
  str% "// ReadF64LENext reads a slice of float64s from the buffer at the",
  str% "// current offset in little-endian and moves the offset forward the",
  str% "// amount of bytes written",
  str% "func (b *Buffer) ReadF64LENext(n int64) (out []float64) {",
  str% "\tout = b.ReadF64LE(b.off, n)",
  str% "\tb.SeekByte(n*8, true)",
  str% "\treturn",
  str% "}"]

/-- v3/buffer.generated.go:1468-1476 -/
def fun_ReadF64LENext : Fun := ⟨(str% "ReadF64LENext"), [some .i64], none, 2, (.cons (.set 1 (.call (str% "ReadF64LE") (.cons (.field .off) (.cons (.var 0) .nil)))) (.cons (.expr (.call (str% "SeekByte") (.cons (.bin .mul (.var 0) (.lit 8)) (.cons (.bool true) .nil)))) (.cons (.ret (.var 1)) .nil)))⟩

/-- v3/buffer.generated.go:1477-1501 -/
def text_ReadF64BE : List Str := [
  str% "",
  str% "// ReadF64BE reads a slice of float64s from the buffer at the",
  str% "// specified offset in big-endian without modifying the internal",
  str% "// offset value",
  str% "func (b *Buffer) ReadF64BE(off, n int64) (out []float64) {",
  str% "\tif (off + n*8) > b.cap {",
  str% "\t\tpanic(BufferOverreadError)",
  str% "\t}",
  str% "\tif off < 0 {",
  str% "\t\tpanic(BufferUnderreadError)",
  str% "\t}",
  str% "\tout = make([]float64, n)",
  str% "\ti := int64(0)",
  str% "\tvar u uint64",
  str% "\t{",
  str% "\tread_loop:",
  str% "\t\tu = (uint64(b.buf[off+(7+(i*8))]) | uint64(b.buf[off+(6+(i*8))])<<8 | uint64(b.buf[off+(5+(i*8))])<<16 | uint64(b.buf[off+(4+(i*8))])<<24 | uint64(b.buf[off+(3+(i*8))])<<32 | uint64(b.buf[off+(2+(i*8))])<<40 | uint64(b.buf[off+(1+(i*8))])<<48 | uint64(b.buf[off+(i*8)])<<56)",
  str% "\t\tout[i] = *(*float64)(unsafe.Pointer(&u))",
  str% "\t\ti++",
  str% "\t\tif i < n {",
  str% "\t\t\tgoto read_loop",
  str% "\t\t}",
  str% "\t}",
  str% "\treturn",
  str% "}"]

/-- v3/buffer.generated.go:1477-1501 -/
def fun_ReadF64BE : Fun := ⟨(str% "ReadF64BE"), [some .i64, some .i64], none, 5, (.cons (.ifs (.bin .gt (.bin .add (.var 0) (.bin .mul (.var 1) (.lit 8))) (.field .cap)) (.cons (.panic (str% "BufferOverreadError")) .nil) .nil) (.cons (.ifs (.bin .lt (.var 0) (.lit 0)) (.cons (.panic (str% "BufferUnderreadError")) .nil) .nil) (.cons (.set 2 (.makeT .f64 (.var 1))) (.cons (.set 3 (.conv .i64 (.lit 0))) (.cons (.zero 4 .u64) (.cons (.block (str% "read_loop") (.cons (.set 4 (.bin .or (.bin .or (.bin .or (.bin .or (.bin .or (.bin .or (.bin .or (.conv .u64 (.index .buf (.bin .add (.var 0) (.bin .add (.lit 7) (.bin .mul (.var 3) (.lit 8)))))) (.bin .shl (.conv .u64 (.index .buf (.bin .add (.var 0) (.bin .add (.lit 6) (.bin .mul (.var 3) (.lit 8)))))) (.lit 8))) (.bin .shl (.conv .u64 (.index .buf (.bin .add (.var 0) (.bin .add (.lit 5) (.bin .mul (.var 3) (.lit 8)))))) (.lit 16))) (.bin .shl (.conv .u64 (.index .buf (.bin .add (.var 0) (.bin .add (.lit 4) (.bin .mul (.var 3) (.lit 8)))))) (.lit 24))) (.bin .shl (.conv .u64 (.index .buf (.bin .add (.var 0) (.bin .add (.lit 3) (.bin .mul (.var 3) (.lit 8)))))) (.lit 32))) (.bin .shl (.conv .u64 (.index .buf (.bin .add (.var 0) (.bin .add (.lit 2) (.bin .mul (.var 3) (.lit 8)))))) (.lit 40))) (.bin .shl (.conv .u64 (.index .buf (.bin .add (.var 0) (.bin .add (.lit 1) (.bin .mul (.var 3) (.lit 8)))))) (.lit 48))) (.bin .shl (.conv .u64 (.index .buf (.bin .add (.var 0) (.bin .mul (.var 3) (.lit 8))))) (.lit 56)))) (.cons (.setAt 2 (.var 3) (.bits .f64 (.var 4))) (.cons (.set 3 (.bin .add (.var 3) (.lit 1))) (.cons (.ifs (.bin .lt (.var 3) (.var 1)) (.cons (.goto (str% "read_loop")) .nil) .nil) .nil))))) (.cons (.ret (.var 2)) .nil)))))))⟩

/-- v3/buffer.generated.go:1502-1510 -/
def text_ReadF64BENext : List Str := [
  str% "",
  str% "// ReadF64BENext reads a slice of float64s from the buffer at the",
  str% "// current offset in big-endian and moves the offset forward the",
  str% "// amount of bytes written",
  str% "func (b *Buffer) ReadF64BENext(n int64) (out []float64) {",
  str% "\tout = b.ReadF64BE(b.off, n)",
  str% "\tb.SeekByte(n*8, true)",
  str% "\treturn",
  str% "}"]

/-- v3/buffer.generated.go:1502-1510 -/
def fun_ReadF64BENext : Fun := ⟨(str% "ReadF64BENext"), [some .i64], none, 2, (.cons (.set 1 (.call (str% "ReadF64BE") (.cons (.field .off) (.cons (.var 0) .nil)))) (.cons (.expr (.call (str% "SeekByte") (.cons (.bin .mul (.var 0) (.lit 8)) (.cons (.bool true) .nil)))) (.cons (.ret (.var 1)) .nil)))⟩

/-- v3/buffer.generated.go:1511-1526 -/
def text_SeekByte : List Str := [
  str% "",
  str% "// SeekByte seeks to position off of the buffer relative to the",
  str% "// current position or exact",
  str% "func (b *Buffer) SeekByte(off int64, relative bool) {",
  str% "",
  str% "\tif relative {",
  str% "",
  str% "\t\tb.off += off",
  str% "",
  str% "\t} else {",
  str% "",
  str% "\t\tb.off = off",
  str% "",
  str% "\t}",
  str% "",
  str% "}"]

/-- v3/buffer.generated.go:1511-1526 -/
def fun_SeekByte : Fun := ⟨(str% "SeekByte"), [some .i64, none], none, 2, (.cons (.ifs (.var 1) (.cons (.setField .off (.bin .add (.field .off) (.var 0))) .nil) (.cons (.setField .off (.var 0)) .nil)) .nil)⟩

/-- v3/buffer.generated.go:1527-1539 -/
def text_AfterByte : List Str := [
  str% "",
  str% "// AfterByte returns the amount of bytes located after the current",
  str% "// position or the specified one",
  str% "func (b *Buffer) AfterByte(off ...int64) int64 {",
  str% "",
  str% "\tif len(off) == 0 {",
  str% "",
  str% "\t\treturn b.cap - b.off - 1",
  str% "",
  str% "\t}",
  str% "\treturn b.cap - off[0] - 1",
  str% "",
  str% "}"]

/-- v3/buffer.generated.go:1527-1539 -/
def fun_AfterByte : Fun := ⟨(str% "AfterByte"), [none], some .i64, 1, (.cons (.ifs (.bin .eq (.len (.var 0)) (.lit 0)) (.cons (.ret (.bin .sub (.bin .sub (.field .cap) (.field .off)) (.lit 1))) .nil) .nil) (.cons (.ret (.bin .sub (.bin .sub (.field .cap) (.index (.var 0) (.lit 0))) (.lit 1))) .nil))⟩

/-- v3/buffer.generated.go:1540-1546 -/
def text_AlignByte : List Str := [
  str% "",
  str% "// AlignByte aligns the byte offset to the bit offset",
  str% "func (b *Buffer) AlignByte() {",
  str% "",
  str% "\tb.off = b.boff / 8",
  str% "",
  str% "}"]

/-- v3/buffer.generated.go:1540-1546 -/
def fun_AlignByte : Fun := ⟨(str% "AlignByte"), [], none, 0, (.cons (.setField .off (.bin .div (.field .boff) (.lit 8))) .nil)⟩

/-- v3/buffer.generated.go:1547-1562 -/
def text_TruncateLeft : List Str := [
  str% "",
  str% "/* generic methods */",
  str% "",
  str% "// TruncateLeft truncates the buffer on the left side",
  str% "func (b *Buffer) TruncateLeft(n int64) {",
  str% "",
  str% "\tif n < 0 {",
  str% "",
  str% "\t\tpanic(BufferInvalidByteCountError)",
  str% "",
  str% "\t}",
  str% "",
  str% "\tb.buf = b.buf[n:b.cap]",
  str% "\tb.Refresh()",
  str% "",
  str% "}"]

/-- v3/buffer.generated.go:1547-1562 -/
def fun_TruncateLeft : Fun := ⟨(str% "TruncateLeft"), [some .i64], none, 1, (.cons (.ifs (.bin .lt (.var 0) (.lit 0)) (.cons (.panic (str% "BufferInvalidByteCountError")) .nil) .nil) (.cons (.setBuf (.slice .buf (.var 0) (.field .cap))) (.cons (.expr (.call (str% "Refresh") .nil)) .nil)))⟩

/-- v3/buffer.generated.go:1563-1576 -/
def text_TruncateRight : List Str := [
  str% "",
  str% "// TruncateRight truncates the buffer on the right side",
  str% "func (b *Buffer) TruncateRight(n int64) {",
  str% "",
  str% "\tif n < 0 {",
  str% "",
  str% "\t\tpanic(BufferInvalidByteCountError)",
  str% "",
  str% "\t}",
  str% "",
  str% "\tb.buf = b.buf[0x00 : b.cap-n]",
  str% "\tb.Refresh()",
  str% "",
  str% "}"]

/-- v3/buffer.generated.go:1563-1576 -/
def fun_TruncateRight : Fun := ⟨(str% "TruncateRight"), [some .i64], none, 1, (.cons (.ifs (.bin .lt (.var 0) (.lit 0)) (.cons (.panic (str% "BufferInvalidByteCountError")) .nil) .nil) (.cons (.setBuf (.slice .buf (.lit 0) (.bin .sub (.field .cap) (.var 0)))) (.cons (.expr (.call (str% "Refresh") .nil)) .nil)))⟩

/-- v3/buffer.generated.go:1577-1599 -/
def text_Grow : List Str := [
  str% "",
  str% "// Grow makes the buffer's capacity bigger by n bytes",
  str% "func (b *Buffer) Grow(n int64) {",
  str% "",
  str% "\tif n < 0 {",
  str% "",
  str% "\t\tpanic(BufferInvalidByteCountError)",
  str% "",
  str% "\t}",
  str% "",
  str% "\tif n <= int64(cap(b.buf))-b.cap {",
  str% "",
  str% "\t\tb.buf = b.buf[0 : b.cap+n]",
  str% "\t\tb.Refresh()",
  str% "\t\treturn",
  str% "",
  str% "\t}",
  str% "\ttmp := make([]byte, b.cap+n, (int64(cap(b.buf))+n)*2)",
  str% "\tcopy(tmp, b.buf)",
  str% "\tb.buf = tmp",
  str% "\tb.Refresh()",
  str% "",
  str% "}"]

/-- v3/buffer.generated.go:1577-1599 -/
def fun_Grow : Fun := ⟨(str% "Grow"), [some .i64], none, 2, (.cons (.ifs (.bin .lt (.var 0) (.lit 0)) (.cons (.panic (str% "BufferInvalidByteCountError")) .nil) .nil) (.cons (.ifs (.bin .le (.var 0) (.bin .sub (.conv .i64 (.cap .buf)) (.field .cap))) (.cons (.setBuf (.slice .buf (.lit 0) (.bin .add (.field .cap) (.var 0)))) (.cons (.expr (.call (str% "Refresh") .nil)) (.cons .retNone .nil))) .nil) (.cons (.set 1 (.makeCap (.bin .add (.field .cap) (.var 0)) (.bin .mul (.bin .add (.conv .i64 (.cap .buf)) (.var 0)) (.lit 2)))) (.cons (.copy (.var 1) .buf) (.cons (.setBuf (.var 1)) (.cons (.expr (.call (str% "Refresh") .nil)) .nil))))))⟩

/-- v3/buffer.generated.go:1600-1607 -/
def text_Refresh : List Str := [
  str% "",
  str% "// Refresh updates the cached internal statistics of the buffer forcefully",
  str% "func (b *Buffer) Refresh() {",
  str% "",
  str% "\tb.cap = int64(len(b.buf))",
  str% "\tb.bcap = b.cap * 8",
  str% "",
  str% "}"]

/-- v3/buffer.generated.go:1600-1607 -/
def fun_Refresh : Fun := ⟨(str% "Refresh"), [], none, 0, (.cons (.setField .cap (.conv .i64 (.len .buf))) (.cons (.setField .bcap (.bin .mul (.field .cap) (.lit 8))) .nil))⟩

/-- v3/buffer.generated.go:1608-1618 -/
def text_Reset : List Str := [
  str% "",
  str% "// Reset resets the entire buffer",
  str% "func (b *Buffer) Reset() {",
  str% "",
  str% "\tb.buf = b.buf[0:0]",
  str% "\tb.off = 0x00",
  str% "\tb.boff = 0x00",
  str% "\tb.cap = 0",
  str% "\tb.bcap = 0",
  str% "",
  str% "}"]

/-- v3/buffer.generated.go:1608-1618 -/
def fun_Reset : Fun := ⟨(str% "Reset"), [], none, 0, (.cons (.setBuf (.slice .buf (.lit 0) (.lit 0))) (.cons (.setField .off (.lit 0)) (.cons (.setField .boff (.lit 0)) (.cons (.setField .cap (.lit 0)) (.cons (.setField .bcap (.lit 0)) .nil)))))⟩

/-- v3/buffer.generated.go:1619-1627 -/
def text_Bytes : List Str := [
  str% "",
  str% "/* value retrieval */",
  str% "",
  str% "// Bytes returns the internal byte slice of the buffer",
  str% "func (b *Buffer) Bytes() []byte {",
  str% "",
  str% "\treturn b.buf",
  str% "",
  str% "}"]

/-- v3/buffer.generated.go:1619-1627 -/
def fun_Bytes : Fun := ⟨(str% "Bytes"), [], none, 0, (.cons (.ret .buf) .nil)⟩

/-- v3/buffer.generated.go:1628-1634 -/
def text_ByteCapacity : List Str := [
  str% "",
  str% "// ByteCapacity returns the capacity of the buffer",
  str% "func (b *Buffer) ByteCapacity() int64 {",
  str% "",
  str% "\treturn b.cap",
  str% "",
  str% "}"]

/-- v3/buffer.generated.go:1628-1634 -/
def fun_ByteCapacity : Fun := ⟨(str% "ByteCapacity"), [], some .i64, 0, (.cons (.ret (.field .cap)) .nil)⟩

/-- v3/buffer.generated.go:1635-1641 -/
def text_BitCapacity : List Str := [
  str% "",
  str% "// BitCapacity returns the bit capacity of the buffer",
  str% "func (b *Buffer) BitCapacity() int64 {",
  str% "",
  str% "\treturn b.bcap",
  str% "",
  str% "}"]

/-- v3/buffer.generated.go:1635-1641 -/
def fun_BitCapacity : Fun := ⟨(str% "BitCapacity"), [], some .i64, 0, (.cons (.ret (.field .bcap)) .nil)⟩

/-- v3/buffer.generated.go:1642-1648 -/
def text_ByteOffset : List Str := [
  str% "",
  str% "// ByteOffset returns the current offset of the buffer",
  str% "func (b *Buffer) ByteOffset() int64 {",
  str% "",
  str% "\treturn b.off",
  str% "",
  str% "}"]

/-- v3/buffer.generated.go:1642-1648 -/
def fun_ByteOffset : Fun := ⟨(str% "ByteOffset"), [], some .i64, 0, (.cons (.ret (.field .off)) .nil)⟩

/-- v3/buffer.generated.go:1649-1655 -/
def text_BitOffset : List Str := [
  str% "",
  str% "// BitOffset returns the current bit offset of the buffer",
  str% "func (b *Buffer) BitOffset() int64 {",
  str% "",
  str% "\treturn b.boff",
  str% "",
  str% "}",
  str% ""]

/-- v3/buffer.generated.go:1649-1655 -/
def fun_BitOffset : Fun := ⟨(str% "BitOffset"), [], some .i64, 0, (.cons (.ret (.field .boff)) .nil)⟩

/-- The text, in parts. -/
def text : List (List Str) := [text_0, text_NewBuffer, text_ReadBit, text_ReadBitNext, text_ReadBits, text_ReadBitsNext, text_SetBit, text_SetBitNext, text_ClearBit, text_ClearBitNext, text_SetBits, text_SetBitsNext, text_FlipBit, text_FlipBitNext, text_ClearAllBits, text_SetAllBits, text_FlipAllBits, text_SeekBit, text_AfterBit, text_AlignBit, text_WriteBytes, text_WriteBytesNext, text_WriteByte, text_WriteByteNext, text_WriteU16LE, text_WriteU16LENext, text_WriteU16BE, text_WriteU16BENext, text_WriteU32LE, text_WriteU32LENext, text_WriteU32BE, text_WriteU32BENext, text_WriteU64LE, text_WriteU64LENext, text_WriteU64BE, text_WriteU64BENext, text_WriteI16LE, text_WriteI16LENext, text_WriteI16BE, text_WriteI16BENext, text_WriteI32LE, text_WriteI32LENext, text_WriteI32BE, text_WriteI32BENext, text_WriteI64LE, text_WriteI64LENext, text_WriteI64BE, text_WriteI64BENext, text_WriteF32LE, text_WriteF32LENext, text_WriteF32BE, text_WriteF32BENext, text_WriteF64LE, text_WriteF64LENext, text_WriteF64BE, text_WriteF64BENext, text_ReadBytes, text_ReadBytesNext, text_ReadByte, text_ReadByteNext, text_ReadU16LE, text_ReadU16LENext, text_ReadU16BE, text_ReadU16BENext, text_ReadU32LE, text_ReadU32LENext, text_ReadU32BE, text_ReadU32BENext, text_ReadU64LE, text_ReadU64LENext, text_ReadU64BE, text_ReadU64BENext, text_ReadI16LE, text_ReadI16LENext, text_ReadI16BE, text_ReadI16BENext, text_ReadI32LE, text_ReadI32LENext, text_ReadI32BE, text_ReadI32BENext, text_ReadI64LE, text_ReadI64LENext, text_ReadI64BE, text_ReadI64BENext, text_ReadF32LE, text_ReadF32LENext, text_ReadF32BE, text_ReadF32BENext, text_ReadF64LE, text_ReadF64LENext, text_ReadF64BE, text_ReadF64BENext, text_SeekByte, text_AfterByte, text_AlignByte, text_TruncateLeft, text_TruncateRight, text_Grow, text_Refresh, text_Reset, text_Bytes, text_ByteCapacity, text_BitCapacity, text_ByteOffset, text_BitOffset]

/-- The functions. -/
def funs : List Fun := [fun_NewBuffer, fun_ReadBit, fun_ReadBitNext, fun_ReadBits, fun_ReadBitsNext, fun_SetBit, fun_SetBitNext, fun_ClearBit, fun_ClearBitNext, fun_SetBits, fun_SetBitsNext, fun_FlipBit, fun_FlipBitNext, fun_ClearAllBits, fun_SetAllBits, fun_FlipAllBits, fun_SeekBit, fun_AfterBit, fun_AlignBit, fun_WriteBytes, fun_WriteBytesNext, fun_WriteByte, fun_WriteByteNext, fun_WriteU16LE, fun_WriteU16LENext, fun_WriteU16BE, fun_WriteU16BENext, fun_WriteU32LE, fun_WriteU32LENext, fun_WriteU32BE, fun_WriteU32BENext, fun_WriteU64LE, fun_WriteU64LENext, fun_WriteU64BE, fun_WriteU64BENext, fun_WriteI16LE, fun_WriteI16LENext, fun_WriteI16BE, fun_WriteI16BENext, fun_WriteI32LE, fun_WriteI32LENext, fun_WriteI32BE, fun_WriteI32BENext, fun_WriteI64LE, fun_WriteI64LENext, fun_WriteI64BE, fun_WriteI64BENext, fun_WriteF32LE, fun_WriteF32LENext, fun_WriteF32BE, fun_WriteF32BENext, fun_WriteF64LE, fun_WriteF64LENext, fun_WriteF64BE, fun_WriteF64BENext, fun_ReadBytes, fun_ReadBytesNext, fun_ReadByte, fun_ReadByteNext, fun_ReadU16LE, fun_ReadU16LENext, fun_ReadU16BE, fun_ReadU16BENext, fun_ReadU32LE, fun_ReadU32LENext, fun_ReadU32BE, fun_ReadU32BENext, fun_ReadU64LE, fun_ReadU64LENext, fun_ReadU64BE, fun_ReadU64BENext, fun_ReadI16LE, fun_ReadI16LENext, fun_ReadI16BE, fun_ReadI16BENext, fun_ReadI32LE, fun_ReadI32LENext, fun_ReadI32BE, fun_ReadI32BENext, fun_ReadI64LE, fun_ReadI64LENext, fun_ReadI64BE, fun_ReadI64BENext, fun_ReadF32LE, fun_ReadF32LENext, fun_ReadF32BE, fun_ReadF32BENext, fun_ReadF64LE, fun_ReadF64LENext, fun_ReadF64BE, fun_ReadF64BENext, fun_SeekByte, fun_AfterByte, fun_AlignByte, fun_TruncateLeft, fun_TruncateRight, fun_Grow, fun_Refresh, fun_Reset, fun_Bytes, fun_ByteCapacity, fun_BitCapacity, fun_ByteOffset, fun_BitOffset]

end Crunch.Src.V3Buffer
