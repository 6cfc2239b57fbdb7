import Verif.Src.Sem

/-!
# v3/minibuf.generated.go

Written by tools/src_embed.py.
-/

namespace Crunch.Src.V3Mini

open Crunch.Gen (Str)

/-- v3/minibuf.generated.go:1-25 -/
def text_0 : List Str := [
  str% "/*",
  str% "",
  str% "crunch - utilities for taking bytes out of things",
  str% "Copyright (c) 2019-2020 superwhiskers <whiskerdev@protonmail.com>",
  str% "",
  str% "This Source Code Form is subject to the terms of the Mozilla Public",
  str% "License, v. 2.0. If a copy of the MPL was not distributed with this",
  str% "file, You can obtain one at https://mozilla.org/MPL/2.0/.",
  str% "",
  str% "*/",
  str% "",
  str% "package v3",
  str% "",
  str% "import \"unsafe\"",
  str% "",
  str% "// MiniBuffer implements a fast and low-memory buffer type in go that",
  str% "// handles multiple types of data easily. it lacks the overwrite/read",
  str% "// and underwrite/read checks that Buffer has",
  str% "type MiniBuffer struct {",
  str% "\tbuf  []byte",
  str% "\toff  int64",
  str% "\tcap  int64",
  str% "\tboff int64",
  str% "\tbcap int64",
  str% "}"]

/-- v3/minibuf.generated.go:26-65 -/
def text_NewMiniBuffer : List Str := [
  str% "",
  str% "// NewMiniBuffer initilaizes a new MiniBuffer with the provided byte",
  str% "// slice(s) stored inside in the order provided",
  str% "func NewMiniBuffer(out **MiniBuffer, slices ...[]byte) {",
  str% "",
  str% "\t*out = &MiniBuffer{",
  str% "\t\tbuf:  []byte{},",
  str% "\t\toff:  0x00,",
  str% "\t\tboff: 0x00,",
  str% "\t}",
  str% "",
  str% "\tswitch len(slices) {",
  str% "",
  str% "\tcase 0:",
  str% "\t\tbreak",
  str% "",
  str% "\tcase 1:",
  str% "\t\t(*out).buf = slices[0]",
  str% "",
  str% "\tdefault:",
  str% "\t\tvar (",
  str% "\t\t\ti = int64(0)",
  str% "\t\t\tn = int64(len(slices))",
  str% "\t\t)",
  str% "\t\t{",
  str% "\t\tappend_loop:",
  str% "\t\t\t(*out).buf = append((*out).buf, slices[i]...)",
  str% "\t\t\ti++",
  str% "\t\t\tif i < n {",
  str% "",
  str% "\t\t\t\tgoto append_loop",
  str% "",
  str% "\t\t\t}",
  str% "\t\t}",
  str% "",
  str% "\t}",
  str% "",
  str% "\t(*out).Refresh()",
  str% "",
  str% "}"]

/-- v3/minibuf.generated.go:26-65 -/
def fun_NewMiniBuffer : Fun := ⟨(str% "NewMiniBuffer"), [none, none], none, 4, (.cons (.new (.bytes .nil) (.lit 0) (.lit 0) (.lit 0) (.lit 0)) (.cons (.switch (.len (.var 1)) (.cons (.case 0 (.cons .brk .nil)) (.cons (.case 1 (.cons (.setBuf (.index (.var 1) (.lit 0))) .nil)) (.cons (.default (.cons (.set 2 (.conv .i64 (.lit 0))) (.cons (.set 3 (.conv .i64 (.len (.var 1)))) (.cons (.block (str% "append_loop") (.cons (.setBuf (.append .buf (.index (.var 1) (.var 2)))) (.cons (.set 2 (.bin .add (.var 2) (.lit 1))) (.cons (.ifs (.bin .lt (.var 2) (.var 3)) (.cons (.goto (str% "append_loop")) .nil) .nil) .nil)))) .nil)))) .nil)))) (.cons (.expr (.call (str% "Refresh") .nil)) .nil)))⟩

/-- v3/minibuf.generated.go:66-75 -/
def text_ReadBit : List Str := [
  str% "",
  str% "/* bitfield methods */",
  str% "",
  str% "// ReadBit stores the bit located at the specified offset without",
  str% "// modifying the internal offset value in out",
  str% "func (b *MiniBuffer) ReadBit(out *byte, off int64) {",
  str% "",
  str% "\t*out = (b.buf[off/8] >> (7 - uint64(off%8))) & 1",
  str% "",
  str% "}"]

/-- v3/minibuf.generated.go:66-75 -/
def fun_ReadBit : Fun := ⟨(str% "ReadBit"), [none, some .i64], none, 2, (.cons (.setOut (.bin .and (.bin .shr (.index .buf (.bin .div (.var 1) (.lit 8))) (.bin .sub (.lit 7) (.conv .u64 (.bin .rem (.var 1) (.lit 8))))) (.lit 1))) .nil)⟩

/-- v3/minibuf.generated.go:76-84 -/
def text_ReadBitNext : List Str := [
  str% "",
  str% "// ReadBitNext stores the next bit from the current offset and moves",
  str% "// the offset forward a bit in out",
  str% "func (b *MiniBuffer) ReadBitNext(out *byte) {",
  str% "",
  str% "\tb.ReadBit(out, b.boff)",
  str% "\tb.SeekBit(1, true)",
  str% "",
  str% "}"]

/-- v3/minibuf.generated.go:76-84 -/
def fun_ReadBitNext : Fun := ⟨(str% "ReadBitNext"), [none], none, 1, (.cons (.expr (.call (str% "ReadBit") (.cons .outPtr (.cons (.field .boff) .nil)))) (.cons (.expr (.call (str% "SeekBit") (.cons (.lit 1) (.cons (.bool true) .nil)))) .nil))⟩

/-- v3/minibuf.generated.go:85-107 -/
def text_ReadBits : List Str := [
  str% "",
  str% "// ReadBits stores the next n bits from the specified offset without",
  str% "// modifying the internal offset value in out",
  str% "func (b *MiniBuffer) ReadBits(out *uint64, off, n int64) {",
  str% "",
  str% "\tvar (",
  str% "\t\tbout byte",
  str% "",
  str% "\t\ti = int64(0)",
  str% "\t)",
  str% "\t{",
  str% "\tread_loop:",
  str% "\t\tb.ReadBit(&bout, off+i)",
  str% "\t\t*out = (*out << uint64(1)) | uint64(bout)",
  str% "\t\ti++",
  str% "\t\tif i < n {",
  str% "",
  str% "\t\t\tgoto read_loop",
  str% "",
  str% "\t\t}",
  str% "\t}",
  str% "",
  str% "}"]

/-- v3/minibuf.generated.go:85-107 -/
def fun_ReadBits : Fun := ⟨(str% "ReadBits"), [none, some .i64, some .i64], none, 5, (.cons (.zero 3 .u8) (.cons (.set 4 (.conv .i64 (.lit 0))) (.cons (.block (str% "read_loop") (.cons (.callAddr (str% "ReadBit") 3 (.cons (.bin .add (.var 1) (.var 4)) .nil)) (.cons (.setOut (.bin .or (.bin .shl .out (.conv .u64 (.lit 1))) (.conv .u64 (.var 3)))) (.cons (.set 4 (.bin .add (.var 4) (.lit 1))) (.cons (.ifs (.bin .lt (.var 4) (.var 2)) (.cons (.goto (str% "read_loop")) .nil) .nil) .nil))))) .nil)))⟩

/-- v3/minibuf.generated.go:108-116 -/
def text_ReadBitsNext : List Str := [
  str% "",
  str% "// ReadBitsNext stores the next n bits from the current offset and",
  str% "// moves the offset forward the amount of bits read in out",
  str% "func (b *MiniBuffer) ReadBitsNext(out *uint64, n int64) {",
  str% "",
  str% "\tb.ReadBits(out, b.boff, n)",
  str% "\tb.SeekBit(n, true)",
  str% "",
  str% "}"]

/-- v3/minibuf.generated.go:108-116 -/
def fun_ReadBitsNext : Fun := ⟨(str% "ReadBitsNext"), [none, some .i64], none, 2, (.cons (.expr (.call (str% "ReadBits") (.cons .outPtr (.cons (.field .boff) (.cons (.var 1) .nil))))) (.cons (.expr (.call (str% "SeekBit") (.cons (.var 1) (.cons (.bool true) .nil)))) .nil))⟩

/-- v3/minibuf.generated.go:117-124 -/
def text_SetBit : List Str := [
  str% "",
  str% "// SetBit sets the bit located at the specified offset without",
  str% "// modifying the internal offset value",
  str% "func (b *MiniBuffer) SetBit(off int64) {",
  str% "",
  str% "\tb.buf[off/8] |= (1 << uint(7-(off%8)))",
  str% "",
  str% "}"]

/-- v3/minibuf.generated.go:117-124 -/
def fun_SetBit : Fun := ⟨(str% "SetBit"), [some .i64], none, 1, (.cons (.setBufAt (.bin .div (.var 0) (.lit 8)) (.bin .or (.index .buf (.bin .div (.var 0) (.lit 8))) (.bin .shl (.lit 1) (.conv .u64 (.bin .sub (.lit 7) (.bin .rem (.var 0) (.lit 8))))))) .nil)⟩

/-- v3/minibuf.generated.go:125-133 -/
def text_SetBitNext : List Str := [
  str% "",
  str% "// SetBitNext sets the next bit from the current offset and moves the",
  str% "// offset forward a bit",
  str% "func (b *MiniBuffer) SetBitNext() {",
  str% "",
  str% "\tb.SetBit(b.boff)",
  str% "\tb.SeekBit(1, true)",
  str% "",
  str% "}"]

/-- v3/minibuf.generated.go:125-133 -/
def fun_SetBitNext : Fun := ⟨(str% "SetBitNext"), [], none, 0, (.cons (.expr (.call (str% "SetBit") (.cons (.field .boff) .nil))) (.cons (.expr (.call (str% "SeekBit") (.cons (.lit 1) (.cons (.bool true) .nil)))) .nil))⟩

/-- v3/minibuf.generated.go:134-141 -/
def text_ClearBit : List Str := [
  str% "",
  str% "// ClearBit clears the bit located at the specified offset without",
  str% "// modifying the internal offset value",
  str% "func (b *MiniBuffer) ClearBit(off int64) {",
  str% "",
  str% "\tb.buf[off/8] &= ^(1 << uint(7-(off%8)))",
  str% "",
  str% "}"]

/-- v3/minibuf.generated.go:134-141 -/
def fun_ClearBit : Fun := ⟨(str% "ClearBit"), [some .i64], none, 1, (.cons (.setBufAt (.bin .div (.var 0) (.lit 8)) (.bin .and (.index .buf (.bin .div (.var 0) (.lit 8))) (.compl (.bin .shl (.lit 1) (.conv .u64 (.bin .sub (.lit 7) (.bin .rem (.var 0) (.lit 8)))))))) .nil)⟩

/-- v3/minibuf.generated.go:142-150 -/
def text_ClearBitNext : List Str := [
  str% "",
  str% "// ClearBitNext clears the next bit from the current offset and moves",
  str% "// the offset forward a bit",
  str% "func (b *MiniBuffer) ClearBitNext() {",
  str% "",
  str% "\tb.ClearBit(b.boff)",
  str% "\tb.SeekBit(1, true)",
  str% "",
  str% "}"]

/-- v3/minibuf.generated.go:142-150 -/
def fun_ClearBitNext : Fun := ⟨(str% "ClearBitNext"), [], none, 0, (.cons (.expr (.call (str% "ClearBit") (.cons (.field .boff) .nil))) (.cons (.expr (.call (str% "SeekBit") (.cons (.lit 1) (.cons (.bool true) .nil)))) .nil))⟩

/-- v3/minibuf.generated.go:151-177 -/
def text_SetBits : List Str := [
  str% "",
  str% "// SetBits sets the next n bits from the specified offset without",
  str% "// modifying the internal offset value",
  str% "func (b *MiniBuffer) SetBits(off int64, data uint64, n int64) {",
  str% "",
  str% "\ti := int64(0)",
  str% "",
  str% "\t{",
  str% "\twrite_loop:",
  str% "\t\tif byte((data>>uint64(n-i-1))&1) == 0 {",
  str% "",
  str% "\t\t\tb.ClearBit(off + i)",
  str% "",
  str% "\t\t} else {",
  str% "",
  str% "\t\t\tb.SetBit(off + i)",
  str% "",
  str% "\t\t}",
  str% "\t\ti++",
  str% "\t\tif i < n {",
  str% "",
  str% "\t\t\tgoto write_loop",
  str% "",
  str% "\t\t}",
  str% "\t}",
  str% "",
  str% "}"]

/-- v3/minibuf.generated.go:151-177 -/
def fun_SetBits : Fun := ⟨(str% "SetBits"), [some .i64, some .u64, some .i64], none, 4, (.cons (.set 3 (.conv .i64 (.lit 0))) (.cons (.block (str% "write_loop") (.cons (.ifs (.bin .eq (.conv .u8 (.bin .and (.bin .shr (.var 1) (.conv .u64 (.bin .sub (.bin .sub (.var 2) (.var 3)) (.lit 1)))) (.lit 1))) (.lit 0)) (.cons (.expr (.call (str% "ClearBit") (.cons (.bin .add (.var 0) (.var 3)) .nil))) .nil) (.cons (.expr (.call (str% "SetBit") (.cons (.bin .add (.var 0) (.var 3)) .nil))) .nil)) (.cons (.set 3 (.bin .add (.var 3) (.lit 1))) (.cons (.ifs (.bin .lt (.var 3) (.var 2)) (.cons (.goto (str% "write_loop")) .nil) .nil) .nil)))) .nil))⟩

/-- v3/minibuf.generated.go:178-186 -/
def text_SetBitsNext : List Str := [
  str% "",
  str% "// SetBitsNext sets the next n bits from the current offset and moves",
  str% "// the offset forward the amount of bits set",
  str% "func (b *MiniBuffer) SetBitsNext(data uint64, n int64) {",
  str% "",
  str% "\tb.SetBits(b.boff, data, n)",
  str% "\tb.SeekBit(n, true)",
  str% "",
  str% "}"]

/-- v3/minibuf.generated.go:178-186 -/
def fun_SetBitsNext : Fun := ⟨(str% "SetBitsNext"), [some .u64, some .i64], none, 2, (.cons (.expr (.call (str% "SetBits") (.cons (.field .boff) (.cons (.var 0) (.cons (.var 1) .nil))))) (.cons (.expr (.call (str% "SeekBit") (.cons (.var 1) (.cons (.bool true) .nil)))) .nil))⟩

/-- v3/minibuf.generated.go:187-194 -/
def text_FlipBit : List Str := [
  str% "",
  str% "// FlipBit flips the bit located at the specified offset without",
  str% "// modifying the internal offset value",
  str% "func (b *MiniBuffer) FlipBit(off int64) {",
  str% "",
  str% "\tb.buf[off/8] ^= (1 << uint(7-(off%8)))",
  str% "",
  str% "}"]

/-- v3/minibuf.generated.go:187-194 -/
def fun_FlipBit : Fun := ⟨(str% "FlipBit"), [some .i64], none, 1, (.cons (.setBufAt (.bin .div (.var 0) (.lit 8)) (.bin .xor (.index .buf (.bin .div (.var 0) (.lit 8))) (.bin .shl (.lit 1) (.conv .u64 (.bin .sub (.lit 7) (.bin .rem (.var 0) (.lit 8))))))) .nil)⟩

/-- v3/minibuf.generated.go:195-203 -/
def text_FlipBitNext : List Str := [
  str% "",
  str% "// FlipBitNext flips the next bit from the current offset and moves",
  str% "// the offset forward a bit",
  str% "func (b *MiniBuffer) FlipBitNext() {",
  str% "",
  str% "\tb.FlipBit(b.boff)",
  str% "\tb.SeekBit(1, true)",
  str% "",
  str% "}"]

/-- v3/minibuf.generated.go:195-203 -/
def fun_FlipBitNext : Fun := ⟨(str% "FlipBitNext"), [], none, 0, (.cons (.expr (.call (str% "FlipBit") (.cons (.field .boff) .nil))) (.cons (.expr (.call (str% "SeekBit") (.cons (.lit 1) (.cons (.bool true) .nil)))) .nil))⟩

/-- v3/minibuf.generated.go:204-223 -/
def text_ClearAllBits : List Str := [
  str% "",
  str% "// ClearAllBits sets all of the buffer's bits to 0",
  str% "func (b *MiniBuffer) ClearAllBits() {",
  str% "",
  str% "\tvar (",
  str% "\t\ti = int64(0)",
  str% "\t\tn = int64(len(b.buf))",
  str% "\t)",
  str% "\t{",
  str% "\tclear_loop:",
  str% "\t\tb.buf[i] = 0",
  str% "\t\ti++",
  str% "\t\tif i < n {",
  str% "",
  str% "\t\t\tgoto clear_loop",
  str% "",
  str% "\t\t}",
  str% "\t}",
  str% "",
  str% "}"]

/-- v3/minibuf.generated.go:204-223 -/
def fun_ClearAllBits : Fun := ⟨(str% "ClearAllBits"), [], none, 2, (.cons (.set 0 (.conv .i64 (.lit 0))) (.cons (.set 1 (.conv .i64 (.len .buf))) (.cons (.block (str% "clear_loop") (.cons (.setBufAt (.var 0) (.lit 0)) (.cons (.set 0 (.bin .add (.var 0) (.lit 1))) (.cons (.ifs (.bin .lt (.var 0) (.var 1)) (.cons (.goto (str% "clear_loop")) .nil) .nil) .nil)))) .nil)))⟩

/-- v3/minibuf.generated.go:224-243 -/
def text_SetAllBits : List Str := [
  str% "",
  str% "// SetAllBits sets all of the buffer's bits to 1",
  str% "func (b *MiniBuffer) SetAllBits() {",
  str% "",
  str% "\tvar (",
  str% "\t\ti = int64(0)",
  str% "\t\tn = int64(len(b.buf))",
  str% "\t)",
  str% "\t{",
  str% "\tset_loop:",
  str% "\t\tb.buf[i] = 0xFF",
  str% "\t\ti++",
  str% "\t\tif i < n {",
  str% "",
  str% "\t\t\tgoto set_loop",
  str% "",
  str% "\t\t}",
  str% "\t}",
  str% "",
  str% "}"]

/-- v3/minibuf.generated.go:224-243 -/
def fun_SetAllBits : Fun := ⟨(str% "SetAllBits"), [], none, 2, (.cons (.set 0 (.conv .i64 (.lit 0))) (.cons (.set 1 (.conv .i64 (.len .buf))) (.cons (.block (str% "set_loop") (.cons (.setBufAt (.var 0) (.lit 255)) (.cons (.set 0 (.bin .add (.var 0) (.lit 1))) (.cons (.ifs (.bin .lt (.var 0) (.var 1)) (.cons (.goto (str% "set_loop")) .nil) .nil) .nil)))) .nil)))⟩

/-- v3/minibuf.generated.go:244-264 -/
def text_FlipAllBits : List Str := [
  str% "",
  str% "// FlipAllBits flips all of the buffer's bits",
  str% "func (b *MiniBuffer) FlipAllBits() {",
  str% "",
  str% "\tvar (",
  str% "\t\ti = int64(0)",
  str% "\t\tn = int64(len(b.buf))",
  str% "\t)",
  str% "\t{",
  str% "\tflip_loop:",
  str% "\t\tb.buf[i] = ^b.buf[i]",
  str% "\t\ti++",
  str% "\t\tif i < n {",
  str% "",
  str% "\t\t\tgoto flip_loop",
  str% "",
  str% "\t\t}",
  str% "",
  str% "\t}",
  str% "",
  str% "}"]

/-- v3/minibuf.generated.go:244-264 -/
def fun_FlipAllBits : Fun := ⟨(str% "FlipAllBits"), [], none, 2, (.cons (.set 0 (.conv .i64 (.lit 0))) (.cons (.set 1 (.conv .i64 (.len .buf))) (.cons (.block (str% "flip_loop") (.cons (.setBufAt (.var 0) (.compl (.index .buf (.var 0)))) (.cons (.set 0 (.bin .add (.var 0) (.lit 1))) (.cons (.ifs (.bin .lt (.var 0) (.var 1)) (.cons (.goto (str% "flip_loop")) .nil) .nil) .nil)))) .nil)))⟩

/-- v3/minibuf.generated.go:265-280 -/
def text_SeekBit : List Str := [
  str% "",
  str% "// SeekBit seeks to bit position off of the the buffer relative to",
  str% "// the current position or exact",
  str% "func (b *MiniBuffer) SeekBit(off int64, relative bool) {",
  str% "",
  str% "\tif relative {",
  str% "",
  str% "\t\tb.boff += off",
  str% "",
  str% "\t} else {",
  str% "",
  str% "\t\tb.boff = off",
  str% "",
  str% "\t}",
  str% "",
  str% "}"]

/-- v3/minibuf.generated.go:265-280 -/
def fun_SeekBit : Fun := ⟨(str% "SeekBit"), [some .i64, none], none, 2, (.cons (.ifs (.var 1) (.cons (.setField .boff (.bin .add (.field .boff) (.var 0))) .nil) (.cons (.setField .boff (.var 0)) .nil)) .nil)⟩

/-- v3/minibuf.generated.go:281-294 -/
def text_AfterBit : List Str := [
  str% "",
  str% "// AfterBit stores the amount of bits located after the current bit",
  str% "// position or the specified one in out",
  str% "func (b *MiniBuffer) AfterBit(out *int64, off ...int64) {",
  str% "",
  str% "\tif len(off) == 0 {",
  str% "",
  str% "\t\t*out = b.bcap - b.boff - 1",
  str% "\t\treturn",
  str% "",
  str% "\t}",
  str% "\t*out = b.bcap - off[0] - 1",
  str% "",
  str% "}"]

/-- v3/minibuf.generated.go:281-294 -/
def fun_AfterBit : Fun := ⟨(str% "AfterBit"), [none, none], none, 2, (.cons (.ifs (.bin .eq (.len (.var 1)) (.lit 0)) (.cons (.setOut (.bin .sub (.bin .sub (.field .bcap) (.field .boff)) (.lit 1))) (.cons .retNone .nil)) .nil) (.cons (.setOut (.bin .sub (.bin .sub (.field .bcap) (.index (.var 1) (.lit 0))) (.lit 1))) .nil))⟩

/-- v3/minibuf.generated.go:295-301 -/
def text_AlignBit : List Str := [
  str% "",
  str% "// AlignBit aligns the bit offset to the byte offset",
  str% "func (b *MiniBuffer) AlignBit() {",
  str% "",
  str% "\tb.boff = b.off * 8",
  str% "",
  str% "}"]

/-- v3/minibuf.generated.go:295-301 -/
def fun_AlignBit : Fun := ⟨(str% "AlignBit"), [], none, 0, (.cons (.setField .boff (.bin .mul (.field .off) (.lit 8))) .nil)⟩

/-- v3/minibuf.generated.go:302-311 -/
def text_WriteBytes : List Str := [
  str% "",
  str% "/* byte buffer methods */",
  str% "",
  str% "// WriteBytes writes bytes to the buffer at the specified offset",
  str% "// without modifying the internal offset value",
  str% "func (b *MiniBuffer) WriteBytes(off int64, data []byte) {",
  str% "",
  str% "\tcopy(b.buf[off:], data)",
  str% "",
  str% "}"]

/-- v3/minibuf.generated.go:302-311 -/
def fun_WriteBytes : Fun := ⟨(str% "WriteBytes"), [some .i64, none], none, 2, (.cons (.copy (.sliceFrom .buf (.var 0)) (.var 1)) .nil)⟩

/-- v3/minibuf.generated.go:312-320 -/
def text_WriteBytesNext : List Str := [
  str% "",
  str% "// WriteBytesNext writes bytes to the buffer at the current offset",
  str% "// and moves the offset forward the amount of bytes written",
  str% "func (b *MiniBuffer) WriteBytesNext(data []byte) {",
  str% "",
  str% "\tb.WriteBytes(b.off, data)",
  str% "\tb.SeekByte(int64(len(data)), true)",
  str% "",
  str% "}"]

/-- v3/minibuf.generated.go:312-320 -/
def fun_WriteBytesNext : Fun := ⟨(str% "WriteBytesNext"), [none], none, 1, (.cons (.expr (.call (str% "WriteBytes") (.cons (.field .off) (.cons (.var 0) .nil)))) (.cons (.expr (.call (str% "SeekByte") (.cons (.conv .i64 (.len (.var 0))) (.cons (.bool true) .nil)))) .nil))⟩

/-- v3/minibuf.generated.go:321-337 -/
def text_WriteU16LE : List Str := [
  str% "",
  str% "// WriteU16LE writes a slice of uint16s to the buffer at the",
  str% "// specified offset in little-endian without modifying the internal",
  str% "// offset value",
  str% "func (b *MiniBuffer) WriteU16LE(off int64, data []uint16) {",
  str% "\ti := 0",
  str% "\tn := len(data)",
  str% "\t{",
  str% "\twrite_loop:",
  str% "\t\tb.buf[off+int64(i*2)] = byte(data[i])",
  str% "\t\tb.buf[off+int64(1+(i*2))] = byte(data[i] >> 8)",
  str% "\t\ti++",
  str% "\t\tif i < n {",
  str% "\t\t\tgoto write_loop",
  str% "\t\t}",
  str% "\t}",
  str% "}"]

/-- v3/minibuf.generated.go:321-337 -/
def fun_WriteU16LE : Fun := ⟨(str% "WriteU16LE"), [some .i64, none], none, 4, (.cons (.set 2 (.lit 0)) (.cons (.set 3 (.len (.var 1))) (.cons (.block (str% "write_loop") (.cons (.setBufAt (.bin .add (.var 0) (.conv .i64 (.bin .mul (.var 2) (.lit 2)))) (.conv .u8 (.index (.var 1) (.var 2)))) (.cons (.setBufAt (.bin .add (.var 0) (.conv .i64 (.bin .add (.lit 1) (.bin .mul (.var 2) (.lit 2))))) (.conv .u8 (.bin .shr (.index (.var 1) (.var 2)) (.lit 8)))) (.cons (.set 2 (.bin .add (.var 2) (.lit 1))) (.cons (.ifs (.bin .lt (.var 2) (.var 3)) (.cons (.goto (str% "write_loop")) .nil) .nil) .nil))))) .nil)))⟩

/-- v3/minibuf.generated.go:338-345 -/
def text_WriteU16LENext : List Str := [
  str% "",
  str% "// WriteU16LENext writes a slice of uint16s to the buffer at the",
  str% "// current offset in little-endian and moves the offset forward the",
  str% "// amount of bytes written",
  str% "func (b *MiniBuffer) WriteU16LENext(data []uint16) {",
  str% "\tb.WriteU16LE(b.off, data)",
  str% "\tb.SeekByte(int64(len(data))*2, true)",
  str% "}"]

/-- v3/minibuf.generated.go:338-345 -/
def fun_WriteU16LENext : Fun := ⟨(str% "WriteU16LENext"), [none], none, 1, (.cons (.expr (.call (str% "WriteU16LE") (.cons (.field .off) (.cons (.var 0) .nil)))) (.cons (.expr (.call (str% "SeekByte") (.cons (.bin .mul (.conv .i64 (.len (.var 0))) (.lit 2)) (.cons (.bool true) .nil)))) .nil))⟩

/-- v3/minibuf.generated.go:346-362 -/
def text_WriteU16BE : List Str := [
  str% "",
  str% "// WriteU16BE writes a slice of uint16s to the buffer at the",
  str% "// specified offset in big-endian without modifying the internal",
  str% "// offset value",
  str% "func (b *MiniBuffer) WriteU16BE(off int64, data []uint16) {",
  str% "\ti := 0",
  str% "\tn := len(data)",
  str% "\t{",
  str% "\twrite_loop:",
  str% "\t\tb.buf[off+int64(i*2)] = byte(data[i] >> 8)",
  str% "\t\tb.buf[off+int64(1+(i*2))] = byte(data[i])",
  str% "\t\ti++",
  str% "\t\tif i < n {",
  str% "\t\t\tgoto write_loop",
  str% "\t\t}",
  str% "\t}",
  str% "}"]

/-- v3/minibuf.generated.go:346-362 -/
def fun_WriteU16BE : Fun := ⟨(str% "WriteU16BE"), [some .i64, none], none, 4, (.cons (.set 2 (.lit 0)) (.cons (.set 3 (.len (.var 1))) (.cons (.block (str% "write_loop") (.cons (.setBufAt (.bin .add (.var 0) (.conv .i64 (.bin .mul (.var 2) (.lit 2)))) (.conv .u8 (.bin .shr (.index (.var 1) (.var 2)) (.lit 8)))) (.cons (.setBufAt (.bin .add (.var 0) (.conv .i64 (.bin .add (.lit 1) (.bin .mul (.var 2) (.lit 2))))) (.conv .u8 (.index (.var 1) (.var 2)))) (.cons (.set 2 (.bin .add (.var 2) (.lit 1))) (.cons (.ifs (.bin .lt (.var 2) (.var 3)) (.cons (.goto (str% "write_loop")) .nil) .nil) .nil))))) .nil)))⟩

/-- v3/minibuf.generated.go:363-370 -/
def text_WriteU16BENext : List Str := [
  str% "",
  str% "// WriteU16BENext writes a slice of uint16s to the buffer at the",
  str% "// current offset in big-endian and moves the offset forward the",
  str% "// amount of bytes written",
  str% "func (b *MiniBuffer) WriteU16BENext(data []uint16) {",
  str% "\tb.WriteU16BE(b.off, data)",
  str% "\tb.SeekByte(int64(len(data))*2, true)",
  str% "}"]

/-- v3/minibuf.generated.go:363-370 -/
def fun_WriteU16BENext : Fun := ⟨(str% "WriteU16BENext"), [none], none, 1, (.cons (.expr (.call (str% "WriteU16BE") (.cons (.field .off) (.cons (.var 0) .nil)))) (.cons (.expr (.call (str% "SeekByte") (.cons (.bin .mul (.conv .i64 (.len (.var 0))) (.lit 2)) (.cons (.bool true) .nil)))) .nil))⟩

/-- v3/minibuf.generated.go:371-389 -/
def text_WriteU32LE : List Str := [
  str% "",
  str% "// WriteU32LE writes a slice of uint32s to the buffer at the",
  str% "// specified offset in little-endian without modifying the internal",
  str% "// offset value",
  str% "func (b *MiniBuffer) WriteU32LE(off int64, data []uint32) {",
  str% "\ti := 0",
  str% "\tn := len(data)",
  str% "\t{",
  str% "\twrite_loop:",
  str% "\t\tb.buf[off+int64(i*4)] = byte(data[i])",
  str% "\t\tb.buf[off+int64(1+(i*4))] = byte(data[i] >> 8)",
  str% "\t\tb.buf[off+int64(2+(i*4))] = byte(data[i] >> 16)",
  str% "\t\tb.buf[off+int64(3+(i*4))] = byte(data[i] >> 24)",
  str% "\t\ti++",
  str% "\t\tif i < n {",
  str% "\t\t\tgoto write_loop",
  str% "\t\t}",
  str% "\t}",
  str% "}"]

/-- v3/minibuf.generated.go:371-389 -/
def fun_WriteU32LE : Fun := ⟨(str% "WriteU32LE"), [some .i64, none], none, 4, (.cons (.set 2 (.lit 0)) (.cons (.set 3 (.len (.var 1))) (.cons (.block (str% "write_loop") (.cons (.setBufAt (.bin .add (.var 0) (.conv .i64 (.bin .mul (.var 2) (.lit 4)))) (.conv .u8 (.index (.var 1) (.var 2)))) (.cons (.setBufAt (.bin .add (.var 0) (.conv .i64 (.bin .add (.lit 1) (.bin .mul (.var 2) (.lit 4))))) (.conv .u8 (.bin .shr (.index (.var 1) (.var 2)) (.lit 8)))) (.cons (.setBufAt (.bin .add (.var 0) (.conv .i64 (.bin .add (.lit 2) (.bin .mul (.var 2) (.lit 4))))) (.conv .u8 (.bin .shr (.index (.var 1) (.var 2)) (.lit 16)))) (.cons (.setBufAt (.bin .add (.var 0) (.conv .i64 (.bin .add (.lit 3) (.bin .mul (.var 2) (.lit 4))))) (.conv .u8 (.bin .shr (.index (.var 1) (.var 2)) (.lit 24)))) (.cons (.set 2 (.bin .add (.var 2) (.lit 1))) (.cons (.ifs (.bin .lt (.var 2) (.var 3)) (.cons (.goto (str% "write_loop")) .nil) .nil) .nil))))))) .nil)))⟩

/-- v3/minibuf.generated.go:390-397 -/
def text_WriteU32LENext : List Str := [
  str% "",
  str% "// WriteU32LENext writes a slice of uint32s to the buffer at the",
  str% "// current offset in little-endian and moves the offset forward the",
  str% "// amount of bytes written",
  str% "func (b *MiniBuffer) WriteU32LENext(data []uint32) {",
  str% "\tb.WriteU32LE(b.off, data)",
  str% "\tb.SeekByte(int64(len(data))*4, true)",
  str% "}"]

/-- v3/minibuf.generated.go:390-397 -/
def fun_WriteU32LENext : Fun := ⟨(str% "WriteU32LENext"), [none], none, 1, (.cons (.expr (.call (str% "WriteU32LE") (.cons (.field .off) (.cons (.var 0) .nil)))) (.cons (.expr (.call (str% "SeekByte") (.cons (.bin .mul (.conv .i64 (.len (.var 0))) (.lit 4)) (.cons (.bool true) .nil)))) .nil))⟩

/-- v3/minibuf.generated.go:398-416 -/
def text_WriteU32BE : List Str := [
  str% "",
  str% "// WriteU32BE writes a slice of uint32s to the buffer at the",
  str% "// specified offset in big-endian without modifying the internal",
  str% "// offset value",
  str% "func (b *MiniBuffer) WriteU32BE(off int64, data []uint32) {",
  str% "\ti := 0",
  str% "\tn := len(data)",
  str% "\t{",
  str% "\twrite_loop:",
  str% "\t\tb.buf[off+int64(i*4)] = byte(data[i] >> 24)",
  str% "\t\tb.buf[off+int64(1+(i*4))] = byte(data[i] >> 16)",
  str% "\t\tb.buf[off+int64(2+(i*4))] = byte(data[i] >> 8)",
  str% "\t\tb.buf[off+int64(3+(i*4))] = byte(data[i])",
  str% "\t\ti++",
  str% "\t\tif i < n {",
  str% "\t\t\tgoto write_loop",
  str% "\t\t}",
  str% "\t}",
  str% "}"]

/-- v3/minibuf.generated.go:398-416 -/
def fun_WriteU32BE : Fun := ⟨(str% "WriteU32BE"), [some .i64, none], none, 4, (.cons (.set 2 (.lit 0)) (.cons (.set 3 (.len (.var 1))) (.cons (.block (str% "write_loop") (.cons (.setBufAt (.bin .add (.var 0) (.conv .i64 (.bin .mul (.var 2) (.lit 4)))) (.conv .u8 (.bin .shr (.index (.var 1) (.var 2)) (.lit 24)))) (.cons (.setBufAt (.bin .add (.var 0) (.conv .i64 (.bin .add (.lit 1) (.bin .mul (.var 2) (.lit 4))))) (.conv .u8 (.bin .shr (.index (.var 1) (.var 2)) (.lit 16)))) (.cons (.setBufAt (.bin .add (.var 0) (.conv .i64 (.bin .add (.lit 2) (.bin .mul (.var 2) (.lit 4))))) (.conv .u8 (.bin .shr (.index (.var 1) (.var 2)) (.lit 8)))) (.cons (.setBufAt (.bin .add (.var 0) (.conv .i64 (.bin .add (.lit 3) (.bin .mul (.var 2) (.lit 4))))) (.conv .u8 (.index (.var 1) (.var 2)))) (.cons (.set 2 (.bin .add (.var 2) (.lit 1))) (.cons (.ifs (.bin .lt (.var 2) (.var 3)) (.cons (.goto (str% "write_loop")) .nil) .nil) .nil))))))) .nil)))⟩

/-- v3/minibuf.generated.go:417-424 -/
def text_WriteU32BENext : List Str := [
  str% "",
  str% "// WriteU32BENext writes a slice of uint32s to the buffer at the",
  str% "// current offset in big-endian and moves the offset forward the",
  str% "// amount of bytes written",
  str% "func (b *MiniBuffer) WriteU32BENext(data []uint32) {",
  str% "\tb.WriteU32BE(b.off, data)",
  str% "\tb.SeekByte(int64(len(data))*4, true)",
  str% "}"]

/-- v3/minibuf.generated.go:417-424 -/
def fun_WriteU32BENext : Fun := ⟨(str% "WriteU32BENext"), [none], none, 1, (.cons (.expr (.call (str% "WriteU32BE") (.cons (.field .off) (.cons (.var 0) .nil)))) (.cons (.expr (.call (str% "SeekByte") (.cons (.bin .mul (.conv .i64 (.len (.var 0))) (.lit 4)) (.cons (.bool true) .nil)))) .nil))⟩

/-- v3/minibuf.generated.go:425-447 -/
def text_WriteU64LE : List Str := [
  str% "",
  str% "// WriteU64LE writes a slice of uint64s to the buffer at the",
  str% "// specified offset in little-endian without modifying the internal",
  str% "// offset value",
  str% "func (b *MiniBuffer) WriteU64LE(off int64, data []uint64) {",
  str% "\ti := 0",
  str% "\tn := len(data)",
  str% "\t{",
  str% "\twrite_loop:",
  str% "\t\tb.buf[off+int64(i*8)] = byte(data[i])",
  str% "\t\tb.buf[off+int64(1+(i*8))] = byte(data[i] >> 8)",
  str% "\t\tb.buf[off+int64(2+(i*8))] = byte(data[i] >> 16)",
  str% "\t\tb.buf[off+int64(3+(i*8))] = byte(data[i] >> 24)",
  str% "\t\tb.buf[off+int64(4+(i*8))] = byte(data[i] >> 32)",
  str% "\t\tb.buf[off+int64(5+(i*8))] = byte(data[i] >> 40)",
  str% "\t\tb.buf[off+int64(6+(i*8))] = byte(data[i] >> 48)",
  str% "\t\tb.buf[off+int64(7+(i*8))] = byte(data[i] >> 56)",
  str% "\t\ti++",
  str% "\t\tif i < n {",
  str% "\t\t\tgoto write_loop",
  str% "\t\t}",
  str% "\t}",
  str% "}"]

/-- v3/minibuf.generated.go:425-447 -/
def fun_WriteU64LE : Fun := ⟨(str% "WriteU64LE"), [some .i64, none], none, 4, (.cons (.set 2 (.lit 0)) (.cons (.set 3 (.len (.var 1))) (.cons (.block (str% "write_loop") (.cons (.setBufAt (.bin .add (.var 0) (.conv .i64 (.bin .mul (.var 2) (.lit 8)))) (.conv .u8 (.index (.var 1) (.var 2)))) (.cons (.setBufAt (.bin .add (.var 0) (.conv .i64 (.bin .add (.lit 1) (.bin .mul (.var 2) (.lit 8))))) (.conv .u8 (.bin .shr (.index (.var 1) (.var 2)) (.lit 8)))) (.cons (.setBufAt (.bin .add (.var 0) (.conv .i64 (.bin .add (.lit 2) (.bin .mul (.var 2) (.lit 8))))) (.conv .u8 (.bin .shr (.index (.var 1) (.var 2)) (.lit 16)))) (.cons (.setBufAt (.bin .add (.var 0) (.conv .i64 (.bin .add (.lit 3) (.bin .mul (.var 2) (.lit 8))))) (.conv .u8 (.bin .shr (.index (.var 1) (.var 2)) (.lit 24)))) (.cons (.setBufAt (.bin .add (.var 0) (.conv .i64 (.bin .add (.lit 4) (.bin .mul (.var 2) (.lit 8))))) (.conv .u8 (.bin .shr (.index (.var 1) (.var 2)) (.lit 32)))) (.cons (.setBufAt (.bin .add (.var 0) (.conv .i64 (.bin .add (.lit 5) (.bin .mul (.var 2) (.lit 8))))) (.conv .u8 (.bin .shr (.index (.var 1) (.var 2)) (.lit 40)))) (.cons (.setBufAt (.bin .add (.var 0) (.conv .i64 (.bin .add (.lit 6) (.bin .mul (.var 2) (.lit 8))))) (.conv .u8 (.bin .shr (.index (.var 1) (.var 2)) (.lit 48)))) (.cons (.setBufAt (.bin .add (.var 0) (.conv .i64 (.bin .add (.lit 7) (.bin .mul (.var 2) (.lit 8))))) (.conv .u8 (.bin .shr (.index (.var 1) (.var 2)) (.lit 56)))) (.cons (.set 2 (.bin .add (.var 2) (.lit 1))) (.cons (.ifs (.bin .lt (.var 2) (.var 3)) (.cons (.goto (str% "write_loop")) .nil) .nil) .nil))))))))))) .nil)))⟩

/-- v3/minibuf.generated.go:448-455 -/
def text_WriteU64LENext : List Str := [
  str% "",
  str% "// WriteU64LENext writes a slice of uint64s to the buffer at the",
  str% "// current offset in little-endian and moves the offset forward the",
  str% "// amount of bytes written",
  str% "func (b *MiniBuffer) WriteU64LENext(data []uint64) {",
  str% "\tb.WriteU64LE(b.off, data)",
  str% "\tb.SeekByte(int64(len(data))*8, true)",
  str% "}"]

/-- v3/minibuf.generated.go:448-455 -/
def fun_WriteU64LENext : Fun := ⟨(str% "WriteU64LENext"), [none], none, 1, (.cons (.expr (.call (str% "WriteU64LE") (.cons (.field .off) (.cons (.var 0) .nil)))) (.cons (.expr (.call (str% "SeekByte") (.cons (.bin .mul (.conv .i64 (.len (.var 0))) (.lit 8)) (.cons (.bool true) .nil)))) .nil))⟩

/-- v3/minibuf.generated.go:456-478 -/
def text_WriteU64BE : List Str := [
  str% "",
  str% "// WriteU64BE writes a slice of uint64s to the buffer at the",
  str% "// specified offset in big-endian without modifying the internal",
  str% "// offset value",
  str% "func (b *MiniBuffer) WriteU64BE(off int64, data []uint64) {",
  str% "\ti := 0",
  str% "\tn := len(data)",
  str% "\t{",
  str% "\twrite_loop:",
  str% "\t\tb.buf[off+int64(i*8)] = byte(data[i] >> 56)",
  str% "\t\tb.buf[off+int64(1+(i*8))] = byte(data[i] >> 48)",
  str% "\t\tb.buf[off+int64(2+(i*8))] = byte(data[i] >> 40)",
  str% "\t\tb.buf[off+int64(3+(i*8))] = byte(data[i] >> 32)",
  str% "\t\tb.buf[off+int64(4+(i*8))] = byte(data[i] >> 24)",
  str% "\t\tb.buf[off+int64(5+(i*8))] = byte(data[i] >> 16)",
  str% "\t\tb.buf[off+int64(6+(i*8))] = byte(data[i] >> 8)",
  str% "\t\tb.buf[off+int64(7+(i*8))] = byte(data[i])",
  str% "\t\ti++",
  str% "\t\tif i < n {",
  str% "\t\t\tgoto write_loop",
  str% "\t\t}",
  str% "\t}",
  str% "}"]

/-- v3/minibuf.generated.go:456-478 -/
def fun_WriteU64BE : Fun := ⟨(str% "WriteU64BE"), [some .i64, none], none, 4, (.cons (.set 2 (.lit 0)) (.cons (.set 3 (.len (.var 1))) (.cons (.block (str% "write_loop") (.cons (.setBufAt (.bin .add (.var 0) (.conv .i64 (.bin .mul (.var 2) (.lit 8)))) (.conv .u8 (.bin .shr (.index (.var 1) (.var 2)) (.lit 56)))) (.cons (.setBufAt (.bin .add (.var 0) (.conv .i64 (.bin .add (.lit 1) (.bin .mul (.var 2) (.lit 8))))) (.conv .u8 (.bin .shr (.index (.var 1) (.var 2)) (.lit 48)))) (.cons (.setBufAt (.bin .add (.var 0) (.conv .i64 (.bin .add (.lit 2) (.bin .mul (.var 2) (.lit 8))))) (.conv .u8 (.bin .shr (.index (.var 1) (.var 2)) (.lit 40)))) (.cons (.setBufAt (.bin .add (.var 0) (.conv .i64 (.bin .add (.lit 3) (.bin .mul (.var 2) (.lit 8))))) (.conv .u8 (.bin .shr (.index (.var 1) (.var 2)) (.lit 32)))) (.cons (.setBufAt (.bin .add (.var 0) (.conv .i64 (.bin .add (.lit 4) (.bin .mul (.var 2) (.lit 8))))) (.conv .u8 (.bin .shr (.index (.var 1) (.var 2)) (.lit 24)))) (.cons (.setBufAt (.bin .add (.var 0) (.conv .i64 (.bin .add (.lit 5) (.bin .mul (.var 2) (.lit 8))))) (.conv .u8 (.bin .shr (.index (.var 1) (.var 2)) (.lit 16)))) (.cons (.setBufAt (.bin .add (.var 0) (.conv .i64 (.bin .add (.lit 6) (.bin .mul (.var 2) (.lit 8))))) (.conv .u8 (.bin .shr (.index (.var 1) (.var 2)) (.lit 8)))) (.cons (.setBufAt (.bin .add (.var 0) (.conv .i64 (.bin .add (.lit 7) (.bin .mul (.var 2) (.lit 8))))) (.conv .u8 (.index (.var 1) (.var 2)))) (.cons (.set 2 (.bin .add (.var 2) (.lit 1))) (.cons (.ifs (.bin .lt (.var 2) (.var 3)) (.cons (.goto (str% "write_loop")) .nil) .nil) .nil))))))))))) .nil)))⟩

/-- v3/minibuf.generated.go:479-486 -/
def text_WriteU64BENext : List Str := [
  str% "",
  str% "// WriteU64BENext writes a slice of uint64s to the buffer at the",
  str% "// current offset in big-endian and moves the offset forward the",
  str% "// amount of bytes written",
  str% "func (b *MiniBuffer) WriteU64BENext(data []uint64) {",
  str% "\tb.WriteU64BE(b.off, data)",
  str% "\tb.SeekByte(int64(len(data))*8, true)",
  str% "}"]

/-- v3/minibuf.generated.go:479-486 -/
def fun_WriteU64BENext : Fun := ⟨(str% "WriteU64BENext"), [none], none, 1, (.cons (.expr (.call (str% "WriteU64BE") (.cons (.field .off) (.cons (.var 0) .nil)))) (.cons (.expr (.call (str% "SeekByte") (.cons (.bin .mul (.conv .i64 (.len (.var 0))) (.lit 8)) (.cons (.bool true) .nil)))) .nil))⟩

/-- v3/minibuf.generated.go:487-503 -/
def text_WriteI16LE : List Str := [
  str% "",
  str% "// WriteI16LE writes a slice of int16s to the buffer at the",
  str% "// specified offset in little-endian without modifying the internal",
  str% "// offset value",
  str% "func (b *MiniBuffer) WriteI16LE(off int64, data []int16) {",
  str% "\ti := 0",
  str% "\tn := len(data)",
  str% "\t{",
  str% "\twrite_loop:",
  str% "\t\tb.buf[off+int64(i*2)] = byte(data[i])",
  str% "\t\tb.buf[off+int64(1+(i*2))] = byte(data[i] >> 8)",
  str% "\t\ti++",
  str% "\t\tif i < n {",
  str% "\t\t\tgoto write_loop",
  str% "\t\t}",
  str% "\t}",
  str% "}"]

/-- v3/minibuf.generated.go:487-503 -/
def fun_WriteI16LE : Fun := ⟨(str% "WriteI16LE"), [some .i64, none], none, 4, (.cons (.set 2 (.lit 0)) (.cons (.set 3 (.len (.var 1))) (.cons (.block (str% "write_loop") (.cons (.setBufAt (.bin .add (.var 0) (.conv .i64 (.bin .mul (.var 2) (.lit 2)))) (.conv .u8 (.index (.var 1) (.var 2)))) (.cons (.setBufAt (.bin .add (.var 0) (.conv .i64 (.bin .add (.lit 1) (.bin .mul (.var 2) (.lit 2))))) (.conv .u8 (.bin .shr (.index (.var 1) (.var 2)) (.lit 8)))) (.cons (.set 2 (.bin .add (.var 2) (.lit 1))) (.cons (.ifs (.bin .lt (.var 2) (.var 3)) (.cons (.goto (str% "write_loop")) .nil) .nil) .nil))))) .nil)))⟩

/-- v3/minibuf.generated.go:504-511 -/
def text_WriteI16LENext : List Str := [
  str% "",
  str% "// WriteI16LENext writes a slice of int16s to the buffer at the",
  str% "// current offset in little-endian and moves the offset forward the",
  str% "// amount of bytes written",
  str% "func (b *MiniBuffer) WriteI16LENext(data []int16) {",
  str% "\tb.WriteI16LE(b.off, data)",
  str% "\tb.SeekByte(int64(len(data))*2, true)",
  str% "}"]

/-- v3/minibuf.generated.go:504-511 -/
def fun_WriteI16LENext : Fun := ⟨(str% "WriteI16LENext"), [none], none, 1, (.cons (.expr (.call (str% "WriteI16LE") (.cons (.field .off) (.cons (.var 0) .nil)))) (.cons (.expr (.call (str% "SeekByte") (.cons (.bin .mul (.conv .i64 (.len (.var 0))) (.lit 2)) (.cons (.bool true) .nil)))) .nil))⟩

/-- v3/minibuf.generated.go:512-528 -/
def text_WriteI16BE : List Str := [
  str% "",
  str% "// WriteI16BE writes a slice of int16s to the buffer at the",
  str% "// specified offset in big-endian without modifying the internal",
  str% "// offset value",
  str% "func (b *MiniBuffer) WriteI16BE(off int64, data []int16) {",
  str% "\ti := 0",
  str% "\tn := len(data)",
  str% "\t{",
  str% "\twrite_loop:",
  str% "\t\tb.buf[off+int64(i*2)] = byte(data[i] >> 8)",
  str% "\t\tb.buf[off+int64(1+(i*2))] = byte(data[i])",
  str% "\t\ti++",
  str% "\t\tif i < n {",
  str% "\t\t\tgoto write_loop",
  str% "\t\t}",
  str% "\t}",
  str% "}"]

/-- v3/minibuf.generated.go:512-528 -/
def fun_WriteI16BE : Fun := ⟨(str% "WriteI16BE"), [some .i64, none], none, 4, (.cons (.set 2 (.lit 0)) (.cons (.set 3 (.len (.var 1))) (.cons (.block (str% "write_loop") (.cons (.setBufAt (.bin .add (.var 0) (.conv .i64 (.bin .mul (.var 2) (.lit 2)))) (.conv .u8 (.bin .shr (.index (.var 1) (.var 2)) (.lit 8)))) (.cons (.setBufAt (.bin .add (.var 0) (.conv .i64 (.bin .add (.lit 1) (.bin .mul (.var 2) (.lit 2))))) (.conv .u8 (.index (.var 1) (.var 2)))) (.cons (.set 2 (.bin .add (.var 2) (.lit 1))) (.cons (.ifs (.bin .lt (.var 2) (.var 3)) (.cons (.goto (str% "write_loop")) .nil) .nil) .nil))))) .nil)))⟩

/-- v3/minibuf.generated.go:529-536 -/
def text_WriteI16BENext : List Str := [
  str% "",
  str% "// WriteI16BENext writes a slice of int16s to the buffer at the",
  str% "// current offset in big-endian and moves the offset forward the",
  str% "// amount of bytes written",
  str% "func (b *MiniBuffer) WriteI16BENext(data []int16) {",
  str% "\tb.WriteI16BE(b.off, data)",
  str% "\tb.SeekByte(int64(len(data))*2, true)",
  str% "}"]

/-- v3/minibuf.generated.go:529-536 -/
def fun_WriteI16BENext : Fun := ⟨(str% "WriteI16BENext"), [none], none, 1, (.cons (.expr (.call (str% "WriteI16BE") (.cons (.field .off) (.cons (.var 0) .nil)))) (.cons (.expr (.call (str% "SeekByte") (.cons (.bin .mul (.conv .i64 (.len (.var 0))) (.lit 2)) (.cons (.bool true) .nil)))) .nil))⟩

/-- v3/minibuf.generated.go:537-555 -/
def text_WriteI32LE : List Str := [
  str% "",
  str% "// WriteI32LE writes a slice of int32s to the buffer at the",
  str% "// specified offset in little-endian without modifying the internal",
  str% "// offset value",
  str% "func (b *MiniBuffer) WriteI32LE(off int64, data []int32) {",
  str% "\ti := 0",
  str% "\tn := len(data)",
  str% "\t{",
  str% "\twrite_loop:",
  str% "\t\tb.buf[off+int64(i*4)] = byte(data[i])",
  str% "\t\tb.buf[off+int64(1+(i*4))] = byte(data[i] >> 8)",
  str% "\t\tb.buf[off+int64(2+(i*4))] = byte(data[i] >> 16)",
  str% "\t\tb.buf[off+int64(3+(i*4))] = byte(data[i] >> 24)",
  str% "\t\ti++",
  str% "\t\tif i < n {",
  str% "\t\t\tgoto write_loop",
  str% "\t\t}",
  str% "\t}",
  str% "}"]

/-- v3/minibuf.generated.go:537-555 -/
def fun_WriteI32LE : Fun := ⟨(str% "WriteI32LE"), [some .i64, none], none, 4, (.cons (.set 2 (.lit 0)) (.cons (.set 3 (.len (.var 1))) (.cons (.block (str% "write_loop") (.cons (.setBufAt (.bin .add (.var 0) (.conv .i64 (.bin .mul (.var 2) (.lit 4)))) (.conv .u8 (.index (.var 1) (.var 2)))) (.cons (.setBufAt (.bin .add (.var 0) (.conv .i64 (.bin .add (.lit 1) (.bin .mul (.var 2) (.lit 4))))) (.conv .u8 (.bin .shr (.index (.var 1) (.var 2)) (.lit 8)))) (.cons (.setBufAt (.bin .add (.var 0) (.conv .i64 (.bin .add (.lit 2) (.bin .mul (.var 2) (.lit 4))))) (.conv .u8 (.bin .shr (.index (.var 1) (.var 2)) (.lit 16)))) (.cons (.setBufAt (.bin .add (.var 0) (.conv .i64 (.bin .add (.lit 3) (.bin .mul (.var 2) (.lit 4))))) (.conv .u8 (.bin .shr (.index (.var 1) (.var 2)) (.lit 24)))) (.cons (.set 2 (.bin .add (.var 2) (.lit 1))) (.cons (.ifs (.bin .lt (.var 2) (.var 3)) (.cons (.goto (str% "write_loop")) .nil) .nil) .nil))))))) .nil)))⟩

/-- v3/minibuf.generated.go:556-563 -/
def text_WriteI32LENext : List Str := [
  str% "",
  str% "// WriteI32LENext writes a slice of int32s to the buffer at the",
  str% "// current offset in little-endian and moves the offset forward the",
  str% "// amount of bytes written",
  str% "func (b *MiniBuffer) WriteI32LENext(data []int32) {",
  str% "\tb.WriteI32LE(b.off, data)",
  str% "\tb.SeekByte(int64(len(data))*4, true)",
  str% "}"]

/-- v3/minibuf.generated.go:556-563 -/
def fun_WriteI32LENext : Fun := ⟨(str% "WriteI32LENext"), [none], none, 1, (.cons (.expr (.call (str% "WriteI32LE") (.cons (.field .off) (.cons (.var 0) .nil)))) (.cons (.expr (.call (str% "SeekByte") (.cons (.bin .mul (.conv .i64 (.len (.var 0))) (.lit 4)) (.cons (.bool true) .nil)))) .nil))⟩

/-- v3/minibuf.generated.go:564-582 -/
def text_WriteI32BE : List Str := [
  str% "",
  str% "// WriteI32BE writes a slice of int32s to the buffer at the",
  str% "// specified offset in big-endian without modifying the internal",
  str% "// offset value",
  str% "func (b *MiniBuffer) WriteI32BE(off int64, data []int32) {",
  str% "\ti := 0",
  str% "\tn := len(data)",
  str% "\t{",
  str% "\twrite_loop:",
  str% "\t\tb.buf[off+int64(i*4)] = byte(data[i] >> 24)",
  str% "\t\tb.buf[off+int64(1+(i*4))] = byte(data[i] >> 16)",
  str% "\t\tb.buf[off+int64(2+(i*4))] = byte(data[i] >> 8)",
  str% "\t\tb.buf[off+int64(3+(i*4))] = byte(data[i])",
  str% "\t\ti++",
  str% "\t\tif i < n {",
  str% "\t\t\tgoto write_loop",
  str% "\t\t}",
  str% "\t}",
  str% "}"]

/-- v3/minibuf.generated.go:564-582 -/
def fun_WriteI32BE : Fun := ⟨(str% "WriteI32BE"), [some .i64, none], none, 4, (.cons (.set 2 (.lit 0)) (.cons (.set 3 (.len (.var 1))) (.cons (.block (str% "write_loop") (.cons (.setBufAt (.bin .add (.var 0) (.conv .i64 (.bin .mul (.var 2) (.lit 4)))) (.conv .u8 (.bin .shr (.index (.var 1) (.var 2)) (.lit 24)))) (.cons (.setBufAt (.bin .add (.var 0) (.conv .i64 (.bin .add (.lit 1) (.bin .mul (.var 2) (.lit 4))))) (.conv .u8 (.bin .shr (.index (.var 1) (.var 2)) (.lit 16)))) (.cons (.setBufAt (.bin .add (.var 0) (.conv .i64 (.bin .add (.lit 2) (.bin .mul (.var 2) (.lit 4))))) (.conv .u8 (.bin .shr (.index (.var 1) (.var 2)) (.lit 8)))) (.cons (.setBufAt (.bin .add (.var 0) (.conv .i64 (.bin .add (.lit 3) (.bin .mul (.var 2) (.lit 4))))) (.conv .u8 (.index (.var 1) (.var 2)))) (.cons (.set 2 (.bin .add (.var 2) (.lit 1))) (.cons (.ifs (.bin .lt (.var 2) (.var 3)) (.cons (.goto (str% "write_loop")) .nil) .nil) .nil))))))) .nil)))⟩

/-- v3/minibuf.generated.go:583-590 -/
def text_WriteI32BENext : List Str := [
  str% "",
  str% "// WriteI32BENext writes a slice of int32s to the buffer at the",
  str% "// current offset in big-endian and moves the offset forward the",
  str% "// amount of bytes written",
  str% "func (b *MiniBuffer) WriteI32BENext(data []int32) {",
  str% "\tb.WriteI32BE(b.off, data)",
  str% "\tb.SeekByte(int64(len(data))*4, true)",
  str% "}"]

/-- v3/minibuf.generated.go:583-590 -/
def fun_WriteI32BENext : Fun := ⟨(str% "WriteI32BENext"), [none], none, 1, (.cons (.expr (.call (str% "WriteI32BE") (.cons (.field .off) (.cons (.var 0) .nil)))) (.cons (.expr (.call (str% "SeekByte") (.cons (.bin .mul (.conv .i64 (.len (.var 0))) (.lit 4)) (.cons (.bool true) .nil)))) .nil))⟩

/-- v3/minibuf.generated.go:591-613 -/
def text_WriteI64LE : List Str := [
  str% "",
  str% "// WriteI64LE writes a slice of int64s to the buffer at the",
  str% "// specified offset in little-endian without modifying the internal",
  str% "// offset value",
  str% "func (b *MiniBuffer) WriteI64LE(off int64, data []int64) {",
  str% "\ti := 0",
  str% "\tn := len(data)",
  str% "\t{",
  str% "\twrite_loop:",
  str% "\t\tb.buf[off+int64(i*8)] = byte(data[i])",
  str% "\t\tb.buf[off+int64(1+(i*8))] = byte(data[i] >> 8)",
  str% "\t\tb.buf[off+int64(2+(i*8))] = byte(data[i] >> 16)",
  str% "\t\tb.buf[off+int64(3+(i*8))] = byte(data[i] >> 24)",
  str% "\t\tb.buf[off+int64(4+(i*8))] = byte(data[i] >> 32)",
  str% "\t\tb.buf[off+int64(5+(i*8))] = byte(data[i] >> 40)",
  str% "\t\tb.buf[off+int64(6+(i*8))] = byte(data[i] >> 48)",
  str% "\t\tb.buf[off+int64(7+(i*8))] = byte(data[i] >> 56)",
  str% "\t\ti++",
  str% "\t\tif i < n {",
  str% "\t\t\tgoto write_loop",
  str% "\t\t}",
  str% "\t}",
  str% "}"]

/-- v3/minibuf.generated.go:591-613 -/
def fun_WriteI64LE : Fun := ⟨(str% "WriteI64LE"), [some .i64, none], none, 4, (.cons (.set 2 (.lit 0)) (.cons (.set 3 (.len (.var 1))) (.cons (.block (str% "write_loop") (.cons (.setBufAt (.bin .add (.var 0) (.conv .i64 (.bin .mul (.var 2) (.lit 8)))) (.conv .u8 (.index (.var 1) (.var 2)))) (.cons (.setBufAt (.bin .add (.var 0) (.conv .i64 (.bin .add (.lit 1) (.bin .mul (.var 2) (.lit 8))))) (.conv .u8 (.bin .shr (.index (.var 1) (.var 2)) (.lit 8)))) (.cons (.setBufAt (.bin .add (.var 0) (.conv .i64 (.bin .add (.lit 2) (.bin .mul (.var 2) (.lit 8))))) (.conv .u8 (.bin .shr (.index (.var 1) (.var 2)) (.lit 16)))) (.cons (.setBufAt (.bin .add (.var 0) (.conv .i64 (.bin .add (.lit 3) (.bin .mul (.var 2) (.lit 8))))) (.conv .u8 (.bin .shr (.index (.var 1) (.var 2)) (.lit 24)))) (.cons (.setBufAt (.bin .add (.var 0) (.conv .i64 (.bin .add (.lit 4) (.bin .mul (.var 2) (.lit 8))))) (.conv .u8 (.bin .shr (.index (.var 1) (.var 2)) (.lit 32)))) (.cons (.setBufAt (.bin .add (.var 0) (.conv .i64 (.bin .add (.lit 5) (.bin .mul (.var 2) (.lit 8))))) (.conv .u8 (.bin .shr (.index (.var 1) (.var 2)) (.lit 40)))) (.cons (.setBufAt (.bin .add (.var 0) (.conv .i64 (.bin .add (.lit 6) (.bin .mul (.var 2) (.lit 8))))) (.conv .u8 (.bin .shr (.index (.var 1) (.var 2)) (.lit 48)))) (.cons (.setBufAt (.bin .add (.var 0) (.conv .i64 (.bin .add (.lit 7) (.bin .mul (.var 2) (.lit 8))))) (.conv .u8 (.bin .shr (.index (.var 1) (.var 2)) (.lit 56)))) (.cons (.set 2 (.bin .add (.var 2) (.lit 1))) (.cons (.ifs (.bin .lt (.var 2) (.var 3)) (.cons (.goto (str% "write_loop")) .nil) .nil) .nil))))))))))) .nil)))⟩

/-- v3/minibuf.generated.go:614-621 -/
def text_WriteI64LENext : List Str := [
  str% "",
  str% "// WriteI64LENext writes a slice of int64s to the buffer at the",
  str% "// current offset in little-endian and moves the offset forward the",
  str% "// amount of bytes written",
  str% "func (b *MiniBuffer) WriteI64LENext(data []int64) {",
  str% "\tb.WriteI64LE(b.off, data)",
  str% "\tb.SeekByte(int64(len(data))*8, true)",
  str% "}"]

/-- v3/minibuf.generated.go:614-621 -/
def fun_WriteI64LENext : Fun := ⟨(str% "WriteI64LENext"), [none], none, 1, (.cons (.expr (.call (str% "WriteI64LE") (.cons (.field .off) (.cons (.var 0) .nil)))) (.cons (.expr (.call (str% "SeekByte") (.cons (.bin .mul (.conv .i64 (.len (.var 0))) (.lit 8)) (.cons (.bool true) .nil)))) .nil))⟩

/-- v3/minibuf.generated.go:622-644 -/
def text_WriteI64BE : List Str := [
  str% "",
  str% "// WriteI64BE writes a slice of int64s to the buffer at the",
  str% "// specified offset in big-endian without modifying the internal",
  str% "// offset value",
  str% "func (b *MiniBuffer) WriteI64BE(off int64, data []int64) {",
  str% "\ti := 0",
  str% "\tn := len(data)",
  str% "\t{",
  str% "\twrite_loop:",
  str% "\t\tb.buf[off+int64(i*8)] = byte(data[i] >> 56)",
  str% "\t\tb.buf[off+int64(1+(i*8))] = byte(data[i] >> 48)",
  str% "\t\tb.buf[off+int64(2+(i*8))] = byte(data[i] >> 40)",
  str% "\t\tb.buf[off+int64(3+(i*8))] = byte(data[i] >> 32)",
  str% "\t\tb.buf[off+int64(4+(i*8))] = byte(data[i] >> 24)",
  str% "\t\tb.buf[off+int64(5+(i*8))] = byte(data[i] >> 16)",
  str% "\t\tb.buf[off+int64(6+(i*8))] = byte(data[i] >> 8)",
  str% "\t\tb.buf[off+int64(7+(i*8))] = byte(data[i])",
  str% "\t\ti++",
  str% "\t\tif i < n {",
  str% "\t\t\tgoto write_loop",
  str% "\t\t}",
  str% "\t}",
  str% "}"]

/-- v3/minibuf.generated.go:622-644 -/
def fun_WriteI64BE : Fun := ⟨(str% "WriteI64BE"), [some .i64, none], none, 4, (.cons (.set 2 (.lit 0)) (.cons (.set 3 (.len (.var 1))) (.cons (.block (str% "write_loop") (.cons (.setBufAt (.bin .add (.var 0) (.conv .i64 (.bin .mul (.var 2) (.lit 8)))) (.conv .u8 (.bin .shr (.index (.var 1) (.var 2)) (.lit 56)))) (.cons (.setBufAt (.bin .add (.var 0) (.conv .i64 (.bin .add (.lit 1) (.bin .mul (.var 2) (.lit 8))))) (.conv .u8 (.bin .shr (.index (.var 1) (.var 2)) (.lit 48)))) (.cons (.setBufAt (.bin .add (.var 0) (.conv .i64 (.bin .add (.lit 2) (.bin .mul (.var 2) (.lit 8))))) (.conv .u8 (.bin .shr (.index (.var 1) (.var 2)) (.lit 40)))) (.cons (.setBufAt (.bin .add (.var 0) (.conv .i64 (.bin .add (.lit 3) (.bin .mul (.var 2) (.lit 8))))) (.conv .u8 (.bin .shr (.index (.var 1) (.var 2)) (.lit 32)))) (.cons (.setBufAt (.bin .add (.var 0) (.conv .i64 (.bin .add (.lit 4) (.bin .mul (.var 2) (.lit 8))))) (.conv .u8 (.bin .shr (.index (.var 1) (.var 2)) (.lit 24)))) (.cons (.setBufAt (.bin .add (.var 0) (.conv .i64 (.bin .add (.lit 5) (.bin .mul (.var 2) (.lit 8))))) (.conv .u8 (.bin .shr (.index (.var 1) (.var 2)) (.lit 16)))) (.cons (.setBufAt (.bin .add (.var 0) (.conv .i64 (.bin .add (.lit 6) (.bin .mul (.var 2) (.lit 8))))) (.conv .u8 (.bin .shr (.index (.var 1) (.var 2)) (.lit 8)))) (.cons (.setBufAt (.bin .add (.var 0) (.conv .i64 (.bin .add (.lit 7) (.bin .mul (.var 2) (.lit 8))))) (.conv .u8 (.index (.var 1) (.var 2)))) (.cons (.set 2 (.bin .add (.var 2) (.lit 1))) (.cons (.ifs (.bin .lt (.var 2) (.var 3)) (.cons (.goto (str% "write_loop")) .nil) .nil) .nil))))))))))) .nil)))⟩

/-- v3/minibuf.generated.go:645-652 -/
def text_WriteI64BENext : List Str := [
  str% "",
  str% "// WriteI64BENext writes a slice of int64s to the buffer at the",
  str% "// current offset in big-endian and moves the offset forward the",
  str% "// amount of bytes written",
  str% "func (b *MiniBuffer) WriteI64BENext(data []int64) {",
  str% "\tb.WriteI64BE(b.off, data)",
  str% "\tb.SeekByte(int64(len(data))*8, true)",
  str% "}"]

/-- v3/minibuf.generated.go:645-652 -/
def fun_WriteI64BENext : Fun := ⟨(str% "WriteI64BENext"), [none], none, 1, (.cons (.expr (.call (str% "WriteI64BE") (.cons (.field .off) (.cons (.var 0) .nil)))) (.cons (.expr (.call (str% "SeekByte") (.cons (.bin .mul (.conv .i64 (.len (.var 0))) (.lit 8)) (.cons (.bool true) .nil)))) .nil))⟩

/-- v3/minibuf.generated.go:653-671 -/
def text_WriteF32LE : List Str := [
  str% "",
  str% "// WriteF32LE writes a slice of float32s to the buffer at the",
  str% "// specified offset in little-endian without modifying the internal",
  str% "// offset value",
  str% "func (b *MiniBuffer) WriteF32LE(off int64, data []float32) {",
  str% "\ti := 0",
  str% "\tn := len(data)",
  str% "\t{",
  str% "\twrite_loop:",
  str% "\t\tb.buf[off+int64(i*4)] = byte(*(*uint32)(unsafe.Pointer(&data[i])))",
  str% "\t\tb.buf[off+int64(1+(i*4))] = byte(*(*uint32)(unsafe.Pointer(&data[i])) >> 8)",
  str% "\t\tb.buf[off+int64(2+(i*4))] = byte(*(*uint32)(unsafe.Pointer(&data[i])) >> 16)",
  str% "\t\tb.buf[off+int64(3+(i*4))] = byte(*(*uint32)(unsafe.Pointer(&data[i])) >> 24)",
  str% "\t\ti++",
  str% "\t\tif i < n {",
  str% "\t\t\tgoto write_loop",
  str% "\t\t}",
  str% "\t}",
  str% "}"]

/-- v3/minibuf.generated.go:653-671 -/
def fun_WriteF32LE : Fun := ⟨(str% "WriteF32LE"), [some .i64, none], none, 4, (.cons (.set 2 (.lit 0)) (.cons (.set 3 (.len (.var 1))) (.cons (.block (str% "write_loop") (.cons (.setBufAt (.bin .add (.var 0) (.conv .i64 (.bin .mul (.var 2) (.lit 4)))) (.conv .u8 (.bits .u32 (.index (.var 1) (.var 2))))) (.cons (.setBufAt (.bin .add (.var 0) (.conv .i64 (.bin .add (.lit 1) (.bin .mul (.var 2) (.lit 4))))) (.conv .u8 (.bin .shr (.bits .u32 (.index (.var 1) (.var 2))) (.lit 8)))) (.cons (.setBufAt (.bin .add (.var 0) (.conv .i64 (.bin .add (.lit 2) (.bin .mul (.var 2) (.lit 4))))) (.conv .u8 (.bin .shr (.bits .u32 (.index (.var 1) (.var 2))) (.lit 16)))) (.cons (.setBufAt (.bin .add (.var 0) (.conv .i64 (.bin .add (.lit 3) (.bin .mul (.var 2) (.lit 4))))) (.conv .u8 (.bin .shr (.bits .u32 (.index (.var 1) (.var 2))) (.lit 24)))) (.cons (.set 2 (.bin .add (.var 2) (.lit 1))) (.cons (.ifs (.bin .lt (.var 2) (.var 3)) (.cons (.goto (str% "write_loop")) .nil) .nil) .nil))))))) .nil)))⟩

/-- v3/minibuf.generated.go:672-679 -/
def text_WriteF32LENext : List Str := [
  str% "",
  str% "// WriteF32LENext writes a slice of float32s to the buffer at the",
  str% "// current offset in little-endian and moves the offset forward the",
  str% "// amount of bytes written",
  str% "func (b *MiniBuffer) WriteF32LENext(data []float32) {",
  str% "\tb.WriteF32LE(b.off, data)",
  str% "\tb.SeekByte(int64(len(data))*4, true)",
  str% "}"]

/-- v3/minibuf.generated.go:672-679 -/
def fun_WriteF32LENext : Fun := ⟨(str% "WriteF32LENext"), [none], none, 1, (.cons (.expr (.call (str% "WriteF32LE") (.cons (.field .off) (.cons (.var 0) .nil)))) (.cons (.expr (.call (str% "SeekByte") (.cons (.bin .mul (.conv .i64 (.len (.var 0))) (.lit 4)) (.cons (.bool true) .nil)))) .nil))⟩

/-- v3/minibuf.generated.go:680-698 -/
def text_WriteF32BE : List Str := [
  str% "",
  str% "// WriteF32BE writes a slice of float32s to the buffer at the",
  str% "// specified offset in big-endian without modifying the internal",
  str% "// offset value",
  str% "func (b *MiniBuffer) WriteF32BE(off int64, data []float32) {",
  str% "\ti := 0",
  str% "\tn := len(data)",
  str% "\t{",
  str% "\twrite_loop:",
  str% "\t\tb.buf[off+int64(i*4)] = byte(*(*uint32)(unsafe.Pointer(&data[i])) >> 24)",
  str% "\t\tb.buf[off+int64(1+(i*4))] = byte(*(*uint32)(unsafe.Pointer(&data[i])) >> 16)",
  str% "\t\tb.buf[off+int64(2+(i*4))] = byte(*(*uint32)(unsafe.Pointer(&data[i])) >> 8)",
  str% "\t\tb.buf[off+int64(3+(i*4))] = byte(*(*uint32)(unsafe.Pointer(&data[i])))",
  str% "\t\ti++",
  str% "\t\tif i < n {",
  str% "\t\t\tgoto write_loop",
  str% "\t\t}",
  str% "\t}",
  str% "}"]

/-- v3/minibuf.generated.go:680-698 -/
def fun_WriteF32BE : Fun := ⟨(str% "WriteF32BE"), [some .i64, none], none, 4, (.cons (.set 2 (.lit 0)) (.cons (.set 3 (.len (.var 1))) (.cons (.block (str% "write_loop") (.cons (.setBufAt (.bin .add (.var 0) (.conv .i64 (.bin .mul (.var 2) (.lit 4)))) (.conv .u8 (.bin .shr (.bits .u32 (.index (.var 1) (.var 2))) (.lit 24)))) (.cons (.setBufAt (.bin .add (.var 0) (.conv .i64 (.bin .add (.lit 1) (.bin .mul (.var 2) (.lit 4))))) (.conv .u8 (.bin .shr (.bits .u32 (.index (.var 1) (.var 2))) (.lit 16)))) (.cons (.setBufAt (.bin .add (.var 0) (.conv .i64 (.bin .add (.lit 2) (.bin .mul (.var 2) (.lit 4))))) (.conv .u8 (.bin .shr (.bits .u32 (.index (.var 1) (.var 2))) (.lit 8)))) (.cons (.setBufAt (.bin .add (.var 0) (.conv .i64 (.bin .add (.lit 3) (.bin .mul (.var 2) (.lit 4))))) (.conv .u8 (.bits .u32 (.index (.var 1) (.var 2))))) (.cons (.set 2 (.bin .add (.var 2) (.lit 1))) (.cons (.ifs (.bin .lt (.var 2) (.var 3)) (.cons (.goto (str% "write_loop")) .nil) .nil) .nil))))))) .nil)))⟩

/-- v3/minibuf.generated.go:699-706 -/
def text_WriteF32BENext : List Str := [
  str% "",
  str% "// WriteF32BENext writes a slice of float32s to the buffer at the",
  str% "// current offset in big-endian and moves the offset forward the",
  str% "// amount of bytes written",
  str% "func (b *MiniBuffer) WriteF32BENext(data []float32) {",
  str% "\tb.WriteF32BE(b.off, data)",
  str% "\tb.SeekByte(int64(len(data))*4, true)",
  str% "}"]

/-- v3/minibuf.generated.go:699-706 -/
def fun_WriteF32BENext : Fun := ⟨(str% "WriteF32BENext"), [none], none, 1, (.cons (.expr (.call (str% "WriteF32BE") (.cons (.field .off) (.cons (.var 0) .nil)))) (.cons (.expr (.call (str% "SeekByte") (.cons (.bin .mul (.conv .i64 (.len (.var 0))) (.lit 4)) (.cons (.bool true) .nil)))) .nil))⟩

/-- v3/minibuf.generated.go:707-729 -/
def text_WriteF64LE : List Str := [
  str% "",
  str% "// WriteF64LE writes a slice of float64s to the buffer at the",
  str% "// specified offset in little-endian without modifying the internal",
  str% "// offset value",
  str% "func (b *MiniBuffer) WriteF64LE(off int64, data []float64) {",
  str% "\ti := 0",
  str% "\tn := len(data)",
  str% "\t{",
  str% "\twrite_loop:",
  str% "\t\tb.buf[off+int64(i*8)] = byte(*(*uint64)(unsafe.Pointer(&data[i])))",
  str% "\t\tb.buf[off+int64(1+(i*8))] = byte(*(*uint64)(unsafe.Pointer(&data[i])) >> 8)",
  str% "\t\tb.buf[off+int64(2+(i*8))] = byte(*(*uint64)(unsafe.Pointer(&data[i])) >> 16)",
  str% "\t\tb.buf[off+int64(3+(i*8))] = byte(*(*uint64)(unsafe.Pointer(&data[i])) >> 24)",
  str% "\t\tb.buf[off+int64(4+(i*8))] = byte(*(*uint64)(unsafe.Pointer(&data[i])) >> 32)",
  str% "\t\tb.buf[off+int64(5+(i*8))] = byte(*(*uint64)(unsafe.Pointer(&data[i])) >> 40)",
  str% "\t\tb.buf[off+int64(6+(i*8))] = byte(*(*uint64)(unsafe.Pointer(&data[i])) >> 48)",
  str% "\t\tb.buf[off+int64(7+(i*8))] = byte(*(*uint64)(unsafe.Pointer(&data[i])) >> 56)",
  str% "\t\ti++",
  str% "\t\tif i < n {",
  str% "\t\t\tgoto write_loop",
  str% "\t\t}",
  str% "\t}",
  str% "}"]

/-- v3/minibuf.generated.go:707-729 -/
def fun_WriteF64LE : Fun := ⟨(str% "WriteF64LE"), [some .i64, none], none, 4, (.cons (.set 2 (.lit 0)) (.cons (.set 3 (.len (.var 1))) (.cons (.block (str% "write_loop") (.cons (.setBufAt (.bin .add (.var 0) (.conv .i64 (.bin .mul (.var 2) (.lit 8)))) (.conv .u8 (.bits .u64 (.index (.var 1) (.var 2))))) (.cons (.setBufAt (.bin .add (.var 0) (.conv .i64 (.bin .add (.lit 1) (.bin .mul (.var 2) (.lit 8))))) (.conv .u8 (.bin .shr (.bits .u64 (.index (.var 1) (.var 2))) (.lit 8)))) (.cons (.setBufAt (.bin .add (.var 0) (.conv .i64 (.bin .add (.lit 2) (.bin .mul (.var 2) (.lit 8))))) (.conv .u8 (.bin .shr (.bits .u64 (.index (.var 1) (.var 2))) (.lit 16)))) (.cons (.setBufAt (.bin .add (.var 0) (.conv .i64 (.bin .add (.lit 3) (.bin .mul (.var 2) (.lit 8))))) (.conv .u8 (.bin .shr (.bits .u64 (.index (.var 1) (.var 2))) (.lit 24)))) (.cons (.setBufAt (.bin .add (.var 0) (.conv .i64 (.bin .add (.lit 4) (.bin .mul (.var 2) (.lit 8))))) (.conv .u8 (.bin .shr (.bits .u64 (.index (.var 1) (.var 2))) (.lit 32)))) (.cons (.setBufAt (.bin .add (.var 0) (.conv .i64 (.bin .add (.lit 5) (.bin .mul (.var 2) (.lit 8))))) (.conv .u8 (.bin .shr (.bits .u64 (.index (.var 1) (.var 2))) (.lit 40)))) (.cons (.setBufAt (.bin .add (.var 0) (.conv .i64 (.bin .add (.lit 6) (.bin .mul (.var 2) (.lit 8))))) (.conv .u8 (.bin .shr (.bits .u64 (.index (.var 1) (.var 2))) (.lit 48)))) (.cons (.setBufAt (.bin .add (.var 0) (.conv .i64 (.bin .add (.lit 7) (.bin .mul (.var 2) (.lit 8))))) (.conv .u8 (.bin .shr (.bits .u64 (.index (.var 1) (.var 2))) (.lit 56)))) (.cons (.set 2 (.bin .add (.var 2) (.lit 1))) (.cons (.ifs (.bin .lt (.var 2) (.var 3)) (.cons (.goto (str% "write_loop")) .nil) .nil) .nil))))))))))) .nil)))⟩

/-- v3/minibuf.generated.go:730-737 -/
def text_WriteF64LENext : List Str := [
  str% "",
  str% "// WriteF64LENext writes a slice of float64s to the buffer at the",
  str% "// current offset in little-endian and moves the offset forward the",
  str% "// amount of bytes written",
  str% "func (b *MiniBuffer) WriteF64LENext(data []float64) {",
  str% "\tb.WriteF64LE(b.off, data)",
  str% "\tb.SeekByte(int64(len(data))*8, true)",
  str% "}"]

/-- v3/minibuf.generated.go:730-737 -/
def fun_WriteF64LENext : Fun := ⟨(str% "WriteF64LENext"), [none], none, 1, (.cons (.expr (.call (str% "WriteF64LE") (.cons (.field .off) (.cons (.var 0) .nil)))) (.cons (.expr (.call (str% "SeekByte") (.cons (.bin .mul (.conv .i64 (.len (.var 0))) (.lit 8)) (.cons (.bool true) .nil)))) .nil))⟩

/-- v3/minibuf.generated.go:738-760 -/
def text_WriteF64BE : List Str := [
  str% "",
  str% "// WriteF64BE writes a slice of float64s to the buffer at the",
  str% "// specified offset in big-endian without modifying the internal",
  str% "// offset value",
  str% "func (b *MiniBuffer) WriteF64BE(off int64, data []float64) {",
  str% "\ti := 0",
  str% "\tn := len(data)",
  str% "\t{",
  str% "\twrite_loop:",
  str% "\t\tb.buf[off+int64(i*8)] = byte(*(*uint64)(unsafe.Pointer(&data[i])) >> 56)",
  str% "\t\tb.buf[off+int64(1+(i*8))] = byte(*(*uint64)(unsafe.Pointer(&data[i])) >> 48)",
  str% "\t\tb.buf[off+int64(2+(i*8))] = byte(*(*uint64)(unsafe.Pointer(&data[i])) >> 40)",
  str% "\t\tb.buf[off+int64(3+(i*8))] = byte(*(*uint64)(unsafe.Pointer(&data[i])) >> 32)",
  str% "\t\tb.buf[off+int64(4+(i*8))] = byte(*(*uint64)(unsafe.Pointer(&data[i])) >> 24)",
  str% "\t\tb.buf[off+int64(5+(i*8))] = byte(*(*uint64)(unsafe.Pointer(&data[i])) >> 16)",
  str% "\t\tb.buf[off+int64(6+(i*8))] = byte(*(*uint64)(unsafe.Pointer(&data[i])) >> 8)",
  str% "\t\tb.buf[off+int64(7+(i*8))] = byte(*(*uint64)(unsafe.Pointer(&data[i])))",
  str% "\t\ti++",
  str% "\t\tif i < n {",
  str% "\t\t\tgoto write_loop",
  str% "\t\t}",
  str% "\t}",
  str% "}"]

/-- v3/minibuf.generated.go:738-760 -/
def fun_WriteF64BE : Fun := ⟨(str% "WriteF64BE"), [some .i64, none], none, 4, (.cons (.set 2 (.lit 0)) (.cons (.set 3 (.len (.var 1))) (.cons (.block (str% "write_loop") (.cons (.setBufAt (.bin .add (.var 0) (.conv .i64 (.bin .mul (.var 2) (.lit 8)))) (.conv .u8 (.bin .shr (.bits .u64 (.index (.var 1) (.var 2))) (.lit 56)))) (.cons (.setBufAt (.bin .add (.var 0) (.conv .i64 (.bin .add (.lit 1) (.bin .mul (.var 2) (.lit 8))))) (.conv .u8 (.bin .shr (.bits .u64 (.index (.var 1) (.var 2))) (.lit 48)))) (.cons (.setBufAt (.bin .add (.var 0) (.conv .i64 (.bin .add (.lit 2) (.bin .mul (.var 2) (.lit 8))))) (.conv .u8 (.bin .shr (.bits .u64 (.index (.var 1) (.var 2))) (.lit 40)))) (.cons (.setBufAt (.bin .add (.var 0) (.conv .i64 (.bin .add (.lit 3) (.bin .mul (.var 2) (.lit 8))))) (.conv .u8 (.bin .shr (.bits .u64 (.index (.var 1) (.var 2))) (.lit 32)))) (.cons (.setBufAt (.bin .add (.var 0) (.conv .i64 (.bin .add (.lit 4) (.bin .mul (.var 2) (.lit 8))))) (.conv .u8 (.bin .shr (.bits .u64 (.index (.var 1) (.var 2))) (.lit 24)))) (.cons (.setBufAt (.bin .add (.var 0) (.conv .i64 (.bin .add (.lit 5) (.bin .mul (.var 2) (.lit 8))))) (.conv .u8 (.bin .shr (.bits .u64 (.index (.var 1) (.var 2))) (.lit 16)))) (.cons (.setBufAt (.bin .add (.var 0) (.conv .i64 (.bin .add (.lit 6) (.bin .mul (.var 2) (.lit 8))))) (.conv .u8 (.bin .shr (.bits .u64 (.index (.var 1) (.var 2))) (.lit 8)))) (.cons (.setBufAt (.bin .add (.var 0) (.conv .i64 (.bin .add (.lit 7) (.bin .mul (.var 2) (.lit 8))))) (.conv .u8 (.bits .u64 (.index (.var 1) (.var 2))))) (.cons (.set 2 (.bin .add (.var 2) (.lit 1))) (.cons (.ifs (.bin .lt (.var 2) (.var 3)) (.cons (.goto (str% "write_loop")) .nil) .nil) .nil))))))))))) .nil)))⟩

/-- v3/minibuf.generated.go:761-768 -/
def text_WriteF64BENext : List Str := [
  str% "",
  str% "// WriteF64BENext writes a slice of float64s to the buffer at the",
  str% "// current offset in big-endian and moves the offset forward the",
  str% "// amount of bytes written",
  str% "func (b *MiniBuffer) WriteF64BENext(data []float64) {",
  str% "\tb.WriteF64BE(b.off, data)",
  str% "\tb.SeekByte(int64(len(data))*8, true)",
  str% "}"]

/-- v3/minibuf.generated.go:761-768 -/
def fun_WriteF64BENext : Fun := ⟨(str% "WriteF64BENext"), [none], none, 1, (.cons (.expr (.call (str% "WriteF64BE") (.cons (.field .off) (.cons (.var 0) .nil)))) (.cons (.expr (.call (str% "SeekByte") (.cons (.bin .mul (.conv .i64 (.len (.var 0))) (.lit 8)) (.cons (.bool true) .nil)))) .nil))⟩

/-- v3/minibuf.generated.go:769-776 -/
def text_ReadBytes : List Str := [
  str% "",
  str% "// ReadBytes stores the next n bytes from the specified offset",
  str% "// without modifying the internal offset value in out",
  str% "func (b *MiniBuffer) ReadBytes(out *[]byte, off, n int64) {",
  str% "",
  str% "\t*out = b.buf[off : off+n]",
  str% "",
  str% "}"]

/-- v3/minibuf.generated.go:769-776 -/
def fun_ReadBytes : Fun := ⟨(str% "ReadBytes"), [none, some .i64, some .i64], none, 3, (.cons (.setOut (.slice .buf (.var 1) (.bin .add (.var 1) (.var 2)))) .nil)⟩

/-- v3/minibuf.generated.go:777-785 -/
def text_ReadBytesNext : List Str := [
  str% "",
  str% "// ReadBytesNext stores the next n bytes from the current offset and",
  str% "// moves the offset forward the amount of bytes read in out",
  str% "func (b *MiniBuffer) ReadBytesNext(out *[]byte, n int64) {",
  str% "",
  str% "\tb.ReadBytes(out, b.off, n)",
  str% "\tb.SeekByte(n, true)",
  str% "",
  str% "}"]

/-- v3/minibuf.generated.go:777-785 -/
def fun_ReadBytesNext : Fun := ⟨(str% "ReadBytesNext"), [none, some .i64], none, 2, (.cons (.expr (.call (str% "ReadBytes") (.cons .outPtr (.cons (.field .off) (.cons (.var 1) .nil))))) (.cons (.expr (.call (str% "SeekByte") (.cons (.var 1) (.cons (.bool true) .nil)))) .nil))⟩

/-- v3/minibuf.generated.go:786-800 -/
def text_ReadU16LE : List Str := [
  str% "",
  str% "// ReadU16LE reads a slice of uint16s from the buffer at the",
  str% "// specified offset in little-endian without modifying the internal",
  str% "// offset value",
  str% "func (b *MiniBuffer) ReadU16LE(out *[]uint16, off, n int64) {",
  str% "\ti := int64(0)",
  str% "\t{",
  str% "\tread_loop:",
  str% "\t\t(*out)[i] = uint16(b.buf[off+(i*2)]) | uint16(b.buf[off+(1+(i*2))])<<8",
  str% "\t\ti++",
  str% "\t\tif i < n {",
  str% "\t\t\tgoto read_loop",
  str% "\t\t}",
  str% "\t}",
  str% "}"]

/-- v3/minibuf.generated.go:786-800 -/
def fun_ReadU16LE : Fun := ⟨(str% "ReadU16LE"), [none, some .i64, some .i64], none, 4, (.cons (.set 3 (.conv .i64 (.lit 0))) (.cons (.block (str% "read_loop") (.cons (.setOutAt (.var 3) (.bin .or (.conv .u16 (.index .buf (.bin .add (.var 1) (.bin .mul (.var 3) (.lit 2))))) (.bin .shl (.conv .u16 (.index .buf (.bin .add (.var 1) (.bin .add (.lit 1) (.bin .mul (.var 3) (.lit 2)))))) (.lit 8)))) (.cons (.set 3 (.bin .add (.var 3) (.lit 1))) (.cons (.ifs (.bin .lt (.var 3) (.var 2)) (.cons (.goto (str% "read_loop")) .nil) .nil) .nil)))) .nil))⟩

/-- v3/minibuf.generated.go:801-808 -/
def text_ReadU16LENext : List Str := [
  str% "",
  str% "// ReadU16LENext reads a slice of uint16s from the buffer at the",
  str% "// current offset in little-endian and moves the offset forward the",
  str% "// amount of bytes written",
  str% "func (b *MiniBuffer) ReadU16LENext(out *[]uint16, n int64) {",
  str% "\tb.ReadU16LE(out, b.off, n)",
  str% "\tb.SeekByte(n*2, true)",
  str% "}"]

/-- v3/minibuf.generated.go:801-808 -/
def fun_ReadU16LENext : Fun := ⟨(str% "ReadU16LENext"), [none, some .i64], none, 2, (.cons (.expr (.call (str% "ReadU16LE") (.cons .outPtr (.cons (.field .off) (.cons (.var 1) .nil))))) (.cons (.expr (.call (str% "SeekByte") (.cons (.bin .mul (.var 1) (.lit 2)) (.cons (.bool true) .nil)))) .nil))⟩

/-- v3/minibuf.generated.go:809-823 -/
def text_ReadU16BE : List Str := [
  str% "",
  str% "// ReadU16BE reads a slice of uint16s from the buffer at the",
  str% "// specified offset in big-endian without modifying the internal",
  str% "// offset value",
  str% "func (b *MiniBuffer) ReadU16BE(out *[]uint16, off, n int64) {",
  str% "\ti := int64(0)",
  str% "\t{",
  str% "\tread_loop:",
  str% "\t\t(*out)[i] = uint16(b.buf[off+(1+(i*2))]) | uint16(b.buf[off+(i*2)])<<8",
  str% "\t\ti++",
  str% "\t\tif i < n {",
  str% "\t\t\tgoto read_loop",
  str% "\t\t}",
  str% "\t}",
  str% "}"]

/-- v3/minibuf.generated.go:809-823 -/
def fun_ReadU16BE : Fun := ⟨(str% "ReadU16BE"), [none, some .i64, some .i64], none, 4, (.cons (.set 3 (.conv .i64 (.lit 0))) (.cons (.block (str% "read_loop") (.cons (.setOutAt (.var 3) (.bin .or (.conv .u16 (.index .buf (.bin .add (.var 1) (.bin .add (.lit 1) (.bin .mul (.var 3) (.lit 2)))))) (.bin .shl (.conv .u16 (.index .buf (.bin .add (.var 1) (.bin .mul (.var 3) (.lit 2))))) (.lit 8)))) (.cons (.set 3 (.bin .add (.var 3) (.lit 1))) (.cons (.ifs (.bin .lt (.var 3) (.var 2)) (.cons (.goto (str% "read_loop")) .nil) .nil) .nil)))) .nil))⟩

/-- v3/minibuf.generated.go:824-831 -/
def text_ReadU16BENext : List Str := [
  str% "",
  str% "// ReadU16BENext reads a slice of uint16s from the buffer at the",
  str% "// current offset in big-endian and moves the offset forward the",
  str% "// amount of bytes written",
  str% "func (b *MiniBuffer) ReadU16BENext(out *[]uint16, n int64) {",
  str% "\tb.ReadU16BE(out, b.off, n)",
  str% "\tb.SeekByte(n*2, true)",
  str% "}"]

/-- v3/minibuf.generated.go:824-831 -/
def fun_ReadU16BENext : Fun := ⟨(str% "ReadU16BENext"), [none, some .i64], none, 2, (.cons (.expr (.call (str% "ReadU16BE") (.cons .outPtr (.cons (.field .off) (.cons (.var 1) .nil))))) (.cons (.expr (.call (str% "SeekByte") (.cons (.bin .mul (.var 1) (.lit 2)) (.cons (.bool true) .nil)))) .nil))⟩

/-- v3/minibuf.generated.go:832-846 -/
def text_ReadU32LE : List Str := [
  str% "",
  str% "// ReadU32LE reads a slice of uint32s from the buffer at the",
  str% "// specified offset in little-endian without modifying the internal",
  str% "// offset value",
  str% "func (b *MiniBuffer) ReadU32LE(out *[]uint32, off, n int64) {",
  str% "\ti := int64(0)",
  str% "\t{",
  str% "\tread_loop:",
  str% "\t\t(*out)[i] = uint32(b.buf[off+(i*4)]) | uint32(b.buf[off+(1+(i*4))])<<8 | uint32(b.buf[off+(2+(i*4))])<<16 | uint32(b.buf[off+(3+(i*4))])<<24",
  str% "\t\ti++",
  str% "\t\tif i < n {",
  str% "\t\t\tgoto read_loop",
  str% "\t\t}",
  str% "\t}",
  str% "}"]

/-- v3/minibuf.generated.go:832-846 -/
def fun_ReadU32LE : Fun := ⟨(str% "ReadU32LE"), [none, some .i64, some .i64], none, 4, (.cons (.set 3 (.conv .i64 (.lit 0))) (.cons (.block (str% "read_loop") (.cons (.setOutAt (.var 3) (.bin .or (.bin .or (.bin .or (.conv .u32 (.index .buf (.bin .add (.var 1) (.bin .mul (.var 3) (.lit 4))))) (.bin .shl (.conv .u32 (.index .buf (.bin .add (.var 1) (.bin .add (.lit 1) (.bin .mul (.var 3) (.lit 4)))))) (.lit 8))) (.bin .shl (.conv .u32 (.index .buf (.bin .add (.var 1) (.bin .add (.lit 2) (.bin .mul (.var 3) (.lit 4)))))) (.lit 16))) (.bin .shl (.conv .u32 (.index .buf (.bin .add (.var 1) (.bin .add (.lit 3) (.bin .mul (.var 3) (.lit 4)))))) (.lit 24)))) (.cons (.set 3 (.bin .add (.var 3) (.lit 1))) (.cons (.ifs (.bin .lt (.var 3) (.var 2)) (.cons (.goto (str% "read_loop")) .nil) .nil) .nil)))) .nil))⟩

/-- v3/minibuf.generated.go:847-854 -/
def text_ReadU32LENext : List Str := [
  str% "",
  str% "// ReadU32LENext reads a slice of uint32s from the buffer at the",
  str% "// current offset in little-endian and moves the offset forward the",
  str% "// amount of bytes written",
  str% "func (b *MiniBuffer) ReadU32LENext(out *[]uint32, n int64) {",
  str% "\tb.ReadU32LE(out, b.off, n)",
  str% "\tb.SeekByte(n*4, true)",
  str% "}"]

/-- v3/minibuf.generated.go:847-854 -/
def fun_ReadU32LENext : Fun := ⟨(str% "ReadU32LENext"), [none, some .i64], none, 2, (.cons (.expr (.call (str% "ReadU32LE") (.cons .outPtr (.cons (.field .off) (.cons (.var 1) .nil))))) (.cons (.expr (.call (str% "SeekByte") (.cons (.bin .mul (.var 1) (.lit 4)) (.cons (.bool true) .nil)))) .nil))⟩

/-- v3/minibuf.generated.go:855-869 -/
def text_ReadU32BE : List Str := [
  str% "",
  str% "// ReadU32BE reads a slice of uint32s from the buffer at the",
  str% "// specified offset in big-endian without modifying the internal",
  str% "// offset value",
  str% "func (b *MiniBuffer) ReadU32BE(out *[]uint32, off, n int64) {",
  str% "\ti := int64(0)",
  str% "\t{",
  str% "\tread_loop:",
  str% "\t\t(*out)[i] = uint32(b.buf[off+(3+(i*4))]) | uint32(b.buf[off+(2+(i*4))])<<8 | uint32(b.buf[off+(1+(i*4))])<<16 | uint32(b.buf[off+(i*4)])<<24",
  str% "\t\ti++",
  str% "\t\tif i < n {",
  str% "\t\t\tgoto read_loop",
  str% "\t\t}",
  str% "\t}",
  str% "}"]

/-- v3/minibuf.generated.go:855-869 -/
def fun_ReadU32BE : Fun := ⟨(str% "ReadU32BE"), [none, some .i64, some .i64], none, 4, (.cons (.set 3 (.conv .i64 (.lit 0))) (.cons (.block (str% "read_loop") (.cons (.setOutAt (.var 3) (.bin .or (.bin .or (.bin .or (.conv .u32 (.index .buf (.bin .add (.var 1) (.bin .add (.lit 3) (.bin .mul (.var 3) (.lit 4)))))) (.bin .shl (.conv .u32 (.index .buf (.bin .add (.var 1) (.bin .add (.lit 2) (.bin .mul (.var 3) (.lit 4)))))) (.lit 8))) (.bin .shl (.conv .u32 (.index .buf (.bin .add (.var 1) (.bin .add (.lit 1) (.bin .mul (.var 3) (.lit 4)))))) (.lit 16))) (.bin .shl (.conv .u32 (.index .buf (.bin .add (.var 1) (.bin .mul (.var 3) (.lit 4))))) (.lit 24)))) (.cons (.set 3 (.bin .add (.var 3) (.lit 1))) (.cons (.ifs (.bin .lt (.var 3) (.var 2)) (.cons (.goto (str% "read_loop")) .nil) .nil) .nil)))) .nil))⟩

/-- v3/minibuf.generated.go:870-877 -/
def text_ReadU32BENext : List Str := [
  str% "",
  str% "// ReadU32BENext reads a slice of uint32s from the buffer at the",
  str% "// current offset in big-endian and moves the offset forward the",
  str% "// amount of bytes written",
  str% "func (b *MiniBuffer) ReadU32BENext(out *[]uint32, n int64) {",
  str% "\tb.ReadU32BE(out, b.off, n)",
  str% "\tb.SeekByte(n*4, true)",
  str% "}"]

/-- v3/minibuf.generated.go:870-877 -/
def fun_ReadU32BENext : Fun := ⟨(str% "ReadU32BENext"), [none, some .i64], none, 2, (.cons (.expr (.call (str% "ReadU32BE") (.cons .outPtr (.cons (.field .off) (.cons (.var 1) .nil))))) (.cons (.expr (.call (str% "SeekByte") (.cons (.bin .mul (.var 1) (.lit 4)) (.cons (.bool true) .nil)))) .nil))⟩

/-- v3/minibuf.generated.go:878-892 -/
def text_ReadU64LE : List Str := [
  str% "",
  str% "// ReadU64LE reads a slice of uint64s from the buffer at the",
  str% "// specified offset in little-endian without modifying the internal",
  str% "// offset value",
  str% "func (b *MiniBuffer) ReadU64LE(out *[]uint64, off, n int64) {",
  str% "\ti := int64(0)",
  str% "\t{",
  str% "\tread_loop:",
  str% "\t\t(*out)[i] = uint64(b.buf[off+(i*8)]) | uint64(b.buf[off+(1+(i*8))])<<8 | uint64(b.buf[off+(2+(i*8))])<<16 | uint64(b.buf[off+(3+(i*8))])<<24 | uint64(b.buf[off+(4+(i*8))])<<32 | uint64(b.buf[off+(5+(i*8))])<<40 | uint64(b.buf[off+(6+(i*8))])<<48 | uint64(b.buf[off+(7+(i*8))])<<56",
  str% "\t\ti++",
  str% "\t\tif i < n {",
  str% "\t\t\tgoto read_loop",
  str% "\t\t}",
  str% "\t}",
  str% "}"]

/-- v3/minibuf.generated.go:878-892 -/
def fun_ReadU64LE : Fun := ⟨(str% "ReadU64LE"), [none, some .i64, some .i64], none, 4, (.cons (.set 3 (.conv .i64 (.lit 0))) (.cons (.block (str% "read_loop") (.cons (.setOutAt (.var 3) (.bin .or (.bin .or (.bin .or (.bin .or (.bin .or (.bin .or (.bin .or (.conv .u64 (.index .buf (.bin .add (.var 1) (.bin .mul (.var 3) (.lit 8))))) (.bin .shl (.conv .u64 (.index .buf (.bin .add (.var 1) (.bin .add (.lit 1) (.bin .mul (.var 3) (.lit 8)))))) (.lit 8))) (.bin .shl (.conv .u64 (.index .buf (.bin .add (.var 1) (.bin .add (.lit 2) (.bin .mul (.var 3) (.lit 8)))))) (.lit 16))) (.bin .shl (.conv .u64 (.index .buf (.bin .add (.var 1) (.bin .add (.lit 3) (.bin .mul (.var 3) (.lit 8)))))) (.lit 24))) (.bin .shl (.conv .u64 (.index .buf (.bin .add (.var 1) (.bin .add (.lit 4) (.bin .mul (.var 3) (.lit 8)))))) (.lit 32))) (.bin .shl (.conv .u64 (.index .buf (.bin .add (.var 1) (.bin .add (.lit 5) (.bin .mul (.var 3) (.lit 8)))))) (.lit 40))) (.bin .shl (.conv .u64 (.index .buf (.bin .add (.var 1) (.bin .add (.lit 6) (.bin .mul (.var 3) (.lit 8)))))) (.lit 48))) (.bin .shl (.conv .u64 (.index .buf (.bin .add (.var 1) (.bin .add (.lit 7) (.bin .mul (.var 3) (.lit 8)))))) (.lit 56)))) (.cons (.set 3 (.bin .add (.var 3) (.lit 1))) (.cons (.ifs (.bin .lt (.var 3) (.var 2)) (.cons (.goto (str% "read_loop")) .nil) .nil) .nil)))) .nil))⟩

/-- v3/minibuf.generated.go:893-900 -/
def text_ReadU64LENext : List Str := [
  str% "",
  str% "// ReadU64LENext reads a slice of uint64s from the buffer at the",
  str% "// current offset in little-endian and moves the offset forward the",
  str% "// amount of bytes written",
  str% "func (b *MiniBuffer) ReadU64LENext(out *[]uint64, n int64) {",
  str% "\tb.ReadU64LE(out, b.off, n)",
  str% "\tb.SeekByte(n*8, true)",
  str% "}"]

/-- v3/minibuf.generated.go:893-900 -/
def fun_ReadU64LENext : Fun := ⟨(str% "ReadU64LENext"), [none, some .i64], none, 2, (.cons (.expr (.call (str% "ReadU64LE") (.cons .outPtr (.cons (.field .off) (.cons (.var 1) .nil))))) (.cons (.expr (.call (str% "SeekByte") (.cons (.bin .mul (.var 1) (.lit 8)) (.cons (.bool true) .nil)))) .nil))⟩

/-- v3/minibuf.generated.go:901-915 -/
def text_ReadU64BE : List Str := [
  str% "",
  str% "// ReadU64BE reads a slice of uint64s from the buffer at the",
  str% "// specified offset in big-endian without modifying the internal",
  str% "// offset value",
  str% "func (b *MiniBuffer) ReadU64BE(out *[]uint64, off, n int64) {",
  str% "\ti := int64(0)",
  str% "\t{",
  str% "\tread_loop:",
  str% "\t\t(*out)[i] = uint64(b.buf[off+(7+(i*8))]) | uint64(b.buf[off+(6+(i*8))])<<8 | uint64(b.buf[off+(5+(i*8))])<<16 | uint64(b.buf[off+(4+(i*8))])<<24 | uint64(b.buf[off+(3+(i*8))])<<32 | uint64(b.buf[off+(2+(i*8))])<<40 | uint64(b.buf[off+(1+(i*8))])<<48 | uint64(b.buf[off+(i*8)])<<56",
  str% "\t\ti++",
  str% "\t\tif i < n {",
  str% "\t\t\tgoto read_loop",
  str% "\t\t}",
  str% "\t}",
  str% "}"]

/-- v3/minibuf.generated.go:901-915 -/
def fun_ReadU64BE : Fun := ⟨(str% "ReadU64BE"), [none, some .i64, some .i64], none, 4, (.cons (.set 3 (.conv .i64 (.lit 0))) (.cons (.block (str% "read_loop") (.cons (.setOutAt (.var 3) (.bin .or (.bin .or (.bin .or (.bin .or (.bin .or (.bin .or (.bin .or (.conv .u64 (.index .buf (.bin .add (.var 1) (.bin .add (.lit 7) (.bin .mul (.var 3) (.lit 8)))))) (.bin .shl (.conv .u64 (.index .buf (.bin .add (.var 1) (.bin .add (.lit 6) (.bin .mul (.var 3) (.lit 8)))))) (.lit 8))) (.bin .shl (.conv .u64 (.index .buf (.bin .add (.var 1) (.bin .add (.lit 5) (.bin .mul (.var 3) (.lit 8)))))) (.lit 16))) (.bin .shl (.conv .u64 (.index .buf (.bin .add (.var 1) (.bin .add (.lit 4) (.bin .mul (.var 3) (.lit 8)))))) (.lit 24))) (.bin .shl (.conv .u64 (.index .buf (.bin .add (.var 1) (.bin .add (.lit 3) (.bin .mul (.var 3) (.lit 8)))))) (.lit 32))) (.bin .shl (.conv .u64 (.index .buf (.bin .add (.var 1) (.bin .add (.lit 2) (.bin .mul (.var 3) (.lit 8)))))) (.lit 40))) (.bin .shl (.conv .u64 (.index .buf (.bin .add (.var 1) (.bin .add (.lit 1) (.bin .mul (.var 3) (.lit 8)))))) (.lit 48))) (.bin .shl (.conv .u64 (.index .buf (.bin .add (.var 1) (.bin .mul (.var 3) (.lit 8))))) (.lit 56)))) (.cons (.set 3 (.bin .add (.var 3) (.lit 1))) (.cons (.ifs (.bin .lt (.var 3) (.var 2)) (.cons (.goto (str% "read_loop")) .nil) .nil) .nil)))) .nil))⟩

/-- v3/minibuf.generated.go:916-923 -/
def text_ReadU64BENext : List Str := [
  str% "",
  str% "// ReadU64BENext reads a slice of uint64s from the buffer at the",
  str% "// current offset in big-endian and moves the offset forward the",
  str% "// amount of bytes written",
  str% "func (b *MiniBuffer) ReadU64BENext(out *[]uint64, n int64) {",
  str% "\tb.ReadU64BE(out, b.off, n)",
  str% "\tb.SeekByte(n*8, true)",
  str% "}"]

/-- v3/minibuf.generated.go:916-923 -/
def fun_ReadU64BENext : Fun := ⟨(str% "ReadU64BENext"), [none, some .i64], none, 2, (.cons (.expr (.call (str% "ReadU64BE") (.cons .outPtr (.cons (.field .off) (.cons (.var 1) .nil))))) (.cons (.expr (.call (str% "SeekByte") (.cons (.bin .mul (.var 1) (.lit 8)) (.cons (.bool true) .nil)))) .nil))⟩

/-- v3/minibuf.generated.go:924-938 -/
def text_ReadI16LE : List Str := [
  str% "",
  str% "// ReadI16LE reads a slice of int16s from the buffer at the",
  str% "// specified offset in little-endian without modifying the internal",
  str% "// offset value",
  str% "func (b *MiniBuffer) ReadI16LE(out *[]int16, off, n int64) {",
  str% "\ti := int64(0)",
  str% "\t{",
  str% "\tread_loop:",
  str% "\t\t(*out)[i] = int16(b.buf[off+(i*2)]) | int16(b.buf[off+(1+(i*2))])<<8",
  str% "\t\ti++",
  str% "\t\tif i < n {",
  str% "\t\t\tgoto read_loop",
  str% "\t\t}",
  str% "\t}",
  str% "}"]

/-- v3/minibuf.generated.go:924-938 -/
def fun_ReadI16LE : Fun := ⟨(str% "ReadI16LE"), [none, some .i64, some .i64], none, 4, (.cons (.set 3 (.conv .i64 (.lit 0))) (.cons (.block (str% "read_loop") (.cons (.setOutAt (.var 3) (.bin .or (.conv .i16 (.index .buf (.bin .add (.var 1) (.bin .mul (.var 3) (.lit 2))))) (.bin .shl (.conv .i16 (.index .buf (.bin .add (.var 1) (.bin .add (.lit 1) (.bin .mul (.var 3) (.lit 2)))))) (.lit 8)))) (.cons (.set 3 (.bin .add (.var 3) (.lit 1))) (.cons (.ifs (.bin .lt (.var 3) (.var 2)) (.cons (.goto (str% "read_loop")) .nil) .nil) .nil)))) .nil))⟩

/-- v3/minibuf.generated.go:939-946 -/
def text_ReadI16LENext : List Str := [
  str% "",
  str% "// ReadI16LENext reads a slice of int16s from the buffer at the",
  str% "// current offset in little-endian and moves the offset forward the",
  str% "// amount of bytes written",
  str% "func (b *MiniBuffer) ReadI16LENext(out *[]int16, n int64) {",
  str% "\tb.ReadI16LE(out, b.off, n)",
  str% "\tb.SeekByte(n*2, true)",
  str% "}"]

/-- v3/minibuf.generated.go:939-946 -/
def fun_ReadI16LENext : Fun := ⟨(str% "ReadI16LENext"), [none, some .i64], none, 2, (.cons (.expr (.call (str% "ReadI16LE") (.cons .outPtr (.cons (.field .off) (.cons (.var 1) .nil))))) (.cons (.expr (.call (str% "SeekByte") (.cons (.bin .mul (.var 1) (.lit 2)) (.cons (.bool true) .nil)))) .nil))⟩

/-- v3/minibuf.generated.go:947-961 -/
def text_ReadI16BE : List Str := [
  str% "",
  str% "// ReadI16BE reads a slice of int16s from the buffer at the",
  str% "// specified offset in big-endian without modifying the internal",
  str% "// offset value",
  str% "func (b *MiniBuffer) ReadI16BE(out *[]int16, off, n int64) {",
  str% "\ti := int64(0)",
  str% "\t{",
  str% "\tread_loop:",
  str% "\t\t(*out)[i] = int16(b.buf[off+(1+(i*2))]) | int16(b.buf[off+(i*2)])<<8",
  str% "\t\ti++",
  str% "\t\tif i < n {",
  str% "\t\t\tgoto read_loop",
  str% "\t\t}",
  str% "\t}",
  str% "}"]

/-- v3/minibuf.generated.go:947-961 -/
def fun_ReadI16BE : Fun := ⟨(str% "ReadI16BE"), [none, some .i64, some .i64], none, 4, (.cons (.set 3 (.conv .i64 (.lit 0))) (.cons (.block (str% "read_loop") (.cons (.setOutAt (.var 3) (.bin .or (.conv .i16 (.index .buf (.bin .add (.var 1) (.bin .add (.lit 1) (.bin .mul (.var 3) (.lit 2)))))) (.bin .shl (.conv .i16 (.index .buf (.bin .add (.var 1) (.bin .mul (.var 3) (.lit 2))))) (.lit 8)))) (.cons (.set 3 (.bin .add (.var 3) (.lit 1))) (.cons (.ifs (.bin .lt (.var 3) (.var 2)) (.cons (.goto (str% "read_loop")) .nil) .nil) .nil)))) .nil))⟩

/-- v3/minibuf.generated.go:962-969 -/
def text_ReadI16BENext : List Str := [
  str% "",
  str% "// ReadI16BENext reads a slice of int16s from the buffer at the",
  str% "// current offset in big-endian and moves the offset forward the",
  str% "// amount of bytes written",
  str% "func (b *MiniBuffer) ReadI16BENext(out *[]int16, n int64) {",
  str% "\tb.ReadI16BE(out, b.off, n)",
  str% "\tb.SeekByte(n*2, true)",
  str% "}"]

/-- v3/minibuf.generated.go:962-969 -/
def fun_ReadI16BENext : Fun := ⟨(str% "ReadI16BENext"), [none, some .i64], none, 2, (.cons (.expr (.call (str% "ReadI16BE") (.cons .outPtr (.cons (.field .off) (.cons (.var 1) .nil))))) (.cons (.expr (.call (str% "SeekByte") (.cons (.bin .mul (.var 1) (.lit 2)) (.cons (.bool true) .nil)))) .nil))⟩

/-- v3/minibuf.generated.go:970-984 -/
def text_ReadI32LE : List Str := [
  str% "",
  str% "// ReadI32LE reads a slice of int32s from the buffer at the",
  str% "// specified offset in little-endian without modifying the internal",
  str% "// offset value",
  str% "func (b *MiniBuffer) ReadI32LE(out *[]int32, off, n int64) {",
  str% "\ti := int64(0)",
  str% "\t{",
  str% "\tread_loop:",
  str% "\t\t(*out)[i] = int32(b.buf[off+(i*4)]) | int32(b.buf[off+(1+(i*4))])<<8 | int32(b.buf[off+(2+(i*4))])<<16 | int32(b.buf[off+(3+(i*4))])<<24",
  str% "\t\ti++",
  str% "\t\tif i < n {",
  str% "\t\t\tgoto read_loop",
  str% "\t\t}",
  str% "\t}",
  str% "}"]

/-- v3/minibuf.generated.go:970-984 -/
def fun_ReadI32LE : Fun := ⟨(str% "ReadI32LE"), [none, some .i64, some .i64], none, 4, (.cons (.set 3 (.conv .i64 (.lit 0))) (.cons (.block (str% "read_loop") (.cons (.setOutAt (.var 3) (.bin .or (.bin .or (.bin .or (.conv .i32 (.index .buf (.bin .add (.var 1) (.bin .mul (.var 3) (.lit 4))))) (.bin .shl (.conv .i32 (.index .buf (.bin .add (.var 1) (.bin .add (.lit 1) (.bin .mul (.var 3) (.lit 4)))))) (.lit 8))) (.bin .shl (.conv .i32 (.index .buf (.bin .add (.var 1) (.bin .add (.lit 2) (.bin .mul (.var 3) (.lit 4)))))) (.lit 16))) (.bin .shl (.conv .i32 (.index .buf (.bin .add (.var 1) (.bin .add (.lit 3) (.bin .mul (.var 3) (.lit 4)))))) (.lit 24)))) (.cons (.set 3 (.bin .add (.var 3) (.lit 1))) (.cons (.ifs (.bin .lt (.var 3) (.var 2)) (.cons (.goto (str% "read_loop")) .nil) .nil) .nil)))) .nil))⟩

/-- v3/minibuf.generated.go:985-992 -/
def text_ReadI32LENext : List Str := [
  str% "",
  str% "// ReadI32LENext reads a slice of int32s from the buffer at the",
  str% "// current offset in little-endian and moves the offset forward the",
  str% "// amount of bytes written",
  str% "func (b *MiniBuffer) ReadI32LENext(out *[]int32, n int64) {",
  str% "\tb.ReadI32LE(out, b.off, n)",
  str% "\tb.SeekByte(n*4, true)",
  str% "}"]

/-- v3/minibuf.generated.go:985-992 -/
def fun_ReadI32LENext : Fun := ⟨(str% "ReadI32LENext"), [none, some .i64], none, 2, (.cons (.expr (.call (str% "ReadI32LE") (.cons .outPtr (.cons (.field .off) (.cons (.var 1) .nil))))) (.cons (.expr (.call (str% "SeekByte") (.cons (.bin .mul (.var 1) (.lit 4)) (.cons (.bool true) .nil)))) .nil))⟩

/-- v3/minibuf.generated.go:993-1007 -/
def text_ReadI32BE : List Str := [
  str% "",
  str% "// ReadI32BE reads a slice of int32s from the buffer at the",
  str% "// specified offset in big-endian without modifying the internal",
  str% "// offset value",
  str% "func (b *MiniBuffer) ReadI32BE(out *[]int32, off, n int64) {",
  str% "\ti := int64(0)",
  str% "\t{",
  str% "\tread_loop:",
  str% "\t\t(*out)[i] = int32(b.buf[off+(3+(i*4))]) | int32(b.buf[off+(2+(i*4))])<<8 | int32(b.buf[off+(1+(i*4))])<<16 | int32(b.buf[off+(i*4)])<<24",
  str% "\t\ti++",
  str% "\t\tif i < n {",
  str% "\t\t\tgoto read_loop",
  str% "\t\t}",
  str% "\t}",
  str% "}"]

/-- v3/minibuf.generated.go:993-1007 -/
def fun_ReadI32BE : Fun := ⟨(str% "ReadI32BE"), [none, some .i64, some .i64], none, 4, (.cons (.set 3 (.conv .i64 (.lit 0))) (.cons (.block (str% "read_loop") (.cons (.setOutAt (.var 3) (.bin .or (.bin .or (.bin .or (.conv .i32 (.index .buf (.bin .add (.var 1) (.bin .add (.lit 3) (.bin .mul (.var 3) (.lit 4)))))) (.bin .shl (.conv .i32 (.index .buf (.bin .add (.var 1) (.bin .add (.lit 2) (.bin .mul (.var 3) (.lit 4)))))) (.lit 8))) (.bin .shl (.conv .i32 (.index .buf (.bin .add (.var 1) (.bin .add (.lit 1) (.bin .mul (.var 3) (.lit 4)))))) (.lit 16))) (.bin .shl (.conv .i32 (.index .buf (.bin .add (.var 1) (.bin .mul (.var 3) (.lit 4))))) (.lit 24)))) (.cons (.set 3 (.bin .add (.var 3) (.lit 1))) (.cons (.ifs (.bin .lt (.var 3) (.var 2)) (.cons (.goto (str% "read_loop")) .nil) .nil) .nil)))) .nil))⟩

/-- v3/minibuf.generated.go:1008-1015 -/
def text_ReadI32BENext : List Str := [
  str% "",
  str% "// ReadI32BENext reads a slice of int32s from the buffer at the",
  str% "// current offset in big-endian and moves the offset forward the",
  str% "// amount of bytes written",
  str% "func (b *MiniBuffer) ReadI32BENext(out *[]int32, n int64) {",
  str% "\tb.ReadI32BE(out, b.off, n)",
  str% "\tb.SeekByte(n*4, true)",
  str% "}"]

/-- v3/minibuf.generated.go:1008-1015 -/
def fun_ReadI32BENext : Fun := ⟨(str% "ReadI32BENext"), [none, some .i64], none, 2, (.cons (.expr (.call (str% "ReadI32BE") (.cons .outPtr (.cons (.field .off) (.cons (.var 1) .nil))))) (.cons (.expr (.call (str% "SeekByte") (.cons (.bin .mul (.var 1) (.lit 4)) (.cons (.bool true) .nil)))) .nil))⟩

/-- v3/minibuf.generated.go:1016-1030 -/
def text_ReadI64LE : List Str := [
  str% "",
  str% "// ReadI64LE reads a slice of int64s from the buffer at the",
  str% "// specified offset in little-endian without modifying the internal",
  str% "// offset value",
  str% "func (b *MiniBuffer) ReadI64LE(out *[]int64, off, n int64) {",
  str% "\ti := int64(0)",
  str% "\t{",
  str% "\tread_loop:",
  str% "\t\t(*out)[i] = int64(b.buf[off+(i*8)]) | int64(b.buf[off+(1+(i*8))])<<8 | int64(b.buf[off+(2+(i*8))])<<16 | int64(b.buf[off+(3+(i*8))])<<24 | int64(b.buf[off+(4+(i*8))])<<32 | int64(b.buf[off+(5+(i*8))])<<40 | int64(b.buf[off+(6+(i*8))])<<48 | int64(b.buf[off+(7+(i*8))])<<56",
  str% "\t\ti++",
  str% "\t\tif i < n {",
  str% "\t\t\tgoto read_loop",
  str% "\t\t}",
  str% "\t}",
  str% "}"]

/-- v3/minibuf.generated.go:1016-1030 -/
def fun_ReadI64LE : Fun := ⟨(str% "ReadI64LE"), [none, some .i64, some .i64], none, 4, (.cons (.set 3 (.conv .i64 (.lit 0))) (.cons (.block (str% "read_loop") (.cons (.setOutAt (.var 3) (.bin .or (.bin .or (.bin .or (.bin .or (.bin .or (.bin .or (.bin .or (.conv .i64 (.index .buf (.bin .add (.var 1) (.bin .mul (.var 3) (.lit 8))))) (.bin .shl (.conv .i64 (.index .buf (.bin .add (.var 1) (.bin .add (.lit 1) (.bin .mul (.var 3) (.lit 8)))))) (.lit 8))) (.bin .shl (.conv .i64 (.index .buf (.bin .add (.var 1) (.bin .add (.lit 2) (.bin .mul (.var 3) (.lit 8)))))) (.lit 16))) (.bin .shl (.conv .i64 (.index .buf (.bin .add (.var 1) (.bin .add (.lit 3) (.bin .mul (.var 3) (.lit 8)))))) (.lit 24))) (.bin .shl (.conv .i64 (.index .buf (.bin .add (.var 1) (.bin .add (.lit 4) (.bin .mul (.var 3) (.lit 8)))))) (.lit 32))) (.bin .shl (.conv .i64 (.index .buf (.bin .add (.var 1) (.bin .add (.lit 5) (.bin .mul (.var 3) (.lit 8)))))) (.lit 40))) (.bin .shl (.conv .i64 (.index .buf (.bin .add (.var 1) (.bin .add (.lit 6) (.bin .mul (.var 3) (.lit 8)))))) (.lit 48))) (.bin .shl (.conv .i64 (.index .buf (.bin .add (.var 1) (.bin .add (.lit 7) (.bin .mul (.var 3) (.lit 8)))))) (.lit 56)))) (.cons (.set 3 (.bin .add (.var 3) (.lit 1))) (.cons (.ifs (.bin .lt (.var 3) (.var 2)) (.cons (.goto (str% "read_loop")) .nil) .nil) .nil)))) .nil))⟩

/-- v3/minibuf.generated.go:1031-1038 -/
def text_ReadI64LENext : List Str := [
  str% "",
  str% "// ReadI64LENext reads a slice of int64s from the buffer at the",
  str% "// current offset in little-endian and moves the offset forward the",
  str% "// amount of bytes written",
  str% "func (b *MiniBuffer) ReadI64LENext(out *[]int64, n int64) {",
  str% "\tb.ReadI64LE(out, b.off, n)",
  str% "\tb.SeekByte(n*8, true)",
  str% "}"]

/-- v3/minibuf.generated.go:1031-1038 -/
def fun_ReadI64LENext : Fun := ⟨(str% "ReadI64LENext"), [none, some .i64], none, 2, (.cons (.expr (.call (str% "ReadI64LE") (.cons .outPtr (.cons (.field .off) (.cons (.var 1) .nil))))) (.cons (.expr (.call (str% "SeekByte") (.cons (.bin .mul (.var 1) (.lit 8)) (.cons (.bool true) .nil)))) .nil))⟩

/-- v3/minibuf.generated.go:1039-1053 -/
def text_ReadI64BE : List Str := [
  str% "",
  str% "// ReadI64BE reads a slice of int64s from the buffer at the",
  str% "// specified offset in big-endian without modifying the internal",
  str% "// offset value",
  str% "func (b *MiniBuffer) ReadI64BE(out *[]int64, off, n int64) {",
  str% "\ti := int64(0)",
  str% "\t{",
  str% "\tread_loop:",
  str% "\t\t(*out)[i] = int64(b.buf[off+(7+(i*8))]) | int64(b.buf[off+(6+(i*8))])<<8 | int64(b.buf[off+(5+(i*8))])<<16 | int64(b.buf[off+(4+(i*8))])<<24 | int64(b.buf[off+(3+(i*8))])<<32 | int64(b.buf[off+(2+(i*8))])<<40 | int64(b.buf[off+(1+(i*8))])<<48 | int64(b.buf[off+(i*8)])<<56",
  str% "\t\ti++",
  str% "\t\tif i < n {",
  str% "\t\t\tgoto read_loop",
  str% "\t\t}",
  str% "\t}",
  str% "}"]

/-- v3/minibuf.generated.go:1039-1053 -/
def fun_ReadI64BE : Fun := ⟨(str% "ReadI64BE"), [none, some .i64, some .i64], none, 4, (.cons (.set 3 (.conv .i64 (.lit 0))) (.cons (.block (str% "read_loop") (.cons (.setOutAt (.var 3) (.bin .or (.bin .or (.bin .or (.bin .or (.bin .or (.bin .or (.bin .or (.conv .i64 (.index .buf (.bin .add (.var 1) (.bin .add (.lit 7) (.bin .mul (.var 3) (.lit 8)))))) (.bin .shl (.conv .i64 (.index .buf (.bin .add (.var 1) (.bin .add (.lit 6) (.bin .mul (.var 3) (.lit 8)))))) (.lit 8))) (.bin .shl (.conv .i64 (.index .buf (.bin .add (.var 1) (.bin .add (.lit 5) (.bin .mul (.var 3) (.lit 8)))))) (.lit 16))) (.bin .shl (.conv .i64 (.index .buf (.bin .add (.var 1) (.bin .add (.lit 4) (.bin .mul (.var 3) (.lit 8)))))) (.lit 24))) (.bin .shl (.conv .i64 (.index .buf (.bin .add (.var 1) (.bin .add (.lit 3) (.bin .mul (.var 3) (.lit 8)))))) (.lit 32))) (.bin .shl (.conv .i64 (.index .buf (.bin .add (.var 1) (.bin .add (.lit 2) (.bin .mul (.var 3) (.lit 8)))))) (.lit 40))) (.bin .shl (.conv .i64 (.index .buf (.bin .add (.var 1) (.bin .add (.lit 1) (.bin .mul (.var 3) (.lit 8)))))) (.lit 48))) (.bin .shl (.conv .i64 (.index .buf (.bin .add (.var 1) (.bin .mul (.var 3) (.lit 8))))) (.lit 56)))) (.cons (.set 3 (.bin .add (.var 3) (.lit 1))) (.cons (.ifs (.bin .lt (.var 3) (.var 2)) (.cons (.goto (str% "read_loop")) .nil) .nil) .nil)))) .nil))⟩

/-- v3/minibuf.generated.go:1054-1061 -/
def text_ReadI64BENext : List Str := [
  str% "",
  str% "// ReadI64BENext reads a slice of int64s from the buffer at the",
  str% "// current offset in big-endian and moves the offset forward the",
  str% "// amount of bytes written",
  str% "func (b *MiniBuffer) ReadI64BENext(out *[]int64, n int64) {",
  str% "\tb.ReadI64BE(out, b.off, n)",
  str% "\tb.SeekByte(n*8, true)",
  str% "}"]

/-- v3/minibuf.generated.go:1054-1061 -/
def fun_ReadI64BENext : Fun := ⟨(str% "ReadI64BENext"), [none, some .i64], none, 2, (.cons (.expr (.call (str% "ReadI64BE") (.cons .outPtr (.cons (.field .off) (.cons (.var 1) .nil))))) (.cons (.expr (.call (str% "SeekByte") (.cons (.bin .mul (.var 1) (.lit 8)) (.cons (.bool true) .nil)))) .nil))⟩

/-- v3/minibuf.generated.go:1062-1078 -/
def text_ReadF32LE : List Str := [
  str% "",
  str% "// ReadF32LE reads a slice of float32s from the buffer at the",
  str% "// specified offset in little-endian without modifying the internal",
  str% "// offset value",
  str% "func (b *MiniBuffer) ReadF32LE(out *[]float32, off, n int64) {",
  str% "\ti := int64(0)",
  str% "\tvar u uint32",
  str% "\t{",
  str% "\tread_loop:",
  str% "\t\tu = (uint32(b.buf[off+(i*4)]) | uint32(b.buf[off+(1+(i*4))])<<8 | uint32(b.buf[off+(2+(i*4))])<<16 | uint32(b.buf[off+(3+(i*4))])<<24)",
  str% "\t\t(*out)[i] = *(*float32)(unsafe.Pointer(&u))",
  str% "\t\ti++",
  str% "\t\tif i < n {",
  str% "\t\t\tgoto read_loop",
  str% "\t\t}",
  str% "\t}",
  str% "}"]

/-- v3/minibuf.generated.go:1062-1078 -/
def fun_ReadF32LE : Fun := ⟨(str% "ReadF32LE"), [none, some .i64, some .i64], none, 5, (.cons (.set 3 (.conv .i64 (.lit 0))) (.cons (.zero 4 .u32) (.cons (.block (str% "read_loop") (.cons (.set 4 (.bin .or (.bin .or (.bin .or (.conv .u32 (.index .buf (.bin .add (.var 1) (.bin .mul (.var 3) (.lit 4))))) (.bin .shl (.conv .u32 (.index .buf (.bin .add (.var 1) (.bin .add (.lit 1) (.bin .mul (.var 3) (.lit 4)))))) (.lit 8))) (.bin .shl (.conv .u32 (.index .buf (.bin .add (.var 1) (.bin .add (.lit 2) (.bin .mul (.var 3) (.lit 4)))))) (.lit 16))) (.bin .shl (.conv .u32 (.index .buf (.bin .add (.var 1) (.bin .add (.lit 3) (.bin .mul (.var 3) (.lit 4)))))) (.lit 24)))) (.cons (.setOutAt (.var 3) (.bits .f32 (.var 4))) (.cons (.set 3 (.bin .add (.var 3) (.lit 1))) (.cons (.ifs (.bin .lt (.var 3) (.var 2)) (.cons (.goto (str% "read_loop")) .nil) .nil) .nil))))) .nil)))⟩

/-- v3/minibuf.generated.go:1079-1086 -/
def text_ReadF32LENext : List Str := [
  str% "",
  str% "// ReadF32LENext reads a slice of float32s from the buffer at the",
  str% "// current offset in little-endian and moves the offset forward the",
  str% "// amount of bytes written",
  str% "func (b *MiniBuffer) ReadF32LENext(out *[]float32, n int64) {",
  str% "\tb.ReadF32LE(out, b.off, n)",
  str% "\tb.SeekByte(n*4, true)",
  str% "}"]

/-- v3/minibuf.generated.go:1079-1086 -/
def fun_ReadF32LENext : Fun := ⟨(str% "ReadF32LENext"), [none, some .i64], none, 2, (.cons (.expr (.call (str% "ReadF32LE") (.cons .outPtr (.cons (.field .off) (.cons (.var 1) .nil))))) (.cons (.expr (.call (str% "SeekByte") (.cons (.bin .mul (.var 1) (.lit 4)) (.cons (.bool true) .nil)))) .nil))⟩

/-- v3/minibuf.generated.go:1087-1103 -/
def text_ReadF32BE : List Str := [
  str% "",
  str% "// ReadF32BE reads a slice of float32s from the buffer at the",
  str% "// specified offset in big-endian without modifying the internal",
  str% "// offset value",
  str% "func (b *MiniBuffer) ReadF32BE(out *[]float32, off, n int64) {",
  str% "\ti := int64(0)",
  str% "\tvar u uint32",
  str% "\t{",
  str% "\tread_loop:",
  str% "\t\tu = (uint32(b.buf[off+(3+(i*4))]) | uint32(b.buf[off+(2+(i*4))])<<8 | uint32(b.buf[off+(1+(i*4))])<<16 | uint32(b.buf[off+(i*4)])<<24)",
  str% "\t\t(*out)[i] = *(*float32)(unsafe.Pointer(&u))",
  str% "\t\ti++",
  str% "\t\tif i < n {",
  str% "\t\t\tgoto read_loop",
  str% "\t\t}",
  str% "\t}",
  str% "}"]

/-- v3/minibuf.generated.go:1087-1103 -/
def fun_ReadF32BE : Fun := ⟨(str% "ReadF32BE"), [none, some .i64, some .i64], none, 5, (.cons (.set 3 (.conv .i64 (.lit 0))) (.cons (.zero 4 .u32) (.cons (.block (str% "read_loop") (.cons (.set 4 (.bin .or (.bin .or (.bin .or (.conv .u32 (.index .buf (.bin .add (.var 1) (.bin .add (.lit 3) (.bin .mul (.var 3) (.lit 4)))))) (.bin .shl (.conv .u32 (.index .buf (.bin .add (.var 1) (.bin .add (.lit 2) (.bin .mul (.var 3) (.lit 4)))))) (.lit 8))) (.bin .shl (.conv .u32 (.index .buf (.bin .add (.var 1) (.bin .add (.lit 1) (.bin .mul (.var 3) (.lit 4)))))) (.lit 16))) (.bin .shl (.conv .u32 (.index .buf (.bin .add (.var 1) (.bin .mul (.var 3) (.lit 4))))) (.lit 24)))) (.cons (.setOutAt (.var 3) (.bits .f32 (.var 4))) (.cons (.set 3 (.bin .add (.var 3) (.lit 1))) (.cons (.ifs (.bin .lt (.var 3) (.var 2)) (.cons (.goto (str% "read_loop")) .nil) .nil) .nil))))) .nil)))⟩

/-- v3/minibuf.generated.go:1104-1111 -/
def text_ReadF32BENext : List Str := [
  str% "",
  str% "// ReadF32BENext reads a slice of float32s from the buffer at the",
  str% "// current offset in big-endian and moves the offset forward the",
  str% "// amount of bytes written",
  str% "func (b *MiniBuffer) ReadF32BENext(out *[]float32, n int64) {",
  str% "\tb.ReadF32BE(out, b.off, n)",
  str% "\tb.SeekByte(n*4, true)",
  str% "}"]

/-- v3/minibuf.generated.go:1104-1111 -/
def fun_ReadF32BENext : Fun := ⟨(str% "ReadF32BENext"), [none, some .i64], none, 2, (.cons (.expr (.call (str% "ReadF32BE") (.cons .outPtr (.cons (.field .off) (.cons (.var 1) .nil))))) (.cons (.expr (.call (str% "SeekByte") (.cons (.bin .mul (.var 1) (.lit 4)) (.cons (.bool true) .nil)))) .nil))⟩

/-- v3/minibuf.generated.go:1112-1128 -/
def text_ReadF64LE : List Str := [
  str% "",
  str% "// ReadF64LE reads a slice of float64s from the buffer at the",
  str% "// specified offset in little-endian without modifying the internal",
  str% "// offset value",
  str% "func (b *MiniBuffer) ReadF64LE(out *[]float64, off, n int64) {",
  str% "\ti := int64(0)",
  str% "\tvar u uint64",
  str% "\t{",
  str% "\tread_loop:",
  str% "\t\tu = (uint64(b.buf[off+(i*8)]) | uint64(b.buf[off+(1+(i*8))])<<8 | uint64(b.buf[off+(2+(i*8))])<<16 | uint64(b.buf[off+(3+(i*8))])<<24 | uint64(b.buf[off+(4+(i*8))])<<32 | uint64(b.buf[off+(5+(i*8))])<<40 | uint64(b.buf[off+(6+(i*8))])<<48 | uint64(b.buf[off+(7+(i*8))])<<56)",
  str% "\t\t(*out)[i] = *(*float64)(unsafe.Pointer(&u))",
  str% "\t\ti++",
  str% "\t\tif i < n {",
  str% "\t\t\tgoto read_loop",
  str% "\t\t}",
  str% "\t}",
  str% "}"]

/-- v3/minibuf.generated.go:1112-1128 -/
def fun_ReadF64LE : Fun := ⟨(str% "ReadF64LE"), [none, some .i64, some .i64], none, 5, (.cons (.set 3 (.conv .i64 (.lit 0))) (.cons (.zero 4 .u64) (.cons (.block (str% "read_loop") (.cons (.set 4 (.bin .or (.bin .or (.bin .or (.bin .or (.bin .or (.bin .or (.bin .or (.conv .u64 (.index .buf (.bin .add (.var 1) (.bin .mul (.var 3) (.lit 8))))) (.bin .shl (.conv .u64 (.index .buf (.bin .add (.var 1) (.bin .add (.lit 1) (.bin .mul (.var 3) (.lit 8)))))) (.lit 8))) (.bin .shl (.conv .u64 (.index .buf (.bin .add (.var 1) (.bin .add (.lit 2) (.bin .mul (.var 3) (.lit 8)))))) (.lit 16))) (.bin .shl (.conv .u64 (.index .buf (.bin .add (.var 1) (.bin .add (.lit 3) (.bin .mul (.var 3) (.lit 8)))))) (.lit 24))) (.bin .shl (.conv .u64 (.index .buf (.bin .add (.var 1) (.bin .add (.lit 4) (.bin .mul (.var 3) (.lit 8)))))) (.lit 32))) (.bin .shl (.conv .u64 (.index .buf (.bin .add (.var 1) (.bin .add (.lit 5) (.bin .mul (.var 3) (.lit 8)))))) (.lit 40))) (.bin .shl (.conv .u64 (.index .buf (.bin .add (.var 1) (.bin .add (.lit 6) (.bin .mul (.var 3) (.lit 8)))))) (.lit 48))) (.bin .shl (.conv .u64 (.index .buf (.bin .add (.var 1) (.bin .add (.lit 7) (.bin .mul (.var 3) (.lit 8)))))) (.lit 56)))) (.cons (.setOutAt (.var 3) (.bits .f64 (.var 4))) (.cons (.set 3 (.bin .add (.var 3) (.lit 1))) (.cons (.ifs (.bin .lt (.var 3) (.var 2)) (.cons (.goto (str% "read_loop")) .nil) .nil) .nil))))) .nil)))⟩

/-- v3/minibuf.generated.go:1129-1136 -/
def text_ReadF64LENext : List Str := [
  str% "",
  str% "// ReadF64LENext reads a slice of float64s from the buffer at the",
  str% "// current offset in little-endian and moves the offset forward the",
  str% "// amount of bytes written",
  str% "func (b *MiniBuffer) ReadF64LENext(out *[]float64, n int64) {",
  str% "\tb.ReadF64LE(out, b.off, n)",
  str% "\tb.SeekByte(n*8, true)",
  str% "}"]

/-- v3/minibuf.generated.go:1129-1136 -/
def fun_ReadF64LENext : Fun := ⟨(str% "ReadF64LENext"), [none, some .i64], none, 2, (.cons (.expr (.call (str% "ReadF64LE") (.cons .outPtr (.cons (.field .off) (.cons (.var 1) .nil))))) (.cons (.expr (.call (str% "SeekByte") (.cons (.bin .mul (.var 1) (.lit 8)) (.cons (.bool true) .nil)))) .nil))⟩

/-- v3/minibuf.generated.go:1137-1153 -/
def text_ReadF64BE : List Str := [
  str% "",
  str% "// ReadF64BE reads a slice of float64s from the buffer at the",
  str% "// specified offset in big-endian without modifying the internal",
  str% "// offset value",
  str% "func (b *MiniBuffer) ReadF64BE(out *[]float64, off, n int64) {",
  str% "\ti := int64(0)",
  str% "\tvar u uint64",
  str% "\t{",
  str% "\tread_loop:",
  str% "\t\tu = (uint64(b.buf[off+(7+(i*8))]) | uint64(b.buf[off+(6+(i*8))])<<8 | uint64(b.buf[off+(5+(i*8))])<<16 | uint64(b.buf[off+(4+(i*8))])<<24 | uint64(b.buf[off+(3+(i*8))])<<32 | uint64(b.buf[off+(2+(i*8))])<<40 | uint64(b.buf[off+(1+(i*8))])<<48 | uint64(b.buf[off+(i*8)])<<56)",
  str% "\t\t(*out)[i] = *(*float64)(unsafe.Pointer(&u))",
  str% "\t\ti++",
  str% "\t\tif i < n {",
  str% "\t\t\tgoto read_loop",
  str% "\t\t}",
  str% "\t}",
  str% "}"]

/-- v3/minibuf.generated.go:1137-1153 -/
def fun_ReadF64BE : Fun := ⟨(str% "ReadF64BE"), [none, some .i64, some .i64], none, 5, (.cons (.set 3 (.conv .i64 (.lit 0))) (.cons (.zero 4 .u64) (.cons (.block (str% "read_loop") (.cons (.set 4 (.bin .or (.bin .or (.bin .or (.bin .or (.bin .or (.bin .or (.bin .or (.conv .u64 (.index .buf (.bin .add (.var 1) (.bin .add (.lit 7) (.bin .mul (.var 3) (.lit 8)))))) (.bin .shl (.conv .u64 (.index .buf (.bin .add (.var 1) (.bin .add (.lit 6) (.bin .mul (.var 3) (.lit 8)))))) (.lit 8))) (.bin .shl (.conv .u64 (.index .buf (.bin .add (.var 1) (.bin .add (.lit 5) (.bin .mul (.var 3) (.lit 8)))))) (.lit 16))) (.bin .shl (.conv .u64 (.index .buf (.bin .add (.var 1) (.bin .add (.lit 4) (.bin .mul (.var 3) (.lit 8)))))) (.lit 24))) (.bin .shl (.conv .u64 (.index .buf (.bin .add (.var 1) (.bin .add (.lit 3) (.bin .mul (.var 3) (.lit 8)))))) (.lit 32))) (.bin .shl (.conv .u64 (.index .buf (.bin .add (.var 1) (.bin .add (.lit 2) (.bin .mul (.var 3) (.lit 8)))))) (.lit 40))) (.bin .shl (.conv .u64 (.index .buf (.bin .add (.var 1) (.bin .add (.lit 1) (.bin .mul (.var 3) (.lit 8)))))) (.lit 48))) (.bin .shl (.conv .u64 (.index .buf (.bin .add (.var 1) (.bin .mul (.var 3) (.lit 8))))) (.lit 56)))) (.cons (.setOutAt (.var 3) (.bits .f64 (.var 4))) (.cons (.set 3 (.bin .add (.var 3) (.lit 1))) (.cons (.ifs (.bin .lt (.var 3) (.var 2)) (.cons (.goto (str% "read_loop")) .nil) .nil) .nil))))) .nil)))⟩

/-- v3/minibuf.generated.go:1154-1161 -/
def text_ReadF64BENext : List Str := [
  str% "",
  str% "// ReadF64BENext reads a slice of float64s from the buffer at the",
  str% "// current offset in big-endian and moves the offset forward the",
  str% "// amount of bytes written",
  str% "func (b *MiniBuffer) ReadF64BENext(out *[]float64, n int64) {",
  str% "\tb.ReadF64BE(out, b.off, n)",
  str% "\tb.SeekByte(n*8, true)",
  str% "}"]

/-- v3/minibuf.generated.go:1154-1161 -/
def fun_ReadF64BENext : Fun := ⟨(str% "ReadF64BENext"), [none, some .i64], none, 2, (.cons (.expr (.call (str% "ReadF64BE") (.cons .outPtr (.cons (.field .off) (.cons (.var 1) .nil))))) (.cons (.expr (.call (str% "SeekByte") (.cons (.bin .mul (.var 1) (.lit 8)) (.cons (.bool true) .nil)))) .nil))⟩

/-- v3/minibuf.generated.go:1162-1177 -/
def text_SeekByte : List Str := [
  str% "",
  str% "// SeekByte seeks to position off of the buffer relative to the",
  str% "// current position or exact",
  str% "func (b *MiniBuffer) SeekByte(off int64, relative bool) {",
  str% "",
  str% "\tif relative {",
  str% "",
  str% "\t\tb.off += off",
  str% "",
  str% "\t} else {",
  str% "",
  str% "\t\tb.off = off",
  str% "",
  str% "\t}",
  str% "",
  str% "}"]

/-- v3/minibuf.generated.go:1162-1177 -/
def fun_SeekByte : Fun := ⟨(str% "SeekByte"), [some .i64, none], none, 2, (.cons (.ifs (.var 1) (.cons (.setField .off (.bin .add (.field .off) (.var 0))) .nil) (.cons (.setField .off (.var 0)) .nil)) .nil)⟩

/-- v3/minibuf.generated.go:1178-1191 -/
def text_AfterByte : List Str := [
  str% "",
  str% "// AfterByte stores the amount of bytes located after the current",
  str% "// position or the specified one in out",
  str% "func (b *MiniBuffer) AfterByte(out *int64, off ...int64) {",
  str% "",
  str% "\tif len(off) == 0 {",
  str% "",
  str% "\t\t*out = b.cap - b.off - 1",
  str% "\t\treturn",
  str% "",
  str% "\t}",
  str% "\t*out = b.cap - off[0] - 1",
  str% "",
  str% "}"]

/-- v3/minibuf.generated.go:1178-1191 -/
def fun_AfterByte : Fun := ⟨(str% "AfterByte"), [none, none], none, 2, (.cons (.ifs (.bin .eq (.len (.var 1)) (.lit 0)) (.cons (.setOut (.bin .sub (.bin .sub (.field .cap) (.field .off)) (.lit 1))) (.cons .retNone .nil)) .nil) (.cons (.setOut (.bin .sub (.bin .sub (.field .cap) (.index (.var 1) (.lit 0))) (.lit 1))) .nil))⟩

/-- v3/minibuf.generated.go:1192-1198 -/
def text_AlignByte : List Str := [
  str% "",
  str% "// AlignByte aligns the byte offset to the bit offset",
  str% "func (b *MiniBuffer) AlignByte() {",
  str% "",
  str% "\tb.off = b.boff / 8",
  str% "",
  str% "}"]

/-- v3/minibuf.generated.go:1192-1198 -/
def fun_AlignByte : Fun := ⟨(str% "AlignByte"), [], none, 0, (.cons (.setField .off (.bin .div (.field .boff) (.lit 8))) .nil)⟩

/-- v3/minibuf.generated.go:1199-1208 -/
def text_TruncateLeft : List Str := [
  str% "",
  str% "/* generic methods */",
  str% "",
  str% "// TruncateLeft truncates the buffer on the left side",
  str% "func (b *MiniBuffer) TruncateLeft(n int64) {",
  str% "",
  str% "\tb.buf = b.buf[n:b.cap]",
  str% "\tb.Refresh()",
  str% "",
  str% "}"]

/-- v3/minibuf.generated.go:1199-1208 -/
def fun_TruncateLeft : Fun := ⟨(str% "TruncateLeft"), [some .i64], none, 1, (.cons (.setBuf (.slice .buf (.var 0) (.field .cap))) (.cons (.expr (.call (str% "Refresh") .nil)) .nil))⟩

/-- v3/minibuf.generated.go:1209-1216 -/
def text_TruncateRight : List Str := [
  str% "",
  str% "// TruncateRight truncates the buffer on the right side",
  str% "func (b *MiniBuffer) TruncateRight(n int64) {",
  str% "",
  str% "\tb.buf = b.buf[0x00 : b.cap-n]",
  str% "\tb.Refresh()",
  str% "",
  str% "}"]

/-- v3/minibuf.generated.go:1209-1216 -/
def fun_TruncateRight : Fun := ⟨(str% "TruncateRight"), [some .i64], none, 1, (.cons (.setBuf (.slice .buf (.lit 0) (.bin .sub (.field .cap) (.var 0)))) (.cons (.expr (.call (str% "Refresh") .nil)) .nil))⟩

/-- v3/minibuf.generated.go:1217-1234 -/
def text_Grow : List Str := [
  str% "",
  str% "// Grow makes the buffer's capacity bigger by n bytes",
  str% "func (b *MiniBuffer) Grow(n int64) {",
  str% "",
  str% "\tif n <= int64(cap(b.buf))-b.cap {",
  str% "",
  str% "\t\tb.buf = b.buf[0 : b.cap+n]",
  str% "\t\tb.Refresh()",
  str% "\t\treturn",
  str% "",
  str% "\t}",
  str% "\ttmp := make([]byte, b.cap+n, (int64(cap(b.buf))+n)*2)",
  str% "\tcopy(tmp, b.buf)",
  str% "\tb.buf = tmp",
  str% "",
  str% "\tb.Refresh()",
  str% "",
  str% "}"]

/-- v3/minibuf.generated.go:1217-1234 -/
def fun_Grow : Fun := ⟨(str% "Grow"), [some .i64], none, 2, (.cons (.ifs (.bin .le (.var 0) (.bin .sub (.conv .i64 (.cap .buf)) (.field .cap))) (.cons (.setBuf (.slice .buf (.lit 0) (.bin .add (.field .cap) (.var 0)))) (.cons (.expr (.call (str% "Refresh") .nil)) (.cons .retNone .nil))) .nil) (.cons (.set 1 (.makeCap (.bin .add (.field .cap) (.var 0)) (.bin .mul (.bin .add (.conv .i64 (.cap .buf)) (.var 0)) (.lit 2)))) (.cons (.copy (.var 1) .buf) (.cons (.setBuf (.var 1)) (.cons (.expr (.call (str% "Refresh") .nil)) .nil)))))⟩

/-- v3/minibuf.generated.go:1235-1242 -/
def text_Refresh : List Str := [
  str% "",
  str% "// Refresh updates the cached internal statistics of the buffer forcefully",
  str% "func (b *MiniBuffer) Refresh() {",
  str% "",
  str% "\tb.cap = int64(len(b.buf))",
  str% "\tb.bcap = b.cap * 8",
  str% "",
  str% "}"]

/-- v3/minibuf.generated.go:1235-1242 -/
def fun_Refresh : Fun := ⟨(str% "Refresh"), [], none, 0, (.cons (.setField .cap (.conv .i64 (.len .buf))) (.cons (.setField .bcap (.bin .mul (.field .cap) (.lit 8))) .nil))⟩

/-- v3/minibuf.generated.go:1243-1253 -/
def text_Reset : List Str := [
  str% "",
  str% "// Reset resets the entire buffer",
  str% "func (b *MiniBuffer) Reset() {",
  str% "",
  str% "\tb.buf = b.buf[0:0]",
  str% "\tb.off = 0x00",
  str% "\tb.boff = 0x00",
  str% "\tb.cap = 0",
  str% "\tb.bcap = 0",
  str% "",
  str% "}"]

/-- v3/minibuf.generated.go:1243-1253 -/
def fun_Reset : Fun := ⟨(str% "Reset"), [], none, 0, (.cons (.setBuf (.slice .buf (.lit 0) (.lit 0))) (.cons (.setField .off (.lit 0)) (.cons (.setField .boff (.lit 0)) (.cons (.setField .cap (.lit 0)) (.cons (.setField .bcap (.lit 0)) .nil)))))⟩

/-- v3/minibuf.generated.go:1254-1262 -/
def text_Bytes : List Str := [
  str% "",
  str% "/* value retrieval */",
  str% "",
  str% "// Bytes stores the internal byte slice of the buffer in out",
  str% "func (b *MiniBuffer) Bytes(out *[]byte) {",
  str% "",
  str% "\t*out = b.buf",
  str% "",
  str% "}"]

/-- v3/minibuf.generated.go:1254-1262 -/
def fun_Bytes : Fun := ⟨(str% "Bytes"), [none], none, 1, (.cons (.setOut .buf) .nil)⟩

/-- v3/minibuf.generated.go:1263-1269 -/
def text_ByteCapacity : List Str := [
  str% "",
  str% "// ByteCapacity stores the capacity of the buffer in out",
  str% "func (b *MiniBuffer) ByteCapacity(out *int64) {",
  str% "",
  str% "\t*out = b.cap",
  str% "",
  str% "}"]

/-- v3/minibuf.generated.go:1263-1269 -/
def fun_ByteCapacity : Fun := ⟨(str% "ByteCapacity"), [none], none, 1, (.cons (.setOut (.field .cap)) .nil)⟩

/-- v3/minibuf.generated.go:1270-1276 -/
def text_BitCapacity : List Str := [
  str% "",
  str% "// BitCapacity stores the bit capacity of the buffer in out",
  str% "func (b *MiniBuffer) BitCapacity(out *int64) {",
  str% "",
  str% "\t*out = b.bcap",
  str% "",
  str% "}"]

/-- v3/minibuf.generated.go:1270-1276 -/
def fun_BitCapacity : Fun := ⟨(str% "BitCapacity"), [none], none, 1, (.cons (.setOut (.field .bcap)) .nil)⟩

/-- v3/minibuf.generated.go:1277-1283 -/
def text_ByteOffset : List Str := [
  str% "",
  str% "// ByteOffset stores the current offset of the buffer in out",
  str% "func (b *MiniBuffer) ByteOffset(out *int64) {",
  str% "",
  str% "\t*out = b.off",
  str% "",
  str% "}"]

/-- v3/minibuf.generated.go:1277-1283 -/
def fun_ByteOffset : Fun := ⟨(str% "ByteOffset"), [none], none, 1, (.cons (.setOut (.field .off)) .nil)⟩

/-- v3/minibuf.generated.go:1284-1290 -/
def text_BitOffset : List Str := [
  str% "",
  str% "// BitOffset stores the current bit offset of the buffer in out",
  str% "func (b *MiniBuffer) BitOffset(out *int64) {",
  str% "",
  str% "\t*out = b.boff",
  str% "",
  str% "}",
  str% ""]

/-- v3/minibuf.generated.go:1284-1290 -/
def fun_BitOffset : Fun := ⟨(str% "BitOffset"), [none], none, 1, (.cons (.setOut (.field .boff)) .nil)⟩

/-- The text, in parts. -/
def text : List (List Str) := [text_0, text_NewMiniBuffer, text_ReadBit, text_ReadBitNext, text_ReadBits, text_ReadBitsNext, text_SetBit, text_SetBitNext, text_ClearBit, text_ClearBitNext, text_SetBits, text_SetBitsNext, text_FlipBit, text_FlipBitNext, text_ClearAllBits, text_SetAllBits, text_FlipAllBits, text_SeekBit, text_AfterBit, text_AlignBit, text_WriteBytes, text_WriteBytesNext, text_WriteU16LE, text_WriteU16LENext, text_WriteU16BE, text_WriteU16BENext, text_WriteU32LE, text_WriteU32LENext, text_WriteU32BE, text_WriteU32BENext, text_WriteU64LE, text_WriteU64LENext, text_WriteU64BE, text_WriteU64BENext, text_WriteI16LE, text_WriteI16LENext, text_WriteI16BE, text_WriteI16BENext, text_WriteI32LE, text_WriteI32LENext, text_WriteI32BE, text_WriteI32BENext, text_WriteI64LE, text_WriteI64LENext, text_WriteI64BE, text_WriteI64BENext, text_WriteF32LE, text_WriteF32LENext, text_WriteF32BE, text_WriteF32BENext, text_WriteF64LE, text_WriteF64LENext, text_WriteF64BE, text_WriteF64BENext, text_ReadBytes, text_ReadBytesNext, text_ReadU16LE, text_ReadU16LENext, text_ReadU16BE, text_ReadU16BENext, text_ReadU32LE, text_ReadU32LENext, text_ReadU32BE, text_ReadU32BENext, text_ReadU64LE, text_ReadU64LENext, text_ReadU64BE, text_ReadU64BENext, text_ReadI16LE, text_ReadI16LENext, text_ReadI16BE, text_ReadI16BENext, text_ReadI32LE, text_ReadI32LENext, text_ReadI32BE, text_ReadI32BENext, text_ReadI64LE, text_ReadI64LENext, text_ReadI64BE, text_ReadI64BENext, text_ReadF32LE, text_ReadF32LENext, text_ReadF32BE, text_ReadF32BENext, text_ReadF64LE, text_ReadF64LENext, text_ReadF64BE, text_ReadF64BENext, text_SeekByte, text_AfterByte, text_AlignByte, text_TruncateLeft, text_TruncateRight, text_Grow, text_Refresh, text_Reset, text_Bytes, text_ByteCapacity, text_BitCapacity, text_ByteOffset, text_BitOffset]

/-- The functions. -/
def funs : List Fun := [fun_NewMiniBuffer, fun_ReadBit, fun_ReadBitNext, fun_ReadBits, fun_ReadBitsNext, fun_SetBit, fun_SetBitNext, fun_ClearBit, fun_ClearBitNext, fun_SetBits, fun_SetBitsNext, fun_FlipBit, fun_FlipBitNext, fun_ClearAllBits, fun_SetAllBits, fun_FlipAllBits, fun_SeekBit, fun_AfterBit, fun_AlignBit, fun_WriteBytes, fun_WriteBytesNext, fun_WriteU16LE, fun_WriteU16LENext, fun_WriteU16BE, fun_WriteU16BENext, fun_WriteU32LE, fun_WriteU32LENext, fun_WriteU32BE, fun_WriteU32BENext, fun_WriteU64LE, fun_WriteU64LENext, fun_WriteU64BE, fun_WriteU64BENext, fun_WriteI16LE, fun_WriteI16LENext, fun_WriteI16BE, fun_WriteI16BENext, fun_WriteI32LE, fun_WriteI32LENext, fun_WriteI32BE, fun_WriteI32BENext, fun_WriteI64LE, fun_WriteI64LENext, fun_WriteI64BE, fun_WriteI64BENext, fun_WriteF32LE, fun_WriteF32LENext, fun_WriteF32BE, fun_WriteF32BENext, fun_WriteF64LE, fun_WriteF64LENext, fun_WriteF64BE, fun_WriteF64BENext, fun_ReadBytes, fun_ReadBytesNext, fun_ReadU16LE, fun_ReadU16LENext, fun_ReadU16BE, fun_ReadU16BENext, fun_ReadU32LE, fun_ReadU32LENext, fun_ReadU32BE, fun_ReadU32BENext, fun_ReadU64LE, fun_ReadU64LENext, fun_ReadU64BE, fun_ReadU64BENext, fun_ReadI16LE, fun_ReadI16LENext, fun_ReadI16BE, fun_ReadI16BENext, fun_ReadI32LE, fun_ReadI32LENext, fun_ReadI32BE, fun_ReadI32BENext, fun_ReadI64LE, fun_ReadI64LENext, fun_ReadI64BE, fun_ReadI64BENext, fun_ReadF32LE, fun_ReadF32LENext, fun_ReadF32BE, fun_ReadF32BENext, fun_ReadF64LE, fun_ReadF64LENext, fun_ReadF64BE, fun_ReadF64BENext, fun_SeekByte, fun_AfterByte, fun_AlignByte, fun_TruncateLeft, fun_TruncateRight, fun_Grow, fun_Refresh, fun_Reset, fun_Bytes, fun_ByteCapacity, fun_BitCapacity, fun_ByteOffset, fun_BitOffset]

end Crunch.Src.V3Mini
