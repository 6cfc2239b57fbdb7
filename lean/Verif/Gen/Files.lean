import Verif.Gen.Text

/-!
# The sources and the generated files of v3

Written by tools/gen_embed.py.  `Seg.same` is lines that are in both files, `Seg.expanded` a directive of the source and the lines
the generated file has in its place.
-/

namespace Crunch.Gen

/-- A part of a source file and of the generated file. -/
inductive Seg where
  | same (ls : List Str)
  | expanded (directive : Str) (code : List Str)

/-- The lines of the source. -/
def Seg.source : Seg → List Str
  | .same ls => ls
  | .expanded d _ => [d]

/-- The lines of the generated file. -/
def Seg.generated : Seg → List Str
  | .same ls => ls
  | .expanded _ c => c

/-- v3/_buffer.go:1-399, v3/buffer.generated.go:1-399 -/
def bufferSeg0 : Seg := .same [
  str% "/*",
  str% "",
  str% "crunch - utilities for taking bytes out of things",
  str% "Copyright (c) 2019-2020 superwhiskers <whiskerdev@protonmail.com>",
  str% "",
  str% "This Source Code Form is subject to the terms of the Mozilla Public",
  str% "License, v. 2.0. If a copy of the MPL was not distributed with this",
  str% "file, You can obtain one at https://mozilla.org/MPL/2.0/.",
  str% "",
  str% "*/",
  str% "",
  str% "package v3",
  str% "",
  str% "import \"unsafe\"",
  str% "",
  str% "// Buffer implements a buffer type in go that handles multiple types",
  str% "// of data easily. it has overwrite/read checks for extra safety",
  str% "type Buffer struct {",
  str% "\tbuf  []byte",
  str% "\toff  int64",
  str% "\tcap  int64",
  str% "\tboff int64",
  str% "\tbcap int64",
  str% "}",
  str% "",
  str% "// NewBuffer initilaizes a new Buffer with the provided byte slice(s)",
  str% "// stored inside in the order provided",
  str% "func NewBuffer(slices ...[]byte) (buf *Buffer) {",
  str% "",
  str% "\tbuf = &Buffer{",
  str% "\t\tbuf:  []byte{},",
  str% "\t\toff:  0x00,",
  str% "\t\tboff: 0x00,",
  str% "\t}",
  str% "",
  str% "\tswitch len(slices) {",
  str% "",
  str% "\tcase 0:",
  str% "\t\tbreak",
  str% "",
  str% "\tcase 1:",
  str% "\t\tbuf.buf = slices[0]",
  str% "",
  str% "\tdefault:",
  str% "\t\tvar (",
  str% "\t\t\ti = int64(0)",
  str% "\t\t\tn = int64(len(slices))",
  str% "\t\t)",
  str% "\t\t{",
  str% "\t\tappend_loop:",
  str% "\t\t\tbuf.buf = append(buf.buf, slices[i]...)",
  str% "\t\t\ti++",
  str% "\t\t\tif i < n {",
  str% "",
  str% "\t\t\t\tgoto append_loop",
  str% "",
  str% "\t\t\t}",
  str% "\t\t}",
  str% "",
  str% "\t}",
  str% "",
  str% "\tbuf.Refresh()",
  str% "\treturn",
  str% "",
  str% "}",
  str% "",
  str% "/* internal use methods */",
  str% "",
  str% "/* bitfield methods */",
  str% "",
  str% "// ReadBit returns the bit located at the specified offset without",
  str% "// modifying the internal offset value",
  str% "func (b *Buffer) ReadBit(off int64) byte {",
  str% "",
  str% "\tif off > (b.bcap - 1) {",
  str% "",
  str% "\t\tpanic(BufferOverreadError)",
  str% "",
  str% "\t}",
  str% "",
  str% "\tif off < 0x00 {",
  str% "",
  str% "\t\tpanic(BufferUnderreadError)",
  str% "",
  str% "\t}",
  str% "",
  str% "\treturn (b.buf[off/8] >> (7 - uint64(off%8))) & 1",
  str% "",
  str% "}",
  str% "",
  str% "// ReadBitNext returns the next bit from the current offset and moves",
  str% "// the offset forward a bit",
  str% "func (b *Buffer) ReadBitNext() (out byte) {",
  str% "",
  str% "\tout = b.ReadBit(b.boff)",
  str% "\tb.SeekBit(1, true)",
  str% "\treturn",
  str% "",
  str% "}",
  str% "",
  str% "// ReadBits returns the next n bits from the specified offset without",
  str% "// modifying the internal offset value",
  str% "func (b *Buffer) ReadBits(off, n int64) (out uint64) {",
  str% "",
  str% "\ti := int64(0)",
  str% "",
  str% "\t{",
  str% "\tread_loop:",
  str% "\t\tout = (out << uint64(1)) | uint64(b.ReadBit(off+i))",
  str% "\t\ti++",
  str% "\t\tif i < n {",
  str% "",
  str% "\t\t\tgoto read_loop",
  str% "",
  str% "\t\t}",
  str% "\t}",
  str% "",
  str% "\treturn",
  str% "",
  str% "}",
  str% "",
  str% "// ReadBitsNext returns the next n bits from the current offset and",
  str% "// moves the offset forward the amount of bits read",
  str% "func (b *Buffer) ReadBitsNext(n int64) (out uint64) {",
  str% "",
  str% "\tout = b.ReadBits(b.boff, n)",
  str% "\tb.SeekBit(n, true)",
  str% "\treturn",
  str% "",
  str% "}",
  str% "",
  str% "// SetBit sets the bit located at the specified offset without",
  str% "// modifying the internal offset value",
  str% "func (b *Buffer) SetBit(off int64) {",
  str% "",
  str% "\tif off > (b.bcap - 1) {",
  str% "",
  str% "\t\tpanic(BufferOverwriteError)",
  str% "",
  str% "\t}",
  str% "",
  str% "\tif off < 0x00 {",
  str% "",
  str% "\t\tpanic(BufferUnderwriteError)",
  str% "",
  str% "\t}",
  str% "",
  str% "\tb.buf[off/8] |= (1 << uint(7-(off%8)))",
  str% "",
  str% "}",
  str% "",
  str% "// SetBitNext sets the next bit from the current offset and moves the",
  str% "// offset forward a bit",
  str% "func (b *Buffer) SetBitNext() {",
  str% "",
  str% "\tb.SetBit(b.boff)",
  str% "\tb.SeekBit(1, true)",
  str% "",
  str% "}",
  str% "",
  str% "// ClearBit clears the bit located at the specified offset without",
  str% "// modifying the internal offset value",
  str% "func (b *Buffer) ClearBit(off int64) {",
  str% "",
  str% "\tif off > (b.bcap - 1) {",
  str% "",
  str% "\t\tpanic(BufferOverwriteError)",
  str% "",
  str% "\t}",
  str% "",
  str% "\tif off < 0x00 {",
  str% "",
  str% "\t\tpanic(BufferUnderwriteError)",
  str% "",
  str% "\t}",
  str% "",
  str% "\tb.buf[off/8] &= ^(1 << uint(7-(off%8)))",
  str% "",
  str% "}",
  str% "",
  str% "// ClearBitNext clears the next bit from the current offset and moves",
  str% "// the offset forward a bit",
  str% "func (b *Buffer) ClearBitNext() {",
  str% "",
  str% "\tb.ClearBit(b.boff)",
  str% "\tb.SeekBit(1, true)",
  str% "",
  str% "}",
  str% "",
  str% "// SetBits sets the next n bits from the specified offset without",
  str% "// modifying the internal offset value",
  str% "func (b *Buffer) SetBits(off int64, data uint64, n int64) {",
  str% "",
  str% "\ti := int64(0)",
  str% "",
  str% "\t{",
  str% "\twrite_loop:",
  str% "\t\tif byte((data>>uint64(n-i-1))&1) == 0 {",
  str% "",
  str% "\t\t\tb.ClearBit(off + i)",
  str% "",
  str% "\t\t} else {",
  str% "",
  str% "\t\t\tb.SetBit(off + i)",
  str% "",
  str% "\t\t}",
  str% "\t\ti++",
  str% "\t\tif i < n {",
  str% "",
  str% "\t\t\tgoto write_loop",
  str% "",
  str% "\t\t}",
  str% "\t}",
  str% "",
  str% "}",
  str% "",
  str% "// SetBitsNext sets the next n bits from the current offset and moves",
  str% "// the offset forward the amount of bits set",
  str% "func (b *Buffer) SetBitsNext(data uint64, n int64) {",
  str% "",
  str% "\tb.SetBits(b.boff, data, n)",
  str% "\tb.SeekBit(n, true)",
  str% "",
  str% "}",
  str% "",
  str% "// FlipBit flips the bit located at the specified offset without",
  str% "// modifying the internal offset value",
  str% "func (b *Buffer) FlipBit(off int64) {",
  str% "",
  str% "\tif off > (b.bcap - 1) {",
  str% "",
  str% "\t\tpanic(BufferOverwriteError)",
  str% "",
  str% "\t}",
  str% "",
  str% "\tif off < 0x00 {",
  str% "",
  str% "\t\tpanic(BufferUnderwriteError)",
  str% "",
  str% "\t}",
  str% "",
  str% "\tb.buf[off/8] ^= (1 << uint(7-(off%8)))",
  str% "",
  str% "}",
  str% "",
  str% "// FlipBitNext flips the next bit from the current offset and moves",
  str% "// the offset forward a bit",
  str% "func (b *Buffer) FlipBitNext() {",
  str% "",
  str% "\tb.FlipBit(b.boff)",
  str% "\tb.SeekBit(1, true)",
  str% "",
  str% "}",
  str% "",
  str% "// ClearAllBits sets all of the buffer's bits to 0",
  str% "func (b *Buffer) ClearAllBits() {",
  str% "",
  str% "\tvar (",
  str% "\t\ti = int64(0)",
  str% "\t\tn = int64(len(b.buf))",
  str% "\t)",
  str% "\t{",
  str% "\tclear_loop:",
  str% "\t\tb.buf[i] = 0",
  str% "\t\ti++",
  str% "\t\tif i < n {",
  str% "",
  str% "\t\t\tgoto clear_loop",
  str% "",
  str% "\t\t}",
  str% "\t}",
  str% "",
  str% "}",
  str% "",
  str% "// SetAllBits sets all of the buffer's bits to 1",
  str% "func (b *Buffer) SetAllBits() {",
  str% "",
  str% "\tvar (",
  str% "\t\ti = int64(0)",
  str% "\t\tn = int64(len(b.buf))",
  str% "\t)",
  str% "\t{",
  str% "\tset_loop:",
  str% "\t\tb.buf[i] = 0xFF",
  str% "\t\ti++",
  str% "\t\tif i < n {",
  str% "",
  str% "\t\t\tgoto set_loop",
  str% "",
  str% "\t\t}",
  str% "\t}",
  str% "",
  str% "}",
  str% "",
  str% "// FlipAllBits flips all of the buffer's bits",
  str% "func (b *Buffer) FlipAllBits() {",
  str% "",
  str% "\tvar (",
  str% "\t\ti = int64(0)",
  str% "\t\tn = int64(len(b.buf))",
  str% "\t)",
  str% "\t{",
  str% "\tflip_loop:",
  str% "\t\tb.buf[i] = ^b.buf[i]",
  str% "\t\ti++",
  str% "\t\tif i < n {",
  str% "",
  str% "\t\t\tgoto flip_loop",
  str% "",
  str% "\t\t}",
  str% "",
  str% "\t}",
  str% "",
  str% "}",
  str% "",
  str% "// SeekBit seeks to bit position off of the the buffer relative to",
  str% "// the current position or exact",
  str% "func (b *Buffer) SeekBit(off int64, relative bool) {",
  str% "",
  str% "\tif relative {",
  str% "",
  str% "\t\tb.boff += off",
  str% "",
  str% "\t} else {",
  str% "",
  str% "\t\tb.boff = off",
  str% "",
  str% "\t}",
  str% "",
  str% "}",
  str% "",
  str% "// AfterBit returns the amount of bits located after the current bit",
  str% "// position or the specified one",
  str% "func (b *Buffer) AfterBit(off ...int64) int64 {",
  str% "",
  str% "\tif len(off) == 0 {",
  str% "",
  str% "\t\treturn b.bcap - b.boff - 1",
  str% "",
  str% "\t}",
  str% "\treturn b.bcap - off[0] - 1",
  str% "",
  str% "}",
  str% "",
  str% "// AlignBit aligns the bit offset to the byte offset",
  str% "func (b *Buffer) AlignBit() {",
  str% "",
  str% "\tb.boff = b.off * 8",
  str% "",
  str% "}",
  str% "",
  str% "/* byte buffer methods */",
  str% "",
  str% "// WriteBytes writes bytes to the buffer at the specified offset",
  str% "// without modifying the internal offset value",
  str% "func (b *Buffer) WriteBytes(off int64, data []byte) {",
  str% "",
  str% "\tif (off + int64(len(data))) > b.cap {",
  str% "",
  str% "\t\tpanic(BufferOverwriteError)",
  str% "",
  str% "\t}",
  str% "",
  str% "\tif off < 0x00 {",
  str% "",
  str% "\t\tpanic(BufferUnderwriteError)",
  str% "",
  str% "\t}",
  str% "",
  str% "\tcopy(b.buf[off:], data)",
  str% "",
  str% "}",
  str% "",
  str% "// WriteBytesNext writes bytes to the buffer at the current offset",
  str% "// and moves the offset forward the amount of bytes written",
  str% "func (b *Buffer) WriteBytesNext(data []byte) {",
  str% "",
  str% "\tb.WriteBytes(b.off, data)",
  str% "\tb.SeekByte(int64(len(data)), true)",
  str% "",
  str% "}",
  str% "",
  str% "// WriteByte writes a byte to the buffer at the specified offset",
  str% "// without modifying the internal offset value",
  str% "func (b *Buffer) WriteByte(off int64, data byte) {",
  str% "",
  str% "\tb.WriteBytes(off, []byte{data})",
  str% "",
  str% "}",
  str% "",
  str% "// WriteByteNext writes a byte to the buffer at the current",
  str% "// offset and moves the offset forward the amount of bytes written",
  str% "func (b *Buffer) WriteByteNext(data byte) {",
  str% "",
  str% "\tb.WriteBytes(b.off, []byte{data})",
  str% "\tb.SeekByte(1, true)",
  str% "",
  str% "}",
  str% ""]

/-- v3/_buffer.go:400, v3/buffer.generated.go:400-429 -/
def bufferSeg1 : Seg := .expanded (str% "//generator:complex Buffer Write U 16 LE") [
  str% "// WriteU16LE writes a slice of uint16s to the buffer at the",
  str% "// specified offset in little-endian without modifying the internal",
  str% "// offset value",
  str% "func (b *Buffer) WriteU16LE(off int64, data []uint16) {",
  str% "\tif (off + int64(len(data))*2) > b.cap {",
  str% "\t\tpanic(BufferOverwriteError)",
  str% "\t}",
  str% "\tif off < 0 {",
  str% "\t\tpanic(BufferUnderwriteError)",
  str% "\t}",
  str% "\ti := 0",
  str% "\tn := len(data)",
  str% "\t{",
  str% "\twrite_loop:",
  str% "\t\tb.buf[off+int64(i*2)] = byte(data[i])",
  str% "\t\tb.buf[off+int64(1+(i*2))] = byte(data[i] >> 8)",
  str% "\t\ti++",
  str% "\t\tif i < n {",
  str% "\t\t\tgoto write_loop",
  str% "\t\t}",
  str% "\t}",
  str% "}",
  str% "",
  str% "// WriteU16LENext writes a slice of uint16s to the buffer at the",
  str% "// current offset in little-endian and moves the offset forward the",
  str% "// amount of bytes written",
  str% "func (b *Buffer) WriteU16LENext(data []uint16) {",
  str% "\tb.WriteU16LE(b.off, data)",
  str% "\tb.SeekByte(int64(len(data))*2, true)",
  str% "}"]

/-- v3/_buffer.go:401-401, v3/buffer.generated.go:430-430 -/
def bufferSeg2 : Seg := .same [
  str% ""]

/-- v3/_buffer.go:402, v3/buffer.generated.go:431-460 -/
def bufferSeg3 : Seg := .expanded (str% "//generator:complex Buffer Write U 16 BE") [
  str% "// WriteU16BE writes a slice of uint16s to the buffer at the",
  str% "// specified offset in big-endian without modifying the internal",
  str% "// offset value",
  str% "func (b *Buffer) WriteU16BE(off int64, data []uint16) {",
  str% "\tif (off + int64(len(data))*2) > b.cap {",
  str% "\t\tpanic(BufferOverwriteError)",
  str% "\t}",
  str% "\tif off < 0 {",
  str% "\t\tpanic(BufferUnderwriteError)",
  str% "\t}",
  str% "\ti := 0",
  str% "\tn := len(data)",
  str% "\t{",
  str% "\twrite_loop:",
  str% "\t\tb.buf[off+int64(i*2)] = byte(data[i] >> 8)",
  str% "\t\tb.buf[off+int64(1+(i*2))] = byte(data[i])",
  str% "\t\ti++",
  str% "\t\tif i < n {",
  str% "\t\t\tgoto write_loop",
  str% "\t\t}",
  str% "\t}",
  str% "}",
  str% "",
  str% "// WriteU16BENext writes a slice of uint16s to the buffer at the",
  str% "// current offset in big-endian and moves the offset forward the",
  str% "// amount of bytes written",
  str% "func (b *Buffer) WriteU16BENext(data []uint16) {",
  str% "\tb.WriteU16BE(b.off, data)",
  str% "\tb.SeekByte(int64(len(data))*2, true)",
  str% "}"]

/-- v3/_buffer.go:403-403, v3/buffer.generated.go:461-461 -/
def bufferSeg4 : Seg := .same [
  str% ""]

/-- v3/_buffer.go:404, v3/buffer.generated.go:462-493 -/
def bufferSeg5 : Seg := .expanded (str% "//generator:complex Buffer Write U 32 LE") [
  str% "// WriteU32LE writes a slice of uint32s to the buffer at the",
  str% "// specified offset in little-endian without modifying the internal",
  str% "// offset value",
  str% "func (b *Buffer) WriteU32LE(off int64, data []uint32) {",
  str% "\tif (off + int64(len(data))*4) > b.cap {",
  str% "\t\tpanic(BufferOverwriteError)",
  str% "\t}",
  str% "\tif off < 0 {",
  str% "\t\tpanic(BufferUnderwriteError)",
  str% "\t}",
  str% "\ti := 0",
  str% "\tn := len(data)",
  str% "\t{",
  str% "\twrite_loop:",
  str% "\t\tb.buf[off+int64(i*4)] = byte(data[i])",
  str% "\t\tb.buf[off+int64(1+(i*4))] = byte(data[i] >> 8)",
  str% "\t\tb.buf[off+int64(2+(i*4))] = byte(data[i] >> 16)",
  str% "\t\tb.buf[off+int64(3+(i*4))] = byte(data[i] >> 24)",
  str% "\t\ti++",
  str% "\t\tif i < n {",
  str% "\t\t\tgoto write_loop",
  str% "\t\t}",
  str% "\t}",
  str% "}",
  str% "",
  str% "// WriteU32LENext writes a slice of uint32s to the buffer at the",
  str% "// current offset in little-endian and moves the offset forward the",
  str% "// amount of bytes written",
  str% "func (b *Buffer) WriteU32LENext(data []uint32) {",
  str% "\tb.WriteU32LE(b.off, data)",
  str% "\tb.SeekByte(int64(len(data))*4, true)",
  str% "}"]

/-- v3/_buffer.go:405-405, v3/buffer.generated.go:494-494 -/
def bufferSeg6 : Seg := .same [
  str% ""]

/-- v3/_buffer.go:406, v3/buffer.generated.go:495-526 -/
def bufferSeg7 : Seg := .expanded (str% "//generator:complex Buffer Write U 32 BE") [
  str% "// WriteU32BE writes a slice of uint32s to the buffer at the",
  str% "// specified offset in big-endian without modifying the internal",
  str% "// offset value",
  str% "func (b *Buffer) WriteU32BE(off int64, data []uint32) {",
  str% "\tif (off + int64(len(data))*4) > b.cap {",
  str% "\t\tpanic(BufferOverwriteError)",
  str% "\t}",
  str% "\tif off < 0 {",
  str% "\t\tpanic(BufferUnderwriteError)",
  str% "\t}",
  str% "\ti := 0",
  str% "\tn := len(data)",
  str% "\t{",
  str% "\twrite_loop:",
  str% "\t\tb.buf[off+int64(i*4)] = byte(data[i] >> 24)",
  str% "\t\tb.buf[off+int64(1+(i*4))] = byte(data[i] >> 16)",
  str% "\t\tb.buf[off+int64(2+(i*4))] = byte(data[i] >> 8)",
  str% "\t\tb.buf[off+int64(3+(i*4))] = byte(data[i])",
  str% "\t\ti++",
  str% "\t\tif i < n {",
  str% "\t\t\tgoto write_loop",
  str% "\t\t}",
  str% "\t}",
  str% "}",
  str% "",
  str% "// WriteU32BENext writes a slice of uint32s to the buffer at the",
  str% "// current offset in big-endian and moves the offset forward the",
  str% "// amount of bytes written",
  str% "func (b *Buffer) WriteU32BENext(data []uint32) {",
  str% "\tb.WriteU32BE(b.off, data)",
  str% "\tb.SeekByte(int64(len(data))*4, true)",
  str% "}"]

/-- v3/_buffer.go:407-407, v3/buffer.generated.go:527-527 -/
def bufferSeg8 : Seg := .same [
  str% ""]

/-- v3/_buffer.go:408, v3/buffer.generated.go:528-563 -/
def bufferSeg9 : Seg := .expanded (str% "//generator:complex Buffer Write U 64 LE") [
  str% "// WriteU64LE writes a slice of uint64s to the buffer at the",
  str% "// specified offset in little-endian without modifying the internal",
  str% "// offset value",
  str% "func (b *Buffer) WriteU64LE(off int64, data []uint64) {",
  str% "\tif (off + int64(len(data))*8) > b.cap {",
  str% "\t\tpanic(BufferOverwriteError)",
  str% "\t}",
  str% "\tif off < 0 {",
  str% "\t\tpanic(BufferUnderwriteError)",
  str% "\t}",
  str% "\ti := 0",
  str% "\tn := len(data)",
  str% "\t{",
  str% "\twrite_loop:",
  str% "\t\tb.buf[off+int64(i*8)] = byte(data[i])",
  str% "\t\tb.buf[off+int64(1+(i*8))] = byte(data[i] >> 8)",
  str% "\t\tb.buf[off+int64(2+(i*8))] = byte(data[i] >> 16)",
  str% "\t\tb.buf[off+int64(3+(i*8))] = byte(data[i] >> 24)",
  str% "\t\tb.buf[off+int64(4+(i*8))] = byte(data[i] >> 32)",
  str% "\t\tb.buf[off+int64(5+(i*8))] = byte(data[i] >> 40)",
  str% "\t\tb.buf[off+int64(6+(i*8))] = byte(data[i] >> 48)",
  str% "\t\tb.buf[off+int64(7+(i*8))] = byte(data[i] >> 56)",
  str% "\t\ti++",
  str% "\t\tif i < n {",
  str% "\t\t\tgoto write_loop",
  str% "\t\t}",
  str% "\t}",
  str% "}",
  str% "",
  str% "// WriteU64LENext writes a slice of uint64s to the buffer at the",
  str% "// current offset in little-endian and moves the offset forward the",
  str% "// amount of bytes written",
  str% "func (b *Buffer) WriteU64LENext(data []uint64) {",
  str% "\tb.WriteU64LE(b.off, data)",
  str% "\tb.SeekByte(int64(len(data))*8, true)",
  str% "}"]

/-- v3/_buffer.go:409-409, v3/buffer.generated.go:564-564 -/
def bufferSeg10 : Seg := .same [
  str% ""]

/-- v3/_buffer.go:410, v3/buffer.generated.go:565-600 -/
def bufferSeg11 : Seg := .expanded (str% "//generator:complex Buffer Write U 64 BE") [
  str% "// WriteU64BE writes a slice of uint64s to the buffer at the",
  str% "// specified offset in big-endian without modifying the internal",
  str% "// offset value",
  str% "func (b *Buffer) WriteU64BE(off int64, data []uint64) {",
  str% "\tif (off + int64(len(data))*8) > b.cap {",
  str% "\t\tpanic(BufferOverwriteError)",
  str% "\t}",
  str% "\tif off < 0 {",
  str% "\t\tpanic(BufferUnderwriteError)",
  str% "\t}",
  str% "\ti := 0",
  str% "\tn := len(data)",
  str% "\t{",
  str% "\twrite_loop:",
  str% "\t\tb.buf[off+int64(i*8)] = byte(data[i] >> 56)",
  str% "\t\tb.buf[off+int64(1+(i*8))] = byte(data[i] >> 48)",
  str% "\t\tb.buf[off+int64(2+(i*8))] = byte(data[i] >> 40)",
  str% "\t\tb.buf[off+int64(3+(i*8))] = byte(data[i] >> 32)",
  str% "\t\tb.buf[off+int64(4+(i*8))] = byte(data[i] >> 24)",
  str% "\t\tb.buf[off+int64(5+(i*8))] = byte(data[i] >> 16)",
  str% "\t\tb.buf[off+int64(6+(i*8))] = byte(data[i] >> 8)",
  str% "\t\tb.buf[off+int64(7+(i*8))] = byte(data[i])",
  str% "\t\ti++",
  str% "\t\tif i < n {",
  str% "\t\t\tgoto write_loop",
  str% "\t\t}",
  str% "\t}",
  str% "}",
  str% "",
  str% "// WriteU64BENext writes a slice of uint64s to the buffer at the",
  str% "// current offset in big-endian and moves the offset forward the",
  str% "// amount of bytes written",
  str% "func (b *Buffer) WriteU64BENext(data []uint64) {",
  str% "\tb.WriteU64BE(b.off, data)",
  str% "\tb.SeekByte(int64(len(data))*8, true)",
  str% "}"]

/-- v3/_buffer.go:411-411, v3/buffer.generated.go:601-601 -/
def bufferSeg12 : Seg := .same [
  str% ""]

/-- v3/_buffer.go:412, v3/buffer.generated.go:602-631 -/
def bufferSeg13 : Seg := .expanded (str% "//generator:complex Buffer Write I 16 LE") [
  str% "// WriteI16LE writes a slice of int16s to the buffer at the",
  str% "// specified offset in little-endian without modifying the internal",
  str% "// offset value",
  str% "func (b *Buffer) WriteI16LE(off int64, data []int16) {",
  str% "\tif (off + int64(len(data))*2) > b.cap {",
  str% "\t\tpanic(BufferOverwriteError)",
  str% "\t}",
  str% "\tif off < 0 {",
  str% "\t\tpanic(BufferUnderwriteError)",
  str% "\t}",
  str% "\ti := 0",
  str% "\tn := len(data)",
  str% "\t{",
  str% "\twrite_loop:",
  str% "\t\tb.buf[off+int64(i*2)] = byte(data[i])",
  str% "\t\tb.buf[off+int64(1+(i*2))] = byte(data[i] >> 8)",
  str% "\t\ti++",
  str% "\t\tif i < n {",
  str% "\t\t\tgoto write_loop",
  str% "\t\t}",
  str% "\t}",
  str% "}",
  str% "",
  str% "// WriteI16LENext writes a slice of int16s to the buffer at the",
  str% "// current offset in little-endian and moves the offset forward the",
  str% "// amount of bytes written",
  str% "func (b *Buffer) WriteI16LENext(data []int16) {",
  str% "\tb.WriteI16LE(b.off, data)",
  str% "\tb.SeekByte(int64(len(data))*2, true)",
  str% "}"]

/-- v3/_buffer.go:413-413, v3/buffer.generated.go:632-632 -/
def bufferSeg14 : Seg := .same [
  str% ""]

/-- v3/_buffer.go:414, v3/buffer.generated.go:633-662 -/
def bufferSeg15 : Seg := .expanded (str% "//generator:complex Buffer Write I 16 BE") [
  str% "// WriteI16BE writes a slice of int16s to the buffer at the",
  str% "// specified offset in big-endian without modifying the internal",
  str% "// offset value",
  str% "func (b *Buffer) WriteI16BE(off int64, data []int16) {",
  str% "\tif (off + int64(len(data))*2) > b.cap {",
  str% "\t\tpanic(BufferOverwriteError)",
  str% "\t}",
  str% "\tif off < 0 {",
  str% "\t\tpanic(BufferUnderwriteError)",
  str% "\t}",
  str% "\ti := 0",
  str% "\tn := len(data)",
  str% "\t{",
  str% "\twrite_loop:",
  str% "\t\tb.buf[off+int64(i*2)] = byte(data[i] >> 8)",
  str% "\t\tb.buf[off+int64(1+(i*2))] = byte(data[i])",
  str% "\t\ti++",
  str% "\t\tif i < n {",
  str% "\t\t\tgoto write_loop",
  str% "\t\t}",
  str% "\t}",
  str% "}",
  str% "",
  str% "// WriteI16BENext writes a slice of int16s to the buffer at the",
  str% "// current offset in big-endian and moves the offset forward the",
  str% "// amount of bytes written",
  str% "func (b *Buffer) WriteI16BENext(data []int16) {",
  str% "\tb.WriteI16BE(b.off, data)",
  str% "\tb.SeekByte(int64(len(data))*2, true)",
  str% "}"]

/-- v3/_buffer.go:415-415, v3/buffer.generated.go:663-663 -/
def bufferSeg16 : Seg := .same [
  str% ""]

/-- v3/_buffer.go:416, v3/buffer.generated.go:664-695 -/
def bufferSeg17 : Seg := .expanded (str% "//generator:complex Buffer Write I 32 LE") [
  str% "// WriteI32LE writes a slice of int32s to the buffer at the",
  str% "// specified offset in little-endian without modifying the internal",
  str% "// offset value",
  str% "func (b *Buffer) WriteI32LE(off int64, data []int32) {",
  str% "\tif (off + int64(len(data))*4) > b.cap {",
  str% "\t\tpanic(BufferOverwriteError)",
  str% "\t}",
  str% "\tif off < 0 {",
  str% "\t\tpanic(BufferUnderwriteError)",
  str% "\t}",
  str% "\ti := 0",
  str% "\tn := len(data)",
  str% "\t{",
  str% "\twrite_loop:",
  str% "\t\tb.buf[off+int64(i*4)] = byte(data[i])",
  str% "\t\tb.buf[off+int64(1+(i*4))] = byte(data[i] >> 8)",
  str% "\t\tb.buf[off+int64(2+(i*4))] = byte(data[i] >> 16)",
  str% "\t\tb.buf[off+int64(3+(i*4))] = byte(data[i] >> 24)",
  str% "\t\ti++",
  str% "\t\tif i < n {",
  str% "\t\t\tgoto write_loop",
  str% "\t\t}",
  str% "\t}",
  str% "}",
  str% "",
  str% "// WriteI32LENext writes a slice of int32s to the buffer at the",
  str% "// current offset in little-endian and moves the offset forward the",
  str% "// amount of bytes written",
  str% "func (b *Buffer) WriteI32LENext(data []int32) {",
  str% "\tb.WriteI32LE(b.off, data)",
  str% "\tb.SeekByte(int64(len(data))*4, true)",
  str% "}"]

/-- v3/_buffer.go:417-417, v3/buffer.generated.go:696-696 -/
def bufferSeg18 : Seg := .same [
  str% ""]

/-- v3/_buffer.go:418, v3/buffer.generated.go:697-728 -/
def bufferSeg19 : Seg := .expanded (str% "//generator:complex Buffer Write I 32 BE") [
  str% "// WriteI32BE writes a slice of int32s to the buffer at the",
  str% "// specified offset in big-endian without modifying the internal",
  str% "// offset value",
  str% "func (b *Buffer) WriteI32BE(off int64, data []int32) {",
  str% "\tif (off + int64(len(data))*4) > b.cap {",
  str% "\t\tpanic(BufferOverwriteError)",
  str% "\t}",
  str% "\tif off < 0 {",
  str% "\t\tpanic(BufferUnderwriteError)",
  str% "\t}",
  str% "\ti := 0",
  str% "\tn := len(data)",
  str% "\t{",
  str% "\twrite_loop:",
  str% "\t\tb.buf[off+int64(i*4)] = byte(data[i] >> 24)",
  str% "\t\tb.buf[off+int64(1+(i*4))] = byte(data[i] >> 16)",
  str% "\t\tb.buf[off+int64(2+(i*4))] = byte(data[i] >> 8)",
  str% "\t\tb.buf[off+int64(3+(i*4))] = byte(data[i])",
  str% "\t\ti++",
  str% "\t\tif i < n {",
  str% "\t\t\tgoto write_loop",
  str% "\t\t}",
  str% "\t}",
  str% "}",
  str% "",
  str% "// WriteI32BENext writes a slice of int32s to the buffer at the",
  str% "// current offset in big-endian and moves the offset forward the",
  str% "// amount of bytes written",
  str% "func (b *Buffer) WriteI32BENext(data []int32) {",
  str% "\tb.WriteI32BE(b.off, data)",
  str% "\tb.SeekByte(int64(len(data))*4, true)",
  str% "}"]

/-- v3/_buffer.go:419-419, v3/buffer.generated.go:729-729 -/
def bufferSeg20 : Seg := .same [
  str% ""]

/-- v3/_buffer.go:420, v3/buffer.generated.go:730-765 -/
def bufferSeg21 : Seg := .expanded (str% "//generator:complex Buffer Write I 64 LE") [
  str% "// WriteI64LE writes a slice of int64s to the buffer at the",
  str% "// specified offset in little-endian without modifying the internal",
  str% "// offset value",
  str% "func (b *Buffer) WriteI64LE(off int64, data []int64) {",
  str% "\tif (off + int64(len(data))*8) > b.cap {",
  str% "\t\tpanic(BufferOverwriteError)",
  str% "\t}",
  str% "\tif off < 0 {",
  str% "\t\tpanic(BufferUnderwriteError)",
  str% "\t}",
  str% "\ti := 0",
  str% "\tn := len(data)",
  str% "\t{",
  str% "\twrite_loop:",
  str% "\t\tb.buf[off+int64(i*8)] = byte(data[i])",
  str% "\t\tb.buf[off+int64(1+(i*8))] = byte(data[i] >> 8)",
  str% "\t\tb.buf[off+int64(2+(i*8))] = byte(data[i] >> 16)",
  str% "\t\tb.buf[off+int64(3+(i*8))] = byte(data[i] >> 24)",
  str% "\t\tb.buf[off+int64(4+(i*8))] = byte(data[i] >> 32)",
  str% "\t\tb.buf[off+int64(5+(i*8))] = byte(data[i] >> 40)",
  str% "\t\tb.buf[off+int64(6+(i*8))] = byte(data[i] >> 48)",
  str% "\t\tb.buf[off+int64(7+(i*8))] = byte(data[i] >> 56)",
  str% "\t\ti++",
  str% "\t\tif i < n {",
  str% "\t\t\tgoto write_loop",
  str% "\t\t}",
  str% "\t}",
  str% "}",
  str% "",
  str% "// WriteI64LENext writes a slice of int64s to the buffer at the",
  str% "// current offset in little-endian and moves the offset forward the",
  str% "// amount of bytes written",
  str% "func (b *Buffer) WriteI64LENext(data []int64) {",
  str% "\tb.WriteI64LE(b.off, data)",
  str% "\tb.SeekByte(int64(len(data))*8, true)",
  str% "}"]

/-- v3/_buffer.go:421-421, v3/buffer.generated.go:766-766 -/
def bufferSeg22 : Seg := .same [
  str% ""]

/-- v3/_buffer.go:422, v3/buffer.generated.go:767-802 -/
def bufferSeg23 : Seg := .expanded (str% "//generator:complex Buffer Write I 64 BE") [
  str% "// WriteI64BE writes a slice of int64s to the buffer at the",
  str% "// specified offset in big-endian without modifying the internal",
  str% "// offset value",
  str% "func (b *Buffer) WriteI64BE(off int64, data []int64) {",
  str% "\tif (off + int64(len(data))*8) > b.cap {",
  str% "\t\tpanic(BufferOverwriteError)",
  str% "\t}",
  str% "\tif off < 0 {",
  str% "\t\tpanic(BufferUnderwriteError)",
  str% "\t}",
  str% "\ti := 0",
  str% "\tn := len(data)",
  str% "\t{",
  str% "\twrite_loop:",
  str% "\t\tb.buf[off+int64(i*8)] = byte(data[i] >> 56)",
  str% "\t\tb.buf[off+int64(1+(i*8))] = byte(data[i] >> 48)",
  str% "\t\tb.buf[off+int64(2+(i*8))] = byte(data[i] >> 40)",
  str% "\t\tb.buf[off+int64(3+(i*8))] = byte(data[i] >> 32)",
  str% "\t\tb.buf[off+int64(4+(i*8))] = byte(data[i] >> 24)",
  str% "\t\tb.buf[off+int64(5+(i*8))] = byte(data[i] >> 16)",
  str% "\t\tb.buf[off+int64(6+(i*8))] = byte(data[i] >> 8)",
  str% "\t\tb.buf[off+int64(7+(i*8))] = byte(data[i])",
  str% "\t\ti++",
  str% "\t\tif i < n {",
  str% "\t\t\tgoto write_loop",
  str% "\t\t}",
  str% "\t}",
  str% "}",
  str% "",
  str% "// WriteI64BENext writes a slice of int64s to the buffer at the",
  str% "// current offset in big-endian and moves the offset forward the",
  str% "// amount of bytes written",
  str% "func (b *Buffer) WriteI64BENext(data []int64) {",
  str% "\tb.WriteI64BE(b.off, data)",
  str% "\tb.SeekByte(int64(len(data))*8, true)",
  str% "}"]

/-- v3/_buffer.go:423-423, v3/buffer.generated.go:803-803 -/
def bufferSeg24 : Seg := .same [
  str% ""]

/-- v3/_buffer.go:424, v3/buffer.generated.go:804-835 -/
def bufferSeg25 : Seg := .expanded (str% "//generator:complex Buffer Write F 32 LE") [
  str% "// WriteF32LE writes a slice of float32s to the buffer at the",
  str% "// specified offset in little-endian without modifying the internal",
  str% "// offset value",
  str% "func (b *Buffer) WriteF32LE(off int64, data []float32) {",
  str% "\tif (off + int64(len(data))*4) > b.cap {",
  str% "\t\tpanic(BufferOverwriteError)",
  str% "\t}",
  str% "\tif off < 0 {",
  str% "\t\tpanic(BufferUnderwriteError)",
  str% "\t}",
  str% "\ti := 0",
  str% "\tn := len(data)",
  str% "\t{",
  str% "\twrite_loop:",
  str% "\t\tb.buf[off+int64(i*4)] = byte(*(*uint32)(unsafe.Pointer(&data[i])))",
  str% "\t\tb.buf[off+int64(1+(i*4))] = byte(*(*uint32)(unsafe.Pointer(&data[i])) >> 8)",
  str% "\t\tb.buf[off+int64(2+(i*4))] = byte(*(*uint32)(unsafe.Pointer(&data[i])) >> 16)",
  str% "\t\tb.buf[off+int64(3+(i*4))] = byte(*(*uint32)(unsafe.Pointer(&data[i])) >> 24)",
  str% "\t\ti++",
  str% "\t\tif i < n {",
  str% "\t\t\tgoto write_loop",
  str% "\t\t}",
  str% "\t}",
  str% "}",
  str% "",
  str% "// WriteF32LENext writes a slice of float32s to the buffer at the",
  str% "// current offset in little-endian and moves the offset forward the",
  str% "// amount of bytes written",
  str% "func (b *Buffer) WriteF32LENext(data []float32) {",
  str% "\tb.WriteF32LE(b.off, data)",
  str% "\tb.SeekByte(int64(len(data))*4, true)",
  str% "}"]

/-- v3/_buffer.go:425-425, v3/buffer.generated.go:836-836 -/
def bufferSeg26 : Seg := .same [
  str% ""]

/-- v3/_buffer.go:426, v3/buffer.generated.go:837-868 -/
def bufferSeg27 : Seg := .expanded (str% "//generator:complex Buffer Write F 32 BE") [
  str% "// WriteF32BE writes a slice of float32s to the buffer at the",
  str% "// specified offset in big-endian without modifying the internal",
  str% "// offset value",
  str% "func (b *Buffer) WriteF32BE(off int64, data []float32) {",
  str% "\tif (off + int64(len(data))*4) > b.cap {",
  str% "\t\tpanic(BufferOverwriteError)",
  str% "\t}",
  str% "\tif off < 0 {",
  str% "\t\tpanic(BufferUnderwriteError)",
  str% "\t}",
  str% "\ti := 0",
  str% "\tn := len(data)",
  str% "\t{",
  str% "\twrite_loop:",
  str% "\t\tb.buf[off+int64(i*4)] = byte(*(*uint32)(unsafe.Pointer(&data[i])) >> 24)",
  str% "\t\tb.buf[off+int64(1+(i*4))] = byte(*(*uint32)(unsafe.Pointer(&data[i])) >> 16)",
  str% "\t\tb.buf[off+int64(2+(i*4))] = byte(*(*uint32)(unsafe.Pointer(&data[i])) >> 8)",
  str% "\t\tb.buf[off+int64(3+(i*4))] = byte(*(*uint32)(unsafe.Pointer(&data[i])))",
  str% "\t\ti++",
  str% "\t\tif i < n {",
  str% "\t\t\tgoto write_loop",
  str% "\t\t}",
  str% "\t}",
  str% "}",
  str% "",
  str% "// WriteF32BENext writes a slice of float32s to the buffer at the",
  str% "// current offset in big-endian and moves the offset forward the",
  str% "// amount of bytes written",
  str% "func (b *Buffer) WriteF32BENext(data []float32) {",
  str% "\tb.WriteF32BE(b.off, data)",
  str% "\tb.SeekByte(int64(len(data))*4, true)",
  str% "}"]

/-- v3/_buffer.go:427-427, v3/buffer.generated.go:869-869 -/
def bufferSeg28 : Seg := .same [
  str% ""]

/-- v3/_buffer.go:428, v3/buffer.generated.go:870-905 -/
def bufferSeg29 : Seg := .expanded (str% "//generator:complex Buffer Write F 64 LE") [
  str% "// WriteF64LE writes a slice of float64s to the buffer at the",
  str% "// specified offset in little-endian without modifying the internal",
  str% "// offset value",
  str% "func (b *Buffer) WriteF64LE(off int64, data []float64) {",
  str% "\tif (off + int64(len(data))*8) > b.cap {",
  str% "\t\tpanic(BufferOverwriteError)",
  str% "\t}",
  str% "\tif off < 0 {",
  str% "\t\tpanic(BufferUnderwriteError)",
  str% "\t}",
  str% "\ti := 0",
  str% "\tn := len(data)",
  str% "\t{",
  str% "\twrite_loop:",
  str% "\t\tb.buf[off+int64(i*8)] = byte(*(*uint64)(unsafe.Pointer(&data[i])))",
  str% "\t\tb.buf[off+int64(1+(i*8))] = byte(*(*uint64)(unsafe.Pointer(&data[i])) >> 8)",
  str% "\t\tb.buf[off+int64(2+(i*8))] = byte(*(*uint64)(unsafe.Pointer(&data[i])) >> 16)",
  str% "\t\tb.buf[off+int64(3+(i*8))] = byte(*(*uint64)(unsafe.Pointer(&data[i])) >> 24)",
  str% "\t\tb.buf[off+int64(4+(i*8))] = byte(*(*uint64)(unsafe.Pointer(&data[i])) >> 32)",
  str% "\t\tb.buf[off+int64(5+(i*8))] = byte(*(*uint64)(unsafe.Pointer(&data[i])) >> 40)",
  str% "\t\tb.buf[off+int64(6+(i*8))] = byte(*(*uint64)(unsafe.Pointer(&data[i])) >> 48)",
  str% "\t\tb.buf[off+int64(7+(i*8))] = byte(*(*uint64)(unsafe.Pointer(&data[i])) >> 56)",
  str% "\t\ti++",
  str% "\t\tif i < n {",
  str% "\t\t\tgoto write_loop",
  str% "\t\t}",
  str% "\t}",
  str% "}",
  str% "",
  str% "// WriteF64LENext writes a slice of float64s to the buffer at the",
  str% "// current offset in little-endian and moves the offset forward the",
  str% "// amount of bytes written",
  str% "func (b *Buffer) WriteF64LENext(data []float64) {",
  str% "\tb.WriteF64LE(b.off, data)",
  str% "\tb.SeekByte(int64(len(data))*8, true)",
  str% "}"]

/-- v3/_buffer.go:429-429, v3/buffer.generated.go:906-906 -/
def bufferSeg30 : Seg := .same [
  str% ""]

/-- v3/_buffer.go:430, v3/buffer.generated.go:907-942 -/
def bufferSeg31 : Seg := .expanded (str% "//generator:complex Buffer Write F 64 BE") [
  str% "// WriteF64BE writes a slice of float64s to the buffer at the",
  str% "// specified offset in big-endian without modifying the internal",
  str% "// offset value",
  str% "func (b *Buffer) WriteF64BE(off int64, data []float64) {",
  str% "\tif (off + int64(len(data))*8) > b.cap {",
  str% "\t\tpanic(BufferOverwriteError)",
  str% "\t}",
  str% "\tif off < 0 {",
  str% "\t\tpanic(BufferUnderwriteError)",
  str% "\t}",
  str% "\ti := 0",
  str% "\tn := len(data)",
  str% "\t{",
  str% "\twrite_loop:",
  str% "\t\tb.buf[off+int64(i*8)] = byte(*(*uint64)(unsafe.Pointer(&data[i])) >> 56)",
  str% "\t\tb.buf[off+int64(1+(i*8))] = byte(*(*uint64)(unsafe.Pointer(&data[i])) >> 48)",
  str% "\t\tb.buf[off+int64(2+(i*8))] = byte(*(*uint64)(unsafe.Pointer(&data[i])) >> 40)",
  str% "\t\tb.buf[off+int64(3+(i*8))] = byte(*(*uint64)(unsafe.Pointer(&data[i])) >> 32)",
  str% "\t\tb.buf[off+int64(4+(i*8))] = byte(*(*uint64)(unsafe.Pointer(&data[i])) >> 24)",
  str% "\t\tb.buf[off+int64(5+(i*8))] = byte(*(*uint64)(unsafe.Pointer(&data[i])) >> 16)",
  str% "\t\tb.buf[off+int64(6+(i*8))] = byte(*(*uint64)(unsafe.Pointer(&data[i])) >> 8)",
  str% "\t\tb.buf[off+int64(7+(i*8))] = byte(*(*uint64)(unsafe.Pointer(&data[i])))",
  str% "\t\ti++",
  str% "\t\tif i < n {",
  str% "\t\t\tgoto write_loop",
  str% "\t\t}",
  str% "\t}",
  str% "}",
  str% "",
  str% "// WriteF64BENext writes a slice of float64s to the buffer at the",
  str% "// current offset in big-endian and moves the offset forward the",
  str% "// amount of bytes written",
  str% "func (b *Buffer) WriteF64BENext(data []float64) {",
  str% "\tb.WriteF64BE(b.off, data)",
  str% "\tb.SeekByte(int64(len(data))*8, true)",
  str% "}"]

/-- v3/_buffer.go:431-479, v3/buffer.generated.go:943-991 -/
def bufferSeg32 : Seg := .same [
  str% "",
  str% "// ReadBytes returns the next n bytes from the specified offset",
  str% "// without modifying the internal offset value",
  str% "func (b *Buffer) ReadBytes(off, n int64) []byte {",
  str% "",
  str% "\tif (off + n) > b.cap {",
  str% "",
  str% "\t\tpanic(BufferOverreadError)",
  str% "",
  str% "\t}",
  str% "",
  str% "\tif off < 0x00 {",
  str% "",
  str% "\t\tpanic(BufferUnderreadError)",
  str% "",
  str% "\t}",
  str% "",
  str% "\treturn b.buf[off : off+n]",
  str% "",
  str% "}",
  str% "",
  str% "// ReadBytesNext returns the next n bytes from the current offset",
  str% "// and moves the offset forward the amount of bytes read",
  str% "func (b *Buffer) ReadBytesNext(n int64) (out []byte) {",
  str% "",
  str% "\tout = b.ReadBytes(b.off, n)",
  str% "\tb.SeekByte(n, true)",
  str% "\treturn",
  str% "",
  str% "}",
  str% "",
  str% "// ReadByte returns the next byte from the specified offset without",
  str% "// modifying the internal offset value",
  str% "func (b *Buffer) ReadByte(off int64) byte {",
  str% "",
  str% "\treturn b.ReadBytes(off, 1)[0]",
  str% "",
  str% "}",
  str% "",
  str% "// ReadByteNext returns the next byte from the current offset and",
  str% "// moves the offset forward a byte",
  str% "func (b *Buffer) ReadByteNext() (out byte) {",
  str% "",
  str% "\tout = b.ReadBytes(b.off, 1)[0]",
  str% "\tb.SeekByte(1, true)",
  str% "\treturn",
  str% "",
  str% "}",
  str% ""]

/-- v3/_buffer.go:480, v3/buffer.generated.go:992-1022 -/
def bufferSeg33 : Seg := .expanded (str% "//generator:complex Buffer Read U 16 LE") [
  str% "// ReadU16LE reads a slice of uint16s from the buffer at the",
  str% "// specified offset in little-endian without modifying the internal",
  str% "// offset value",
  str% "func (b *Buffer) ReadU16LE(off, n int64) (out []uint16) {",
  str% "\tif (off + n*2) > b.cap {",
  str% "\t\tpanic(BufferOverreadError)",
  str% "\t}",
  str% "\tif off < 0 {",
  str% "\t\tpanic(BufferUnderreadError)",
  str% "\t}",
  str% "\tout = make([]uint16, n)",
  str% "\ti := int64(0)",
  str% "\t{",
  str% "\tread_loop:",
  str% "\t\tout[i] = uint16(b.buf[off+(i*2)]) | uint16(b.buf[off+(1+(i*2))])<<8",
  str% "\t\ti++",
  str% "\t\tif i < n {",
  str% "\t\t\tgoto read_loop",
  str% "\t\t}",
  str% "\t}",
  str% "\treturn",
  str% "}",
  str% "",
  str% "// ReadU16LENext reads a slice of uint16s from the buffer at the",
  str% "// current offset in little-endian and moves the offset forward the",
  str% "// amount of bytes written",
  str% "func (b *Buffer) ReadU16LENext(n int64) (out []uint16) {",
  str% "\tout = b.ReadU16LE(b.off, n)",
  str% "\tb.SeekByte(n*2, true)",
  str% "\treturn",
  str% "}"]

/-- v3/_buffer.go:481-481, v3/buffer.generated.go:1023-1023 -/
def bufferSeg34 : Seg := .same [
  str% ""]

/-- v3/_buffer.go:482, v3/buffer.generated.go:1024-1054 -/
def bufferSeg35 : Seg := .expanded (str% "//generator:complex Buffer Read U 16 BE") [
  str% "// ReadU16BE reads a slice of uint16s from the buffer at the",
  str% "// specified offset in big-endian without modifying the internal",
  str% "// offset value",
  str% "func (b *Buffer) ReadU16BE(off, n int64) (out []uint16) {",
  str% "\tif (off + n*2) > b.cap {",
  str% "\t\tpanic(BufferOverreadError)",
  str% "\t}",
  str% "\tif off < 0 {",
  str% "\t\tpanic(BufferUnderreadError)",
  str% "\t}",
  str% "\tout = make([]uint16, n)",
  str% "\ti := int64(0)",
  str% "\t{",
  str% "\tread_loop:",
  str% "\t\tout[i] = uint16(b.buf[off+(1+(i*2))]) | uint16(b.buf[off+(i*2)])<<8",
  str% "\t\ti++",
  str% "\t\tif i < n {",
  str% "\t\t\tgoto read_loop",
  str% "\t\t}",
  str% "\t}",
  str% "\treturn",
  str% "}",
  str% "",
  str% "// ReadU16BENext reads a slice of uint16s from the buffer at the",
  str% "// current offset in big-endian and moves the offset forward the",
  str% "// amount of bytes written",
  str% "func (b *Buffer) ReadU16BENext(n int64) (out []uint16) {",
  str% "\tout = b.ReadU16BE(b.off, n)",
  str% "\tb.SeekByte(n*2, true)",
  str% "\treturn",
  str% "}"]

/-- v3/_buffer.go:483-483, v3/buffer.generated.go:1055-1055 -/
def bufferSeg36 : Seg := .same [
  str% ""]

/-- v3/_buffer.go:484, v3/buffer.generated.go:1056-1086 -/
def bufferSeg37 : Seg := .expanded (str% "//generator:complex Buffer Read U 32 LE") [
  str% "// ReadU32LE reads a slice of uint32s from the buffer at the",
  str% "// specified offset in little-endian without modifying the internal",
  str% "// offset value",
  str% "func (b *Buffer) ReadU32LE(off, n int64) (out []uint32) {",
  str% "\tif (off + n*4) > b.cap {",
  str% "\t\tpanic(BufferOverreadError)",
  str% "\t}",
  str% "\tif off < 0 {",
  str% "\t\tpanic(BufferUnderreadError)",
  str% "\t}",
  str% "\tout = make([]uint32, n)",
  str% "\ti := int64(0)",
  str% "\t{",
  str% "\tread_loop:",
  str% "\t\tout[i] = uint32(b.buf[off+(i*4)]) | uint32(b.buf[off+(1+(i*4))])<<8 | uint32(b.buf[off+(2+(i*4))])<<16 | uint32(b.buf[off+(3+(i*4))])<<24",
  str% "\t\ti++",
  str% "\t\tif i < n {",
  str% "\t\t\tgoto read_loop",
  str% "\t\t}",
  str% "\t}",
  str% "\treturn",
  str% "}",
  str% "",
  str% "// ReadU32LENext reads a slice of uint32s from the buffer at the",
  str% "// current offset in little-endian and moves the offset forward the",
  str% "// amount of bytes written",
  str% "func (b *Buffer) ReadU32LENext(n int64) (out []uint32) {",
  str% "\tout = b.ReadU32LE(b.off, n)",
  str% "\tb.SeekByte(n*4, true)",
  str% "\treturn",
  str% "}"]

/-- v3/_buffer.go:485-485, v3/buffer.generated.go:1087-1087 -/
def bufferSeg38 : Seg := .same [
  str% ""]

/-- v3/_buffer.go:486, v3/buffer.generated.go:1088-1118 -/
def bufferSeg39 : Seg := .expanded (str% "//generator:complex Buffer Read U 32 BE") [
  str% "// ReadU32BE reads a slice of uint32s from the buffer at the",
  str% "// specified offset in big-endian without modifying the internal",
  str% "// offset value",
  str% "func (b *Buffer) ReadU32BE(off, n int64) (out []uint32) {",
  str% "\tif (off + n*4) > b.cap {",
  str% "\t\tpanic(BufferOverreadError)",
  str% "\t}",
  str% "\tif off < 0 {",
  str% "\t\tpanic(BufferUnderreadError)",
  str% "\t}",
  str% "\tout = make([]uint32, n)",
  str% "\ti := int64(0)",
  str% "\t{",
  str% "\tread_loop:",
  str% "\t\tout[i] = uint32(b.buf[off+(3+(i*4))]) | uint32(b.buf[off+(2+(i*4))])<<8 | uint32(b.buf[off+(1+(i*4))])<<16 | uint32(b.buf[off+(i*4)])<<24",
  str% "\t\ti++",
  str% "\t\tif i < n {",
  str% "\t\t\tgoto read_loop",
  str% "\t\t}",
  str% "\t}",
  str% "\treturn",
  str% "}",
  str% "",
  str% "// ReadU32BENext reads a slice of uint32s from the buffer at the",
  str% "// current offset in big-endian and moves the offset forward the",
  str% "// amount of bytes written",
  str% "func (b *Buffer) ReadU32BENext(n int64) (out []uint32) {",
  str% "\tout = b.ReadU32BE(b.off, n)",
  str% "\tb.SeekByte(n*4, true)",
  str% "\treturn",
  str% "}"]

/-- v3/_buffer.go:487-487, v3/buffer.generated.go:1119-1119 -/
def bufferSeg40 : Seg := .same [
  str% ""]

/-- v3/_buffer.go:488, v3/buffer.generated.go:1120-1150 -/
def bufferSeg41 : Seg := .expanded (str% "//generator:complex Buffer Read U 64 LE") [
  str% "// ReadU64LE reads a slice of uint64s from the buffer at the",
  str% "// specified offset in little-endian without modifying the internal",
  str% "// offset value",
  str% "func (b *Buffer) ReadU64LE(off, n int64) (out []uint64) {",
  str% "\tif (off + n*8) > b.cap {",
  str% "\t\tpanic(BufferOverreadError)",
  str% "\t}",
  str% "\tif off < 0 {",
  str% "\t\tpanic(BufferUnderreadError)",
  str% "\t}",
  str% "\tout = make([]uint64, n)",
  str% "\ti := int64(0)",
  str% "\t{",
  str% "\tread_loop:",
  str% "\t\tout[i] = uint64(b.buf[off+(i*8)]) | uint64(b.buf[off+(1+(i*8))])<<8 | uint64(b.buf[off+(2+(i*8))])<<16 | uint64(b.buf[off+(3+(i*8))])<<24 | uint64(b.buf[off+(4+(i*8))])<<32 | uint64(b.buf[off+(5+(i*8))])<<40 | uint64(b.buf[off+(6+(i*8))])<<48 | uint64(b.buf[off+(7+(i*8))])<<56",
  str% "\t\ti++",
  str% "\t\tif i < n {",
  str% "\t\t\tgoto read_loop",
  str% "\t\t}",
  str% "\t}",
  str% "\treturn",
  str% "}",
  str% "",
  str% "// ReadU64LENext reads a slice of uint64s from the buffer at the",
  str% "// current offset in little-endian and moves the offset forward the",
  str% "// amount of bytes written",
  str% "func (b *Buffer) ReadU64LENext(n int64) (out []uint64) {",
  str% "\tout = b.ReadU64LE(b.off, n)",
  str% "\tb.SeekByte(n*8, true)",
  str% "\treturn",
  str% "}"]

/-- v3/_buffer.go:489-489, v3/buffer.generated.go:1151-1151 -/
def bufferSeg42 : Seg := .same [
  str% ""]

/-- v3/_buffer.go:490, v3/buffer.generated.go:1152-1182 -/
def bufferSeg43 : Seg := .expanded (str% "//generator:complex Buffer Read U 64 BE") [
  str% "// ReadU64BE reads a slice of uint64s from the buffer at the",
  str% "// specified offset in big-endian without modifying the internal",
  str% "// offset value",
  str% "func (b *Buffer) ReadU64BE(off, n int64) (out []uint64) {",
  str% "\tif (off + n*8) > b.cap {",
  str% "\t\tpanic(BufferOverreadError)",
  str% "\t}",
  str% "\tif off < 0 {",
  str% "\t\tpanic(BufferUnderreadError)",
  str% "\t}",
  str% "\tout = make([]uint64, n)",
  str% "\ti := int64(0)",
  str% "\t{",
  str% "\tread_loop:",
  str% "\t\tout[i] = uint64(b.buf[off+(7+(i*8))]) | uint64(b.buf[off+(6+(i*8))])<<8 | uint64(b.buf[off+(5+(i*8))])<<16 | uint64(b.buf[off+(4+(i*8))])<<24 | uint64(b.buf[off+(3+(i*8))])<<32 | uint64(b.buf[off+(2+(i*8))])<<40 | uint64(b.buf[off+(1+(i*8))])<<48 | uint64(b.buf[off+(i*8)])<<56",
  str% "\t\ti++",
  str% "\t\tif i < n {",
  str% "\t\t\tgoto read_loop",
  str% "\t\t}",
  str% "\t}",
  str% "\treturn",
  str% "}",
  str% "",
  str% "// ReadU64BENext reads a slice of uint64s from the buffer at the",
  str% "// current offset in big-endian and moves the offset forward the",
  str% "// amount of bytes written",
  str% "func (b *Buffer) ReadU64BENext(n int64) (out []uint64) {",
  str% "\tout = b.ReadU64BE(b.off, n)",
  str% "\tb.SeekByte(n*8, true)",
  str% "\treturn",
  str% "}"]

/-- v3/_buffer.go:491-491, v3/buffer.generated.go:1183-1183 -/
def bufferSeg44 : Seg := .same [
  str% ""]

/-- v3/_buffer.go:492, v3/buffer.generated.go:1184-1214 -/
def bufferSeg45 : Seg := .expanded (str% "//generator:complex Buffer Read I 16 LE") [
  str% "// ReadI16LE reads a slice of int16s from the buffer at the",
  str% "// specified offset in little-endian without modifying the internal",
  str% "// offset value",
  str% "func (b *Buffer) ReadI16LE(off, n int64) (out []int16) {",
  str% "\tif (off + n*2) > b.cap {",
  str% "\t\tpanic(BufferOverreadError)",
  str% "\t}",
  str% "\tif off < 0 {",
  str% "\t\tpanic(BufferUnderreadError)",
  str% "\t}",
  str% "\tout = make([]int16, n)",
  str% "\ti := int64(0)",
  str% "\t{",
  str% "\tread_loop:",
  str% "\t\tout[i] = int16(b.buf[off+(i*2)]) | int16(b.buf[off+(1+(i*2))])<<8",
  str% "\t\ti++",
  str% "\t\tif i < n {",
  str% "\t\t\tgoto read_loop",
  str% "\t\t}",
  str% "\t}",
  str% "\treturn",
  str% "}",
  str% "",
  str% "// ReadI16LENext reads a slice of int16s from the buffer at the",
  str% "// current offset in little-endian and moves the offset forward the",
  str% "// amount of bytes written",
  str% "func (b *Buffer) ReadI16LENext(n int64) (out []int16) {",
  str% "\tout = b.ReadI16LE(b.off, n)",
  str% "\tb.SeekByte(n*2, true)",
  str% "\treturn",
  str% "}"]

/-- v3/_buffer.go:493-493, v3/buffer.generated.go:1215-1215 -/
def bufferSeg46 : Seg := .same [
  str% ""]

/-- v3/_buffer.go:494, v3/buffer.generated.go:1216-1246 -/
def bufferSeg47 : Seg := .expanded (str% "//generator:complex Buffer Read I 16 BE") [
  str% "// ReadI16BE reads a slice of int16s from the buffer at the",
  str% "// specified offset in big-endian without modifying the internal",
  str% "// offset value",
  str% "func (b *Buffer) ReadI16BE(off, n int64) (out []int16) {",
  str% "\tif (off + n*2) > b.cap {",
  str% "\t\tpanic(BufferOverreadError)",
  str% "\t}",
  str% "\tif off < 0 {",
  str% "\t\tpanic(BufferUnderreadError)",
  str% "\t}",
  str% "\tout = make([]int16, n)",
  str% "\ti := int64(0)",
  str% "\t{",
  str% "\tread_loop:",
  str% "\t\tout[i] = int16(b.buf[off+(1+(i*2))]) | int16(b.buf[off+(i*2)])<<8",
  str% "\t\ti++",
  str% "\t\tif i < n {",
  str% "\t\t\tgoto read_loop",
  str% "\t\t}",
  str% "\t}",
  str% "\treturn",
  str% "}",
  str% "",
  str% "// ReadI16BENext reads a slice of int16s from the buffer at the",
  str% "// current offset in big-endian and moves the offset forward the",
  str% "// amount of bytes written",
  str% "func (b *Buffer) ReadI16BENext(n int64) (out []int16) {",
  str% "\tout = b.ReadI16BE(b.off, n)",
  str% "\tb.SeekByte(n*2, true)",
  str% "\treturn",
  str% "}"]

/-- v3/_buffer.go:495-495, v3/buffer.generated.go:1247-1247 -/
def bufferSeg48 : Seg := .same [
  str% ""]

/-- v3/_buffer.go:496, v3/buffer.generated.go:1248-1278 -/
def bufferSeg49 : Seg := .expanded (str% "//generator:complex Buffer Read I 32 LE") [
  str% "// ReadI32LE reads a slice of int32s from the buffer at the",
  str% "// specified offset in little-endian without modifying the internal",
  str% "// offset value",
  str% "func (b *Buffer) ReadI32LE(off, n int64) (out []int32) {",
  str% "\tif (off + n*4) > b.cap {",
  str% "\t\tpanic(BufferOverreadError)",
  str% "\t}",
  str% "\tif off < 0 {",
  str% "\t\tpanic(BufferUnderreadError)",
  str% "\t}",
  str% "\tout = make([]int32, n)",
  str% "\ti := int64(0)",
  str% "\t{",
  str% "\tread_loop:",
  str% "\t\tout[i] = int32(b.buf[off+(i*4)]) | int32(b.buf[off+(1+(i*4))])<<8 | int32(b.buf[off+(2+(i*4))])<<16 | int32(b.buf[off+(3+(i*4))])<<24",
  str% "\t\ti++",
  str% "\t\tif i < n {",
  str% "\t\t\tgoto read_loop",
  str% "\t\t}",
  str% "\t}",
  str% "\treturn",
  str% "}",
  str% "",
  str% "// ReadI32LENext reads a slice of int32s from the buffer at the",
  str% "// current offset in little-endian and moves the offset forward the",
  str% "// amount of bytes written",
  str% "func (b *Buffer) ReadI32LENext(n int64) (out []int32) {",
  str% "\tout = b.ReadI32LE(b.off, n)",
  str% "\tb.SeekByte(n*4, true)",
  str% "\treturn",
  str% "}"]

/-- v3/_buffer.go:497-497, v3/buffer.generated.go:1279-1279 -/
def bufferSeg50 : Seg := .same [
  str% ""]

/-- v3/_buffer.go:498, v3/buffer.generated.go:1280-1310 -/
def bufferSeg51 : Seg := .expanded (str% "//generator:complex Buffer Read I 32 BE") [
  str% "// ReadI32BE reads a slice of int32s from the buffer at the",
  str% "// specified offset in big-endian without modifying the internal",
  str% "// offset value",
  str% "func (b *Buffer) ReadI32BE(off, n int64) (out []int32) {",
  str% "\tif (off + n*4) > b.cap {",
  str% "\t\tpanic(BufferOverreadError)",
  str% "\t}",
  str% "\tif off < 0 {",
  str% "\t\tpanic(BufferUnderreadError)",
  str% "\t}",
  str% "\tout = make([]int32, n)",
  str% "\ti := int64(0)",
  str% "\t{",
  str% "\tread_loop:",
  str% "\t\tout[i] = int32(b.buf[off+(3+(i*4))]) | int32(b.buf[off+(2+(i*4))])<<8 | int32(b.buf[off+(1+(i*4))])<<16 | int32(b.buf[off+(i*4)])<<24",
  str% "\t\ti++",
  str% "\t\tif i < n {",
  str% "\t\t\tgoto read_loop",
  str% "\t\t}",
  str% "\t}",
  str% "\treturn",
  str% "}",
  str% "",
  str% "// ReadI32BENext reads a slice of int32s from the buffer at the",
  str% "// current offset in big-endian and moves the offset forward the",
  str% "// amount of bytes written",
  str% "func (b *Buffer) ReadI32BENext(n int64) (out []int32) {",
  str% "\tout = b.ReadI32BE(b.off, n)",
  str% "\tb.SeekByte(n*4, true)",
  str% "\treturn",
  str% "}"]

/-- v3/_buffer.go:499-499, v3/buffer.generated.go:1311-1311 -/
def bufferSeg52 : Seg := .same [
  str% ""]

/-- v3/_buffer.go:500, v3/buffer.generated.go:1312-1342 -/
def bufferSeg53 : Seg := .expanded (str% "//generator:complex Buffer Read I 64 LE") [
  str% "// ReadI64LE reads a slice of int64s from the buffer at the",
  str% "// specified offset in little-endian without modifying the internal",
  str% "// offset value",
  str% "func (b *Buffer) ReadI64LE(off, n int64) (out []int64) {",
  str% "\tif (off + n*8) > b.cap {",
  str% "\t\tpanic(BufferOverreadError)",
  str% "\t}",
  str% "\tif off < 0 {",
  str% "\t\tpanic(BufferUnderreadError)",
  str% "\t}",
  str% "\tout = make([]int64, n)",
  str% "\ti := int64(0)",
  str% "\t{",
  str% "\tread_loop:",
  str% "\t\tout[i] = int64(b.buf[off+(i*8)]) | int64(b.buf[off+(1+(i*8))])<<8 | int64(b.buf[off+(2+(i*8))])<<16 | int64(b.buf[off+(3+(i*8))])<<24 | int64(b.buf[off+(4+(i*8))])<<32 | int64(b.buf[off+(5+(i*8))])<<40 | int64(b.buf[off+(6+(i*8))])<<48 | int64(b.buf[off+(7+(i*8))])<<56",
  str% "\t\ti++",
  str% "\t\tif i < n {",
  str% "\t\t\tgoto read_loop",
  str% "\t\t}",
  str% "\t}",
  str% "\treturn",
  str% "}",
  str% "",
  str% "// ReadI64LENext reads a slice of int64s from the buffer at the",
  str% "// current offset in little-endian and moves the offset forward the",
  str% "// amount of bytes written",
  str% "func (b *Buffer) ReadI64LENext(n int64) (out []int64) {",
  str% "\tout = b.ReadI64LE(b.off, n)",
  str% "\tb.SeekByte(n*8, true)",
  str% "\treturn",
  str% "}"]

/-- v3/_buffer.go:501-501, v3/buffer.generated.go:1343-1343 -/
def bufferSeg54 : Seg := .same [
  str% ""]

/-- v3/_buffer.go:502, v3/buffer.generated.go:1344-1374 -/
def bufferSeg55 : Seg := .expanded (str% "//generator:complex Buffer Read I 64 BE") [
  str% "// ReadI64BE reads a slice of int64s from the buffer at the",
  str% "// specified offset in big-endian without modifying the internal",
  str% "// offset value",
  str% "func (b *Buffer) ReadI64BE(off, n int64) (out []int64) {",
  str% "\tif (off + n*8) > b.cap {",
  str% "\t\tpanic(BufferOverreadError)",
  str% "\t}",
  str% "\tif off < 0 {",
  str% "\t\tpanic(BufferUnderreadError)",
  str% "\t}",
  str% "\tout = make([]int64, n)",
  str% "\ti := int64(0)",
  str% "\t{",
  str% "\tread_loop:",
  str% "\t\tout[i] = int64(b.buf[off+(7+(i*8))]) | int64(b.buf[off+(6+(i*8))])<<8 | int64(b.buf[off+(5+(i*8))])<<16 | int64(b.buf[off+(4+(i*8))])<<24 | int64(b.buf[off+(3+(i*8))])<<32 | int64(b.buf[off+(2+(i*8))])<<40 | int64(b.buf[off+(1+(i*8))])<<48 | int64(b.buf[off+(i*8)])<<56",
  str% "\t\ti++",
  str% "\t\tif i < n {",
  str% "\t\t\tgoto read_loop",
  str% "\t\t}",
  str% "\t}",
  str% "\treturn",
  str% "}",
  str% "",
  str% "// ReadI64BENext reads a slice of int64s from the buffer at the",
  str% "// current offset in big-endian and moves the offset forward the",
  str% "// amount of bytes written",
  str% "func (b *Buffer) ReadI64BENext(n int64) (out []int64) {",
  str% "\tout = b.ReadI64BE(b.off, n)",
  str% "\tb.SeekByte(n*8, true)",
  str% "\treturn",
  str% "}"]

/-- v3/_buffer.go:503-503, v3/buffer.generated.go:1375-1375 -/
def bufferSeg56 : Seg := .same [
  str% ""]

/-- v3/_buffer.go:504, v3/buffer.generated.go:1376-1408 -/
def bufferSeg57 : Seg := .expanded (str% "//generator:complex Buffer Read F 32 LE") [
  str% "// ReadF32LE reads a slice of float32s from the buffer at the",
  str% "// specified offset in little-endian without modifying the internal",
  str% "// offset value",
  str% "func (b *Buffer) ReadF32LE(off, n int64) (out []float32) {",
  str% "\tif (off + n*4) > b.cap {",
  str% "\t\tpanic(BufferOverreadError)",
  str% "\t}",
  str% "\tif off < 0 {",
  str% "\t\tpanic(BufferUnderreadError)",
  str% "\t}",
  str% "\tout = make([]float32, n)",
  str% "\ti := int64(0)",
  str% "\tvar u uint32",
  str% "\t{",
  str% "\tread_loop:",
  str% "\t\tu = (uint32(b.buf[off+(i*4)]) | uint32(b.buf[off+(1+(i*4))])<<8 | uint32(b.buf[off+(2+(i*4))])<<16 | uint32(b.buf[off+(3+(i*4))])<<24)",
  str% "\t\tout[i] = *(*float32)(unsafe.Pointer(&u))",
  str% "\t\ti++",
  str% "\t\tif i < n {",
  str% "\t\t\tgoto read_loop",
  str% "\t\t}",
  str% "\t}",
  str% "\treturn",
  str% "}",
  str% "",
  str% "// ReadF32LENext reads a slice of float32s from the buffer at the",
  str% "// current offset in little-endian and moves the offset forward the",
  str% "// amount of bytes written",
  str% "func (b *Buffer) ReadF32LENext(n int64) (out []float32) {",
  str% "\tout = b.ReadF32LE(b.off, n)",
  str% "\tb.SeekByte(n*4, true)",
  str% "\treturn",
  str% "}"]

/-- v3/_buffer.go:505-505, v3/buffer.generated.go:1409-1409 -/
def bufferSeg58 : Seg := .same [
  str% ""]

/-- v3/_buffer.go:506, v3/buffer.generated.go:1410-1442 -/
def bufferSeg59 : Seg := .expanded (str% "//generator:complex Buffer Read F 32 BE") [
  str% "// ReadF32BE reads a slice of float32s from the buffer at the",
  str% "// specified offset in big-endian without modifying the internal",
  str% "// offset value",
  str% "func (b *Buffer) ReadF32BE(off, n int64) (out []float32) {",
  str% "\tif (off + n*4) > b.cap {",
  str% "\t\tpanic(BufferOverreadError)",
  str% "\t}",
  str% "\tif off < 0 {",
  str% "\t\tpanic(BufferUnderreadError)",
  str% "\t}",
  str% "\tout = make([]float32, n)",
  str% "\ti := int64(0)",
  str% "\tvar u uint32",
  str% "\t{",
  str% "\tread_loop:",
  str% "\t\tu = (uint32(b.buf[off+(3+(i*4))]) | uint32(b.buf[off+(2+(i*4))])<<8 | uint32(b.buf[off+(1+(i*4))])<<16 | uint32(b.buf[off+(i*4)])<<24)",
  str% "\t\tout[i] = *(*float32)(unsafe.Pointer(&u))",
  str% "\t\ti++",
  str% "\t\tif i < n {",
  str% "\t\t\tgoto read_loop",
  str% "\t\t}",
  str% "\t}",
  str% "\treturn",
  str% "}",
  str% "",
  str% "// ReadF32BENext reads a slice of float32s from the buffer at the",
  str% "// current offset in big-endian and moves the offset forward the",
  str% "// amount of bytes written",
  str% "func (b *Buffer) ReadF32BENext(n int64) (out []float32) {",
  str% "\tout = b.ReadF32BE(b.off, n)",
  str% "\tb.SeekByte(n*4, true)",
  str% "\treturn",
  str% "}"]

/-- v3/_buffer.go:507-507, v3/buffer.generated.go:1443-1443 -/
def bufferSeg60 : Seg := .same [
  str% ""]

/-- v3/_buffer.go:508, v3/buffer.generated.go:1444-1476 -/
def bufferSeg61 : Seg := .expanded (str% "//generator:complex Buffer Read F 64 LE") [
  str% "// ReadF64LE reads a slice of float64s from the buffer at the",
  str% "// specified offset in little-endian without modifying the internal",
  str% "// offset value",
  str% "func (b *Buffer) ReadF64LE(off, n int64) (out []float64) {",
  str% "\tif (off + n*8) > b.cap {",
  str% "\t\tpanic(BufferOverreadError)",
  str% "\t}",
  str% "\tif off < 0 {",
  str% "\t\tpanic(BufferUnderreadError)",
  str% "\t}",
  str% "\tout = make([]float64, n)",
  str% "\ti := int64(0)",
  str% "\tvar u uint64",
  str% "\t{",
  str% "\tread_loop:",
  str% "\t\tu = (uint64(b.buf[off+(i*8)]) | uint64(b.buf[off+(1+(i*8))])<<8 | uint64(b.buf[off+(2+(i*8))])<<16 | uint64(b.buf[off+(3+(i*8))])<<24 | uint64(b.buf[off+(4+(i*8))])<<32 | uint64(b.buf[off+(5+(i*8))])<<40 | uint64(b.buf[off+(6+(i*8))])<<48 | uint64(b.buf[off+(7+(i*8))])<<56)",
  str% "\t\tout[i] = *(*float64)(unsafe.Pointer(&u))",
  str% "\t\ti++",
  str% "\t\tif i < n {",
  str% "\t\t\tgoto read_loop",
  str% "\t\t}",
  str% "\t}",
  str% "\treturn",
  str% "}",
  str% "",
  str% "// ReadF64LENext reads a slice of float64s from the buffer at the",
  str% "// current offset in little-endian and moves the offset forward the",
  str% "// amount of bytes written",
  str% "func (b *Buffer) ReadF64LENext(n int64) (out []float64) {",
  str% "\tout = b.ReadF64LE(b.off, n)",
  str% "\tb.SeekByte(n*8, true)",
  str% "\treturn",
  str% "}"]

/-- v3/_buffer.go:509-509, v3/buffer.generated.go:1477-1477 -/
def bufferSeg62 : Seg := .same [
  str% ""]

/-- v3/_buffer.go:510, v3/buffer.generated.go:1478-1510 -/
def bufferSeg63 : Seg := .expanded (str% "//generator:complex Buffer Read F 64 BE") [
  str% "// ReadF64BE reads a slice of float64s from the buffer at the",
  str% "// specified offset in big-endian without modifying the internal",
  str% "// offset value",
  str% "func (b *Buffer) ReadF64BE(off, n int64) (out []float64) {",
  str% "\tif (off + n*8) > b.cap {",
  str% "\t\tpanic(BufferOverreadError)",
  str% "\t}",
  str% "\tif off < 0 {",
  str% "\t\tpanic(BufferUnderreadError)",
  str% "\t}",
  str% "\tout = make([]float64, n)",
  str% "\ti := int64(0)",
  str% "\tvar u uint64",
  str% "\t{",
  str% "\tread_loop:",
  str% "\t\tu = (uint64(b.buf[off+(7+(i*8))]) | uint64(b.buf[off+(6+(i*8))])<<8 | uint64(b.buf[off+(5+(i*8))])<<16 | uint64(b.buf[off+(4+(i*8))])<<24 | uint64(b.buf[off+(3+(i*8))])<<32 | uint64(b.buf[off+(2+(i*8))])<<40 | uint64(b.buf[off+(1+(i*8))])<<48 | uint64(b.buf[off+(i*8)])<<56)",
  str% "\t\tout[i] = *(*float64)(unsafe.Pointer(&u))",
  str% "\t\ti++",
  str% "\t\tif i < n {",
  str% "\t\t\tgoto read_loop",
  str% "\t\t}",
  str% "\t}",
  str% "\treturn",
  str% "}",
  str% "",
  str% "// ReadF64BENext reads a slice of float64s from the buffer at the",
  str% "// current offset in big-endian and moves the offset forward the",
  str% "// amount of bytes written",
  str% "func (b *Buffer) ReadF64BENext(n int64) (out []float64) {",
  str% "\tout = b.ReadF64BE(b.off, n)",
  str% "\tb.SeekByte(n*8, true)",
  str% "\treturn",
  str% "}"]

/-- v3/_buffer.go:511-655, v3/buffer.generated.go:1511-1655 -/
def bufferSeg64 : Seg := .same [
  str% "",
  str% "// SeekByte seeks to position off of the buffer relative to the",
  str% "// current position or exact",
  str% "func (b *Buffer) SeekByte(off int64, relative bool) {",
  str% "",
  str% "\tif relative {",
  str% "",
  str% "\t\tb.off += off",
  str% "",
  str% "\t} else {",
  str% "",
  str% "\t\tb.off = off",
  str% "",
  str% "\t}",
  str% "",
  str% "}",
  str% "",
  str% "// AfterByte returns the amount of bytes located after the current",
  str% "// position or the specified one",
  str% "func (b *Buffer) AfterByte(off ...int64) int64 {",
  str% "",
  str% "\tif len(off) == 0 {",
  str% "",
  str% "\t\treturn b.cap - b.off - 1",
  str% "",
  str% "\t}",
  str% "\treturn b.cap - off[0] - 1",
  str% "",
  str% "}",
  str% "",
  str% "// AlignByte aligns the byte offset to the bit offset",
  str% "func (b *Buffer) AlignByte() {",
  str% "",
  str% "\tb.off = b.boff / 8",
  str% "",
  str% "}",
  str% "",
  str% "/* generic methods */",
  str% "",
  str% "// TruncateLeft truncates the buffer on the left side",
  str% "func (b *Buffer) TruncateLeft(n int64) {",
  str% "",
  str% "\tif n < 0 {",
  str% "",
  str% "\t\tpanic(BufferInvalidByteCountError)",
  str% "",
  str% "\t}",
  str% "",
  str% "\tb.buf = b.buf[n:b.cap]",
  str% "\tb.Refresh()",
  str% "",
  str% "}",
  str% "",
  str% "// TruncateRight truncates the buffer on the right side",
  str% "func (b *Buffer) TruncateRight(n int64) {",
  str% "",
  str% "\tif n < 0 {",
  str% "",
  str% "\t\tpanic(BufferInvalidByteCountError)",
  str% "",
  str% "\t}",
  str% "",
  str% "\tb.buf = b.buf[0x00 : b.cap-n]",
  str% "\tb.Refresh()",
  str% "",
  str% "}",
  str% "",
  str% "// Grow makes the buffer's capacity bigger by n bytes",
  str% "func (b *Buffer) Grow(n int64) {",
  str% "",
  str% "\tif n < 0 {",
  str% "",
  str% "\t\tpanic(BufferInvalidByteCountError)",
  str% "",
  str% "\t}",
  str% "",
  str% "\tif n <= int64(cap(b.buf))-b.cap {",
  str% "",
  str% "\t\tb.buf = b.buf[0 : b.cap+n]",
  str% "\t\tb.Refresh()",
  str% "\t\treturn",
  str% "",
  str% "\t}",
  str% "\ttmp := make([]byte, b.cap+n, (int64(cap(b.buf))+n)*2)",
  str% "\tcopy(tmp, b.buf)",
  str% "\tb.buf = tmp",
  str% "\tb.Refresh()",
  str% "",
  str% "}",
  str% "",
  str% "// Refresh updates the cached internal statistics of the buffer forcefully",
  str% "func (b *Buffer) Refresh() {",
  str% "",
  str% "\tb.cap = int64(len(b.buf))",
  str% "\tb.bcap = b.cap * 8",
  str% "",
  str% "}",
  str% "",
  str% "// Reset resets the entire buffer",
  str% "func (b *Buffer) Reset() {",
  str% "",
  str% "\tb.buf = b.buf[0:0]",
  str% "\tb.off = 0x00",
  str% "\tb.boff = 0x00",
  str% "\tb.cap = 0",
  str% "\tb.bcap = 0",
  str% "",
  str% "}",
  str% "",
  str% "/* value retrieval */",
  str% "",
  str% "// Bytes returns the internal byte slice of the buffer",
  str% "func (b *Buffer) Bytes() []byte {",
  str% "",
  str% "\treturn b.buf",
  str% "",
  str% "}",
  str% "",
  str% "// ByteCapacity returns the capacity of the buffer",
  str% "func (b *Buffer) ByteCapacity() int64 {",
  str% "",
  str% "\treturn b.cap",
  str% "",
  str% "}",
  str% "",
  str% "// BitCapacity returns the bit capacity of the buffer",
  str% "func (b *Buffer) BitCapacity() int64 {",
  str% "",
  str% "\treturn b.bcap",
  str% "",
  str% "}",
  str% "",
  str% "// ByteOffset returns the current offset of the buffer",
  str% "func (b *Buffer) ByteOffset() int64 {",
  str% "",
  str% "\treturn b.off",
  str% "",
  str% "}",
  str% "",
  str% "// BitOffset returns the current bit offset of the buffer",
  str% "func (b *Buffer) BitOffset() int64 {",
  str% "",
  str% "\treturn b.boff",
  str% "",
  str% "}",
  str% ""]

/-- v3/_buffer.go and v3/buffer.generated.go -/
def bufferSegs : List Seg := [bufferSeg0, bufferSeg1, bufferSeg2, bufferSeg3, bufferSeg4, bufferSeg5, bufferSeg6, bufferSeg7, bufferSeg8, bufferSeg9, bufferSeg10, bufferSeg11, bufferSeg12, bufferSeg13, bufferSeg14, bufferSeg15, bufferSeg16, bufferSeg17, bufferSeg18, bufferSeg19, bufferSeg20, bufferSeg21, bufferSeg22, bufferSeg23, bufferSeg24, bufferSeg25, bufferSeg26, bufferSeg27, bufferSeg28, bufferSeg29, bufferSeg30, bufferSeg31, bufferSeg32, bufferSeg33, bufferSeg34, bufferSeg35, bufferSeg36, bufferSeg37, bufferSeg38, bufferSeg39, bufferSeg40, bufferSeg41, bufferSeg42, bufferSeg43, bufferSeg44, bufferSeg45, bufferSeg46, bufferSeg47, bufferSeg48, bufferSeg49, bufferSeg50, bufferSeg51, bufferSeg52, bufferSeg53, bufferSeg54, bufferSeg55, bufferSeg56, bufferSeg57, bufferSeg58, bufferSeg59, bufferSeg60, bufferSeg61, bufferSeg62, bufferSeg63, bufferSeg64]

/-- v3/_minibuf.go:1-321, v3/minibuf.generated.go:1-321 -/
def miniSeg0 : Seg := .same [
  str% "/*",
  str% "",
  str% "crunch - utilities for taking bytes out of things",
  str% "Copyright (c) 2019-2020 superwhiskers <whiskerdev@protonmail.com>",
  str% "",
  str% "This Source Code Form is subject to the terms of the Mozilla Public",
  str% "License, v. 2.0. If a copy of the MPL was not distributed with this",
  str% "file, You can obtain one at https://mozilla.org/MPL/2.0/.",
  str% "",
  str% "*/",
  str% "",
  str% "package v3",
  str% "",
  str% "import \"unsafe\"",
  str% "",
  str% "// MiniBuffer implements a fast and low-memory buffer type in go that",
  str% "// handles multiple types of data easily. it lacks the overwrite/read",
  str% "// and underwrite/read checks that Buffer has",
  str% "type MiniBuffer struct {",
  str% "\tbuf  []byte",
  str% "\toff  int64",
  str% "\tcap  int64",
  str% "\tboff int64",
  str% "\tbcap int64",
  str% "}",
  str% "",
  str% "// NewMiniBuffer initilaizes a new MiniBuffer with the provided byte",
  str% "// slice(s) stored inside in the order provided",
  str% "func NewMiniBuffer(out **MiniBuffer, slices ...[]byte) {",
  str% "",
  str% "\t*out = &MiniBuffer{",
  str% "\t\tbuf:  []byte{},",
  str% "\t\toff:  0x00,",
  str% "\t\tboff: 0x00,",
  str% "\t}",
  str% "",
  str% "\tswitch len(slices) {",
  str% "",
  str% "\tcase 0:",
  str% "\t\tbreak",
  str% "",
  str% "\tcase 1:",
  str% "\t\t(*out).buf = slices[0]",
  str% "",
  str% "\tdefault:",
  str% "\t\tvar (",
  str% "\t\t\ti = int64(0)",
  str% "\t\t\tn = int64(len(slices))",
  str% "\t\t)",
  str% "\t\t{",
  str% "\t\tappend_loop:",
  str% "\t\t\t(*out).buf = append((*out).buf, slices[i]...)",
  str% "\t\t\ti++",
  str% "\t\t\tif i < n {",
  str% "",
  str% "\t\t\t\tgoto append_loop",
  str% "",
  str% "\t\t\t}",
  str% "\t\t}",
  str% "",
  str% "\t}",
  str% "",
  str% "\t(*out).Refresh()",
  str% "",
  str% "}",
  str% "",
  str% "/* bitfield methods */",
  str% "",
  str% "// ReadBit stores the bit located at the specified offset without",
  str% "// modifying the internal offset value in out",
  str% "func (b *MiniBuffer) ReadBit(out *byte, off int64) {",
  str% "",
  str% "\t*out = (b.buf[off/8] >> (7 - uint64(off%8))) & 1",
  str% "",
  str% "}",
  str% "",
  str% "// ReadBitNext stores the next bit from the current offset and moves",
  str% "// the offset forward a bit in out",
  str% "func (b *MiniBuffer) ReadBitNext(out *byte) {",
  str% "",
  str% "\tb.ReadBit(out, b.boff)",
  str% "\tb.SeekBit(1, true)",
  str% "",
  str% "}",
  str% "",
  str% "// ReadBits stores the next n bits from the specified offset without",
  str% "// modifying the internal offset value in out",
  str% "func (b *MiniBuffer) ReadBits(out *uint64, off, n int64) {",
  str% "",
  str% "\tvar (",
  str% "\t\tbout byte",
  str% "",
  str% "\t\ti = int64(0)",
  str% "\t)",
  str% "\t{",
  str% "\tread_loop:",
  str% "\t\tb.ReadBit(&bout, off+i)",
  str% "\t\t*out = (*out << uint64(1)) | uint64(bout)",
  str% "\t\ti++",
  str% "\t\tif i < n {",
  str% "",
  str% "\t\t\tgoto read_loop",
  str% "",
  str% "\t\t}",
  str% "\t}",
  str% "",
  str% "}",
  str% "",
  str% "// ReadBitsNext stores the next n bits from the current offset and",
  str% "// moves the offset forward the amount of bits read in out",
  str% "func (b *MiniBuffer) ReadBitsNext(out *uint64, n int64) {",
  str% "",
  str% "\tb.ReadBits(out, b.boff, n)",
  str% "\tb.SeekBit(n, true)",
  str% "",
  str% "}",
  str% "",
  str% "// SetBit sets the bit located at the specified offset without",
  str% "// modifying the internal offset value",
  str% "func (b *MiniBuffer) SetBit(off int64) {",
  str% "",
  str% "\tb.buf[off/8] |= (1 << uint(7-(off%8)))",
  str% "",
  str% "}",
  str% "",
  str% "// SetBitNext sets the next bit from the current offset and moves the",
  str% "// offset forward a bit",
  str% "func (b *MiniBuffer) SetBitNext() {",
  str% "",
  str% "\tb.SetBit(b.boff)",
  str% "\tb.SeekBit(1, true)",
  str% "",
  str% "}",
  str% "",
  str% "// ClearBit clears the bit located at the specified offset without",
  str% "// modifying the internal offset value",
  str% "func (b *MiniBuffer) ClearBit(off int64) {",
  str% "",
  str% "\tb.buf[off/8] &= ^(1 << uint(7-(off%8)))",
  str% "",
  str% "}",
  str% "",
  str% "// ClearBitNext clears the next bit from the current offset and moves",
  str% "// the offset forward a bit",
  str% "func (b *MiniBuffer) ClearBitNext() {",
  str% "",
  str% "\tb.ClearBit(b.boff)",
  str% "\tb.SeekBit(1, true)",
  str% "",
  str% "}",
  str% "",
  str% "// SetBits sets the next n bits from the specified offset without",
  str% "// modifying the internal offset value",
  str% "func (b *MiniBuffer) SetBits(off int64, data uint64, n int64) {",
  str% "",
  str% "\ti := int64(0)",
  str% "",
  str% "\t{",
  str% "\twrite_loop:",
  str% "\t\tif byte((data>>uint64(n-i-1))&1) == 0 {",
  str% "",
  str% "\t\t\tb.ClearBit(off + i)",
  str% "",
  str% "\t\t} else {",
  str% "",
  str% "\t\t\tb.SetBit(off + i)",
  str% "",
  str% "\t\t}",
  str% "\t\ti++",
  str% "\t\tif i < n {",
  str% "",
  str% "\t\t\tgoto write_loop",
  str% "",
  str% "\t\t}",
  str% "\t}",
  str% "",
  str% "}",
  str% "",
  str% "// SetBitsNext sets the next n bits from the current offset and moves",
  str% "// the offset forward the amount of bits set",
  str% "func (b *MiniBuffer) SetBitsNext(data uint64, n int64) {",
  str% "",
  str% "\tb.SetBits(b.boff, data, n)",
  str% "\tb.SeekBit(n, true)",
  str% "",
  str% "}",
  str% "",
  str% "// FlipBit flips the bit located at the specified offset without",
  str% "// modifying the internal offset value",
  str% "func (b *MiniBuffer) FlipBit(off int64) {",
  str% "",
  str% "\tb.buf[off/8] ^= (1 << uint(7-(off%8)))",
  str% "",
  str% "}",
  str% "",
  str% "// FlipBitNext flips the next bit from the current offset and moves",
  str% "// the offset forward a bit",
  str% "func (b *MiniBuffer) FlipBitNext() {",
  str% "",
  str% "\tb.FlipBit(b.boff)",
  str% "\tb.SeekBit(1, true)",
  str% "",
  str% "}",
  str% "",
  str% "// ClearAllBits sets all of the buffer's bits to 0",
  str% "func (b *MiniBuffer) ClearAllBits() {",
  str% "",
  str% "\tvar (",
  str% "\t\ti = int64(0)",
  str% "\t\tn = int64(len(b.buf))",
  str% "\t)",
  str% "\t{",
  str% "\tclear_loop:",
  str% "\t\tb.buf[i] = 0",
  str% "\t\ti++",
  str% "\t\tif i < n {",
  str% "",
  str% "\t\t\tgoto clear_loop",
  str% "",
  str% "\t\t}",
  str% "\t}",
  str% "",
  str% "}",
  str% "",
  str% "// SetAllBits sets all of the buffer's bits to 1",
  str% "func (b *MiniBuffer) SetAllBits() {",
  str% "",
  str% "\tvar (",
  str% "\t\ti = int64(0)",
  str% "\t\tn = int64(len(b.buf))",
  str% "\t)",
  str% "\t{",
  str% "\tset_loop:",
  str% "\t\tb.buf[i] = 0xFF",
  str% "\t\ti++",
  str% "\t\tif i < n {",
  str% "",
  str% "\t\t\tgoto set_loop",
  str% "",
  str% "\t\t}",
  str% "\t}",
  str% "",
  str% "}",
  str% "",
  str% "// FlipAllBits flips all of the buffer's bits",
  str% "func (b *MiniBuffer) FlipAllBits() {",
  str% "",
  str% "\tvar (",
  str% "\t\ti = int64(0)",
  str% "\t\tn = int64(len(b.buf))",
  str% "\t)",
  str% "\t{",
  str% "\tflip_loop:",
  str% "\t\tb.buf[i] = ^b.buf[i]",
  str% "\t\ti++",
  str% "\t\tif i < n {",
  str% "",
  str% "\t\t\tgoto flip_loop",
  str% "",
  str% "\t\t}",
  str% "",
  str% "\t}",
  str% "",
  str% "}",
  str% "",
  str% "// SeekBit seeks to bit position off of the the buffer relative to",
  str% "// the current position or exact",
  str% "func (b *MiniBuffer) SeekBit(off int64, relative bool) {",
  str% "",
  str% "\tif relative {",
  str% "",
  str% "\t\tb.boff += off",
  str% "",
  str% "\t} else {",
  str% "",
  str% "\t\tb.boff = off",
  str% "",
  str% "\t}",
  str% "",
  str% "}",
  str% "",
  str% "// AfterBit stores the amount of bits located after the current bit",
  str% "// position or the specified one in out",
  str% "func (b *MiniBuffer) AfterBit(out *int64, off ...int64) {",
  str% "",
  str% "\tif len(off) == 0 {",
  str% "",
  str% "\t\t*out = b.bcap - b.boff - 1",
  str% "\t\treturn",
  str% "",
  str% "\t}",
  str% "\t*out = b.bcap - off[0] - 1",
  str% "",
  str% "}",
  str% "",
  str% "// AlignBit aligns the bit offset to the byte offset",
  str% "func (b *MiniBuffer) AlignBit() {",
  str% "",
  str% "\tb.boff = b.off * 8",
  str% "",
  str% "}",
  str% "",
  str% "/* byte buffer methods */",
  str% "",
  str% "// WriteBytes writes bytes to the buffer at the specified offset",
  str% "// without modifying the internal offset value",
  str% "func (b *MiniBuffer) WriteBytes(off int64, data []byte) {",
  str% "",
  str% "\tcopy(b.buf[off:], data)",
  str% "",
  str% "}",
  str% "",
  str% "// WriteBytesNext writes bytes to the buffer at the current offset",
  str% "// and moves the offset forward the amount of bytes written",
  str% "func (b *MiniBuffer) WriteBytesNext(data []byte) {",
  str% "",
  str% "\tb.WriteBytes(b.off, data)",
  str% "\tb.SeekByte(int64(len(data)), true)",
  str% "",
  str% "}",
  str% ""]

/-- v3/_minibuf.go:322, v3/minibuf.generated.go:322-345 -/
def miniSeg1 : Seg := .expanded (str% "//generator:complex MiniBuffer Write U 16 LE") [
  str% "// WriteU16LE writes a slice of uint16s to the buffer at the",
  str% "// specified offset in little-endian without modifying the internal",
  str% "// offset value",
  str% "func (b *MiniBuffer) WriteU16LE(off int64, data []uint16) {",
  str% "\ti := 0",
  str% "\tn := len(data)",
  str% "\t{",
  str% "\twrite_loop:",
  str% "\t\tb.buf[off+int64(i*2)] = byte(data[i])",
  str% "\t\tb.buf[off+int64(1+(i*2))] = byte(data[i] >> 8)",
  str% "\t\ti++",
  str% "\t\tif i < n {",
  str% "\t\t\tgoto write_loop",
  str% "\t\t}",
  str% "\t}",
  str% "}",
  str% "",
  str% "// WriteU16LENext writes a slice of uint16s to the buffer at the",
  str% "// current offset in little-endian and moves the offset forward the",
  str% "// amount of bytes written",
  str% "func (b *MiniBuffer) WriteU16LENext(data []uint16) {",
  str% "\tb.WriteU16LE(b.off, data)",
  str% "\tb.SeekByte(int64(len(data))*2, true)",
  str% "}"]

/-- v3/_minibuf.go:323-323, v3/minibuf.generated.go:346-346 -/
def miniSeg2 : Seg := .same [
  str% ""]

/-- v3/_minibuf.go:324, v3/minibuf.generated.go:347-370 -/
def miniSeg3 : Seg := .expanded (str% "//generator:complex MiniBuffer Write U 16 BE") [
  str% "// WriteU16BE writes a slice of uint16s to the buffer at the",
  str% "// specified offset in big-endian without modifying the internal",
  str% "// offset value",
  str% "func (b *MiniBuffer) WriteU16BE(off int64, data []uint16) {",
  str% "\ti := 0",
  str% "\tn := len(data)",
  str% "\t{",
  str% "\twrite_loop:",
  str% "\t\tb.buf[off+int64(i*2)] = byte(data[i] >> 8)",
  str% "\t\tb.buf[off+int64(1+(i*2))] = byte(data[i])",
  str% "\t\ti++",
  str% "\t\tif i < n {",
  str% "\t\t\tgoto write_loop",
  str% "\t\t}",
  str% "\t}",
  str% "}",
  str% "",
  str% "// WriteU16BENext writes a slice of uint16s to the buffer at the",
  str% "// current offset in big-endian and moves the offset forward the",
  str% "// amount of bytes written",
  str% "func (b *MiniBuffer) WriteU16BENext(data []uint16) {",
  str% "\tb.WriteU16BE(b.off, data)",
  str% "\tb.SeekByte(int64(len(data))*2, true)",
  str% "}"]

/-- v3/_minibuf.go:325-325, v3/minibuf.generated.go:371-371 -/
def miniSeg4 : Seg := .same [
  str% ""]

/-- v3/_minibuf.go:326, v3/minibuf.generated.go:372-397 -/
def miniSeg5 : Seg := .expanded (str% "//generator:complex MiniBuffer Write U 32 LE") [
  str% "// WriteU32LE writes a slice of uint32s to the buffer at the",
  str% "// specified offset in little-endian without modifying the internal",
  str% "// offset value",
  str% "func (b *MiniBuffer) WriteU32LE(off int64, data []uint32) {",
  str% "\ti := 0",
  str% "\tn := len(data)",
  str% "\t{",
  str% "\twrite_loop:",
  str% "\t\tb.buf[off+int64(i*4)] = byte(data[i])",
  str% "\t\tb.buf[off+int64(1+(i*4))] = byte(data[i] >> 8)",
  str% "\t\tb.buf[off+int64(2+(i*4))] = byte(data[i] >> 16)",
  str% "\t\tb.buf[off+int64(3+(i*4))] = byte(data[i] >> 24)",
  str% "\t\ti++",
  str% "\t\tif i < n {",
  str% "\t\t\tgoto write_loop",
  str% "\t\t}",
  str% "\t}",
  str% "}",
  str% "",
  str% "// WriteU32LENext writes a slice of uint32s to the buffer at the",
  str% "// current offset in little-endian and moves the offset forward the",
  str% "// amount of bytes written",
  str% "func (b *MiniBuffer) WriteU32LENext(data []uint32) {",
  str% "\tb.WriteU32LE(b.off, data)",
  str% "\tb.SeekByte(int64(len(data))*4, true)",
  str% "}"]

/-- v3/_minibuf.go:327-327, v3/minibuf.generated.go:398-398 -/
def miniSeg6 : Seg := .same [
  str% ""]

/-- v3/_minibuf.go:328, v3/minibuf.generated.go:399-424 -/
def miniSeg7 : Seg := .expanded (str% "//generator:complex MiniBuffer Write U 32 BE") [
  str% "// WriteU32BE writes a slice of uint32s to the buffer at the",
  str% "// specified offset in big-endian without modifying the internal",
  str% "// offset value",
  str% "func (b *MiniBuffer) WriteU32BE(off int64, data []uint32) {",
  str% "\ti := 0",
  str% "\tn := len(data)",
  str% "\t{",
  str% "\twrite_loop:",
  str% "\t\tb.buf[off+int64(i*4)] = byte(data[i] >> 24)",
  str% "\t\tb.buf[off+int64(1+(i*4))] = byte(data[i] >> 16)",
  str% "\t\tb.buf[off+int64(2+(i*4))] = byte(data[i] >> 8)",
  str% "\t\tb.buf[off+int64(3+(i*4))] = byte(data[i])",
  str% "\t\ti++",
  str% "\t\tif i < n {",
  str% "\t\t\tgoto write_loop",
  str% "\t\t}",
  str% "\t}",
  str% "}",
  str% "",
  str% "// WriteU32BENext writes a slice of uint32s to the buffer at the",
  str% "// current offset in big-endian and moves the offset forward the",
  str% "// amount of bytes written",
  str% "func (b *MiniBuffer) WriteU32BENext(data []uint32) {",
  str% "\tb.WriteU32BE(b.off, data)",
  str% "\tb.SeekByte(int64(len(data))*4, true)",
  str% "}"]

/-- v3/_minibuf.go:329-329, v3/minibuf.generated.go:425-425 -/
def miniSeg8 : Seg := .same [
  str% ""]

/-- v3/_minibuf.go:330, v3/minibuf.generated.go:426-455 -/
def miniSeg9 : Seg := .expanded (str% "//generator:complex MiniBuffer Write U 64 LE") [
  str% "// WriteU64LE writes a slice of uint64s to the buffer at the",
  str% "// specified offset in little-endian without modifying the internal",
  str% "// offset value",
  str% "func (b *MiniBuffer) WriteU64LE(off int64, data []uint64) {",
  str% "\ti := 0",
  str% "\tn := len(data)",
  str% "\t{",
  str% "\twrite_loop:",
  str% "\t\tb.buf[off+int64(i*8)] = byte(data[i])",
  str% "\t\tb.buf[off+int64(1+(i*8))] = byte(data[i] >> 8)",
  str% "\t\tb.buf[off+int64(2+(i*8))] = byte(data[i] >> 16)",
  str% "\t\tb.buf[off+int64(3+(i*8))] = byte(data[i] >> 24)",
  str% "\t\tb.buf[off+int64(4+(i*8))] = byte(data[i] >> 32)",
  str% "\t\tb.buf[off+int64(5+(i*8))] = byte(data[i] >> 40)",
  str% "\t\tb.buf[off+int64(6+(i*8))] = byte(data[i] >> 48)",
  str% "\t\tb.buf[off+int64(7+(i*8))] = byte(data[i] >> 56)",
  str% "\t\ti++",
  str% "\t\tif i < n {",
  str% "\t\t\tgoto write_loop",
  str% "\t\t}",
  str% "\t}",
  str% "}",
  str% "",
  str% "// WriteU64LENext writes a slice of uint64s to the buffer at the",
  str% "// current offset in little-endian and moves the offset forward the",
  str% "// amount of bytes written",
  str% "func (b *MiniBuffer) WriteU64LENext(data []uint64) {",
  str% "\tb.WriteU64LE(b.off, data)",
  str% "\tb.SeekByte(int64(len(data))*8, true)",
  str% "}"]

/-- v3/_minibuf.go:331-331, v3/minibuf.generated.go:456-456 -/
def miniSeg10 : Seg := .same [
  str% ""]

/-- v3/_minibuf.go:332, v3/minibuf.generated.go:457-486 -/
def miniSeg11 : Seg := .expanded (str% "//generator:complex MiniBuffer Write U 64 BE") [
  str% "// WriteU64BE writes a slice of uint64s to the buffer at the",
  str% "// specified offset in big-endian without modifying the internal",
  str% "// offset value",
  str% "func (b *MiniBuffer) WriteU64BE(off int64, data []uint64) {",
  str% "\ti := 0",
  str% "\tn := len(data)",
  str% "\t{",
  str% "\twrite_loop:",
  str% "\t\tb.buf[off+int64(i*8)] = byte(data[i] >> 56)",
  str% "\t\tb.buf[off+int64(1+(i*8))] = byte(data[i] >> 48)",
  str% "\t\tb.buf[off+int64(2+(i*8))] = byte(data[i] >> 40)",
  str% "\t\tb.buf[off+int64(3+(i*8))] = byte(data[i] >> 32)",
  str% "\t\tb.buf[off+int64(4+(i*8))] = byte(data[i] >> 24)",
  str% "\t\tb.buf[off+int64(5+(i*8))] = byte(data[i] >> 16)",
  str% "\t\tb.buf[off+int64(6+(i*8))] = byte(data[i] >> 8)",
  str% "\t\tb.buf[off+int64(7+(i*8))] = byte(data[i])",
  str% "\t\ti++",
  str% "\t\tif i < n {",
  str% "\t\t\tgoto write_loop",
  str% "\t\t}",
  str% "\t}",
  str% "}",
  str% "",
  str% "// WriteU64BENext writes a slice of uint64s to the buffer at the",
  str% "// current offset in big-endian and moves the offset forward the",
  str% "// amount of bytes written",
  str% "func (b *MiniBuffer) WriteU64BENext(data []uint64) {",
  str% "\tb.WriteU64BE(b.off, data)",
  str% "\tb.SeekByte(int64(len(data))*8, true)",
  str% "}"]

/-- v3/_minibuf.go:333-333, v3/minibuf.generated.go:487-487 -/
def miniSeg12 : Seg := .same [
  str% ""]

/-- v3/_minibuf.go:334, v3/minibuf.generated.go:488-511 -/
def miniSeg13 : Seg := .expanded (str% "//generator:complex MiniBuffer Write I 16 LE") [
  str% "// WriteI16LE writes a slice of int16s to the buffer at the",
  str% "// specified offset in little-endian without modifying the internal",
  str% "// offset value",
  str% "func (b *MiniBuffer) WriteI16LE(off int64, data []int16) {",
  str% "\ti := 0",
  str% "\tn := len(data)",
  str% "\t{",
  str% "\twrite_loop:",
  str% "\t\tb.buf[off+int64(i*2)] = byte(data[i])",
  str% "\t\tb.buf[off+int64(1+(i*2))] = byte(data[i] >> 8)",
  str% "\t\ti++",
  str% "\t\tif i < n {",
  str% "\t\t\tgoto write_loop",
  str% "\t\t}",
  str% "\t}",
  str% "}",
  str% "",
  str% "// WriteI16LENext writes a slice of int16s to the buffer at the",
  str% "// current offset in little-endian and moves the offset forward the",
  str% "// amount of bytes written",
  str% "func (b *MiniBuffer) WriteI16LENext(data []int16) {",
  str% "\tb.WriteI16LE(b.off, data)",
  str% "\tb.SeekByte(int64(len(data))*2, true)",
  str% "}"]

/-- v3/_minibuf.go:335-335, v3/minibuf.generated.go:512-512 -/
def miniSeg14 : Seg := .same [
  str% ""]

/-- v3/_minibuf.go:336, v3/minibuf.generated.go:513-536 -/
def miniSeg15 : Seg := .expanded (str% "//generator:complex MiniBuffer Write I 16 BE") [
  str% "// WriteI16BE writes a slice of int16s to the buffer at the",
  str% "// specified offset in big-endian without modifying the internal",
  str% "// offset value",
  str% "func (b *MiniBuffer) WriteI16BE(off int64, data []int16) {",
  str% "\ti := 0",
  str% "\tn := len(data)",
  str% "\t{",
  str% "\twrite_loop:",
  str% "\t\tb.buf[off+int64(i*2)] = byte(data[i] >> 8)",
  str% "\t\tb.buf[off+int64(1+(i*2))] = byte(data[i])",
  str% "\t\ti++",
  str% "\t\tif i < n {",
  str% "\t\t\tgoto write_loop",
  str% "\t\t}",
  str% "\t}",
  str% "}",
  str% "",
  str% "// WriteI16BENext writes a slice of int16s to the buffer at the",
  str% "// current offset in big-endian and moves the offset forward the",
  str% "// amount of bytes written",
  str% "func (b *MiniBuffer) WriteI16BENext(data []int16) {",
  str% "\tb.WriteI16BE(b.off, data)",
  str% "\tb.SeekByte(int64(len(data))*2, true)",
  str% "}"]

/-- v3/_minibuf.go:337-337, v3/minibuf.generated.go:537-537 -/
def miniSeg16 : Seg := .same [
  str% ""]

/-- v3/_minibuf.go:338, v3/minibuf.generated.go:538-563 -/
def miniSeg17 : Seg := .expanded (str% "//generator:complex MiniBuffer Write I 32 LE") [
  str% "// WriteI32LE writes a slice of int32s to the buffer at the",
  str% "// specified offset in little-endian without modifying the internal",
  str% "// offset value",
  str% "func (b *MiniBuffer) WriteI32LE(off int64, data []int32) {",
  str% "\ti := 0",
  str% "\tn := len(data)",
  str% "\t{",
  str% "\twrite_loop:",
  str% "\t\tb.buf[off+int64(i*4)] = byte(data[i])",
  str% "\t\tb.buf[off+int64(1+(i*4))] = byte(data[i] >> 8)",
  str% "\t\tb.buf[off+int64(2+(i*4))] = byte(data[i] >> 16)",
  str% "\t\tb.buf[off+int64(3+(i*4))] = byte(data[i] >> 24)",
  str% "\t\ti++",
  str% "\t\tif i < n {",
  str% "\t\t\tgoto write_loop",
  str% "\t\t}",
  str% "\t}",
  str% "}",
  str% "",
  str% "// WriteI32LENext writes a slice of int32s to the buffer at the",
  str% "// current offset in little-endian and moves the offset forward the",
  str% "// amount of bytes written",
  str% "func (b *MiniBuffer) WriteI32LENext(data []int32) {",
  str% "\tb.WriteI32LE(b.off, data)",
  str% "\tb.SeekByte(int64(len(data))*4, true)",
  str% "}"]

/-- v3/_minibuf.go:339-339, v3/minibuf.generated.go:564-564 -/
def miniSeg18 : Seg := .same [
  str% ""]

/-- v3/_minibuf.go:340, v3/minibuf.generated.go:565-590 -/
def miniSeg19 : Seg := .expanded (str% "//generator:complex MiniBuffer Write I 32 BE") [
  str% "// WriteI32BE writes a slice of int32s to the buffer at the",
  str% "// specified offset in big-endian without modifying the internal",
  str% "// offset value",
  str% "func (b *MiniBuffer) WriteI32BE(off int64, data []int32) {",
  str% "\ti := 0",
  str% "\tn := len(data)",
  str% "\t{",
  str% "\twrite_loop:",
  str% "\t\tb.buf[off+int64(i*4)] = byte(data[i] >> 24)",
  str% "\t\tb.buf[off+int64(1+(i*4))] = byte(data[i] >> 16)",
  str% "\t\tb.buf[off+int64(2+(i*4))] = byte(data[i] >> 8)",
  str% "\t\tb.buf[off+int64(3+(i*4))] = byte(data[i])",
  str% "\t\ti++",
  str% "\t\tif i < n {",
  str% "\t\t\tgoto write_loop",
  str% "\t\t}",
  str% "\t}",
  str% "}",
  str% "",
  str% "// WriteI32BENext writes a slice of int32s to the buffer at the",
  str% "// current offset in big-endian and moves the offset forward the",
  str% "// amount of bytes written",
  str% "func (b *MiniBuffer) WriteI32BENext(data []int32) {",
  str% "\tb.WriteI32BE(b.off, data)",
  str% "\tb.SeekByte(int64(len(data))*4, true)",
  str% "}"]

/-- v3/_minibuf.go:341-341, v3/minibuf.generated.go:591-591 -/
def miniSeg20 : Seg := .same [
  str% ""]

/-- v3/_minibuf.go:342, v3/minibuf.generated.go:592-621 -/
def miniSeg21 : Seg := .expanded (str% "//generator:complex MiniBuffer Write I 64 LE") [
  str% "// WriteI64LE writes a slice of int64s to the buffer at the",
  str% "// specified offset in little-endian without modifying the internal",
  str% "// offset value",
  str% "func (b *MiniBuffer) WriteI64LE(off int64, data []int64) {",
  str% "\ti := 0",
  str% "\tn := len(data)",
  str% "\t{",
  str% "\twrite_loop:",
  str% "\t\tb.buf[off+int64(i*8)] = byte(data[i])",
  str% "\t\tb.buf[off+int64(1+(i*8))] = byte(data[i] >> 8)",
  str% "\t\tb.buf[off+int64(2+(i*8))] = byte(data[i] >> 16)",
  str% "\t\tb.buf[off+int64(3+(i*8))] = byte(data[i] >> 24)",
  str% "\t\tb.buf[off+int64(4+(i*8))] = byte(data[i] >> 32)",
  str% "\t\tb.buf[off+int64(5+(i*8))] = byte(data[i] >> 40)",
  str% "\t\tb.buf[off+int64(6+(i*8))] = byte(data[i] >> 48)",
  str% "\t\tb.buf[off+int64(7+(i*8))] = byte(data[i] >> 56)",
  str% "\t\ti++",
  str% "\t\tif i < n {",
  str% "\t\t\tgoto write_loop",
  str% "\t\t}",
  str% "\t}",
  str% "}",
  str% "",
  str% "// WriteI64LENext writes a slice of int64s to the buffer at the",
  str% "// current offset in little-endian and moves the offset forward the",
  str% "// amount of bytes written",
  str% "func (b *MiniBuffer) WriteI64LENext(data []int64) {",
  str% "\tb.WriteI64LE(b.off, data)",
  str% "\tb.SeekByte(int64(len(data))*8, true)",
  str% "}"]

/-- v3/_minibuf.go:343-343, v3/minibuf.generated.go:622-622 -/
def miniSeg22 : Seg := .same [
  str% ""]

/-- v3/_minibuf.go:344, v3/minibuf.generated.go:623-652 -/
def miniSeg23 : Seg := .expanded (str% "//generator:complex MiniBuffer Write I 64 BE") [
  str% "// WriteI64BE writes a slice of int64s to the buffer at the",
  str% "// specified offset in big-endian without modifying the internal",
  str% "// offset value",
  str% "func (b *MiniBuffer) WriteI64BE(off int64, data []int64) {",
  str% "\ti := 0",
  str% "\tn := len(data)",
  str% "\t{",
  str% "\twrite_loop:",
  str% "\t\tb.buf[off+int64(i*8)] = byte(data[i] >> 56)",
  str% "\t\tb.buf[off+int64(1+(i*8))] = byte(data[i] >> 48)",
  str% "\t\tb.buf[off+int64(2+(i*8))] = byte(data[i] >> 40)",
  str% "\t\tb.buf[off+int64(3+(i*8))] = byte(data[i] >> 32)",
  str% "\t\tb.buf[off+int64(4+(i*8))] = byte(data[i] >> 24)",
  str% "\t\tb.buf[off+int64(5+(i*8))] = byte(data[i] >> 16)",
  str% "\t\tb.buf[off+int64(6+(i*8))] = byte(data[i] >> 8)",
  str% "\t\tb.buf[off+int64(7+(i*8))] = byte(data[i])",
  str% "\t\ti++",
  str% "\t\tif i < n {",
  str% "\t\t\tgoto write_loop",
  str% "\t\t}",
  str% "\t}",
  str% "}",
  str% "",
  str% "// WriteI64BENext writes a slice of int64s to the buffer at the",
  str% "// current offset in big-endian and moves the offset forward the",
  str% "// amount of bytes written",
  str% "func (b *MiniBuffer) WriteI64BENext(data []int64) {",
  str% "\tb.WriteI64BE(b.off, data)",
  str% "\tb.SeekByte(int64(len(data))*8, true)",
  str% "}"]

/-- v3/_minibuf.go:345-345, v3/minibuf.generated.go:653-653 -/
def miniSeg24 : Seg := .same [
  str% ""]

/-- v3/_minibuf.go:346, v3/minibuf.generated.go:654-679 -/
def miniSeg25 : Seg := .expanded (str% "//generator:complex MiniBuffer Write F 32 LE") [
  str% "// WriteF32LE writes a slice of float32s to the buffer at the",
  str% "// specified offset in little-endian without modifying the internal",
  str% "// offset value",
  str% "func (b *MiniBuffer) WriteF32LE(off int64, data []float32) {",
  str% "\ti := 0",
  str% "\tn := len(data)",
  str% "\t{",
  str% "\twrite_loop:",
  str% "\t\tb.buf[off+int64(i*4)] = byte(*(*uint32)(unsafe.Pointer(&data[i])))",
  str% "\t\tb.buf[off+int64(1+(i*4))] = byte(*(*uint32)(unsafe.Pointer(&data[i])) >> 8)",
  str% "\t\tb.buf[off+int64(2+(i*4))] = byte(*(*uint32)(unsafe.Pointer(&data[i])) >> 16)",
  str% "\t\tb.buf[off+int64(3+(i*4))] = byte(*(*uint32)(unsafe.Pointer(&data[i])) >> 24)",
  str% "\t\ti++",
  str% "\t\tif i < n {",
  str% "\t\t\tgoto write_loop",
  str% "\t\t}",
  str% "\t}",
  str% "}",
  str% "",
  str% "// WriteF32LENext writes a slice of float32s to the buffer at the",
  str% "// current offset in little-endian and moves the offset forward the",
  str% "// amount of bytes written",
  str% "func (b *MiniBuffer) WriteF32LENext(data []float32) {",
  str% "\tb.WriteF32LE(b.off, data)",
  str% "\tb.SeekByte(int64(len(data))*4, true)",
  str% "}"]

/-- v3/_minibuf.go:347-347, v3/minibuf.generated.go:680-680 -/
def miniSeg26 : Seg := .same [
  str% ""]

/-- v3/_minibuf.go:348, v3/minibuf.generated.go:681-706 -/
def miniSeg27 : Seg := .expanded (str% "//generator:complex MiniBuffer Write F 32 BE") [
  str% "// WriteF32BE writes a slice of float32s to the buffer at the",
  str% "// specified offset in big-endian without modifying the internal",
  str% "// offset value",
  str% "func (b *MiniBuffer) WriteF32BE(off int64, data []float32) {",
  str% "\ti := 0",
  str% "\tn := len(data)",
  str% "\t{",
  str% "\twrite_loop:",
  str% "\t\tb.buf[off+int64(i*4)] = byte(*(*uint32)(unsafe.Pointer(&data[i])) >> 24)",
  str% "\t\tb.buf[off+int64(1+(i*4))] = byte(*(*uint32)(unsafe.Pointer(&data[i])) >> 16)",
  str% "\t\tb.buf[off+int64(2+(i*4))] = byte(*(*uint32)(unsafe.Pointer(&data[i])) >> 8)",
  str% "\t\tb.buf[off+int64(3+(i*4))] = byte(*(*uint32)(unsafe.Pointer(&data[i])))",
  str% "\t\ti++",
  str% "\t\tif i < n {",
  str% "\t\t\tgoto write_loop",
  str% "\t\t}",
  str% "\t}",
  str% "}",
  str% "",
  str% "// WriteF32BENext writes a slice of float32s to the buffer at the",
  str% "// current offset in big-endian and moves the offset forward the",
  str% "// amount of bytes written",
  str% "func (b *MiniBuffer) WriteF32BENext(data []float32) {",
  str% "\tb.WriteF32BE(b.off, data)",
  str% "\tb.SeekByte(int64(len(data))*4, true)",
  str% "}"]

/-- v3/_minibuf.go:349-349, v3/minibuf.generated.go:707-707 -/
def miniSeg28 : Seg := .same [
  str% ""]

/-- v3/_minibuf.go:350, v3/minibuf.generated.go:708-737 -/
def miniSeg29 : Seg := .expanded (str% "//generator:complex MiniBuffer Write F 64 LE") [
  str% "// WriteF64LE writes a slice of float64s to the buffer at the",
  str% "// specified offset in little-endian without modifying the internal",
  str% "// offset value",
  str% "func (b *MiniBuffer) WriteF64LE(off int64, data []float64) {",
  str% "\ti := 0",
  str% "\tn := len(data)",
  str% "\t{",
  str% "\twrite_loop:",
  str% "\t\tb.buf[off+int64(i*8)] = byte(*(*uint64)(unsafe.Pointer(&data[i])))",
  str% "\t\tb.buf[off+int64(1+(i*8))] = byte(*(*uint64)(unsafe.Pointer(&data[i])) >> 8)",
  str% "\t\tb.buf[off+int64(2+(i*8))] = byte(*(*uint64)(unsafe.Pointer(&data[i])) >> 16)",
  str% "\t\tb.buf[off+int64(3+(i*8))] = byte(*(*uint64)(unsafe.Pointer(&data[i])) >> 24)",
  str% "\t\tb.buf[off+int64(4+(i*8))] = byte(*(*uint64)(unsafe.Pointer(&data[i])) >> 32)",
  str% "\t\tb.buf[off+int64(5+(i*8))] = byte(*(*uint64)(unsafe.Pointer(&data[i])) >> 40)",
  str% "\t\tb.buf[off+int64(6+(i*8))] = byte(*(*uint64)(unsafe.Pointer(&data[i])) >> 48)",
  str% "\t\tb.buf[off+int64(7+(i*8))] = byte(*(*uint64)(unsafe.Pointer(&data[i])) >> 56)",
  str% "\t\ti++",
  str% "\t\tif i < n {",
  str% "\t\t\tgoto write_loop",
  str% "\t\t}",
  str% "\t}",
  str% "}",
  str% "",
  str% "// WriteF64LENext writes a slice of float64s to the buffer at the",
  str% "// current offset in little-endian and moves the offset forward the",
  str% "// amount of bytes written",
  str% "func (b *MiniBuffer) WriteF64LENext(data []float64) {",
  str% "\tb.WriteF64LE(b.off, data)",
  str% "\tb.SeekByte(int64(len(data))*8, true)",
  str% "}"]

/-- v3/_minibuf.go:351-351, v3/minibuf.generated.go:738-738 -/
def miniSeg30 : Seg := .same [
  str% ""]

/-- v3/_minibuf.go:352, v3/minibuf.generated.go:739-768 -/
def miniSeg31 : Seg := .expanded (str% "//generator:complex MiniBuffer Write F 64 BE") [
  str% "// WriteF64BE writes a slice of float64s to the buffer at the",
  str% "// specified offset in big-endian without modifying the internal",
  str% "// offset value",
  str% "func (b *MiniBuffer) WriteF64BE(off int64, data []float64) {",
  str% "\ti := 0",
  str% "\tn := len(data)",
  str% "\t{",
  str% "\twrite_loop:",
  str% "\t\tb.buf[off+int64(i*8)] = byte(*(*uint64)(unsafe.Pointer(&data[i])) >> 56)",
  str% "\t\tb.buf[off+int64(1+(i*8))] = byte(*(*uint64)(unsafe.Pointer(&data[i])) >> 48)",
  str% "\t\tb.buf[off+int64(2+(i*8))] = byte(*(*uint64)(unsafe.Pointer(&data[i])) >> 40)",
  str% "\t\tb.buf[off+int64(3+(i*8))] = byte(*(*uint64)(unsafe.Pointer(&data[i])) >> 32)",
  str% "\t\tb.buf[off+int64(4+(i*8))] = byte(*(*uint64)(unsafe.Pointer(&data[i])) >> 24)",
  str% "\t\tb.buf[off+int64(5+(i*8))] = byte(*(*uint64)(unsafe.Pointer(&data[i])) >> 16)",
  str% "\t\tb.buf[off+int64(6+(i*8))] = byte(*(*uint64)(unsafe.Pointer(&data[i])) >> 8)",
  str% "\t\tb.buf[off+int64(7+(i*8))] = byte(*(*uint64)(unsafe.Pointer(&data[i])))",
  str% "\t\ti++",
  str% "\t\tif i < n {",
  str% "\t\t\tgoto write_loop",
  str% "\t\t}",
  str% "\t}",
  str% "}",
  str% "",
  str% "// WriteF64BENext writes a slice of float64s to the buffer at the",
  str% "// current offset in big-endian and moves the offset forward the",
  str% "// amount of bytes written",
  str% "func (b *MiniBuffer) WriteF64BENext(data []float64) {",
  str% "\tb.WriteF64BE(b.off, data)",
  str% "\tb.SeekByte(int64(len(data))*8, true)",
  str% "}"]

/-- v3/_minibuf.go:353-370, v3/minibuf.generated.go:769-786 -/
def miniSeg32 : Seg := .same [
  str% "",
  str% "// ReadBytes stores the next n bytes from the specified offset",
  str% "// without modifying the internal offset value in out",
  str% "func (b *MiniBuffer) ReadBytes(out *[]byte, off, n int64) {",
  str% "",
  str% "\t*out = b.buf[off : off+n]",
  str% "",
  str% "}",
  str% "",
  str% "// ReadBytesNext stores the next n bytes from the current offset and",
  str% "// moves the offset forward the amount of bytes read in out",
  str% "func (b *MiniBuffer) ReadBytesNext(out *[]byte, n int64) {",
  str% "",
  str% "\tb.ReadBytes(out, b.off, n)",
  str% "\tb.SeekByte(n, true)",
  str% "",
  str% "}",
  str% ""]

/-- v3/_minibuf.go:371, v3/minibuf.generated.go:787-808 -/
def miniSeg33 : Seg := .expanded (str% "//generator:complex MiniBuffer Read U 16 LE") [
  str% "// ReadU16LE reads a slice of uint16s from the buffer at the",
  str% "// specified offset in little-endian without modifying the internal",
  str% "// offset value",
  str% "func (b *MiniBuffer) ReadU16LE(out *[]uint16, off, n int64) {",
  str% "\ti := int64(0)",
  str% "\t{",
  str% "\tread_loop:",
  str% "\t\t(*out)[i] = uint16(b.buf[off+(i*2)]) | uint16(b.buf[off+(1+(i*2))])<<8",
  str% "\t\ti++",
  str% "\t\tif i < n {",
  str% "\t\t\tgoto read_loop",
  str% "\t\t}",
  str% "\t}",
  str% "}",
  str% "",
  str% "// ReadU16LENext reads a slice of uint16s from the buffer at the",
  str% "// current offset in little-endian and moves the offset forward the",
  str% "// amount of bytes written",
  str% "func (b *MiniBuffer) ReadU16LENext(out *[]uint16, n int64) {",
  str% "\tb.ReadU16LE(out, b.off, n)",
  str% "\tb.SeekByte(n*2, true)",
  str% "}"]

/-- v3/_minibuf.go:372-372, v3/minibuf.generated.go:809-809 -/
def miniSeg34 : Seg := .same [
  str% ""]

/-- v3/_minibuf.go:373, v3/minibuf.generated.go:810-831 -/
def miniSeg35 : Seg := .expanded (str% "//generator:complex MiniBuffer Read U 16 BE") [
  str% "// ReadU16BE reads a slice of uint16s from the buffer at the",
  str% "// specified offset in big-endian without modifying the internal",
  str% "// offset value",
  str% "func (b *MiniBuffer) ReadU16BE(out *[]uint16, off, n int64) {",
  str% "\ti := int64(0)",
  str% "\t{",
  str% "\tread_loop:",
  str% "\t\t(*out)[i] = uint16(b.buf[off+(1+(i*2))]) | uint16(b.buf[off+(i*2)])<<8",
  str% "\t\ti++",
  str% "\t\tif i < n {",
  str% "\t\t\tgoto read_loop",
  str% "\t\t}",
  str% "\t}",
  str% "}",
  str% "",
  str% "// ReadU16BENext reads a slice of uint16s from the buffer at the",
  str% "// current offset in big-endian and moves the offset forward the",
  str% "// amount of bytes written",
  str% "func (b *MiniBuffer) ReadU16BENext(out *[]uint16, n int64) {",
  str% "\tb.ReadU16BE(out, b.off, n)",
  str% "\tb.SeekByte(n*2, true)",
  str% "}"]

/-- v3/_minibuf.go:374-374, v3/minibuf.generated.go:832-832 -/
def miniSeg36 : Seg := .same [
  str% ""]

/-- v3/_minibuf.go:375, v3/minibuf.generated.go:833-854 -/
def miniSeg37 : Seg := .expanded (str% "//generator:complex MiniBuffer Read U 32 LE") [
  str% "// ReadU32LE reads a slice of uint32s from the buffer at the",
  str% "// specified offset in little-endian without modifying the internal",
  str% "// offset value",
  str% "func (b *MiniBuffer) ReadU32LE(out *[]uint32, off, n int64) {",
  str% "\ti := int64(0)",
  str% "\t{",
  str% "\tread_loop:",
  str% "\t\t(*out)[i] = uint32(b.buf[off+(i*4)]) | uint32(b.buf[off+(1+(i*4))])<<8 | uint32(b.buf[off+(2+(i*4))])<<16 | uint32(b.buf[off+(3+(i*4))])<<24",
  str% "\t\ti++",
  str% "\t\tif i < n {",
  str% "\t\t\tgoto read_loop",
  str% "\t\t}",
  str% "\t}",
  str% "}",
  str% "",
  str% "// ReadU32LENext reads a slice of uint32s from the buffer at the",
  str% "// current offset in little-endian and moves the offset forward the",
  str% "// amount of bytes written",
  str% "func (b *MiniBuffer) ReadU32LENext(out *[]uint32, n int64) {",
  str% "\tb.ReadU32LE(out, b.off, n)",
  str% "\tb.SeekByte(n*4, true)",
  str% "}"]

/-- v3/_minibuf.go:376-376, v3/minibuf.generated.go:855-855 -/
def miniSeg38 : Seg := .same [
  str% ""]

/-- v3/_minibuf.go:377, v3/minibuf.generated.go:856-877 -/
def miniSeg39 : Seg := .expanded (str% "//generator:complex MiniBuffer Read U 32 BE") [
  str% "// ReadU32BE reads a slice of uint32s from the buffer at the",
  str% "// specified offset in big-endian without modifying the internal",
  str% "// offset value",
  str% "func (b *MiniBuffer) ReadU32BE(out *[]uint32, off, n int64) {",
  str% "\ti := int64(0)",
  str% "\t{",
  str% "\tread_loop:",
  str% "\t\t(*out)[i] = uint32(b.buf[off+(3+(i*4))]) | uint32(b.buf[off+(2+(i*4))])<<8 | uint32(b.buf[off+(1+(i*4))])<<16 | uint32(b.buf[off+(i*4)])<<24",
  str% "\t\ti++",
  str% "\t\tif i < n {",
  str% "\t\t\tgoto read_loop",
  str% "\t\t}",
  str% "\t}",
  str% "}",
  str% "",
  str% "// ReadU32BENext reads a slice of uint32s from the buffer at the",
  str% "// current offset in big-endian and moves the offset forward the",
  str% "// amount of bytes written",
  str% "func (b *MiniBuffer) ReadU32BENext(out *[]uint32, n int64) {",
  str% "\tb.ReadU32BE(out, b.off, n)",
  str% "\tb.SeekByte(n*4, true)",
  str% "}"]

/-- v3/_minibuf.go:378-378, v3/minibuf.generated.go:878-878 -/
def miniSeg40 : Seg := .same [
  str% ""]

/-- v3/_minibuf.go:379, v3/minibuf.generated.go:879-900 -/
def miniSeg41 : Seg := .expanded (str% "//generator:complex MiniBuffer Read U 64 LE") [
  str% "// ReadU64LE reads a slice of uint64s from the buffer at the",
  str% "// specified offset in little-endian without modifying the internal",
  str% "// offset value",
  str% "func (b *MiniBuffer) ReadU64LE(out *[]uint64, off, n int64) {",
  str% "\ti := int64(0)",
  str% "\t{",
  str% "\tread_loop:",
  str% "\t\t(*out)[i] = uint64(b.buf[off+(i*8)]) | uint64(b.buf[off+(1+(i*8))])<<8 | uint64(b.buf[off+(2+(i*8))])<<16 | uint64(b.buf[off+(3+(i*8))])<<24 | uint64(b.buf[off+(4+(i*8))])<<32 | uint64(b.buf[off+(5+(i*8))])<<40 | uint64(b.buf[off+(6+(i*8))])<<48 | uint64(b.buf[off+(7+(i*8))])<<56",
  str% "\t\ti++",
  str% "\t\tif i < n {",
  str% "\t\t\tgoto read_loop",
  str% "\t\t}",
  str% "\t}",
  str% "}",
  str% "",
  str% "// ReadU64LENext reads a slice of uint64s from the buffer at the",
  str% "// current offset in little-endian and moves the offset forward the",
  str% "// amount of bytes written",
  str% "func (b *MiniBuffer) ReadU64LENext(out *[]uint64, n int64) {",
  str% "\tb.ReadU64LE(out, b.off, n)",
  str% "\tb.SeekByte(n*8, true)",
  str% "}"]

/-- v3/_minibuf.go:380-380, v3/minibuf.generated.go:901-901 -/
def miniSeg42 : Seg := .same [
  str% ""]

/-- v3/_minibuf.go:381, v3/minibuf.generated.go:902-923 -/
def miniSeg43 : Seg := .expanded (str% "//generator:complex MiniBuffer Read U 64 BE") [
  str% "// ReadU64BE reads a slice of uint64s from the buffer at the",
  str% "// specified offset in big-endian without modifying the internal",
  str% "// offset value",
  str% "func (b *MiniBuffer) ReadU64BE(out *[]uint64, off, n int64) {",
  str% "\ti := int64(0)",
  str% "\t{",
  str% "\tread_loop:",
  str% "\t\t(*out)[i] = uint64(b.buf[off+(7+(i*8))]) | uint64(b.buf[off+(6+(i*8))])<<8 | uint64(b.buf[off+(5+(i*8))])<<16 | uint64(b.buf[off+(4+(i*8))])<<24 | uint64(b.buf[off+(3+(i*8))])<<32 | uint64(b.buf[off+(2+(i*8))])<<40 | uint64(b.buf[off+(1+(i*8))])<<48 | uint64(b.buf[off+(i*8)])<<56",
  str% "\t\ti++",
  str% "\t\tif i < n {",
  str% "\t\t\tgoto read_loop",
  str% "\t\t}",
  str% "\t}",
  str% "}",
  str% "",
  str% "// ReadU64BENext reads a slice of uint64s from the buffer at the",
  str% "// current offset in big-endian and moves the offset forward the",
  str% "// amount of bytes written",
  str% "func (b *MiniBuffer) ReadU64BENext(out *[]uint64, n int64) {",
  str% "\tb.ReadU64BE(out, b.off, n)",
  str% "\tb.SeekByte(n*8, true)",
  str% "}"]

/-- v3/_minibuf.go:382-382, v3/minibuf.generated.go:924-924 -/
def miniSeg44 : Seg := .same [
  str% ""]

/-- v3/_minibuf.go:383, v3/minibuf.generated.go:925-946 -/
def miniSeg45 : Seg := .expanded (str% "//generator:complex MiniBuffer Read I 16 LE") [
  str% "// ReadI16LE reads a slice of int16s from the buffer at the",
  str% "// specified offset in little-endian without modifying the internal",
  str% "// offset value",
  str% "func (b *MiniBuffer) ReadI16LE(out *[]int16, off, n int64) {",
  str% "\ti := int64(0)",
  str% "\t{",
  str% "\tread_loop:",
  str% "\t\t(*out)[i] = int16(b.buf[off+(i*2)]) | int16(b.buf[off+(1+(i*2))])<<8",
  str% "\t\ti++",
  str% "\t\tif i < n {",
  str% "\t\t\tgoto read_loop",
  str% "\t\t}",
  str% "\t}",
  str% "}",
  str% "",
  str% "// ReadI16LENext reads a slice of int16s from the buffer at the",
  str% "// current offset in little-endian and moves the offset forward the",
  str% "// amount of bytes written",
  str% "func (b *MiniBuffer) ReadI16LENext(out *[]int16, n int64) {",
  str% "\tb.ReadI16LE(out, b.off, n)",
  str% "\tb.SeekByte(n*2, true)",
  str% "}"]

/-- v3/_minibuf.go:384-384, v3/minibuf.generated.go:947-947 -/
def miniSeg46 : Seg := .same [
  str% ""]

/-- v3/_minibuf.go:385, v3/minibuf.generated.go:948-969 -/
def miniSeg47 : Seg := .expanded (str% "//generator:complex MiniBuffer Read I 16 BE") [
  str% "// ReadI16BE reads a slice of int16s from the buffer at the",
  str% "// specified offset in big-endian without modifying the internal",
  str% "// offset value",
  str% "func (b *MiniBuffer) ReadI16BE(out *[]int16, off, n int64) {",
  str% "\ti := int64(0)",
  str% "\t{",
  str% "\tread_loop:",
  str% "\t\t(*out)[i] = int16(b.buf[off+(1+(i*2))]) | int16(b.buf[off+(i*2)])<<8",
  str% "\t\ti++",
  str% "\t\tif i < n {",
  str% "\t\t\tgoto read_loop",
  str% "\t\t}",
  str% "\t}",
  str% "}",
  str% "",
  str% "// ReadI16BENext reads a slice of int16s from the buffer at the",
  str% "// current offset in big-endian and moves the offset forward the",
  str% "// amount of bytes written",
  str% "func (b *MiniBuffer) ReadI16BENext(out *[]int16, n int64) {",
  str% "\tb.ReadI16BE(out, b.off, n)",
  str% "\tb.SeekByte(n*2, true)",
  str% "}"]

/-- v3/_minibuf.go:386-386, v3/minibuf.generated.go:970-970 -/
def miniSeg48 : Seg := .same [
  str% ""]

/-- v3/_minibuf.go:387, v3/minibuf.generated.go:971-992 -/
def miniSeg49 : Seg := .expanded (str% "//generator:complex MiniBuffer Read I 32 LE") [
  str% "// ReadI32LE reads a slice of int32s from the buffer at the",
  str% "// specified offset in little-endian without modifying the internal",
  str% "// offset value",
  str% "func (b *MiniBuffer) ReadI32LE(out *[]int32, off, n int64) {",
  str% "\ti := int64(0)",
  str% "\t{",
  str% "\tread_loop:",
  str% "\t\t(*out)[i] = int32(b.buf[off+(i*4)]) | int32(b.buf[off+(1+(i*4))])<<8 | int32(b.buf[off+(2+(i*4))])<<16 | int32(b.buf[off+(3+(i*4))])<<24",
  str% "\t\ti++",
  str% "\t\tif i < n {",
  str% "\t\t\tgoto read_loop",
  str% "\t\t}",
  str% "\t}",
  str% "}",
  str% "",
  str% "// ReadI32LENext reads a slice of int32s from the buffer at the",
  str% "// current offset in little-endian and moves the offset forward the",
  str% "// amount of bytes written",
  str% "func (b *MiniBuffer) ReadI32LENext(out *[]int32, n int64) {",
  str% "\tb.ReadI32LE(out, b.off, n)",
  str% "\tb.SeekByte(n*4, true)",
  str% "}"]

/-- v3/_minibuf.go:388-388, v3/minibuf.generated.go:993-993 -/
def miniSeg50 : Seg := .same [
  str% ""]

/-- v3/_minibuf.go:389, v3/minibuf.generated.go:994-1015 -/
def miniSeg51 : Seg := .expanded (str% "//generator:complex MiniBuffer Read I 32 BE") [
  str% "// ReadI32BE reads a slice of int32s from the buffer at the",
  str% "// specified offset in big-endian without modifying the internal",
  str% "// offset value",
  str% "func (b *MiniBuffer) ReadI32BE(out *[]int32, off, n int64) {",
  str% "\ti := int64(0)",
  str% "\t{",
  str% "\tread_loop:",
  str% "\t\t(*out)[i] = int32(b.buf[off+(3+(i*4))]) | int32(b.buf[off+(2+(i*4))])<<8 | int32(b.buf[off+(1+(i*4))])<<16 | int32(b.buf[off+(i*4)])<<24",
  str% "\t\ti++",
  str% "\t\tif i < n {",
  str% "\t\t\tgoto read_loop",
  str% "\t\t}",
  str% "\t}",
  str% "}",
  str% "",
  str% "// ReadI32BENext reads a slice of int32s from the buffer at the",
  str% "// current offset in big-endian and moves the offset forward the",
  str% "// amount of bytes written",
  str% "func (b *MiniBuffer) ReadI32BENext(out *[]int32, n int64) {",
  str% "\tb.ReadI32BE(out, b.off, n)",
  str% "\tb.SeekByte(n*4, true)",
  str% "}"]

/-- v3/_minibuf.go:390-390, v3/minibuf.generated.go:1016-1016 -/
def miniSeg52 : Seg := .same [
  str% ""]

/-- v3/_minibuf.go:391, v3/minibuf.generated.go:1017-1038 -/
def miniSeg53 : Seg := .expanded (str% "//generator:complex MiniBuffer Read I 64 LE") [
  str% "// ReadI64LE reads a slice of int64s from the buffer at the",
  str% "// specified offset in little-endian without modifying the internal",
  str% "// offset value",
  str% "func (b *MiniBuffer) ReadI64LE(out *[]int64, off, n int64) {",
  str% "\ti := int64(0)",
  str% "\t{",
  str% "\tread_loop:",
  str% "\t\t(*out)[i] = int64(b.buf[off+(i*8)]) | int64(b.buf[off+(1+(i*8))])<<8 | int64(b.buf[off+(2+(i*8))])<<16 | int64(b.buf[off+(3+(i*8))])<<24 | int64(b.buf[off+(4+(i*8))])<<32 | int64(b.buf[off+(5+(i*8))])<<40 | int64(b.buf[off+(6+(i*8))])<<48 | int64(b.buf[off+(7+(i*8))])<<56",
  str% "\t\ti++",
  str% "\t\tif i < n {",
  str% "\t\t\tgoto read_loop",
  str% "\t\t}",
  str% "\t}",
  str% "}",
  str% "",
  str% "// ReadI64LENext reads a slice of int64s from the buffer at the",
  str% "// current offset in little-endian and moves the offset forward the",
  str% "// amount of bytes written",
  str% "func (b *MiniBuffer) ReadI64LENext(out *[]int64, n int64) {",
  str% "\tb.ReadI64LE(out, b.off, n)",
  str% "\tb.SeekByte(n*8, true)",
  str% "}"]

/-- v3/_minibuf.go:392-392, v3/minibuf.generated.go:1039-1039 -/
def miniSeg54 : Seg := .same [
  str% ""]

/-- v3/_minibuf.go:393, v3/minibuf.generated.go:1040-1061 -/
def miniSeg55 : Seg := .expanded (str% "//generator:complex MiniBuffer Read I 64 BE") [
  str% "// ReadI64BE reads a slice of int64s from the buffer at the",
  str% "// specified offset in big-endian without modifying the internal",
  str% "// offset value",
  str% "func (b *MiniBuffer) ReadI64BE(out *[]int64, off, n int64) {",
  str% "\ti := int64(0)",
  str% "\t{",
  str% "\tread_loop:",
  str% "\t\t(*out)[i] = int64(b.buf[off+(7+(i*8))]) | int64(b.buf[off+(6+(i*8))])<<8 | int64(b.buf[off+(5+(i*8))])<<16 | int64(b.buf[off+(4+(i*8))])<<24 | int64(b.buf[off+(3+(i*8))])<<32 | int64(b.buf[off+(2+(i*8))])<<40 | int64(b.buf[off+(1+(i*8))])<<48 | int64(b.buf[off+(i*8)])<<56",
  str% "\t\ti++",
  str% "\t\tif i < n {",
  str% "\t\t\tgoto read_loop",
  str% "\t\t}",
  str% "\t}",
  str% "}",
  str% "",
  str% "// ReadI64BENext reads a slice of int64s from the buffer at the",
  str% "// current offset in big-endian and moves the offset forward the",
  str% "// amount of bytes written",
  str% "func (b *MiniBuffer) ReadI64BENext(out *[]int64, n int64) {",
  str% "\tb.ReadI64BE(out, b.off, n)",
  str% "\tb.SeekByte(n*8, true)",
  str% "}"]

/-- v3/_minibuf.go:394-394, v3/minibuf.generated.go:1062-1062 -/
def miniSeg56 : Seg := .same [
  str% ""]

/-- v3/_minibuf.go:395, v3/minibuf.generated.go:1063-1086 -/
def miniSeg57 : Seg := .expanded (str% "//generator:complex MiniBuffer Read F 32 LE") [
  str% "// ReadF32LE reads a slice of float32s from the buffer at the",
  str% "// specified offset in little-endian without modifying the internal",
  str% "// offset value",
  str% "func (b *MiniBuffer) ReadF32LE(out *[]float32, off, n int64) {",
  str% "\ti := int64(0)",
  str% "\tvar u uint32",
  str% "\t{",
  str% "\tread_loop:",
  str% "\t\tu = (uint32(b.buf[off+(i*4)]) | uint32(b.buf[off+(1+(i*4))])<<8 | uint32(b.buf[off+(2+(i*4))])<<16 | uint32(b.buf[off+(3+(i*4))])<<24)",
  str% "\t\t(*out)[i] = *(*float32)(unsafe.Pointer(&u))",
  str% "\t\ti++",
  str% "\t\tif i < n {",
  str% "\t\t\tgoto read_loop",
  str% "\t\t}",
  str% "\t}",
  str% "}",
  str% "",
  str% "// ReadF32LENext reads a slice of float32s from the buffer at the",
  str% "// current offset in little-endian and moves the offset forward the",
  str% "// amount of bytes written",
  str% "func (b *MiniBuffer) ReadF32LENext(out *[]float32, n int64) {",
  str% "\tb.ReadF32LE(out, b.off, n)",
  str% "\tb.SeekByte(n*4, true)",
  str% "}"]

/-- v3/_minibuf.go:396-396, v3/minibuf.generated.go:1087-1087 -/
def miniSeg58 : Seg := .same [
  str% ""]

/-- v3/_minibuf.go:397, v3/minibuf.generated.go:1088-1111 -/
def miniSeg59 : Seg := .expanded (str% "//generator:complex MiniBuffer Read F 32 BE") [
  str% "// ReadF32BE reads a slice of float32s from the buffer at the",
  str% "// specified offset in big-endian without modifying the internal",
  str% "// offset value",
  str% "func (b *MiniBuffer) ReadF32BE(out *[]float32, off, n int64) {",
  str% "\ti := int64(0)",
  str% "\tvar u uint32",
  str% "\t{",
  str% "\tread_loop:",
  str% "\t\tu = (uint32(b.buf[off+(3+(i*4))]) | uint32(b.buf[off+(2+(i*4))])<<8 | uint32(b.buf[off+(1+(i*4))])<<16 | uint32(b.buf[off+(i*4)])<<24)",
  str% "\t\t(*out)[i] = *(*float32)(unsafe.Pointer(&u))",
  str% "\t\ti++",
  str% "\t\tif i < n {",
  str% "\t\t\tgoto read_loop",
  str% "\t\t}",
  str% "\t}",
  str% "}",
  str% "",
  str% "// ReadF32BENext reads a slice of float32s from the buffer at the",
  str% "// current offset in big-endian and moves the offset forward the",
  str% "// amount of bytes written",
  str% "func (b *MiniBuffer) ReadF32BENext(out *[]float32, n int64) {",
  str% "\tb.ReadF32BE(out, b.off, n)",
  str% "\tb.SeekByte(n*4, true)",
  str% "}"]

/-- v3/_minibuf.go:398-398, v3/minibuf.generated.go:1112-1112 -/
def miniSeg60 : Seg := .same [
  str% ""]

/-- v3/_minibuf.go:399, v3/minibuf.generated.go:1113-1136 -/
def miniSeg61 : Seg := .expanded (str% "//generator:complex MiniBuffer Read F 64 LE") [
  str% "// ReadF64LE reads a slice of float64s from the buffer at the",
  str% "// specified offset in little-endian without modifying the internal",
  str% "// offset value",
  str% "func (b *MiniBuffer) ReadF64LE(out *[]float64, off, n int64) {",
  str% "\ti := int64(0)",
  str% "\tvar u uint64",
  str% "\t{",
  str% "\tread_loop:",
  str% "\t\tu = (uint64(b.buf[off+(i*8)]) | uint64(b.buf[off+(1+(i*8))])<<8 | uint64(b.buf[off+(2+(i*8))])<<16 | uint64(b.buf[off+(3+(i*8))])<<24 | uint64(b.buf[off+(4+(i*8))])<<32 | uint64(b.buf[off+(5+(i*8))])<<40 | uint64(b.buf[off+(6+(i*8))])<<48 | uint64(b.buf[off+(7+(i*8))])<<56)",
  str% "\t\t(*out)[i] = *(*float64)(unsafe.Pointer(&u))",
  str% "\t\ti++",
  str% "\t\tif i < n {",
  str% "\t\t\tgoto read_loop",
  str% "\t\t}",
  str% "\t}",
  str% "}",
  str% "",
  str% "// ReadF64LENext reads a slice of float64s from the buffer at the",
  str% "// current offset in little-endian and moves the offset forward the",
  str% "// amount of bytes written",
  str% "func (b *MiniBuffer) ReadF64LENext(out *[]float64, n int64) {",
  str% "\tb.ReadF64LE(out, b.off, n)",
  str% "\tb.SeekByte(n*8, true)",
  str% "}"]

/-- v3/_minibuf.go:400-400, v3/minibuf.generated.go:1137-1137 -/
def miniSeg62 : Seg := .same [
  str% ""]

/-- v3/_minibuf.go:401, v3/minibuf.generated.go:1138-1161 -/
def miniSeg63 : Seg := .expanded (str% "//generator:complex MiniBuffer Read F 64 BE") [
  str% "// ReadF64BE reads a slice of float64s from the buffer at the",
  str% "// specified offset in big-endian without modifying the internal",
  str% "// offset value",
  str% "func (b *MiniBuffer) ReadF64BE(out *[]float64, off, n int64) {",
  str% "\ti := int64(0)",
  str% "\tvar u uint64",
  str% "\t{",
  str% "\tread_loop:",
  str% "\t\tu = (uint64(b.buf[off+(7+(i*8))]) | uint64(b.buf[off+(6+(i*8))])<<8 | uint64(b.buf[off+(5+(i*8))])<<16 | uint64(b.buf[off+(4+(i*8))])<<24 | uint64(b.buf[off+(3+(i*8))])<<32 | uint64(b.buf[off+(2+(i*8))])<<40 | uint64(b.buf[off+(1+(i*8))])<<48 | uint64(b.buf[off+(i*8)])<<56)",
  str% "\t\t(*out)[i] = *(*float64)(unsafe.Pointer(&u))",
  str% "\t\ti++",
  str% "\t\tif i < n {",
  str% "\t\t\tgoto read_loop",
  str% "\t\t}",
  str% "\t}",
  str% "}",
  str% "",
  str% "// ReadF64BENext reads a slice of float64s from the buffer at the",
  str% "// current offset in big-endian and moves the offset forward the",
  str% "// amount of bytes written",
  str% "func (b *MiniBuffer) ReadF64BENext(out *[]float64, n int64) {",
  str% "\tb.ReadF64BE(out, b.off, n)",
  str% "\tb.SeekByte(n*8, true)",
  str% "}"]

/-- v3/_minibuf.go:402-530, v3/minibuf.generated.go:1162-1290 -/
def miniSeg64 : Seg := .same [
  str% "",
  str% "// SeekByte seeks to position off of the buffer relative to the",
  str% "// current position or exact",
  str% "func (b *MiniBuffer) SeekByte(off int64, relative bool) {",
  str% "",
  str% "\tif relative {",
  str% "",
  str% "\t\tb.off += off",
  str% "",
  str% "\t} else {",
  str% "",
  str% "\t\tb.off = off",
  str% "",
  str% "\t}",
  str% "",
  str% "}",
  str% "",
  str% "// AfterByte stores the amount of bytes located after the current",
  str% "// position or the specified one in out",
  str% "func (b *MiniBuffer) AfterByte(out *int64, off ...int64) {",
  str% "",
  str% "\tif len(off) == 0 {",
  str% "",
  str% "\t\t*out = b.cap - b.off - 1",
  str% "\t\treturn",
  str% "",
  str% "\t}",
  str% "\t*out = b.cap - off[0] - 1",
  str% "",
  str% "}",
  str% "",
  str% "// AlignByte aligns the byte offset to the bit offset",
  str% "func (b *MiniBuffer) AlignByte() {",
  str% "",
  str% "\tb.off = b.boff / 8",
  str% "",
  str% "}",
  str% "",
  str% "/* generic methods */",
  str% "",
  str% "// TruncateLeft truncates the buffer on the left side",
  str% "func (b *MiniBuffer) TruncateLeft(n int64) {",
  str% "",
  str% "\tb.buf = b.buf[n:b.cap]",
  str% "\tb.Refresh()",
  str% "",
  str% "}",
  str% "",
  str% "// TruncateRight truncates the buffer on the right side",
  str% "func (b *MiniBuffer) TruncateRight(n int64) {",
  str% "",
  str% "\tb.buf = b.buf[0x00 : b.cap-n]",
  str% "\tb.Refresh()",
  str% "",
  str% "}",
  str% "",
  str% "// Grow makes the buffer's capacity bigger by n bytes",
  str% "func (b *MiniBuffer) Grow(n int64) {",
  str% "",
  str% "\tif n <= int64(cap(b.buf))-b.cap {",
  str% "",
  str% "\t\tb.buf = b.buf[0 : b.cap+n]",
  str% "\t\tb.Refresh()",
  str% "\t\treturn",
  str% "",
  str% "\t}",
  str% "\ttmp := make([]byte, b.cap+n, (int64(cap(b.buf))+n)*2)",
  str% "\tcopy(tmp, b.buf)",
  str% "\tb.buf = tmp",
  str% "",
  str% "\tb.Refresh()",
  str% "",
  str% "}",
  str% "",
  str% "// Refresh updates the cached internal statistics of the buffer forcefully",
  str% "func (b *MiniBuffer) Refresh() {",
  str% "",
  str% "\tb.cap = int64(len(b.buf))",
  str% "\tb.bcap = b.cap * 8",
  str% "",
  str% "}",
  str% "",
  str% "// Reset resets the entire buffer",
  str% "func (b *MiniBuffer) Reset() {",
  str% "",
  str% "\tb.buf = b.buf[0:0]",
  str% "\tb.off = 0x00",
  str% "\tb.boff = 0x00",
  str% "\tb.cap = 0",
  str% "\tb.bcap = 0",
  str% "",
  str% "}",
  str% "",
  str% "/* value retrieval */",
  str% "",
  str% "// Bytes stores the internal byte slice of the buffer in out",
  str% "func (b *MiniBuffer) Bytes(out *[]byte) {",
  str% "",
  str% "\t*out = b.buf",
  str% "",
  str% "}",
  str% "",
  str% "// ByteCapacity stores the capacity of the buffer in out",
  str% "func (b *MiniBuffer) ByteCapacity(out *int64) {",
  str% "",
  str% "\t*out = b.cap",
  str% "",
  str% "}",
  str% "",
  str% "// BitCapacity stores the bit capacity of the buffer in out",
  str% "func (b *MiniBuffer) BitCapacity(out *int64) {",
  str% "",
  str% "\t*out = b.bcap",
  str% "",
  str% "}",
  str% "",
  str% "// ByteOffset stores the current offset of the buffer in out",
  str% "func (b *MiniBuffer) ByteOffset(out *int64) {",
  str% "",
  str% "\t*out = b.off",
  str% "",
  str% "}",
  str% "",
  str% "// BitOffset stores the current bit offset of the buffer in out",
  str% "func (b *MiniBuffer) BitOffset(out *int64) {",
  str% "",
  str% "\t*out = b.boff",
  str% "",
  str% "}",
  str% ""]

/-- v3/_minibuf.go and v3/minibuf.generated.go -/
def miniSegs : List Seg := [miniSeg0, miniSeg1, miniSeg2, miniSeg3, miniSeg4, miniSeg5, miniSeg6, miniSeg7, miniSeg8, miniSeg9, miniSeg10, miniSeg11, miniSeg12, miniSeg13, miniSeg14, miniSeg15, miniSeg16, miniSeg17, miniSeg18, miniSeg19, miniSeg20, miniSeg21, miniSeg22, miniSeg23, miniSeg24, miniSeg25, miniSeg26, miniSeg27, miniSeg28, miniSeg29, miniSeg30, miniSeg31, miniSeg32, miniSeg33, miniSeg34, miniSeg35, miniSeg36, miniSeg37, miniSeg38, miniSeg39, miniSeg40, miniSeg41, miniSeg42, miniSeg43, miniSeg44, miniSeg45, miniSeg46, miniSeg47, miniSeg48, miniSeg49, miniSeg50, miniSeg51, miniSeg52, miniSeg53, miniSeg54, miniSeg55, miniSeg56, miniSeg57, miniSeg58, miniSeg59, miniSeg60, miniSeg61, miniSeg62, miniSeg63, miniSeg64]

end Crunch.Gen
