import Verif.Gen.Text

/-!
# The test functions of v3/buffer_test.go

Written by tools/src_embed.py.
-/

namespace Crunch.Src.V3BufferTest

open Crunch.Gen (Str)

/-- v3/buffer_test.go:42-89 -/
def TestNewBuffer : List Str := [
  str% "func TestNewBuffer(t *testing.T) {",
  str% "",
  str% "\tvar (",
  str% "\t\texpected1 = &Buffer{",
  str% "\t\t\tbuf:  []byte{0x00, 0x00, 0x00, 0x00},",
  str% "\t\t\toff:  0x00,",
  str% "\t\t\tcap:  4,",
  str% "\t\t\tboff: 0x00,",
  str% "\t\t\tbcap: 32,",
  str% "\t\t}",
  str% "\t\texpected2 = &Buffer{",
  str% "\t\t\tbuf:  []byte{},",
  str% "\t\t\toff:  0x00,",
  str% "\t\t\tcap:  0,",
  str% "\t\t\tboff: 0x00,",
  str% "\t\t\tbcap: 0,",
  str% "\t\t}",
  str% "\t\texpected3 = &Buffer{",
  str% "\t\t\tbuf:  []byte{0x00, 0x00, 0x00, 0x00, 0x00, 0x00, 0x00, 0x00},",
  str% "\t\t\toff:  0x00,",
  str% "\t\t\tcap:  8,",
  str% "\t\t\tboff: 0x00,",
  str% "\t\t\tbcap: 64,",
  str% "\t\t}",
  str% "\t)",
  str% "",
  str% "\tout := NewBuffer([]byte{0x00, 0x00, 0x00, 0x00})",
  str% "\tif !cmp.Equal(expected1, out, BufferComparer) {",
  str% "",
  str% "\t\tt.Fatalf(\"expected buffer does not match the one gotten (got %#v, expected %#v)\", out, expected1)",
  str% "",
  str% "\t}",
  str% "",
  str% "\tout = NewBuffer()",
  str% "\tif !cmp.Equal(expected2, out, BufferComparer) {",
  str% "",
  str% "\t\tt.Fatalf(\"expected buffer does not match the one gotten (got %#v, expected %#v)\", out, expected2)",
  str% "",
  str% "\t}",
  str% "",
  str% "\tout = NewBuffer([]byte{0x00, 0x00, 0x00, 0x00}, []byte{0x00, 0x00, 0x00, 0x00})",
  str% "\tif !cmp.Equal(expected3, out, BufferComparer) {",
  str% "",
  str% "\t\tt.Fatalf(\"expected buffer does not match the one gotten (got %#v, expected %#v)\", out, expected3)",
  str% "",
  str% "\t}",
  str% "",
  str% "}"]

/-- v3/buffer_test.go:91-104 -/
def TestBufferBytes : List Str := [
  str% "func TestBufferBytes(t *testing.T) {",
  str% "",
  str% "\tvar expected = []byte{0x01, 0x02, 0x03, 0x04}",
  str% "",
  str% "\tbuf := NewBuffer([]byte{0x01, 0x02, 0x03, 0x04})",
  str% "",
  str% "\tout := buf.Bytes()",
  str% "\tif !cmp.Equal(expected, out) {",
  str% "",
  str% "\t\tt.Fatalf(\"expected byte array does not match the one gotten (got %#v, expected %#v)\", out, expected)",
  str% "",
  str% "\t}",
  str% "",
  str% "}"]

/-- v3/buffer_test.go:106-119 -/
def TestBufferByteCapacity : List Str := [
  str% "func TestBufferByteCapacity(t *testing.T) {",
  str% "",
  str% "\tvar expected int64 = 4",
  str% "",
  str% "\tbuf := NewBuffer([]byte{0x00, 0x00, 0x00, 0x00})",
  str% "",
  str% "\tout := buf.ByteCapacity()",
  str% "\tif expected != out {",
  str% "",
  str% "\t\tt.Fatalf(\"expected int64 does not match the one gotten (got %d, expected %d)\", out, expected)",
  str% "",
  str% "\t}",
  str% "",
  str% "}"]

/-- v3/buffer_test.go:121-134 -/
def TestBufferBitCapacity : List Str := [
  str% "func TestBufferBitCapacity(t *testing.T) {",
  str% "",
  str% "\tvar expected int64 = 32",
  str% "",
  str% "\tbuf := NewBuffer([]byte{0x00, 0x00, 0x00, 0x00})",
  str% "",
  str% "\tout := buf.BitCapacity()",
  str% "\tif expected != out {",
  str% "",
  str% "\t\tt.Fatalf(\"expected int64 does not match the one gotten (got %d, expected %d)\", out, expected)",
  str% "",
  str% "\t}",
  str% "",
  str% "}"]

/-- v3/buffer_test.go:136-151 -/
def TestBufferByteOffset : List Str := [
  str% "func TestBufferByteOffset(t *testing.T) {",
  str% "",
  str% "\tvar expected int64 = 0x02",
  str% "",
  str% "\tbuf := NewBuffer([]byte{0x00, 0x00, 0x00, 0x00})",
  str% "",
  str% "\tbuf.SeekByte(0x02, false)",
  str% "",
  str% "\tout := buf.ByteOffset()",
  str% "\tif expected != out {",
  str% "",
  str% "\t\tt.Fatalf(\"expected int64 does not match the one gotten (got %d, expected %d)\", out, expected)",
  str% "",
  str% "\t}",
  str% "",
  str% "}"]

/-- v3/buffer_test.go:153-168 -/
def TestBufferBitOffset : List Str := [
  str% "func TestBufferBitOffset(t *testing.T) {",
  str% "",
  str% "\tvar expected int64 = 0x0f",
  str% "",
  str% "\tbuf := NewBuffer([]byte{0x00, 0x00, 0x00, 0x00})",
  str% "",
  str% "\tbuf.SeekBit(0x0f, false)",
  str% "",
  str% "\tout := buf.BitOffset()",
  str% "\tif expected != out {",
  str% "",
  str% "\t\tt.Fatalf(\"expected int64 does not match the one gotten (got %d, expected %d)\", out, expected)",
  str% "",
  str% "\t}",
  str% "",
  str% "}"]

/-- v3/buffer_test.go:170-187 -/
def TestBufferRefresh : List Str := [
  str% "func TestBufferRefresh(t *testing.T) {",
  str% "",
  str% "\tvar (",
  str% "\t\texpected1 int64 = 4",
  str% "\t\texpected2 int64 = 32",
  str% "\t)",
  str% "",
  str% "\tbuf := NewBuffer([]byte{0x00, 0x00, 0x00, 0x00})",
  str% "",
  str% "\tbuf.Refresh()",
  str% "",
  str% "\tif expected1 != buf.cap || expected2 != buf.bcap {",
  str% "",
  str% "\t\tt.Fatalf(\"expected int64(s) do not match the ones gotten (got %d and %d, expected %d and %d)\", buf.cap, buf.bcap, expected1, expected2)",
  str% "",
  str% "\t}",
  str% "",
  str% "}"]

/-- v3/buffer_test.go:189-203 -/
def TestBufferReset : List Str := [
  str% "func TestBufferReset(t *testing.T) {",
  str% "",
  str% "\tvar expected = []byte{}",
  str% "",
  str% "\tbuf := NewBuffer([]byte{0x00, 0x00, 0x00, 0x00})",
  str% "",
  str% "\tbuf.Reset()",
  str% "",
  str% "\tif !cmp.Equal(expected, buf.buf) {",
  str% "",
  str% "\t\tt.Fatalf(\"expected byte array does not match the one gotten (got %#v, expected %#v)\", buf.buf, expected)",
  str% "",
  str% "\t}",
  str% "",
  str% "}"]

/-- v3/buffer_test.go:205-232 -/
def TestBufferTruncateLeft : List Str := [
  str% "func TestBufferTruncateLeft(t *testing.T) {",
  str% "",
  str% "\tvar (",
  str% "\t\texpected1 byte  = 0x02",
  str% "\t\texpected2 int64 = 1",
  str% "\t)",
  str% "",
  str% "\tbuf := NewBuffer([]byte{0x01, 0x02})",
  str% "",
  str% "\tbuf.TruncateLeft(1)",
  str% "",
  str% "\tt.Log(buf.buf)",
  str% "",
  str% "\tout1 := buf.ReadByte(0x00)",
  str% "\tif expected1 != out1 {",
  str% "",
  str% "\t\tt.Fatalf(\"expected byte does not match the one gotten (got %d, expected %d)\", out1, expected1)",
  str% "",
  str% "\t}",
  str% "",
  str% "\tout2 := buf.ByteCapacity()",
  str% "\tif expected2 != out2 {",
  str% "",
  str% "\t\tt.Fatalf(\"expected int64 does not match the one gotten (got %d, expected %d)\", out2, expected2)",
  str% "",
  str% "\t}",
  str% "",
  str% "}"]

/-- v3/buffer_test.go:234-261 -/
def TestBufferTruncateRight : List Str := [
  str% "func TestBufferTruncateRight(t *testing.T) {",
  str% "",
  str% "\tvar (",
  str% "\t\texpected1 byte  = 0x01",
  str% "\t\texpected2 int64 = 1",
  str% "\t)",
  str% "",
  str% "\tbuf := NewBuffer([]byte{0x01, 0x02})",
  str% "",
  str% "\tbuf.TruncateRight(1)",
  str% "",
  str% "\tt.Log(buf.buf)",
  str% "",
  str% "\tout1 := buf.ReadByte(0x00)",
  str% "\tif expected1 != out1 {",
  str% "",
  str% "\t\tt.Fatalf(\"expected byte does not match the one gotten (got %d, expected %d)\", out1, expected1)",
  str% "",
  str% "\t}",
  str% "",
  str% "\tout2 := buf.ByteCapacity()",
  str% "\tif expected2 != out2 {",
  str% "",
  str% "\t\tt.Fatalf(\"expected int64 does not match the one gotten (got %d, expected %d)\", out2, expected2)",
  str% "",
  str% "\t}",
  str% "",
  str% "}"]

/-- v3/buffer_test.go:263-278 -/
def TestBufferGrow : List Str := [
  str% "func TestBufferGrow(t *testing.T) {",
  str% "",
  str% "\tvar expected int64 = 4",
  str% "",
  str% "\tbuf := NewBuffer([]byte{0x00, 0x00})",
  str% "",
  str% "\tbuf.Grow(2)",
  str% "",
  str% "\tout := buf.ByteCapacity()",
  str% "\tif expected != out {",
  str% "",
  str% "\t\tt.Fatalf(\"expected int64 does not match the one gotten (got %d, expected %d)\", out, expected)",
  str% "",
  str% "\t}",
  str% "",
  str% "}"]

/-- v3/buffer_test.go:280-295 -/
def TestBufferGrow2 : List Str := [
  str% "func TestBufferGrow2(t *testing.T) {",
  str% "",
  str% "\tvar expected int64 = 4",
  str% "",
  str% "\tbuf := NewBuffer(make([]byte, 2, 4))",
  str% "",
  str% "\tbuf.Grow(2)",
  str% "",
  str% "\tvar out = buf.ByteCapacity()",
  str% "\tif expected != out {",
  str% "",
  str% "\t\tt.Fatalf(\"expected int64 does not match the one gotten (got %d, expected %d)\", out, expected)",
  str% "",
  str% "\t}",
  str% "",
  str% "}"]

/-- v3/buffer_test.go:297-313 -/
def TestBufferSeekByte : List Str := [
  str% "func TestBufferSeekByte(t *testing.T) {",
  str% "",
  str% "\tvar expected int64 = 0x04",
  str% "",
  str% "\tbuf := NewBuffer([]byte{0x00, 0x00, 0x00, 0x00})",
  str% "",
  str% "\tbuf.SeekByte(2, true)",
  str% "\tbuf.SeekByte(2, true)",
  str% "",
  str% "\tout := buf.ByteOffset()",
  str% "\tif expected != out {",
  str% "",
  str% "\t\tt.Fatalf(\"expected int64 does not match the one gotten (got %d, expected %d)\", out, expected)",
  str% "",
  str% "\t}",
  str% "",
  str% "}"]

/-- v3/buffer_test.go:315-331 -/
def TestBufferSeekBit : List Str := [
  str% "func TestBufferSeekBit(t *testing.T) {",
  str% "",
  str% "\tvar expected int64 = 0x20",
  str% "",
  str% "\tbuf := NewBuffer([]byte{0x00, 0x00, 0x00, 0x00})",
  str% "",
  str% "\tbuf.SeekBit(16, true)",
  str% "\tbuf.SeekBit(16, true)",
  str% "",
  str% "\tout := buf.BitOffset()",
  str% "\tif expected != out {",
  str% "",
  str% "\t\tt.Fatalf(\"expected int64 does not match the one gotten (got %d, expected %d)\", out, expected)",
  str% "",
  str% "\t}",
  str% "",
  str% "}"]

/-- v3/buffer_test.go:333-349 -/
def TestBufferAlignBit : List Str := [
  str% "func TestBufferAlignBit(t *testing.T) {",
  str% "",
  str% "\tvar expected int64 = 0x20",
  str% "",
  str% "\tbuf := NewBuffer([]byte{0x00, 0x00, 0x00, 0x00})",
  str% "",
  str% "\tbuf.SeekByte(0x04, false)",
  str% "\tbuf.AlignBit()",
  str% "",
  str% "\tout := buf.BitOffset()",
  str% "\tif expected != out {",
  str% "",
  str% "\t\tt.Fatalf(\"expected int64 does not match the one gotten (got %d, expected %d)\", out, expected)",
  str% "",
  str% "\t}",
  str% "",
  str% "}"]

/-- v3/buffer_test.go:351-367 -/
def TestBufferAlignByte : List Str := [
  str% "func TestBufferAlignByte(t *testing.T) {",
  str% "",
  str% "\tvar expected int64 = 0x04",
  str% "",
  str% "\tbuf := NewBuffer([]byte{0x00, 0x00, 0x00, 0x00})",
  str% "",
  str% "\tbuf.SeekBit(0x20, false)",
  str% "\tbuf.AlignByte()",
  str% "",
  str% "\tout := buf.ByteOffset()",
  str% "\tif expected != out {",
  str% "",
  str% "\t\tt.Fatalf(\"expected int64 does not match the one gotten (got %d, expected %d)\", out, expected)",
  str% "",
  str% "\t}",
  str% "",
  str% "}"]

/-- v3/buffer_test.go:369-392 -/
def TestBufferAfterByte : List Str := [
  str% "func TestBufferAfterByte(t *testing.T) {",
  str% "",
  str% "\tvar expected int64 = 2",
  str% "",
  str% "\tbuf := NewBuffer([]byte{0x00, 0x00, 0x00, 0x00})",
  str% "",
  str% "\tbuf.SeekByte(0x01, false)",
  str% "\tout := buf.AfterByte()",
  str% "",
  str% "\tif expected != out {",
  str% "",
  str% "\t\tt.Fatalf(\"expected int64 does not match the one gotten (got %d, expected %d)\", out, expected)",
  str% "",
  str% "\t}",
  str% "",
  str% "\tout = buf.AfterByte(0x01)",
  str% "",
  str% "\tif expected != out {",
  str% "",
  str% "\t\tt.Fatalf(\"expected int64 does not match the one gotten (got %d, expected %d)\", out, expected)",
  str% "",
  str% "\t}",
  str% "",
  str% "}"]

/-- v3/buffer_test.go:394-417 -/
def TestBufferAfterBit : List Str := [
  str% "func TestBufferAfterBit(t *testing.T) {",
  str% "",
  str% "\tvar expected int64 = 16",
  str% "",
  str% "\tbuf := NewBuffer([]byte{0x00, 0x00, 0x00, 0x00})",
  str% "",
  str% "\tbuf.SeekBit(0x0f, false)",
  str% "\tout := buf.AfterBit()",
  str% "",
  str% "\tif expected != out {",
  str% "",
  str% "\t\tt.Fatalf(\"expected int64 does not match the one gotten (got %d, expected %d)\", out, expected)",
  str% "",
  str% "\t}",
  str% "",
  str% "\tout = buf.AfterBit(0x0f)",
  str% "",
  str% "\tif expected != out {",
  str% "",
  str% "\t\tt.Fatalf(\"expected int64 does not match the one gotten (got %d, expected %d)\", out, expected)",
  str% "",
  str% "\t}",
  str% "",
  str% "}"]

/-- v3/buffer_test.go:419-432 -/
def TestBufferReadByte : List Str := [
  str% "func TestBufferReadByte(t *testing.T) {",
  str% "",
  str% "\tvar expected byte = 0x03",
  str% "",
  str% "\tbuf := NewBuffer([]byte{0x01, 0x02, 0x03, 0x04})",
  str% "",
  str% "\tout := buf.ReadByte(0x02)",
  str% "\tif expected != out {",
  str% "",
  str% "\t\tt.Fatalf(\"expected byte does not match the one gotten (got %d, expected %d)\", out, expected)",
  str% "",
  str% "\t}",
  str% "",
  str% "}"]

/-- v3/buffer_test.go:434-447 -/
def TestBufferReadByteNext : List Str := [
  str% "func TestBufferReadByteNext(t *testing.T) {",
  str% "",
  str% "\tvar expected byte = 0x01",
  str% "",
  str% "\tbuf := NewBuffer([]byte{0x01, 0x02, 0x03, 0x04})",
  str% "",
  str% "\tout := buf.ReadByteNext()",
  str% "\tif expected != out {",
  str% "",
  str% "\t\tt.Fatalf(\"expected byte does not match the one gotten (got %d, expected %d)\", out, expected)",
  str% "",
  str% "\t}",
  str% "",
  str% "}"]

/-- v3/buffer_test.go:449-462 -/
def TestBufferReadBytes : List Str := [
  str% "func TestBufferReadBytes(t *testing.T) {",
  str% "",
  str% "\tvar expected = []byte{0x03, 0x04}",
  str% "",
  str% "\tbuf := NewBuffer([]byte{0x01, 0x02, 0x03, 0x04})",
  str% "",
  str% "\tout := buf.ReadBytes(0x02, 2)",
  str% "\tif !cmp.Equal(expected, out) {",
  str% "",
  str% "\t\tt.Fatalf(\"expected byte array does not match the one gotten (got %#v, expected %#v)\", out, expected)",
  str% "",
  str% "\t}",
  str% "",
  str% "}"]

/-- v3/buffer_test.go:464-477 -/
def TestBufferReadBytesNext : List Str := [
  str% "func TestBufferReadBytesNext(t *testing.T) {",
  str% "",
  str% "\tvar expected = []byte{0x01, 0x02}",
  str% "",
  str% "\tbuf := NewBuffer([]byte{0x01, 0x02, 0x03, 0x04})",
  str% "",
  str% "\tout := buf.ReadBytesNext(2)",
  str% "\tif !cmp.Equal(expected, out) {",
  str% "",
  str% "\t\tt.Fatalf(\"expected byte array does not match the one gotten (got %#v, expected %#v)\", out, expected)",
  str% "",
  str% "\t}",
  str% "",
  str% "}"]

/-- v3/buffer_test.go:480-807 -/
def TestBufferReadSNEN : List Str := [
  str% "func TestBufferReadSNEN(t *testing.T) {",
  str% "",
  str% "\tvar (",
  str% "\t\texpectedReadu16le = []uint16{0x01, 0x00}",
  str% "\t\texpectedReadu16be = []uint16{0x100, 0x00}",
  str% "\t\texpectedReadu32le = []uint32{0x01, 0x00}",
  str% "\t\texpectedReadu32be = []uint32{0x1000000, 0x00}",
  str% "\t\texpectedReadu64le = []uint64{0x01, 0x01}",
  str% "\t\texpectedReadu64be = []uint64{0x100000000000000, 0x100000000000000}",
  str% "",
  str% "\t\texpectedReadi16le = []int16{0x01, 0x00}",
  str% "\t\texpectedReadi16be = []int16{0x100, 0x00}",
  str% "\t\texpectedReadi32le = []int32{0x01, 0x00}",
  str% "\t\texpectedReadi32be = []int32{0x1000000, 0x00}",
  str% "\t\texpectedReadi64le = []int64{0x01, 0x01}",
  str% "\t\texpectedReadi64be = []int64{0x100000000000000, 0x100000000000000}",
  str% "\t)",
  str% "",
  str% "\tbuf := NewBuffer([]byte{0x01, 0x00, 0x00, 0x00, 0x00, 0x00, 0x00, 0x00, 0x01, 0x00, 0x00, 0x00, 0x00, 0x00, 0x00, 0x00})",
  str% "",
  str% "\t//",
  str% "\t// u16le",
  str% "\t//",
  str% "",
  str% "\tout1 := buf.ReadU16LENext(2)",
  str% "\tif !cmp.Equal(out1, expectedReadu16le) {",
  str% "",
  str% "\t\tt.Fatalf(\"expected uint16 array does not match the one gotten (got %#v, expected %#v)\", out1, expectedReadu16le)",
  str% "",
  str% "\t}",
  str% "",
  str% "\toff := buf.ByteOffset()",
  str% "\tif off != 4 {",
  str% "",
  str% "\t\tt.Fatalf(\"incorrect offset: %d\", off)",
  str% "",
  str% "\t}",
  str% "\tbuf.SeekByte(0x00, false)",
  str% "",
  str% "\t//",
  str% "\t// u16be",
  str% "\t//",
  str% "",
  str% "\tout1 = buf.ReadU16BENext(2)",
  str% "\tif !cmp.Equal(out1, expectedReadu16be) {",
  str% "",
  str% "\t\tt.Fatalf(\"expected uint16 array does not match the one gotten (got %#v, expected %#v)\", out1, expectedReadu16be)",
  str% "",
  str% "\t}",
  str% "",
  str% "\toff = buf.ByteOffset()",
  str% "\tif off != 4 {",
  str% "",
  str% "\t\tt.Fatalf(\"incorrect offset: %d\", off)",
  str% "",
  str% "\t}",
  str% "\tbuf.SeekByte(0x00, false)",
  str% "",
  str% "\t//",
  str% "\t// u32le",
  str% "\t//",
  str% "",
  str% "\tout2 := buf.ReadU32LENext(2)",
  str% "\tif !cmp.Equal(out2, expectedReadu32le) {",
  str% "",
  str% "\t\tt.Fatalf(\"expected uint32 array does not match the one gotten (got %#v, expected %#v)\", out2, expectedReadu32le)",
  str% "",
  str% "\t}",
  str% "",
  str% "\toff = buf.ByteOffset()",
  str% "\tif off != 8 {",
  str% "",
  str% "\t\tt.Fatalf(\"incorrect offset: %d\", off)",
  str% "",
  str% "\t}",
  str% "\tbuf.SeekByte(0x00, false)",
  str% "",
  str% "\t//",
  str% "\t// u32be",
  str% "\t//",
  str% "",
  str% "\tout2 = buf.ReadU32BENext(2)",
  str% "\tif !cmp.Equal(out2, expectedReadu32be) {",
  str% "",
  str% "\t\tt.Fatalf(\"expected uint32 array does not match the one gotten (got %#v, expected %#v)\", out2, expectedReadu32be)",
  str% "",
  str% "\t}",
  str% "",
  str% "\toff = buf.ByteOffset()",
  str% "\tif off != 8 {",
  str% "",
  str% "\t\tt.Fatalf(\"incorrect offset: %d\", off)",
  str% "",
  str% "\t}",
  str% "\tbuf.SeekByte(0x00, false)",
  str% "",
  str% "\t//",
  str% "\t// u64le",
  str% "\t//",
  str% "",
  str% "\tout3 := buf.ReadU64LENext(2)",
  str% "\tif !cmp.Equal(out3, expectedReadu64le) {",
  str% "",
  str% "\t\tt.Fatalf(\"expected uint64 array does not match the one gotten (got %#v, expected %#v)\", out3, expectedReadu64le)",
  str% "",
  str% "\t}",
  str% "",
  str% "\toff = buf.ByteOffset()",
  str% "\tif off != 16 {",
  str% "",
  str% "\t\tt.Fatalf(\"incorrect offset: %d\", off)",
  str% "",
  str% "\t}",
  str% "\tbuf.SeekByte(0x00, false)",
  str% "",
  str% "\t//",
  str% "\t// u64be",
  str% "\t//",
  str% "",
  str% "\tout3 = buf.ReadU64BENext(2)",
  str% "\tif !cmp.Equal(out3, expectedReadu64be) {",
  str% "",
  str% "\t\tt.Fatalf(\"expected uint64 array does not match the one gotten (got %#v, expected %#v)\", out3, expectedReadu64be)",
  str% "",
  str% "\t}",
  str% "",
  str% "\toff = buf.ByteOffset()",
  str% "\tif off != 16 {",
  str% "",
  str% "\t\tt.Fatalf(\"incorrect offset: %d\", off)",
  str% "",
  str% "\t}",
  str% "\tbuf.SeekByte(0x00, false)",
  str% "",
  str% "\t//",
  str% "\t// i16le",
  str% "\t//",
  str% "",
  str% "\tout4 := buf.ReadI16LENext(2)",
  str% "\tif !cmp.Equal(out4, expectedReadi16le) {",
  str% "",
  str% "\t\tt.Fatalf(\"expected int16 array does not match the one gotten (got %#v, expected %#v)\", out4, expectedReadi16le)",
  str% "",
  str% "\t}",
  str% "\toff = buf.ByteOffset()",
  str% "\tif off != 4 {",
  str% "",
  str% "\t\tt.Fatalf(\"incorrect offset: %d\", off)",
  str% "",
  str% "\t}",
  str% "\tbuf.SeekByte(0x00, false)",
  str% "",
  str% "\t//",
  str% "\t// i16be",
  str% "\t//",
  str% "",
  str% "\tout4 = buf.ReadI16BENext(2)",
  str% "\tif !cmp.Equal(out4, expectedReadi16be) {",
  str% "",
  str% "\t\tt.Fatalf(\"expected int16 array does not match the one gotten (got %#v, expected %#v)\", out4, expectedReadi16be)",
  str% "",
  str% "\t}",
  str% "\toff = buf.ByteOffset()",
  str% "\tif off != 4 {",
  str% "",
  str% "\t\tt.Fatalf(\"incorrect offset: %d\", off)",
  str% "",
  str% "\t}",
  str% "\tbuf.SeekByte(0x00, false)",
  str% "",
  str% "\t//",
  str% "\t// i32le",
  str% "\t//",
  str% "",
  str% "\tout5 := buf.ReadI32LENext(2)",
  str% "\tif !cmp.Equal(out5, expectedReadi32le) {",
  str% "",
  str% "\t\tt.Fatalf(\"expected int32 array does not match the one gotten (got %#v, expected %#v)\", out5, expectedReadi32le)",
  str% "",
  str% "\t}",
  str% "\toff = buf.ByteOffset()",
  str% "\tif off != 8 {",
  str% "",
  str% "\t\tt.Fatalf(\"incorrect offset: %d\", off)",
  str% "",
  str% "\t}",
  str% "\tbuf.SeekByte(0x00, false)",
  str% "",
  str% "\t//",
  str% "\t// i32be",
  str% "\t//",
  str% "",
  str% "\tout5 = buf.ReadI32BENext(2)",
  str% "\tif !cmp.Equal(out5, expectedReadi32be) {",
  str% "",
  str% "\t\tt.Fatalf(\"expected int32 array does not match the one gotten (got %#v, expected %#v)\", out5, expectedReadi32be)",
  str% "",
  str% "\t}",
  str% "\toff = buf.ByteOffset()",
  str% "\tif off != 8 {",
  str% "",
  str% "\t\tt.Fatalf(\"incorrect offset: %d\", off)",
  str% "",
  str% "\t}",
  str% "\tbuf.SeekByte(0x00, false)",
  str% "",
  str% "\t//",
  str% "\t// i64le",
  str% "\t//",
  str% "",
  str% "\tout6 := buf.ReadI64LENext(2)",
  str% "\tif !cmp.Equal(out6, expectedReadi64le) {",
  str% "",
  str% "\t\tt.Fatalf(\"expected int64 array does not match the one gotten (got %#v, expected %#v)\", out6, expectedReadi64le)",
  str% "",
  str% "\t}",
  str% "\toff = buf.ByteOffset()",
  str% "\tif off != 16 {",
  str% "",
  str% "\t\tt.Fatalf(\"incorrect offset: %d\", off)",
  str% "",
  str% "\t}",
  str% "\tbuf.SeekByte(0x00, false)",
  str% "",
  str% "\t//",
  str% "\t// i64be",
  str% "\t//",
  str% "",
  str% "\tout6 = buf.ReadI64BENext(2)",
  str% "\tif !cmp.Equal(out6, expectedReadi64be) {",
  str% "",
  str% "\t\tt.Fatalf(\"expected int64 array does not match the one gotten (got %#v, expected %#v)\", out6, expectedReadi64be)",
  str% "",
  str% "\t}",
  str% "\toff = buf.ByteOffset()",
  str% "\tif off != 16 {",
  str% "",
  str% "\t\tt.Fatalf(\"incorrect offset: %d\", off)",
  str% "",
  str% "\t}",
  str% "\tbuf.SeekByte(0x00, false)",
  str% "",
  str% "\t//",
  str% "\t// floats (we use a slightly different buffer to have higher confidence here)",
  str% "\t//",
  str% "",
  str% "\tvar (",
  str% "\t\texpectedReadf32le = []float32{-45.318115, -8.536945e+32}",
  str% "\t\texpectedReadf32be = []float32{-3.081406, -1.0854726e-29}",
  str% "\t\texpectedReadf64le = []float64{-1.498274907009045e+261, 5.278146837874356e-99}",
  str% "\t\texpectedReadf64be = []float64{-42.42, 3.621}",
  str% "\t)",
  str% "",
  str% "\tbuf = NewBuffer([]byte{0xc0, 0x45, 0x35, 0xc2, 0x8f, 0x5c, 0x28, 0xf6, 0x40, 0xc, 0xf7, 0xce, 0xd9, 0x16, 0x87, 0x2b})",
  str% "",
  str% "\t//",
  str% "\t// f32le",
  str% "\t//",
  str% "",
  str% "\tout7 := buf.ReadF32LENext(2)",
  str% "\tif !cmp.Equal(out7, expectedReadf32le) {",
  str% "",
  str% "\t\tt.Fatalf(\"expected float32 array does not match the one gotten (got %#v, expected %#v)\", out7, expectedReadf32le)",
  str% "",
  str% "\t}",
  str% "\toff = buf.ByteOffset()",
  str% "\tif off != 8 {",
  str% "",
  str% "\t\tt.Fatalf(\"incorrect offset: %d\", off)",
  str% "",
  str% "\t}",
  str% "\tbuf.SeekByte(0x00, false)",
  str% "",
  str% "\t//",
  str% "\t// f32be",
  str% "\t//",
  str% "",
  str% "\tout7 = buf.ReadF32BENext(2)",
  str% "\tif !cmp.Equal(out7, expectedReadf32be) {",
  str% "",
  str% "\t\tt.Fatalf(\"expected float32 array does not match the one gotten (got %#v, expected %#v)\", out7, expectedReadf32be)",
  str% "",
  str% "\t}",
  str% "\toff = buf.ByteOffset()",
  str% "\tif off != 8 {",
  str% "",
  str% "\t\tt.Fatalf(\"incorrect offset: %d\", off)",
  str% "",
  str% "\t}",
  str% "\tbuf.SeekByte(0x00, false)",
  str% "",
  str% "\t//",
  str% "\t// f64le",
  str% "\t//",
  str% "",
  str% "\tout8 := buf.ReadF64LENext(2)",
  str% "\tif !cmp.Equal(out8, expectedReadf64le) {",
  str% "",
  str% "\t\tt.Fatalf(\"expected float64 array does not match the one gotten (got %#v, expected %#v)\", out8, expectedReadf64le)",
  str% "",
  str% "\t}",
  str% "\toff = buf.ByteOffset()",
  str% "\tif off != 16 {",
  str% "",
  str% "\t\tt.Fatalf(\"incorrect offset: %d\", off)",
  str% "",
  str% "\t}",
  str% "\tbuf.SeekByte(0x00, false)",
  str% "",
  str% "\t//",
  str% "\t// f64be",
  str% "\t//",
  str% "",
  str% "\tout8 = buf.ReadF64BENext(2)",
  str% "\tif !cmp.Equal(out8, expectedReadf64be) {",
  str% "",
  str% "\t\tt.Fatalf(\"expected float64 array does not match the one gotten (got %#v, expected %#v)\", out8, expectedReadf64be)",
  str% "",
  str% "\t}",
  str% "\toff = buf.ByteOffset()",
  str% "\tif off != 16 {",
  str% "",
  str% "\t\tt.Fatalf(\"incorrect offset: %d\", off)",
  str% "",
  str% "\t}",
  str% "\tbuf.SeekByte(0x00, false)",
  str% "",
  str% "}"]

/-- v3/buffer_test.go:809-824 -/
def TestBufferWriteByte : List Str := [
  str% "func TestBufferWriteByte(t *testing.T) {",
  str% "",
  str% "\tvar expected byte = 0x04",
  str% "",
  str% "\tbuf := NewBuffer([]byte{0x00, 0x00, 0x00, 0x00})",
  str% "",
  str% "\tbuf.WriteByte(0x03, 0x04)",
  str% "",
  str% "\tout := buf.ReadByte(0x03)",
  str% "\tif expected != out {",
  str% "",
  str% "\t\tt.Fatalf(\"expected byte does not match the one gotten (got %d, expected %d)\", out, expected)",
  str% "",
  str% "\t}",
  str% "",
  str% "}"]

/-- v3/buffer_test.go:826-841 -/
def TestBufferWriteByteNext : List Str := [
  str% "func TestBufferWriteByteNext(t *testing.T) {",
  str% "",
  str% "\tvar expected byte = 0x01",
  str% "",
  str% "\tbuf := NewBuffer([]byte{0x00, 0x00, 0x00, 0x00})",
  str% "",
  str% "\tbuf.WriteByteNext(0x01)",
  str% "",
  str% "\tout := buf.ReadByte(0x00)",
  str% "\tif expected != out {",
  str% "",
  str% "\t\tt.Fatalf(\"expected byte does not match the one gotten (got %d, expected %d)\", out, expected)",
  str% "",
  str% "\t}",
  str% "",
  str% "}"]

/-- v3/buffer_test.go:843-858 -/
def TestBufferWriteBytes : List Str := [
  str% "func TestBufferWriteBytes(t *testing.T) {",
  str% "",
  str% "\tvar expected = []byte{0x01, 0x02}",
  str% "",
  str% "\tbuf := NewBuffer([]byte{0x00, 0x00, 0x00, 0x00})",
  str% "",
  str% "\tbuf.WriteBytes(0x02, []byte{0x01, 0x02})",
  str% "",
  str% "\tout := buf.ReadBytes(0x02, 2)",
  str% "\tif !cmp.Equal(expected, out) {",
  str% "",
  str% "\t\tt.Fatalf(\"expected byte array does not match the one gotten (got %#v, expected %#v)\", out, expected)",
  str% "",
  str% "\t}",
  str% "",
  str% "}"]

/-- v3/buffer_test.go:860-875 -/
def TestBufferWriteBytesNext : List Str := [
  str% "func TestBufferWriteBytesNext(t *testing.T) {",
  str% "",
  str% "\tvar expected = []byte{0x01, 0x02}",
  str% "",
  str% "\tbuf := NewBuffer([]byte{0x00, 0x00, 0x00, 0x00})",
  str% "",
  str% "\tbuf.WriteBytesNext([]byte{0x01, 0x02})",
  str% "",
  str% "\tout := buf.ReadBytes(0x00, 2)",
  str% "\tif !cmp.Equal(expected, out) {",
  str% "",
  str% "\t\tt.Fatalf(\"expected byte array does not match the one gotten (got %#v, expected %#v)\", out, expected)",
  str% "",
  str% "\t}",
  str% "",
  str% "}"]

/-- v3/buffer_test.go:878-1312 -/
def TestBufferWriteSNEN : List Str := [
  str% "func TestBufferWriteSNEN(t *testing.T) {",
  str% "",
  str% "\tvar expected byte = 0x01",
  str% "",
  str% "\tbuf := NewBuffer([]byte{0x00, 0x00, 0x00, 0x00, 0x00, 0x00, 0x00, 0x00, 0x00, 0x00, 0x00, 0x00, 0x00, 0x00, 0x00, 0x00})",
  str% "",
  str% "\t//",
  str% "\t// u16le",
  str% "\t//",
  str% "",
  str% "\tbuf.WriteU16LENext([]uint16{0x01, 0x01})",
  str% "",
  str% "\tout := buf.ReadBytes(0x00, 1)",
  str% "\tif expected != out[0] {",
  str% "",
  str% "\t\tt.Fatalf(\"expected byte does not match the one gotten (got %d, expected %d)\", out[0], expected)",
  str% "",
  str% "\t}",
  str% "",
  str% "\tout = buf.ReadBytes(0x02, 1)",
  str% "\tif expected != out[0] {",
  str% "",
  str% "\t\tt.Fatalf(\"expected byte does not match the one gotten (got %d, expected %d)\", out[0], expected)",
  str% "",
  str% "\t}",
  str% "",
  str% "\toff := buf.ByteOffset()",
  str% "\tif off != 4 {",
  str% "",
  str% "\t\tt.Fatalf(\"incorrect offset: %d\", off)",
  str% "",
  str% "\t}",
  str% "\tbuf.SeekByte(0x00, false)",
  str% "",
  str% "\t//",
  str% "\t// u16be",
  str% "\t//",
  str% "",
  str% "\tbuf.WriteU16BENext([]uint16{0x100, 0x100})",
  str% "",
  str% "\tout = buf.ReadBytes(0x00, 1)",
  str% "\tif expected != out[0] {",
  str% "",
  str% "\t\tt.Fatalf(\"expected byte does not match the one gotten (got %d, expected %d)\", out[0], expected)",
  str% "",
  str% "\t}",
  str% "",
  str% "\tout = buf.ReadBytes(0x02, 1)",
  str% "\tif expected != out[0] {",
  str% "",
  str% "\t\tt.Fatalf(\"expected byte does not match the one gotten (got %d, expected %d)\", out[0], expected)",
  str% "",
  str% "\t}",
  str% "",
  str% "\toff = buf.ByteOffset()",
  str% "\tif off != 4 {",
  str% "",
  str% "\t\tt.Fatalf(\"incorrect offset: %d\", off)",
  str% "",
  str% "\t}",
  str% "\tbuf.SeekByte(0x00, false)",
  str% "",
  str% "\t//",
  str% "\t// u32le",
  str% "\t//",
  str% "",
  str% "\tbuf.WriteU32LENext([]uint32{0x01, 0x01})",
  str% "",
  str% "\tout = buf.ReadBytes(0x00, 1)",
  str% "\tif expected != out[0] {",
  str% "",
  str% "\t\tt.Fatalf(\"expected byte does not match the one gotten (got %d, expected %d)\", out[0], expected)",
  str% "",
  str% "\t}",
  str% "",
  str% "\tout = buf.ReadBytes(0x04, 1)",
  str% "\tif expected != out[0] {",
  str% "",
  str% "\t\tt.Fatalf(\"expected byte does not match the one gotten (got %d, expected %d)\", out[0], expected)",
  str% "",
  str% "\t}",
  str% "",
  str% "\toff = buf.ByteOffset()",
  str% "\tif off != 8 {",
  str% "",
  str% "\t\tt.Fatalf(\"incorrect offset: %d\", off)",
  str% "",
  str% "\t}",
  str% "\tbuf.SeekByte(0x00, false)",
  str% "",
  str% "\t//",
  str% "\t// u32be",
  str% "\t//",
  str% "",
  str% "\tbuf.WriteU32BENext([]uint32{0x1000000, 0x1000000})",
  str% "",
  str% "\tout = buf.ReadBytes(0x00, 1)",
  str% "\tif expected != out[0] {",
  str% "",
  str% "\t\tt.Fatalf(\"expected byte does not match the one gotten (got %d, expected %d)\", out[0], expected)",
  str% "",
  str% "\t}",
  str% "",
  str% "\tout = buf.ReadBytes(0x04, 1)",
  str% "\tif expected != out[0] {",
  str% "",
  str% "\t\tt.Fatalf(\"expected byte does not match the one gotten (got %d, expected %d)\", out[0], expected)",
  str% "",
  str% "\t}",
  str% "",
  str% "\toff = buf.ByteOffset()",
  str% "\tif off != 8 {",
  str% "",
  str% "\t\tt.Fatalf(\"incorrect offset: %d\", off)",
  str% "",
  str% "\t}",
  str% "\tbuf.SeekByte(0x00, false)",
  str% "",
  str% "\t//",
  str% "\t// u64le",
  str% "\t//",
  str% "",
  str% "\tbuf.WriteU64LENext([]uint64{0x01, 0x01})",
  str% "",
  str% "\tout = buf.ReadBytes(0x00, 1)",
  str% "\tif expected != out[0] {",
  str% "",
  str% "\t\tt.Fatalf(\"expected byte does not match the one gotten (got %d, expected %d)\", out[0], expected)",
  str% "",
  str% "\t}",
  str% "",
  str% "\tout = buf.ReadBytes(0x08, 1)",
  str% "\tif expected != out[0] {",
  str% "",
  str% "\t\tt.Fatalf(\"expected byte does not match the one gotten (got %d, expected %d)\", out[0], expected)",
  str% "",
  str% "\t}",
  str% "",
  str% "\toff = buf.ByteOffset()",
  str% "\tif off != 16 {",
  str% "",
  str% "\t\tt.Fatalf(\"incorrect offset: %d\", off)",
  str% "",
  str% "\t}",
  str% "\tbuf.SeekByte(0x00, false)",
  str% "",
  str% "\t//",
  str% "\t// u64be",
  str% "\t//",
  str% "",
  str% "\tbuf.WriteU64BENext([]uint64{0x100000000000000, 0x100000000000000})",
  str% "",
  str% "\tout = buf.ReadBytes(0x00, 1)",
  str% "\tif expected != out[0] {",
  str% "",
  str% "\t\tt.Fatalf(\"expected byte does not match the one gotten (got %d, expected %d)\", out[0], expected)",
  str% "",
  str% "\t}",
  str% "",
  str% "\tout = buf.ReadBytes(0x08, 1)",
  str% "\tif expected != out[0] {",
  str% "",
  str% "\t\tt.Fatalf(\"expected byte does not match the one gotten (got %d, expected %d)\", out[0], expected)",
  str% "",
  str% "\t}",
  str% "",
  str% "\toff = buf.ByteOffset()",
  str% "\tif off != 16 {",
  str% "",
  str% "\t\tt.Fatalf(\"incorrect offset: %d\", off)",
  str% "",
  str% "\t}",
  str% "\tbuf.SeekByte(0x00, false)",
  str% "",
  str% "\t//",
  str% "\t// i16le",
  str% "\t//",
  str% "",
  str% "\tbuf.WriteI16LENext([]int16{0x01, 0x01})",
  str% "",
  str% "\tout = buf.ReadBytes(0x00, 1)",
  str% "\tif expected != out[0] {",
  str% "",
  str% "\t\tt.Fatalf(\"expected byte does not match the one gotten (got %d, expected %d)\", out[0], expected)",
  str% "",
  str% "\t}",
  str% "",
  str% "\tout = buf.ReadBytes(0x02, 1)",
  str% "\tif expected != out[0] {",
  str% "",
  str% "\t\tt.Fatalf(\"expected byte does not match the one gotten (got %d, expected %d)\", out[0], expected)",
  str% "",
  str% "\t}",
  str% "",
  str% "\toff = buf.ByteOffset()",
  str% "\tif off != 4 {",
  str% "",
  str% "\t\tt.Fatalf(\"incorrect offset: %d\", off)",
  str% "",
  str% "\t}",
  str% "\tbuf.SeekByte(0x00, false)",
  str% "",
  str% "\t//",
  str% "\t// i16be",
  str% "\t//",
  str% "",
  str% "\tbuf.WriteI16BENext([]int16{0x100, 0x100})",
  str% "",
  str% "\tout = buf.ReadBytes(0x00, 1)",
  str% "\tif expected != out[0] {",
  str% "",
  str% "\t\tt.Fatalf(\"expected byte does not match the one gotten (got %d, expected %d)\", out[0], expected)",
  str% "",
  str% "\t}",
  str% "",
  str% "\tout = buf.ReadBytes(0x02, 1)",
  str% "\tif expected != out[0] {",
  str% "",
  str% "\t\tt.Fatalf(\"expected byte does not match the one gotten (got %d, expected %d)\", out[0], expected)",
  str% "",
  str% "\t}",
  str% "",
  str% "\toff = buf.ByteOffset()",
  str% "\tif off != 4 {",
  str% "",
  str% "\t\tt.Fatalf(\"incorrect offset: %d\", off)",
  str% "",
  str% "\t}",
  str% "\tbuf.SeekByte(0x00, false)",
  str% "",
  str% "\t//",
  str% "\t// i32le",
  str% "\t//",
  str% "",
  str% "\tbuf.WriteI32LENext([]int32{0x01, 0x01})",
  str% "",
  str% "\tout = buf.ReadBytes(0x00, 1)",
  str% "\tif expected != out[0] {",
  str% "",
  str% "\t\tt.Fatalf(\"expected byte does not match the one gotten (got %d, expected %d)\", out[0], expected)",
  str% "",
  str% "\t}",
  str% "",
  str% "\tout = buf.ReadBytes(0x04, 1)",
  str% "\tif expected != out[0] {",
  str% "",
  str% "\t\tt.Fatalf(\"expected byte does not match the one gotten (got %d, expected %d)\", out[0], expected)",
  str% "",
  str% "\t}",
  str% "",
  str% "\toff = buf.ByteOffset()",
  str% "\tif off != 8 {",
  str% "",
  str% "\t\tt.Fatalf(\"incorrect offset: %d\", off)",
  str% "",
  str% "\t}",
  str% "\tbuf.SeekByte(0x00, false)",
  str% "",
  str% "\t//",
  str% "\t// i32be",
  str% "\t//",
  str% "",
  str% "\tbuf.WriteI32BENext([]int32{0x1000000, 0x1000000})",
  str% "",
  str% "\tout = buf.ReadBytes(0x00, 1)",
  str% "\tif expected != out[0] {",
  str% "",
  str% "\t\tt.Fatalf(\"expected byte does not match the one gotten (got %d, expected %d)\", out[0], expected)",
  str% "",
  str% "\t}",
  str% "",
  str% "\tout = buf.ReadBytes(0x04, 1)",
  str% "\tif expected != out[0] {",
  str% "",
  str% "\t\tt.Fatalf(\"expected byte does not match the one gotten (got %d, expected %d)\", out[0], expected)",
  str% "",
  str% "\t}",
  str% "",
  str% "\toff = buf.ByteOffset()",
  str% "\tif off != 8 {",
  str% "",
  str% "\t\tt.Fatalf(\"incorrect offset: %d\", off)",
  str% "",
  str% "\t}",
  str% "\tbuf.SeekByte(0x00, false)",
  str% "",
  str% "\t//",
  str% "\t// i64le",
  str% "\t//",
  str% "",
  str% "\tbuf.WriteI64LENext([]int64{0x01, 0x01})",
  str% "",
  str% "\tout = buf.ReadBytes(0x00, 1)",
  str% "\tif expected != out[0] {",
  str% "",
  str% "\t\tt.Fatalf(\"expected byte does not match the one gotten (got %d, expected %d)\", out[0], expected)",
  str% "",
  str% "\t}",
  str% "",
  str% "\tout = buf.ReadBytes(0x08, 1)",
  str% "\tif expected != out[0] {",
  str% "",
  str% "\t\tt.Fatalf(\"expected byte does not match the one gotten (got %d, expected %d)\", out[0], expected)",
  str% "",
  str% "\t}",
  str% "",
  str% "\toff = buf.ByteOffset()",
  str% "\tif off != 16 {",
  str% "",
  str% "\t\tt.Fatalf(\"incorrect offset: %d\", off)",
  str% "",
  str% "\t}",
  str% "\tbuf.SeekByte(0x00, false)",
  str% "",
  str% "\t//",
  str% "\t// i64be",
  str% "\t//",
  str% "",
  str% "\tbuf.WriteI64BENext([]int64{0x100000000000000, 0x100000000000000})",
  str% "",
  str% "\tout = buf.ReadBytes(0x00, 1)",
  str% "\tif expected != out[0] {",
  str% "",
  str% "\t\tt.Fatalf(\"expected byte does not match the one gotten (got %d, expected %d)\", out[0], expected)",
  str% "",
  str% "\t}",
  str% "",
  str% "\tout = buf.ReadBytes(0x08, 1)",
  str% "\tif expected != out[0] {",
  str% "",
  str% "\t\tt.Fatalf(\"expected byte does not match the one gotten (got %d, expected %d)\", out[0], expected)",
  str% "",
  str% "\t}",
  str% "",
  str% "\toff = buf.ByteOffset()",
  str% "\tif off != 16 {",
  str% "",
  str% "\t\tt.Fatalf(\"incorrect offset: %d\", off)",
  str% "",
  str% "\t}",
  str% "\tbuf.SeekByte(0x00, false)",
  str% "",
  str% "\t//",
  str% "\t// floats (we use a slightly different expected integer array to have higher confidence here)",
  str% "\t//",
  str% "",
  str% "\tbuf = NewBuffer([]byte{0x00, 0x00, 0x00, 0x00, 0x00, 0x00, 0x00, 0x00, 0x00, 0x00, 0x00, 0x00, 0x00, 0x00, 0x00, 0x00})",
  str% "",
  str% "\texpected2 := []byte{0xc0, 0x45, 0x35, 0xc2, 0x8f, 0x5c, 0x28, 0xf6, 0x40, 0xc, 0xf7, 0xce, 0xd9, 0x16, 0x87, 0x2b}",
  str% "",
  str% "\t//",
  str% "\t// f32le",
  str% "\t//",
  str% "",
  str% "\tbuf.WriteF32LENext([]float32{-45.318115, -8.536945e+32})",
  str% "",
  str% "\tout = buf.ReadBytes(0x00, 8)",
  str% "\tif !cmp.Equal(expected2[0:8], out) {",
  str% "",
  str% "\t\tt.Fatalf(\"expected byte array does not match the one gotten (got %#v, expected %#v)\", out, expected2)",
  str% "",
  str% "\t}",
  str% "",
  str% "\toff = buf.ByteOffset()",
  str% "\tif off != 8 {",
  str% "",
  str% "\t\tt.Fatalf(\"incorrect offset: %d\", off)",
  str% "",
  str% "\t}",
  str% "\tbuf.SeekByte(0x00, false)",
  str% "",
  str% "\t//",
  str% "\t// f32be",
  str% "\t//",
  str% "",
  str% "\tbuf.WriteF32BENext([]float32{-3.081406, -1.0854726e-29})",
  str% "",
  str% "\tout = buf.ReadBytes(0x00, 8)",
  str% "\tif !cmp.Equal(expected2[0:8], out) {",
  str% "",
  str% "\t\tt.Fatalf(\"expected byte array does not match the one gotten (got %#v, expected %#v)\", out, expected2)",
  str% "",
  str% "\t}",
  str% "",
  str% "\toff = buf.ByteOffset()",
  str% "\tif off != 8 {",
  str% "",
  str% "\t\tt.Fatalf(\"incorrect offset: %d\", off)",
  str% "",
  str% "\t}",
  str% "\tbuf.SeekByte(0x00, false)",
  str% "",
  str% "\t//",
  str% "\t// f64le",
  str% "\t//",
  str% "",
  str% "\tbuf.WriteF64LENext([]float64{-1.498274907009045e+261, 5.278146837874356e-99})",
  str% "",
  str% "\tout = buf.ReadBytes(0x00, 16)",
  str% "\tif !cmp.Equal(expected2, out) {",
  str% "",
  str% "\t\tt.Fatalf(\"expected byte array does not match the one gotten (got %#v, expected %#v)\", out, expected2)",
  str% "",
  str% "\t}",
  str% "",
  str% "\toff = buf.ByteOffset()",
  str% "\tif off != 16 {",
  str% "",
  str% "\t\tt.Fatalf(\"incorrect offset: %d\", off)",
  str% "",
  str% "\t}",
  str% "\tbuf.SeekByte(0x00, false)",
  str% "",
  str% "\t//",
  str% "\t// f64be",
  str% "\t//",
  str% "",
  str% "\tbuf.WriteF64BENext([]float64{-42.42, 3.621})",
  str% "",
  str% "\tout = buf.ReadBytes(0x00, 16)",
  str% "\tif !cmp.Equal(expected2, out) {",
  str% "",
  str% "\t\tt.Fatalf(\"expected byte array does not match the one gotten (got %#v, expected %#v)\", out, expected2)",
  str% "",
  str% "\t}",
  str% "",
  str% "\toff = buf.ByteOffset()",
  str% "\tif off != 16 {",
  str% "",
  str% "\t\tt.Fatalf(\"incorrect offset: %d\", off)",
  str% "",
  str% "\t}",
  str% "\tbuf.SeekByte(0x00, false)",
  str% "",
  str% "}"]

/-- v3/buffer_test.go:1314-1327 -/
def TestBufferReadBit : List Str := [
  str% "func TestBufferReadBit(t *testing.T) {",
  str% "",
  str% "\tvar expected byte = 1",
  str% "",
  str% "\tbuf := NewBuffer([]byte{0x01, 0x00, 0x00, 0x00})",
  str% "",
  str% "\tout := buf.ReadBit(0x07)",
  str% "\tif expected != out {",
  str% "",
  str% "\t\tt.Fatalf(\"expected byte does not match the one gotten (got %d, expected %d)\", out, expected)",
  str% "",
  str% "\t}",
  str% "",
  str% "}"]

/-- v3/buffer_test.go:1329-1342 -/
def TestBufferReadBitNext : List Str := [
  str% "func TestBufferReadBitNext(t *testing.T) {",
  str% "",
  str% "\tvar expected byte = 1",
  str% "",
  str% "\tbuf := NewBuffer([]byte{0xff, 0x00, 0x00, 0x00})",
  str% "",
  str% "\tout := buf.ReadBitNext()",
  str% "\tif expected != out {",
  str% "",
  str% "\t\tt.Fatalf(\"expected byte does not match the one gotten (got %d, expected %d)\", out, expected)",
  str% "",
  str% "\t}",
  str% "",
  str% "}"]

/-- v3/buffer_test.go:1344-1357 -/
def TestBufferReadBits : List Str := [
  str% "func TestBufferReadBits(t *testing.T) {",
  str% "",
  str% "\tvar expected uint64 = 5",
  str% "",
  str% "\tbuf := NewBuffer([]byte{0x0d, 0x00, 0x00, 0x00})",
  str% "",
  str% "\tout := buf.ReadBits(0x05, 3)",
  str% "\tif expected != out {",
  str% "",
  str% "\t\tt.Fatalf(\"expected uint64 does not match the one gotten (got %d, expected %d)\", out, expected)",
  str% "",
  str% "\t}",
  str% "",
  str% "}"]

/-- v3/buffer_test.go:1359-1372 -/
def TestBufferReadBitsNext : List Str := [
  str% "func TestBufferReadBitsNext(t *testing.T) {",
  str% "",
  str% "\tvar expected uint64 = 13",
  str% "",
  str% "\tbuf := NewBuffer([]byte{0x0d, 0x00, 0x00, 0x00})",
  str% "",
  str% "\tout := buf.ReadBitsNext(8)",
  str% "\tif expected != out {",
  str% "",
  str% "\t\tt.Fatalf(\"expected uint64 does not match the one gotten (got %d, expected %d)\", out, expected)",
  str% "",
  str% "\t}",
  str% "",
  str% "}"]

/-- v3/buffer_test.go:1374-1389 -/
def TestBufferSetBit : List Str := [
  str% "func TestBufferSetBit(t *testing.T) {",
  str% "",
  str% "\tvar expected byte = 1",
  str% "",
  str% "\tbuf := NewBuffer([]byte{0x00, 0x00, 0x00, 0x00})",
  str% "",
  str% "\tbuf.SetBit(0x00)",
  str% "",
  str% "\tout := buf.ReadBit(0x00)",
  str% "\tif expected != out {",
  str% "",
  str% "\t\tt.Fatalf(\"expected byte does not match the one gotten (got %d, expected %d)\", out, expected)",
  str% "",
  str% "\t}",
  str% "",
  str% "}"]

/-- v3/buffer_test.go:1391-1406 -/
def TestBufferSetBitNext : List Str := [
  str% "func TestBufferSetBitNext(t *testing.T) {",
  str% "",
  str% "\tvar expected byte = 1",
  str% "",
  str% "\tbuf := NewBuffer([]byte{0x00, 0x00, 0x00, 0x00})",
  str% "",
  str% "\tbuf.SetBitNext()",
  str% "",
  str% "\tout := buf.ReadBit(0x00)",
  str% "\tif expected != out {",
  str% "",
  str% "\t\tt.Fatalf(\"expected byte does not match the one gotten (got %d, expected %d)\", out, expected)",
  str% "",
  str% "\t}",
  str% "",
  str% "}"]

/-- v3/buffer_test.go:1408-1423 -/
def TestBufferClearBit : List Str := [
  str% "func TestBufferClearBit(t *testing.T) {",
  str% "",
  str% "\tvar expected byte",
  str% "",
  str% "\tbuf := NewBuffer([]byte{0x00, 0x00, 0x00, 0x00})",
  str% "",
  str% "\tbuf.ClearBit(0x00)",
  str% "",
  str% "\tout := buf.ReadBit(0x00)",
  str% "\tif expected != out {",
  str% "",
  str% "\t\tt.Fatalf(\"expected byte does not match the one gotten (got %d, expected %d)\", out, expected)",
  str% "",
  str% "\t}",
  str% "",
  str% "}"]

/-- v3/buffer_test.go:1425-1440 -/
def TestBufferClearBitNext : List Str := [
  str% "func TestBufferClearBitNext(t *testing.T) {",
  str% "",
  str% "\tvar expected byte",
  str% "",
  str% "\tbuf := NewBuffer([]byte{0x00, 0x00, 0x00, 0x00})",
  str% "",
  str% "\tbuf.ClearBitNext()",
  str% "",
  str% "\tout := buf.ReadBit(0x00)",
  str% "\tif expected != out {",
  str% "",
  str% "\t\tt.Fatalf(\"expected byte does not match the one gotten (got %d, expected %d)\", out, expected)",
  str% "",
  str% "\t}",
  str% "",
  str% "}"]

/-- v3/buffer_test.go:1442-1457 -/
def TestBufferSetBits : List Str := [
  str% "func TestBufferSetBits(t *testing.T) {",
  str% "",
  str% "\tvar expected uint64 = 5",
  str% "",
  str% "\tbuf := NewBuffer([]byte{0x00, 0x00, 0x00, 0x00})",
  str% "",
  str% "\tbuf.SetBits(0x06, 5, 3)",
  str% "",
  str% "\tout := buf.ReadBits(0x06, 3)",
  str% "\tif expected != out {",
  str% "",
  str% "\t\tt.Fatalf(\"expected uint64 does not match the one gotten (got %d, expected %d)\", out, expected)",
  str% "",
  str% "\t}",
  str% "",
  str% "}"]

/-- v3/buffer_test.go:1459-1474 -/
def TestBufferSetBitsNext : List Str := [
  str% "func TestBufferSetBitsNext(t *testing.T) {",
  str% "",
  str% "\tvar expected uint64 = 13",
  str% "",
  str% "\tbuf := NewBuffer([]byte{0x00, 0x00, 0x00, 0x00})",
  str% "",
  str% "\tbuf.SetBitsNext(13, 8)",
  str% "",
  str% "\tout := buf.ReadBits(0x00, 8)",
  str% "\tif expected != out {",
  str% "",
  str% "\t\tt.Fatalf(\"expected uint64 does not match the one gotten (got %d, expected %d)\", out, expected)",
  str% "",
  str% "\t}",
  str% "",
  str% "}"]

/-- v3/buffer_test.go:1476-1491 -/
def TestBufferFlipBit : List Str := [
  str% "func TestBufferFlipBit(t *testing.T) {",
  str% "",
  str% "\tvar expected byte",
  str% "",
  str% "\tbuf := NewBuffer([]byte{0xff, 0xff, 0xff, 0xff})",
  str% "",
  str% "\tbuf.FlipBit(0x01)",
  str% "",
  str% "\tout := buf.ReadBit(0x01)",
  str% "\tif expected != out {",
  str% "",
  str% "\t\tt.Fatalf(\"expected byte does not match the one gotten (got %d, expected %d)\", out, expected)",
  str% "",
  str% "\t}",
  str% "",
  str% "}"]

/-- v3/buffer_test.go:1493-1508 -/
def TestBufferFlipBitNext : List Str := [
  str% "func TestBufferFlipBitNext(t *testing.T) {",
  str% "",
  str% "\tvar expected byte = 1",
  str% "",
  str% "\tbuf := NewBuffer([]byte{0x00, 0x00, 0x00, 0x00})",
  str% "",
  str% "\tbuf.FlipBitNext()",
  str% "",
  str% "\tout := buf.ReadBit(0x00)",
  str% "\tif expected != out {",
  str% "",
  str% "\t\tt.Fatalf(\"expected byte does not match the one gotten (got %d, expected %d)\", out, expected)",
  str% "",
  str% "\t}",
  str% "",
  str% "}"]

/-- v3/buffer_test.go:1510-1524 -/
def TestBufferClearAllBits : List Str := [
  str% "func TestBufferClearAllBits(t *testing.T) {",
  str% "",
  str% "\tvar expected = []byte{0x00, 0x00, 0x00, 0x00}",
  str% "",
  str% "\tbuf := NewBuffer([]byte{0xff, 0x00, 0xff, 0x00})",
  str% "",
  str% "\tbuf.ClearAllBits()",
  str% "",
  str% "\tif !cmp.Equal(expected, buf.buf) {",
  str% "",
  str% "\t\tt.Fatalf(\"expected byte array does not match the one gotten (got %#v, expected %#v)\", buf.buf, expected)",
  str% "",
  str% "\t}",
  str% "",
  str% "}"]

/-- v3/buffer_test.go:1526-1540 -/
def TestBufferSetAllBits : List Str := [
  str% "func TestBufferSetAllBits(t *testing.T) {",
  str% "",
  str% "\tvar expected = []byte{0xff, 0xff, 0xff, 0xff}",
  str% "",
  str% "\tbuf := NewBuffer([]byte{0x00, 0xff, 0x00, 0xff})",
  str% "",
  str% "\tbuf.SetAllBits()",
  str% "",
  str% "\tif !cmp.Equal(expected, buf.buf) {",
  str% "",
  str% "\t\tt.Fatalf(\"expected byte array does not match the one gotten (got %#v, expected %#v)\", buf.buf, expected)",
  str% "",
  str% "\t}",
  str% "",
  str% "}"]

/-- v3/buffer_test.go:1542-1556 -/
def TestBufferFlipAllBits : List Str := [
  str% "func TestBufferFlipAllBits(t *testing.T) {",
  str% "",
  str% "\tvar expected = []byte{0xff, 0x00, 0xff, 0x00}",
  str% "",
  str% "\tbuf := NewBuffer([]byte{0x00, 0xff, 0x00, 0xff})",
  str% "",
  str% "\tbuf.FlipAllBits()",
  str% "",
  str% "\tif !cmp.Equal(expected, buf.buf) {",
  str% "",
  str% "\t\tt.Fatalf(\"expected byte array does not match the one gotten (got %#v, expected %#v)\", buf.buf, expected)",
  str% "",
  str% "\t}",
  str% "",
  str% "}"]

/-- v3/buffer_test.go:1558-1566 -/
def TestBufferReadbitPanic1 : List Str := [
  str% "func TestBufferReadbitPanic1(t *testing.T) {",
  str% "",
  str% "\tdefer panicChecker(t, BufferOverreadError)",
  str% "",
  str% "\tbuf := NewBuffer([]byte{0x00, 0x00, 0x00, 0x00})",
  str% "",
  str% "\t_ = buf.ReadBit(0x20)",
  str% "",
  str% "}"]

/-- v3/buffer_test.go:1568-1576 -/
def TestBufferReadbitPanic2 : List Str := [
  str% "func TestBufferReadbitPanic2(t *testing.T) {",
  str% "",
  str% "\tdefer panicChecker(t, BufferUnderreadError)",
  str% "",
  str% "\tbuf := NewBuffer([]byte{0x00, 0x00, 0x00, 0x00})",
  str% "",
  str% "\t_ = buf.ReadBit(-0x01)",
  str% "",
  str% "}"]

/-- v3/buffer_test.go:1578-1586 -/
def TestBufferSetbitPanic1 : List Str := [
  str% "func TestBufferSetbitPanic1(t *testing.T) {",
  str% "",
  str% "\tdefer panicChecker(t, BufferOverwriteError)",
  str% "",
  str% "\tbuf := NewBuffer([]byte{0x00, 0x00, 0x00, 0x00})",
  str% "",
  str% "\tbuf.SetBit(0x20)",
  str% "",
  str% "}"]

/-- v3/buffer_test.go:1588-1596 -/
def TestBufferSetbitPanic2 : List Str := [
  str% "func TestBufferSetbitPanic2(t *testing.T) {",
  str% "",
  str% "\tdefer panicChecker(t, BufferUnderwriteError)",
  str% "",
  str% "\tbuf := NewBuffer([]byte{0x00, 0x00, 0x00, 0x00})",
  str% "",
  str% "\tbuf.SetBit(-0x01)",
  str% "",
  str% "}"]

/-- v3/buffer_test.go:1598-1606 -/
def TestBufferClearbitPanic1 : List Str := [
  str% "func TestBufferClearbitPanic1(t *testing.T) {",
  str% "",
  str% "\tdefer panicChecker(t, BufferOverwriteError)",
  str% "",
  str% "\tbuf := NewBuffer([]byte{0x00, 0x00, 0x00, 0x00})",
  str% "",
  str% "\tbuf.ClearBit(0x20)",
  str% "",
  str% "}"]

/-- v3/buffer_test.go:1608-1616 -/
def TestBufferClearbitPanic2 : List Str := [
  str% "func TestBufferClearbitPanic2(t *testing.T) {",
  str% "",
  str% "\tdefer panicChecker(t, BufferUnderwriteError)",
  str% "",
  str% "\tbuf := NewBuffer([]byte{0x00, 0x00, 0x00, 0x00})",
  str% "",
  str% "\tbuf.ClearBit(-0x01)",
  str% "",
  str% "}"]

/-- v3/buffer_test.go:1618-1626 -/
def TestBufferFlipbitPanic1 : List Str := [
  str% "func TestBufferFlipbitPanic1(t *testing.T) {",
  str% "",
  str% "\tdefer panicChecker(t, BufferOverwriteError)",
  str% "",
  str% "\tbuf := NewBuffer([]byte{0x00, 0x00, 0x00, 0x00})",
  str% "",
  str% "\tbuf.FlipBit(0x20)",
  str% "",
  str% "}"]

/-- v3/buffer_test.go:1628-1636 -/
def TestBufferFlipbitPanic2 : List Str := [
  str% "func TestBufferFlipbitPanic2(t *testing.T) {",
  str% "",
  str% "\tdefer panicChecker(t, BufferUnderwriteError)",
  str% "",
  str% "\tbuf := NewBuffer([]byte{0x00, 0x00, 0x00, 0x00})",
  str% "",
  str% "\tbuf.FlipBit(-0x01)",
  str% "",
  str% "}"]

/-- v3/buffer_test.go:1638-1646 -/
def TestBufferWriteBytesPanic1 : List Str := [
  str% "func TestBufferWriteBytesPanic1(t *testing.T) {",
  str% "",
  str% "\tdefer panicChecker(t, BufferOverwriteError)",
  str% "",
  str% "\tbuf := NewBuffer([]byte{0x00, 0x00, 0x00, 0x00})",
  str% "",
  str% "\tbuf.WriteBytes(0x04, []byte{0x01, 0x01})",
  str% "",
  str% "}"]

/-- v3/buffer_test.go:1648-1656 -/
def TestBufferWriteBytesPanic2 : List Str := [
  str% "func TestBufferWriteBytesPanic2(t *testing.T) {",
  str% "",
  str% "\tdefer panicChecker(t, BufferUnderwriteError)",
  str% "",
  str% "\tbuf := NewBuffer([]byte{0x00, 0x00, 0x00, 0x00})",
  str% "",
  str% "\tbuf.WriteBytes(-0x01, []byte{0x01, 0x01})",
  str% "",
  str% "}"]

/-- v3/buffer_test.go:1658-1666 -/
def TestBufferReadBytesPanic1 : List Str := [
  str% "func TestBufferReadBytesPanic1(t *testing.T) {",
  str% "",
  str% "\tdefer panicChecker(t, BufferOverreadError)",
  str% "",
  str% "\tbuf := NewBuffer([]byte{0x00, 0x00, 0x00, 0x00})",
  str% "",
  str% "\t_ = buf.ReadBytes(0x20, 1)",
  str% "",
  str% "}"]

/-- v3/buffer_test.go:1668-1676 -/
def TestBufferReadBytesPanic2 : List Str := [
  str% "func TestBufferReadBytesPanic2(t *testing.T) {",
  str% "",
  str% "\tdefer panicChecker(t, BufferUnderreadError)",
  str% "",
  str% "\tbuf := NewBuffer([]byte{0x00, 0x00, 0x00, 0x00})",
  str% "",
  str% "\t_ = buf.ReadBytes(-0x01, 1)",
  str% "",
  str% "}"]

/-- v3/buffer_test.go:1678-1686 -/
def TestBufferWriteU16LEPanic1 : List Str := [
  str% "func TestBufferWriteU16LEPanic1(t *testing.T) {",
  str% "",
  str% "\tdefer panicChecker(t, BufferOverwriteError)",
  str% "",
  str% "\tbuf := NewBuffer([]byte{0x00, 0x00, 0x00, 0x00})",
  str% "",
  str% "\tbuf.WriteU16LE(0x00, []uint16{0x01, 0x02, 0x03, 0x04})",
  str% "",
  str% "}"]

/-- v3/buffer_test.go:1688-1696 -/
def TestBufferWriteU16LEPanic2 : List Str := [
  str% "func TestBufferWriteU16LEPanic2(t *testing.T) {",
  str% "",
  str% "\tdefer panicChecker(t, BufferUnderwriteError)",
  str% "",
  str% "\tbuf := NewBuffer([]byte{0x00, 0x00, 0x00, 0x00})",
  str% "",
  str% "\tbuf.WriteU16LE(-0x01, []uint16{0x01, 0x02})",
  str% "",
  str% "}"]

/-- v3/buffer_test.go:1698-1706 -/
def TestBufferWriteU16BEPanic1 : List Str := [
  str% "func TestBufferWriteU16BEPanic1(t *testing.T) {",
  str% "",
  str% "\tdefer panicChecker(t, BufferOverwriteError)",
  str% "",
  str% "\tbuf := NewBuffer([]byte{0x00, 0x00, 0x00, 0x00})",
  str% "",
  str% "\tbuf.WriteU16BE(0x00, []uint16{0x01, 0x02, 0x03, 0x04})",
  str% "",
  str% "}"]

/-- v3/buffer_test.go:1708-1716 -/
def TestBufferWriteU16BEPanic2 : List Str := [
  str% "func TestBufferWriteU16BEPanic2(t *testing.T) {",
  str% "",
  str% "\tdefer panicChecker(t, BufferUnderwriteError)",
  str% "",
  str% "\tbuf := NewBuffer([]byte{0x00, 0x00, 0x00, 0x00})",
  str% "",
  str% "\tbuf.WriteU16BE(-0x01, []uint16{0x01, 0x02})",
  str% "",
  str% "}"]

/-- v3/buffer_test.go:1718-1726 -/
def TestBufferWriteU32LEPanic1 : List Str := [
  str% "func TestBufferWriteU32LEPanic1(t *testing.T) {",
  str% "",
  str% "\tdefer panicChecker(t, BufferOverwriteError)",
  str% "",
  str% "\tbuf := NewBuffer([]byte{0x00, 0x00, 0x00, 0x00})",
  str% "",
  str% "\tbuf.WriteU32LE(0x00, []uint32{0x01, 0x02, 0x03, 0x04})",
  str% "",
  str% "}"]

/-- v3/buffer_test.go:1728-1736 -/
def TestBufferWriteU32LEPanic2 : List Str := [
  str% "func TestBufferWriteU32LEPanic2(t *testing.T) {",
  str% "",
  str% "\tdefer panicChecker(t, BufferUnderwriteError)",
  str% "",
  str% "\tbuf := NewBuffer([]byte{0x00, 0x00, 0x00, 0x00})",
  str% "",
  str% "\tbuf.WriteU32LE(-0x01, []uint32{0x01})",
  str% "",
  str% "}"]

/-- v3/buffer_test.go:1738-1746 -/
def TestBufferWriteU32BEPanic1 : List Str := [
  str% "func TestBufferWriteU32BEPanic1(t *testing.T) {",
  str% "",
  str% "\tdefer panicChecker(t, BufferOverwriteError)",
  str% "",
  str% "\tbuf := NewBuffer([]byte{0x00, 0x00, 0x00, 0x00})",
  str% "",
  str% "\tbuf.WriteU32BE(0x00, []uint32{0x01, 0x02, 0x03, 0x04})",
  str% "",
  str% "}"]

/-- v3/buffer_test.go:1748-1756 -/
def TestBufferWriteU32BEPanic2 : List Str := [
  str% "func TestBufferWriteU32BEPanic2(t *testing.T) {",
  str% "",
  str% "\tdefer panicChecker(t, BufferUnderwriteError)",
  str% "",
  str% "\tbuf := NewBuffer([]byte{0x00, 0x00, 0x00, 0x00})",
  str% "",
  str% "\tbuf.WriteU32BE(-0x01, []uint32{0x01})",
  str% "",
  str% "}"]

/-- v3/buffer_test.go:1758-1766 -/
def TestBufferWriteU64LEPanic1 : List Str := [
  str% "func TestBufferWriteU64LEPanic1(t *testing.T) {",
  str% "",
  str% "\tdefer panicChecker(t, BufferOverwriteError)",
  str% "",
  str% "\tbuf := NewBuffer([]byte{0x00, 0x00, 0x00, 0x00})",
  str% "",
  str% "\tbuf.WriteU64LE(0x00, []uint64{0x01, 0x02, 0x03, 0x04})",
  str% "",
  str% "}"]

/-- v3/buffer_test.go:1768-1776 -/
def TestBufferWriteU64LEPanic2 : List Str := [
  str% "func TestBufferWriteU64LEPanic2(t *testing.T) {",
  str% "",
  str% "\tdefer panicChecker(t, BufferUnderwriteError)",
  str% "",
  str% "\tbuf := NewBuffer([]byte{0x00, 0x00, 0x00, 0x00, 0x00, 0x00, 0x00, 0x00})",
  str% "",
  str% "\tbuf.WriteU64LE(-0x01, []uint64{0x01})",
  str% "",
  str% "}"]

/-- v3/buffer_test.go:1778-1786 -/
def TestBufferWriteU64BEPanic1 : List Str := [
  str% "func TestBufferWriteU64BEPanic1(t *testing.T) {",
  str% "",
  str% "\tdefer panicChecker(t, BufferOverwriteError)",
  str% "",
  str% "\tbuf := NewBuffer([]byte{0x00, 0x00, 0x00, 0x00})",
  str% "",
  str% "\tbuf.WriteU64BE(0x00, []uint64{0x01, 0x02, 0x03, 0x04})",
  str% "",
  str% "}"]

/-- v3/buffer_test.go:1788-1796 -/
def TestBufferWriteU64BEPanic2 : List Str := [
  str% "func TestBufferWriteU64BEPanic2(t *testing.T) {",
  str% "",
  str% "\tdefer panicChecker(t, BufferUnderwriteError)",
  str% "",
  str% "\tbuf := NewBuffer([]byte{0x00, 0x00, 0x00, 0x00, 0x00, 0x00, 0x00, 0x00})",
  str% "",
  str% "\tbuf.WriteU64BE(-0x01, []uint64{0x01})",
  str% "",
  str% "}"]

/-- v3/buffer_test.go:1798-1806 -/
def TestBufferWriteI16LEPanic1 : List Str := [
  str% "func TestBufferWriteI16LEPanic1(t *testing.T) {",
  str% "",
  str% "\tdefer panicChecker(t, BufferOverwriteError)",
  str% "",
  str% "\tbuf := NewBuffer([]byte{0x00, 0x00, 0x00, 0x00})",
  str% "",
  str% "\tbuf.WriteI16LE(0x00, []int16{0x01, 0x02, 0x03, 0x04})",
  str% "",
  str% "}"]

/-- v3/buffer_test.go:1808-1816 -/
def TestBufferWriteI16LEPanic2 : List Str := [
  str% "func TestBufferWriteI16LEPanic2(t *testing.T) {",
  str% "",
  str% "\tdefer panicChecker(t, BufferUnderwriteError)",
  str% "",
  str% "\tbuf := NewBuffer([]byte{0x00, 0x00, 0x00, 0x00})",
  str% "",
  str% "\tbuf.WriteI16LE(-0x01, []int16{0x01, 0x02})",
  str% "",
  str% "}"]

/-- v3/buffer_test.go:1818-1826 -/
def TestBufferWriteI16BEPanic1 : List Str := [
  str% "func TestBufferWriteI16BEPanic1(t *testing.T) {",
  str% "",
  str% "\tdefer panicChecker(t, BufferOverwriteError)",
  str% "",
  str% "\tbuf := NewBuffer([]byte{0x00, 0x00, 0x00, 0x00})",
  str% "",
  str% "\tbuf.WriteI16BE(0x00, []int16{0x01, 0x02, 0x03, 0x04})",
  str% "",
  str% "}"]

/-- v3/buffer_test.go:1828-1836 -/
def TestBufferWriteI16BEPanic2 : List Str := [
  str% "func TestBufferWriteI16BEPanic2(t *testing.T) {",
  str% "",
  str% "\tdefer panicChecker(t, BufferUnderwriteError)",
  str% "",
  str% "\tbuf := NewBuffer([]byte{0x00, 0x00, 0x00, 0x00})",
  str% "",
  str% "\tbuf.WriteI16BE(-0x01, []int16{0x01, 0x02})",
  str% "",
  str% "}"]

/-- v3/buffer_test.go:1838-1846 -/
def TestBufferWriteI32LEPanic1 : List Str := [
  str% "func TestBufferWriteI32LEPanic1(t *testing.T) {",
  str% "",
  str% "\tdefer panicChecker(t, BufferOverwriteError)",
  str% "",
  str% "\tbuf := NewBuffer([]byte{0x00, 0x00, 0x00, 0x00})",
  str% "",
  str% "\tbuf.WriteI32LE(0x00, []int32{0x01, 0x02, 0x03, 0x04})",
  str% "",
  str% "}"]

/-- v3/buffer_test.go:1848-1856 -/
def TestBufferWriteI32LEPanic2 : List Str := [
  str% "func TestBufferWriteI32LEPanic2(t *testing.T) {",
  str% "",
  str% "\tdefer panicChecker(t, BufferUnderwriteError)",
  str% "",
  str% "\tbuf := NewBuffer([]byte{0x00, 0x00, 0x00, 0x00})",
  str% "",
  str% "\tbuf.WriteI32LE(-0x01, []int32{0x01})",
  str% "",
  str% "}"]

/-- v3/buffer_test.go:1858-1866 -/
def TestBufferWriteI32BEPanic1 : List Str := [
  str% "func TestBufferWriteI32BEPanic1(t *testing.T) {",
  str% "",
  str% "\tdefer panicChecker(t, BufferOverwriteError)",
  str% "",
  str% "\tbuf := NewBuffer([]byte{0x00, 0x00, 0x00, 0x00})",
  str% "",
  str% "\tbuf.WriteI32BE(0x00, []int32{0x01, 0x02, 0x03, 0x04})",
  str% "",
  str% "}"]

/-- v3/buffer_test.go:1868-1876 -/
def TestBufferWriteI32BEPanic2 : List Str := [
  str% "func TestBufferWriteI32BEPanic2(t *testing.T) {",
  str% "",
  str% "\tdefer panicChecker(t, BufferUnderwriteError)",
  str% "",
  str% "\tbuf := NewBuffer([]byte{0x00, 0x00, 0x00, 0x00})",
  str% "",
  str% "\tbuf.WriteI32BE(-0x01, []int32{0x01})",
  str% "",
  str% "}"]

/-- v3/buffer_test.go:1878-1886 -/
def TestBufferWriteI64LEPanic1 : List Str := [
  str% "func TestBufferWriteI64LEPanic1(t *testing.T) {",
  str% "",
  str% "\tdefer panicChecker(t, BufferOverwriteError)",
  str% "",
  str% "\tbuf := NewBuffer([]byte{0x00, 0x00, 0x00, 0x00})",
  str% "",
  str% "\tbuf.WriteI64LE(0x00, []int64{0x01, 0x02, 0x03, 0x04})",
  str% "",
  str% "}"]

/-- v3/buffer_test.go:1888-1896 -/
def TestBufferWriteI64LEPanic2 : List Str := [
  str% "func TestBufferWriteI64LEPanic2(t *testing.T) {",
  str% "",
  str% "\tdefer panicChecker(t, BufferUnderwriteError)",
  str% "",
  str% "\tbuf := NewBuffer([]byte{0x00, 0x00, 0x00, 0x00, 0x00, 0x00, 0x00, 0x00})",
  str% "",
  str% "\tbuf.WriteI64LE(-0x01, []int64{0x01})",
  str% "",
  str% "}"]

/-- v3/buffer_test.go:1898-1906 -/
def TestBufferWriteI64BEPanic1 : List Str := [
  str% "func TestBufferWriteI64BEPanic1(t *testing.T) {",
  str% "",
  str% "\tdefer panicChecker(t, BufferOverwriteError)",
  str% "",
  str% "\tbuf := NewBuffer([]byte{0x00, 0x00, 0x00, 0x00})",
  str% "",
  str% "\tbuf.WriteI64BE(0x00, []int64{0x01, 0x02, 0x03, 0x04})",
  str% "",
  str% "}"]

/-- v3/buffer_test.go:1908-1916 -/
def TestBufferWriteI64BEPanic2 : List Str := [
  str% "func TestBufferWriteI64BEPanic2(t *testing.T) {",
  str% "",
  str% "\tdefer panicChecker(t, BufferUnderwriteError)",
  str% "",
  str% "\tbuf := NewBuffer([]byte{0x00, 0x00, 0x00, 0x00, 0x00, 0x00, 0x00, 0x00})",
  str% "",
  str% "\tbuf.WriteI64BE(-0x01, []int64{0x01})",
  str% "",
  str% "}"]

/-- v3/buffer_test.go:1918-1926 -/
def TestBufferWriteF32LEPanic1 : List Str := [
  str% "func TestBufferWriteF32LEPanic1(t *testing.T) {",
  str% "",
  str% "\tdefer panicChecker(t, BufferOverwriteError)",
  str% "",
  str% "\tbuf := NewBuffer([]byte{0x00, 0x00, 0x00, 0x00})",
  str% "",
  str% "\tbuf.WriteF32LE(0x00, []float32{0x01, 0x02, 0x03, 0x04})",
  str% "",
  str% "}"]

/-- v3/buffer_test.go:1928-1936 -/
def TestBufferWriteF32LEPanic2 : List Str := [
  str% "func TestBufferWriteF32LEPanic2(t *testing.T) {",
  str% "",
  str% "\tdefer panicChecker(t, BufferUnderwriteError)",
  str% "",
  str% "\tbuf := NewBuffer([]byte{0x00, 0x00, 0x00, 0x00})",
  str% "",
  str% "\tbuf.WriteF32LE(-0x01, []float32{0x01})",
  str% "",
  str% "}"]

/-- v3/buffer_test.go:1938-1946 -/
def TestBufferWriteF32BEPanic1 : List Str := [
  str% "func TestBufferWriteF32BEPanic1(t *testing.T) {",
  str% "",
  str% "\tdefer panicChecker(t, BufferOverwriteError)",
  str% "",
  str% "\tbuf := NewBuffer([]byte{0x00, 0x00, 0x00, 0x00})",
  str% "",
  str% "\tbuf.WriteF32BE(0x00, []float32{0x01, 0x02, 0x03, 0x04})",
  str% "",
  str% "}"]

/-- v3/buffer_test.go:1948-1956 -/
def TestBufferWriteF32BEPanic2 : List Str := [
  str% "func TestBufferWriteF32BEPanic2(t *testing.T) {",
  str% "",
  str% "\tdefer panicChecker(t, BufferUnderwriteError)",
  str% "",
  str% "\tbuf := NewBuffer([]byte{0x00, 0x00, 0x00, 0x00})",
  str% "",
  str% "\tbuf.WriteF32BE(-0x01, []float32{0x01})",
  str% "",
  str% "}"]

/-- v3/buffer_test.go:1958-1966 -/
def TestBufferWriteF64LEPanic1 : List Str := [
  str% "func TestBufferWriteF64LEPanic1(t *testing.T) {",
  str% "",
  str% "\tdefer panicChecker(t, BufferOverwriteError)",
  str% "",
  str% "\tbuf := NewBuffer([]byte{0x00, 0x00, 0x00, 0x00})",
  str% "",
  str% "\tbuf.WriteF64LE(0x00, []float64{0x01, 0x02, 0x03, 0x04})",
  str% "",
  str% "}"]

/-- v3/buffer_test.go:1968-1976 -/
def TestBufferWriteF64LEPanic2 : List Str := [
  str% "func TestBufferWriteF64LEPanic2(t *testing.T) {",
  str% "",
  str% "\tdefer panicChecker(t, BufferUnderwriteError)",
  str% "",
  str% "\tbuf := NewBuffer([]byte{0x00, 0x00, 0x00, 0x00, 0x00, 0x00, 0x00, 0x00})",
  str% "",
  str% "\tbuf.WriteF64LE(-0x01, []float64{0x01})",
  str% "",
  str% "}"]

/-- v3/buffer_test.go:1978-1986 -/
def TestBufferWriteF64BEPanic1 : List Str := [
  str% "func TestBufferWriteF64BEPanic1(t *testing.T) {",
  str% "",
  str% "\tdefer panicChecker(t, BufferOverwriteError)",
  str% "",
  str% "\tbuf := NewBuffer([]byte{0x00, 0x00, 0x00, 0x00})",
  str% "",
  str% "\tbuf.WriteF64BE(0x00, []float64{0x01, 0x02, 0x03, 0x04})",
  str% "",
  str% "}"]

/-- v3/buffer_test.go:1988-1996 -/
def TestBufferWriteF64BEPanic2 : List Str := [
  str% "func TestBufferWriteF64BEPanic2(t *testing.T) {",
  str% "",
  str% "\tdefer panicChecker(t, BufferUnderwriteError)",
  str% "",
  str% "\tbuf := NewBuffer([]byte{0x00, 0x00, 0x00, 0x00, 0x00, 0x00, 0x00, 0x00})",
  str% "",
  str% "\tbuf.WriteF64BE(-0x01, []float64{0x01})",
  str% "",
  str% "}"]

/-- v3/buffer_test.go:1998-2006 -/
def TestBufferReadU16LEPanic1 : List Str := [
  str% "func TestBufferReadU16LEPanic1(t *testing.T) {",
  str% "",
  str% "\tdefer panicChecker(t, BufferOverreadError)",
  str% "",
  str% "\tbuf := NewBuffer([]byte{0x00, 0x00, 0x00, 0x00})",
  str% "",
  str% "\t_ = buf.ReadU16LE(0x04, 1)",
  str% "",
  str% "}"]

/-- v3/buffer_test.go:2008-2016 -/
def TestBufferReadU16LEPanic2 : List Str := [
  str% "func TestBufferReadU16LEPanic2(t *testing.T) {",
  str% "",
  str% "\tdefer panicChecker(t, BufferUnderreadError)",
  str% "",
  str% "\tbuf := NewBuffer([]byte{0x00, 0x00, 0x00, 0x00})",
  str% "",
  str% "\t_ = buf.ReadU16LE(-0x01, 1)",
  str% "",
  str% "}"]

/-- v3/buffer_test.go:2018-2026 -/
def TestBufferReadU16BEPanic1 : List Str := [
  str% "func TestBufferReadU16BEPanic1(t *testing.T) {",
  str% "",
  str% "\tdefer panicChecker(t, BufferOverreadError)",
  str% "",
  str% "\tbuf := NewBuffer([]byte{0x00, 0x00, 0x00, 0x00})",
  str% "",
  str% "\t_ = buf.ReadU16BE(0x04, 1)",
  str% "",
  str% "}"]

/-- v3/buffer_test.go:2028-2036 -/
def TestBufferReadU16BEPanic2 : List Str := [
  str% "func TestBufferReadU16BEPanic2(t *testing.T) {",
  str% "",
  str% "\tdefer panicChecker(t, BufferUnderreadError)",
  str% "",
  str% "\tbuf := NewBuffer([]byte{0x00, 0x00, 0x00, 0x00})",
  str% "",
  str% "\t_ = buf.ReadU16BE(-0x01, 1)",
  str% "",
  str% "}"]

/-- v3/buffer_test.go:2038-2046 -/
def TestBufferReadU32LEPanic1 : List Str := [
  str% "func TestBufferReadU32LEPanic1(t *testing.T) {",
  str% "",
  str% "\tdefer panicChecker(t, BufferOverreadError)",
  str% "",
  str% "\tbuf := NewBuffer([]byte{0x00, 0x00, 0x00, 0x00})",
  str% "",
  str% "\t_ = buf.ReadU32LE(0x04, 1)",
  str% "",
  str% "}"]

/-- v3/buffer_test.go:2048-2056 -/
def TestBufferReadU32LEPanic2 : List Str := [
  str% "func TestBufferReadU32LEPanic2(t *testing.T) {",
  str% "",
  str% "\tdefer panicChecker(t, BufferUnderreadError)",
  str% "",
  str% "\tbuf := NewBuffer([]byte{0x00, 0x00, 0x00, 0x00})",
  str% "",
  str% "\t_ = buf.ReadU32LE(-0x01, 1)",
  str% "",
  str% "}"]

/-- v3/buffer_test.go:2058-2066 -/
def TestBufferReadU32BEPanic1 : List Str := [
  str% "func TestBufferReadU32BEPanic1(t *testing.T) {",
  str% "",
  str% "\tdefer panicChecker(t, BufferOverreadError)",
  str% "",
  str% "\tbuf := NewBuffer([]byte{0x00, 0x00, 0x00, 0x00})",
  str% "",
  str% "\t_ = buf.ReadU32BE(0x04, 1)",
  str% "",
  str% "}"]

/-- v3/buffer_test.go:2068-2076 -/
def TestBufferReadU32BEPanic2 : List Str := [
  str% "func TestBufferReadU32BEPanic2(t *testing.T) {",
  str% "",
  str% "\tdefer panicChecker(t, BufferUnderreadError)",
  str% "",
  str% "\tbuf := NewBuffer([]byte{0x00, 0x00, 0x00, 0x00})",
  str% "",
  str% "\t_ = buf.ReadU32BE(-0x01, 1)",
  str% "",
  str% "}"]

/-- v3/buffer_test.go:2078-2086 -/
def TestBufferReadU64LEPanic1 : List Str := [
  str% "func TestBufferReadU64LEPanic1(t *testing.T) {",
  str% "",
  str% "\tdefer panicChecker(t, BufferOverreadError)",
  str% "",
  str% "\tbuf := NewBuffer([]byte{0x00, 0x00, 0x00, 0x00})",
  str% "",
  str% "\t_ = buf.ReadU64LE(0x04, 1)",
  str% "",
  str% "}"]

/-- v3/buffer_test.go:2088-2096 -/
def TestBufferReadU64LEPanic2 : List Str := [
  str% "func TestBufferReadU64LEPanic2(t *testing.T) {",
  str% "",
  str% "\tdefer panicChecker(t, BufferUnderreadError)",
  str% "",
  str% "\tbuf := NewBuffer([]byte{0x00, 0x00, 0x00, 0x00, 0x00, 0x00, 0x00, 0x00})",
  str% "",
  str% "\t_ = buf.ReadU64LE(-0x01, 1)",
  str% "",
  str% "}"]

/-- v3/buffer_test.go:2098-2106 -/
def TestBufferReadU64BEPanic1 : List Str := [
  str% "func TestBufferReadU64BEPanic1(t *testing.T) {",
  str% "",
  str% "\tdefer panicChecker(t, BufferOverreadError)",
  str% "",
  str% "\tbuf := NewBuffer([]byte{0x00, 0x00, 0x00, 0x00})",
  str% "",
  str% "\t_ = buf.ReadU64BE(0x04, 1)",
  str% "",
  str% "}"]

/-- v3/buffer_test.go:2108-2116 -/
def TestBufferReadU64BEPanic2 : List Str := [
  str% "func TestBufferReadU64BEPanic2(t *testing.T) {",
  str% "",
  str% "\tdefer panicChecker(t, BufferUnderreadError)",
  str% "",
  str% "\tbuf := NewBuffer([]byte{0x00, 0x00, 0x00, 0x00, 0x00, 0x00, 0x00, 0x00})",
  str% "",
  str% "\t_ = buf.ReadU64BE(-0x01, 1)",
  str% "",
  str% "}"]

/-- v3/buffer_test.go:2118-2126 -/
def TestBufferReadI16LEPanic1 : List Str := [
  str% "func TestBufferReadI16LEPanic1(t *testing.T) {",
  str% "",
  str% "\tdefer panicChecker(t, BufferOverreadError)",
  str% "",
  str% "\tbuf := NewBuffer([]byte{0x00, 0x00, 0x00, 0x00})",
  str% "",
  str% "\t_ = buf.ReadI16LE(0x04, 1)",
  str% "",
  str% "}"]

/-- v3/buffer_test.go:2128-2136 -/
def TestBufferReadI16LEPanic2 : List Str := [
  str% "func TestBufferReadI16LEPanic2(t *testing.T) {",
  str% "",
  str% "\tdefer panicChecker(t, BufferUnderreadError)",
  str% "",
  str% "\tbuf := NewBuffer([]byte{0x00, 0x00, 0x00, 0x00})",
  str% "",
  str% "\t_ = buf.ReadI16LE(-0x01, 1)",
  str% "",
  str% "}"]

/-- v3/buffer_test.go:2138-2146 -/
def TestBufferReadI16BEPanic1 : List Str := [
  str% "func TestBufferReadI16BEPanic1(t *testing.T) {",
  str% "",
  str% "\tdefer panicChecker(t, BufferOverreadError)",
  str% "",
  str% "\tbuf := NewBuffer([]byte{0x00, 0x00, 0x00, 0x00})",
  str% "",
  str% "\t_ = buf.ReadI16BE(0x04, 1)",
  str% "",
  str% "}"]

/-- v3/buffer_test.go:2148-2156 -/
def TestBufferReadI16BEPanic2 : List Str := [
  str% "func TestBufferReadI16BEPanic2(t *testing.T) {",
  str% "",
  str% "\tdefer panicChecker(t, BufferUnderreadError)",
  str% "",
  str% "\tbuf := NewBuffer([]byte{0x00, 0x00, 0x00, 0x00})",
  str% "",
  str% "\t_ = buf.ReadI16BE(-0x01, 1)",
  str% "",
  str% "}"]

/-- v3/buffer_test.go:2158-2166 -/
def TestBufferReadI32LEPanic1 : List Str := [
  str% "func TestBufferReadI32LEPanic1(t *testing.T) {",
  str% "",
  str% "\tdefer panicChecker(t, BufferOverreadError)",
  str% "",
  str% "\tbuf := NewBuffer([]byte{0x00, 0x00, 0x00, 0x00})",
  str% "",
  str% "\t_ = buf.ReadI32LE(0x04, 1)",
  str% "",
  str% "}"]

/-- v3/buffer_test.go:2168-2176 -/
def TestBufferReadI32LEPanic2 : List Str := [
  str% "func TestBufferReadI32LEPanic2(t *testing.T) {",
  str% "",
  str% "\tdefer panicChecker(t, BufferUnderreadError)",
  str% "",
  str% "\tbuf := NewBuffer([]byte{0x00, 0x00, 0x00, 0x00})",
  str% "",
  str% "\t_ = buf.ReadI32LE(-0x01, 1)",
  str% "",
  str% "}"]

/-- v3/buffer_test.go:2178-2186 -/
def TestBufferReadI32BEPanic1 : List Str := [
  str% "func TestBufferReadI32BEPanic1(t *testing.T) {",
  str% "",
  str% "\tdefer panicChecker(t, BufferOverreadError)",
  str% "",
  str% "\tbuf := NewBuffer([]byte{0x00, 0x00, 0x00, 0x00})",
  str% "",
  str% "\t_ = buf.ReadI32BE(0x04, 1)",
  str% "",
  str% "}"]

/-- v3/buffer_test.go:2188-2196 -/
def TestBufferReadI32BEPanic2 : List Str := [
  str% "func TestBufferReadI32BEPanic2(t *testing.T) {",
  str% "",
  str% "\tdefer panicChecker(t, BufferUnderreadError)",
  str% "",
  str% "\tbuf := NewBuffer([]byte{0x00, 0x00, 0x00, 0x00})",
  str% "",
  str% "\t_ = buf.ReadI32BE(-0x01, 1)",
  str% "",
  str% "}"]

/-- v3/buffer_test.go:2198-2206 -/
def TestBufferReadI64LEPanic1 : List Str := [
  str% "func TestBufferReadI64LEPanic1(t *testing.T) {",
  str% "",
  str% "\tdefer panicChecker(t, BufferOverreadError)",
  str% "",
  str% "\tbuf := NewBuffer([]byte{0x00, 0x00, 0x00, 0x00})",
  str% "",
  str% "\t_ = buf.ReadI64LE(0x04, 1)",
  str% "",
  str% "}"]

/-- v3/buffer_test.go:2208-2216 -/
def TestBufferReadI64LEPanic2 : List Str := [
  str% "func TestBufferReadI64LEPanic2(t *testing.T) {",
  str% "",
  str% "\tdefer panicChecker(t, BufferUnderreadError)",
  str% "",
  str% "\tbuf := NewBuffer([]byte{0x00, 0x00, 0x00, 0x00, 0x00, 0x00, 0x00, 0x00})",
  str% "",
  str% "\t_ = buf.ReadI64LE(-0x01, 1)",
  str% "",
  str% "}"]

/-- v3/buffer_test.go:2218-2226 -/
def TestBufferReadI64BEPanic1 : List Str := [
  str% "func TestBufferReadI64BEPanic1(t *testing.T) {",
  str% "",
  str% "\tdefer panicChecker(t, BufferOverreadError)",
  str% "",
  str% "\tbuf := NewBuffer([]byte{0x00, 0x00, 0x00, 0x00})",
  str% "",
  str% "\t_ = buf.ReadI64BE(0x04, 1)",
  str% "",
  str% "}"]

/-- v3/buffer_test.go:2228-2236 -/
def TestBufferReadI64BEPanic2 : List Str := [
  str% "func TestBufferReadI64BEPanic2(t *testing.T) {",
  str% "",
  str% "\tdefer panicChecker(t, BufferUnderreadError)",
  str% "",
  str% "\tbuf := NewBuffer([]byte{0x00, 0x00, 0x00, 0x00, 0x00, 0x00, 0x00, 0x00})",
  str% "",
  str% "\t_ = buf.ReadI64BE(-0x01, 1)",
  str% "",
  str% "}"]

/-- v3/buffer_test.go:2238-2246 -/
def TestBufferReadF32LEPanic1 : List Str := [
  str% "func TestBufferReadF32LEPanic1(t *testing.T) {",
  str% "",
  str% "\tdefer panicChecker(t, BufferOverreadError)",
  str% "",
  str% "\tbuf := NewBuffer([]byte{0x00, 0x00, 0x00, 0x00})",
  str% "",
  str% "\t_ = buf.ReadF32LE(0x04, 1)",
  str% "",
  str% "}"]

/-- v3/buffer_test.go:2248-2256 -/
def TestBufferReadF32LEPanic2 : List Str := [
  str% "func TestBufferReadF32LEPanic2(t *testing.T) {",
  str% "",
  str% "\tdefer panicChecker(t, BufferUnderreadError)",
  str% "",
  str% "\tbuf := NewBuffer([]byte{0x00, 0x00, 0x00, 0x00})",
  str% "",
  str% "\t_ = buf.ReadF32LE(-0x01, 1)",
  str% "",
  str% "}"]

/-- v3/buffer_test.go:2258-2266 -/
def TestBufferReadF32BEPanic1 : List Str := [
  str% "func TestBufferReadF32BEPanic1(t *testing.T) {",
  str% "",
  str% "\tdefer panicChecker(t, BufferOverreadError)",
  str% "",
  str% "\tbuf := NewBuffer([]byte{0x00, 0x00, 0x00, 0x00})",
  str% "",
  str% "\t_ = buf.ReadF32BE(0x04, 1)",
  str% "",
  str% "}"]

/-- v3/buffer_test.go:2268-2276 -/
def TestBufferReadF32BEPanic2 : List Str := [
  str% "func TestBufferReadF32BEPanic2(t *testing.T) {",
  str% "",
  str% "\tdefer panicChecker(t, BufferUnderreadError)",
  str% "",
  str% "\tbuf := NewBuffer([]byte{0x00, 0x00, 0x00, 0x00})",
  str% "",
  str% "\t_ = buf.ReadF32BE(-0x01, 1)",
  str% "",
  str% "}"]

/-- v3/buffer_test.go:2278-2286 -/
def TestBufferReadF64LEPanic1 : List Str := [
  str% "func TestBufferReadF64LEPanic1(t *testing.T) {",
  str% "",
  str% "\tdefer panicChecker(t, BufferOverreadError)",
  str% "",
  str% "\tbuf := NewBuffer([]byte{0x00, 0x00, 0x00, 0x00})",
  str% "",
  str% "\t_ = buf.ReadF64LE(0x04, 1)",
  str% "",
  str% "}"]

/-- v3/buffer_test.go:2288-2296 -/
def TestBufferReadF64LEPanic2 : List Str := [
  str% "func TestBufferReadF64LEPanic2(t *testing.T) {",
  str% "",
  str% "\tdefer panicChecker(t, BufferUnderreadError)",
  str% "",
  str% "\tbuf := NewBuffer([]byte{0x00, 0x00, 0x00, 0x00, 0x00, 0x00, 0x00, 0x00})",
  str% "",
  str% "\t_ = buf.ReadF64LE(-0x01, 1)",
  str% "",
  str% "}"]

/-- v3/buffer_test.go:2298-2306 -/
def TestBufferReadF64BEPanic1 : List Str := [
  str% "func TestBufferReadF64BEPanic1(t *testing.T) {",
  str% "",
  str% "\tdefer panicChecker(t, BufferOverreadError)",
  str% "",
  str% "\tbuf := NewBuffer([]byte{0x00, 0x00, 0x00, 0x00})",
  str% "",
  str% "\t_ = buf.ReadF64BE(0x04, 1)",
  str% "",
  str% "}"]

/-- v3/buffer_test.go:2308-2316 -/
def TestBufferReadF64BEPanic2 : List Str := [
  str% "func TestBufferReadF64BEPanic2(t *testing.T) {",
  str% "",
  str% "\tdefer panicChecker(t, BufferUnderreadError)",
  str% "",
  str% "\tbuf := NewBuffer([]byte{0x00, 0x00, 0x00, 0x00, 0x00, 0x00, 0x00, 0x00})",
  str% "",
  str% "\t_ = buf.ReadF64BE(-0x01, 1)",
  str% "",
  str% "}"]

/-- v3/buffer_test.go:2318-2326 -/
def TestBufferGrowPanic : List Str := [
  str% "func TestBufferGrowPanic(t *testing.T) {",
  str% "",
  str% "\tdefer panicChecker(t, BufferInvalidByteCountError)",
  str% "",
  str% "\tbuf := NewBuffer([]byte{0x00, 0x00})",
  str% "",
  str% "\tbuf.Grow(-1)",
  str% "",
  str% "}"]

/-- v3/buffer_test.go:2328-2336 -/
def TestBufferTruncateLeftPanic : List Str := [
  str% "func TestBufferTruncateLeftPanic(t *testing.T) {",
  str% "",
  str% "\tdefer panicChecker(t, BufferInvalidByteCountError)",
  str% "",
  str% "\tbuf := NewBuffer([]byte{0x00, 0x00})",
  str% "",
  str% "\tbuf.TruncateLeft(-1)",
  str% "",
  str% "}"]

/-- v3/buffer_test.go:2338-2346 -/
def TestBufferTruncateRightPanic : List Str := [
  str% "func TestBufferTruncateRightPanic(t *testing.T) {",
  str% "",
  str% "\tdefer panicChecker(t, BufferInvalidByteCountError)",
  str% "",
  str% "\tbuf := NewBuffer([]byte{0x00, 0x00})",
  str% "",
  str% "\tbuf.TruncateRight(-1)",
  str% "",
  str% "}"]

/-- All of them. -/
def text : List (List Str) := [TestNewBuffer, TestBufferBytes, TestBufferByteCapacity, TestBufferBitCapacity, TestBufferByteOffset, TestBufferBitOffset, TestBufferRefresh, TestBufferReset, TestBufferTruncateLeft, TestBufferTruncateRight, TestBufferGrow, TestBufferGrow2, TestBufferSeekByte, TestBufferSeekBit, TestBufferAlignBit, TestBufferAlignByte, TestBufferAfterByte, TestBufferAfterBit, TestBufferReadByte, TestBufferReadByteNext, TestBufferReadBytes, TestBufferReadBytesNext, TestBufferReadSNEN, TestBufferWriteByte, TestBufferWriteByteNext, TestBufferWriteBytes, TestBufferWriteBytesNext, TestBufferWriteSNEN, TestBufferReadBit, TestBufferReadBitNext, TestBufferReadBits, TestBufferReadBitsNext, TestBufferSetBit, TestBufferSetBitNext, TestBufferClearBit, TestBufferClearBitNext, TestBufferSetBits, TestBufferSetBitsNext, TestBufferFlipBit, TestBufferFlipBitNext, TestBufferClearAllBits, TestBufferSetAllBits, TestBufferFlipAllBits, TestBufferReadbitPanic1, TestBufferReadbitPanic2, TestBufferSetbitPanic1, TestBufferSetbitPanic2, TestBufferClearbitPanic1, TestBufferClearbitPanic2, TestBufferFlipbitPanic1, TestBufferFlipbitPanic2, TestBufferWriteBytesPanic1, TestBufferWriteBytesPanic2, TestBufferReadBytesPanic1, TestBufferReadBytesPanic2, TestBufferWriteU16LEPanic1, TestBufferWriteU16LEPanic2, TestBufferWriteU16BEPanic1, TestBufferWriteU16BEPanic2, TestBufferWriteU32LEPanic1, TestBufferWriteU32LEPanic2, TestBufferWriteU32BEPanic1, TestBufferWriteU32BEPanic2, TestBufferWriteU64LEPanic1, TestBufferWriteU64LEPanic2, TestBufferWriteU64BEPanic1, TestBufferWriteU64BEPanic2, TestBufferWriteI16LEPanic1, TestBufferWriteI16LEPanic2, TestBufferWriteI16BEPanic1, TestBufferWriteI16BEPanic2, TestBufferWriteI32LEPanic1, TestBufferWriteI32LEPanic2, TestBufferWriteI32BEPanic1, TestBufferWriteI32BEPanic2, TestBufferWriteI64LEPanic1, TestBufferWriteI64LEPanic2, TestBufferWriteI64BEPanic1, TestBufferWriteI64BEPanic2, TestBufferWriteF32LEPanic1, TestBufferWriteF32LEPanic2, TestBufferWriteF32BEPanic1, TestBufferWriteF32BEPanic2, TestBufferWriteF64LEPanic1, TestBufferWriteF64LEPanic2, TestBufferWriteF64BEPanic1, TestBufferWriteF64BEPanic2, TestBufferReadU16LEPanic1, TestBufferReadU16LEPanic2, TestBufferReadU16BEPanic1, TestBufferReadU16BEPanic2, TestBufferReadU32LEPanic1, TestBufferReadU32LEPanic2, TestBufferReadU32BEPanic1, TestBufferReadU32BEPanic2, TestBufferReadU64LEPanic1, TestBufferReadU64LEPanic2, TestBufferReadU64BEPanic1, TestBufferReadU64BEPanic2, TestBufferReadI16LEPanic1, TestBufferReadI16LEPanic2, TestBufferReadI16BEPanic1, TestBufferReadI16BEPanic2, TestBufferReadI32LEPanic1, TestBufferReadI32LEPanic2, TestBufferReadI32BEPanic1, TestBufferReadI32BEPanic2, TestBufferReadI64LEPanic1, TestBufferReadI64LEPanic2, TestBufferReadI64BEPanic1, TestBufferReadI64BEPanic2, TestBufferReadF32LEPanic1, TestBufferReadF32LEPanic2, TestBufferReadF32BEPanic1, TestBufferReadF32BEPanic2, TestBufferReadF64LEPanic1, TestBufferReadF64LEPanic2, TestBufferReadF64BEPanic1, TestBufferReadF64BEPanic2, TestBufferGrowPanic, TestBufferTruncateLeftPanic, TestBufferTruncateRightPanic]

end Crunch.Src.V3BufferTest
