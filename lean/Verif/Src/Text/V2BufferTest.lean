import Verif.Gen.Text

/-!
# The test functions of v2/buffer_test.go

Written by tools/src_embed.py.
-/

namespace Crunch.Src.V2BufferTest

open Crunch.Gen (Str)

/-- v2/buffer_test.go:42-89 -/
def TestNewBuffer : List Str := [
  str% "func TestNewBuffer(t *testing.T) {",
  str% "",
  str% "\tvar (",
  str% "\t\texpected1 = &Buffer{",
  str% "\t\t\tbuf:  []byte{0x00, 0x00, 0x00, 0x00},",
  str% "\t\t\toff:  0x00,",
  str% "\t\t\tcap:  4,",
  str% "\t\t\tboff: 0x00,",
  str% "\t\t\tbcap: 32,",
  str% "\t\t}",
  str% "\t\texpected2 = &Buffer{",
  str% "\t\t\tbuf:  []byte{},",
  str% "\t\t\toff:  0x00,",
  str% "\t\t\tcap:  0,",
  str% "\t\t\tboff: 0x00,",
  str% "\t\t\tbcap: 0,",
  str% "\t\t}",
  str% "\t\texpected3 = &Buffer{",
  str% "\t\t\tbuf:  []byte{0x00, 0x00, 0x00, 0x00, 0x00, 0x00, 0x00, 0x00},",
  str% "\t\t\toff:  0x00,",
  str% "\t\t\tcap:  8,",
  str% "\t\t\tboff: 0x00,",
  str% "\t\t\tbcap: 64,",
  str% "\t\t}",
  str% "\t)",
  str% "",
  str% "\tout := NewBuffer([]byte{0x00, 0x00, 0x00, 0x00})",
  str% "\tif !cmp.Equal(expected1, out, BufferComparer) {",
  str% "",
  str% "\t\tt.Fatalf(\"expected buffer does not match the one gotten (got %#v, expected %#v)\", out, expected1)",
  str% "",
  str% "\t}",
  str% "",
  str% "\tout = NewBuffer()",
  str% "\tif !cmp.Equal(expected2, out, BufferComparer) {",
  str% "",
  str% "\t\tt.Fatalf(\"expected buffer does not match the one gotten (got %#v, expected %#v)\", out, expected2)",
  str% "",
  str% "\t}",
  str% "",
  str% "\tout = NewBuffer([]byte{0x00, 0x00, 0x00, 0x00}, []byte{0x00, 0x00, 0x00, 0x00})",
  str% "\tif !cmp.Equal(expected3, out, BufferComparer) {",
  str% "",
  str% "\t\tt.Fatalf(\"expected buffer does not match the one gotten (got %#v, expected %#v)\", out, expected3)",
  str% "",
  str% "\t}",
  str% "",
  str% "}"]

/-- v2/buffer_test.go:91-104 -/
def TestBufferBytes : List Str := [
  str% "func TestBufferBytes(t *testing.T) {",
  str% "",
  str% "\tvar expected = []byte{0x01, 0x02, 0x03, 0x04}",
  str% "",
  str% "\tbuf := NewBuffer([]byte{0x01, 0x02, 0x03, 0x04})",
  str% "",
  str% "\tout := buf.Bytes()",
  str% "\tif !cmp.Equal(expected, out) {",
  str% "",
  str% "\t\tt.Fatalf(\"expected byte array does not match the one gotten (got %#v, expected %#v)\", out, expected)",
  str% "",
  str% "\t}",
  str% "",
  str% "}"]

/-- v2/buffer_test.go:106-119 -/
def TestBufferCapacity : List Str := [
  str% "func TestBufferCapacity(t *testing.T) {",
  str% "",
  str% "\tvar expected int64 = 4",
  str% "",
  str% "\tbuf := NewBuffer([]byte{0x00, 0x00, 0x00, 0x00})",
  str% "",
  str% "\tout := buf.Capacity()",
  str% "\tif expected != out {",
  str% "",
  str% "\t\tt.Fatalf(\"expected int64 does not match the one gotten (got %d, expected %d)\", out, expected)",
  str% "",
  str% "\t}",
  str% "",
  str% "}"]

/-- v2/buffer_test.go:121-134 -/
def TestBufferBitCapacity : List Str := [
  str% "func TestBufferBitCapacity(t *testing.T) {",
  str% "",
  str% "\tvar expected int64 = 32",
  str% "",
  str% "\tbuf := NewBuffer([]byte{0x00, 0x00, 0x00, 0x00})",
  str% "",
  str% "\tout := buf.BitCapacity()",
  str% "\tif expected != out {",
  str% "",
  str% "\t\tt.Fatalf(\"expected int64 does not match the one gotten (got %d, expected %d)\", out, expected)",
  str% "",
  str% "\t}",
  str% "",
  str% "}"]

/-- v2/buffer_test.go:136-151 -/
def TestBufferOffset : List Str := [
  str% "func TestBufferOffset(t *testing.T) {",
  str% "",
  str% "\tvar expected int64 = 0x02",
  str% "",
  str% "\tbuf := NewBuffer([]byte{0x00, 0x00, 0x00, 0x00})",
  str% "",
  str% "\tbuf.Seek(0x02, false)",
  str% "",
  str% "\tout := buf.Offset()",
  str% "\tif expected != out {",
  str% "",
  str% "\t\tt.Fatalf(\"expected int64 does not match the one gotten (got %d, expected %d)\", out, expected)",
  str% "",
  str% "\t}",
  str% "",
  str% "}"]

/-- v2/buffer_test.go:153-168 -/
def TestBufferBitOffset : List Str := [
  str% "func TestBufferBitOffset(t *testing.T) {",
  str% "",
  str% "\tvar expected int64 = 0x0f",
  str% "",
  str% "\tbuf := NewBuffer([]byte{0x00, 0x00, 0x00, 0x00})",
  str% "",
  str% "\tbuf.SeekBit(0x0f, false)",
  str% "",
  str% "\tout := buf.BitOffset()",
  str% "\tif expected != out {",
  str% "",
  str% "\t\tt.Fatalf(\"expected int64 does not match the one gotten (got %d, expected %d)\", out, expected)",
  str% "",
  str% "\t}",
  str% "",
  str% "}"]

/-- v2/buffer_test.go:170-187 -/
def TestBufferRefresh : List Str := [
  str% "func TestBufferRefresh(t *testing.T) {",
  str% "",
  str% "\tvar (",
  str% "\t\texpected1 int64 = 4",
  str% "\t\texpected2 int64 = 32",
  str% "\t)",
  str% "",
  str% "\tbuf := NewBuffer([]byte{0x00, 0x00, 0x00, 0x00})",
  str% "",
  str% "\tbuf.Refresh()",
  str% "",
  str% "\tif expected1 != buf.cap || expected2 != buf.bcap {",
  str% "",
  str% "\t\tt.Fatalf(\"expected int64(s) do not match the ones gotten (got %d and %d, expected %d and %d)\", buf.cap, buf.bcap, expected1, expected2)",
  str% "",
  str% "\t}",
  str% "",
  str% "}"]

/-- v2/buffer_test.go:189-203 -/
def TestBufferReset : List Str := [
  str% "func TestBufferReset(t *testing.T) {",
  str% "",
  str% "\tvar expected = []byte{}",
  str% "",
  str% "\tbuf := NewBuffer([]byte{0x00, 0x00, 0x00, 0x00})",
  str% "",
  str% "\tbuf.Reset()",
  str% "",
  str% "\tif !cmp.Equal(expected, buf.buf) {",
  str% "",
  str% "\t\tt.Fatalf(\"expected byte array does not match the one gotten (got %#v, expected %#v)\", buf.buf, expected)",
  str% "",
  str% "\t}",
  str% "",
  str% "}"]

/-- v2/buffer_test.go:205-220 -/
def TestBufferGrow : List Str := [
  str% "func TestBufferGrow(t *testing.T) {",
  str% "",
  str% "\tvar expected int64 = 4",
  str% "",
  str% "\tbuf := NewBuffer([]byte{0x00, 0x00})",
  str% "",
  str% "\tbuf.Grow(2)",
  str% "",
  str% "\tout := buf.Capacity()",
  str% "\tif expected != out {",
  str% "",
  str% "\t\tt.Fatalf(\"expected int64 does not match the one gotten (got %d, expected %d)\", out, expected)",
  str% "",
  str% "\t}",
  str% "",
  str% "}"]

/-- v2/buffer_test.go:222-238 -/
def TestBufferSeek : List Str := [
  str% "func TestBufferSeek(t *testing.T) {",
  str% "",
  str% "\tvar expected int64 = 0x04",
  str% "",
  str% "\tbuf := NewBuffer([]byte{0x00, 0x00, 0x00, 0x00})",
  str% "",
  str% "\tbuf.Seek(2, true)",
  str% "\tbuf.Seek(2, true)",
  str% "",
  str% "\tout := buf.Offset()",
  str% "\tif expected != out {",
  str% "",
  str% "\t\tt.Fatalf(\"expected int64 does not match the one gotten (got %d, expected %d)\", out, expected)",
  str% "",
  str% "\t}",
  str% "",
  str% "}"]

/-- v2/buffer_test.go:240-256 -/
def TestBufferSeekBit : List Str := [
  str% "func TestBufferSeekBit(t *testing.T) {",
  str% "",
  str% "\tvar expected int64 = 0x20",
  str% "",
  str% "\tbuf := NewBuffer([]byte{0x00, 0x00, 0x00, 0x00})",
  str% "",
  str% "\tbuf.SeekBit(16, true)",
  str% "\tbuf.SeekBit(16, true)",
  str% "",
  str% "\tout := buf.BitOffset()",
  str% "\tif expected != out {",
  str% "",
  str% "\t\tt.Fatalf(\"expected int64 does not match the one gotten (got %d, expected %d)\", out, expected)",
  str% "",
  str% "\t}",
  str% "",
  str% "}"]

/-- v2/buffer_test.go:258-274 -/
def TestBufferAlignBit : List Str := [
  str% "func TestBufferAlignBit(t *testing.T) {",
  str% "",
  str% "\tvar expected int64 = 0x20",
  str% "",
  str% "\tbuf := NewBuffer([]byte{0x00, 0x00, 0x00, 0x00})",
  str% "",
  str% "\tbuf.Seek(0x04, false)",
  str% "\tbuf.AlignBit()",
  str% "",
  str% "\tout := buf.BitOffset()",
  str% "\tif expected != out {",
  str% "",
  str% "\t\tt.Fatalf(\"expected int64 does not match the one gotten (got %d, expected %d)\", out, expected)",
  str% "",
  str% "\t}",
  str% "",
  str% "}"]

/-- v2/buffer_test.go:276-292 -/
def TestBufferAlignByte : List Str := [
  str% "func TestBufferAlignByte(t *testing.T) {",
  str% "",
  str% "\tvar expected int64 = 0x04",
  str% "",
  str% "\tbuf := NewBuffer([]byte{0x00, 0x00, 0x00, 0x00})",
  str% "",
  str% "\tbuf.SeekBit(0x20, false)",
  str% "\tbuf.AlignByte()",
  str% "",
  str% "\tout := buf.Offset()",
  str% "\tif expected != out {",
  str% "",
  str% "\t\tt.Fatalf(\"expected int64 does not match the one gotten (got %d, expected %d)\", out, expected)",
  str% "",
  str% "\t}",
  str% "",
  str% "}"]

/-- v2/buffer_test.go:294-317 -/
def TestBufferAfter : List Str := [
  str% "func TestBufferAfter(t *testing.T) {",
  str% "",
  str% "\tvar expected int64 = 2",
  str% "",
  str% "\tbuf := NewBuffer([]byte{0x00, 0x00, 0x00, 0x00})",
  str% "",
  str% "\tbuf.Seek(0x01, false)",
  str% "\tout := buf.After()",
  str% "",
  str% "\tif expected != out {",
  str% "",
  str% "\t\tt.Fatalf(\"expected int64 does not match the one gotten (got %d, expected %d)\", out, expected)",
  str% "",
  str% "\t}",
  str% "",
  str% "\tout = buf.After(0x01)",
  str% "",
  str% "\tif expected != out {",
  str% "",
  str% "\t\tt.Fatalf(\"expected int64 does not match the one gotten (got %d, expected %d)\", out, expected)",
  str% "",
  str% "\t}",
  str% "",
  str% "}"]

/-- v2/buffer_test.go:319-342 -/
def TestBufferAfterBit : List Str := [
  str% "func TestBufferAfterBit(t *testing.T) {",
  str% "",
  str% "\tvar expected int64 = 16",
  str% "",
  str% "\tbuf := NewBuffer([]byte{0x00, 0x00, 0x00, 0x00})",
  str% "",
  str% "\tbuf.SeekBit(0x0f, false)",
  str% "\tout := buf.AfterBit()",
  str% "",
  str% "\tif expected != out {",
  str% "",
  str% "\t\tt.Fatalf(\"expected int64 does not match the one gotten (got %d, expected %d)\", out, expected)",
  str% "",
  str% "\t}",
  str% "",
  str% "\tout = buf.AfterBit(0x0f)",
  str% "",
  str% "\tif expected != out {",
  str% "",
  str% "\t\tt.Fatalf(\"expected int64 does not match the one gotten (got %d, expected %d)\", out, expected)",
  str% "",
  str% "\t}",
  str% "",
  str% "}"]

/-- v2/buffer_test.go:344-357 -/
def TestBufferReadByte : List Str := [
  str% "func TestBufferReadByte(t *testing.T) {",
  str% "",
  str% "\tvar expected byte = 0x03",
  str% "",
  str% "\tbuf := NewBuffer([]byte{0x01, 0x02, 0x03, 0x04})",
  str% "",
  str% "\tout := buf.ReadByte(0x02)",
  str% "\tif expected != out {",
  str% "",
  str% "\t\tt.Fatalf(\"expected byte does not match the one gotten (got %d, expected %d)\", out, expected)",
  str% "",
  str% "\t}",
  str% "",
  str% "}"]

/-- v2/buffer_test.go:359-372 -/
def TestBufferReadByteNext : List Str := [
  str% "func TestBufferReadByteNext(t *testing.T) {",
  str% "",
  str% "\tvar expected byte = 0x01",
  str% "",
  str% "\tbuf := NewBuffer([]byte{0x01, 0x02, 0x03, 0x04})",
  str% "",
  str% "\tout := buf.ReadByteNext()",
  str% "\tif expected != out {",
  str% "",
  str% "\t\tt.Fatalf(\"expected byte does not match the one gotten (got %d, expected %d)\", out, expected)",
  str% "",
  str% "\t}",
  str% "",
  str% "}"]

/-- v2/buffer_test.go:374-387 -/
def TestBufferReadBytes : List Str := [
  str% "func TestBufferReadBytes(t *testing.T) {",
  str% "",
  str% "\tvar expected = []byte{0x03, 0x04}",
  str% "",
  str% "\tbuf := NewBuffer([]byte{0x01, 0x02, 0x03, 0x04})",
  str% "",
  str% "\tout := buf.ReadBytes(0x02, 2)",
  str% "\tif !cmp.Equal(expected, out) {",
  str% "",
  str% "\t\tt.Fatalf(\"expected byte array does not match the one gotten (got %#v, expected %#v)\", out, expected)",
  str% "",
  str% "\t}",
  str% "",
  str% "}"]

/-- v2/buffer_test.go:389-402 -/
def TestBufferReadBytesNext : List Str := [
  str% "func TestBufferReadBytesNext(t *testing.T) {",
  str% "",
  str% "\tvar expected = []byte{0x01, 0x02}",
  str% "",
  str% "\tbuf := NewBuffer([]byte{0x01, 0x02, 0x03, 0x04})",
  str% "",
  str% "\tout := buf.ReadBytesNext(2)",
  str% "\tif !cmp.Equal(expected, out) {",
  str% "",
  str% "\t\tt.Fatalf(\"expected byte array does not match the one gotten (got %#v, expected %#v)\", out, expected)",
  str% "",
  str% "\t}",
  str% "",
  str% "}"]

/-- v2/buffer_test.go:404-459 -/
def TestBufferReadUNEN : List Str := [
  str% "func TestBufferReadUNEN(t *testing.T) {",
  str% "",
  str% "\tvar (",
  str% "\t\texpected1 = []uint16{0x01}",
  str% "\t\texpected2 = []uint16{0x100}",
  str% "\t\texpected3 = []uint32{0x01}",
  str% "\t\texpected4 = []uint32{0x1000000}",
  str% "\t\texpected5 = []uint64{0x01}",
  str% "\t\texpected6 = []uint64{0x100000000000000}",
  str% "\t)",
  str% "",
  str% "\tbuf := NewBuffer([]byte{0x01, 0x00, 0x00, 0x00, 0x00, 0x00, 0x00, 0x00})",
  str% "",
  str% "\tout1 := buf.ReadU16LE(0x00, 1)",
  str% "\tif !cmp.Equal(out1, expected1) {",
  str% "",
  str% "\t\tt.Fatalf(\"expected uint16 array does not match the one gotten (got %#v, expected %#v)\", out1, expected1)",
  str% "",
  str% "\t}",
  str% "",
  str% "\tout1 = buf.ReadU16BE(0x00, 1)",
  str% "\tif !cmp.Equal(out1, expected2) {",
  str% "",
  str% "\t\tt.Fatalf(\"expected uint16 array does not match the one gotten (got %#v, expected %#v)\", out1, expected2)",
  str% "",
  str% "\t}",
  str% "",
  str% "\tout2 := buf.ReadU32LE(0x00, 1)",
  str% "\tif !cmp.Equal(out2, expected3) {",
  str% "",
  str% "\t\tt.Fatalf(\"expected uint32 array does not match the one gotten (got %#v, expected %#v)\", out2, expected3)",
  str% "",
  str% "\t}",
  str% "",
  str% "\tout2 = buf.ReadU32BE(0x00, 1)",
  str% "\tif !cmp.Equal(out2, expected4) {",
  str% "",
  str% "\t\tt.Fatalf(\"expected uint32 array does not match the one gotten (got %#v, expected %#v)\", out2, expected4)",
  str% "",
  str% "\t}",
  str% "",
  str% "\tout3 := buf.ReadU64LE(0x00, 1)",
  str% "\tif !cmp.Equal(out3, expected5) {",
  str% "",
  str% "\t\tt.Fatalf(\"expected uint64 array does not match the one gotten (got %#v, expected %#v)\", out3, expected5)",
  str% "",
  str% "\t}",
  str% "",
  str% "\tout3 = buf.ReadU64BE(0x00, 1)",
  str% "\tif !cmp.Equal(out3, expected6) {",
  str% "",
  str% "\t\tt.Fatalf(\"expected uint64 array does not match the one gotten (got %#v, expected %#v)\", out3, expected6)",
  str% "",
  str% "\t}",
  str% "",
  str% "}"]

/-- v2/buffer_test.go:461-564 -/
def TestBufferReadUNENNext : List Str := [
  str% "func TestBufferReadUNENNext(t *testing.T) {",
  str% "",
  str% "\tvar (",
  str% "\t\texpected1 = []uint16{0x01}",
  str% "\t\texpected2 = []uint16{0x100}",
  str% "\t\texpected3 = []uint32{0x01}",
  str% "\t\texpected4 = []uint32{0x1000000}",
  str% "\t\texpected5 = []uint64{0x01}",
  str% "\t\texpected6 = []uint64{0x100000000000000}",
  str% "\t)",
  str% "",
  str% "\tbuf := NewBuffer([]byte{0x01, 0x00, 0x00, 0x00, 0x00, 0x00, 0x00, 0x00})",
  str% "",
  str% "\tout1 := buf.ReadU16LENext(1)",
  str% "\tif !cmp.Equal(out1, expected1) {",
  str% "",
  str% "\t\tt.Fatalf(\"expected uint16 array does not match the one gotten (got %#v, expected %#v)\", out1, expected1)",
  str% "",
  str% "\t}",
  str% "",
  str% "\toff := buf.Offset()",
  str% "\tif off != 2 {",
  str% "",
  str% "\t\tt.Fatalf(\"incorrect offset: %d\", off)",
  str% "",
  str% "\t}",
  str% "\tbuf.Seek(0x00, false)",
  str% "",
  str% "\tout1 = buf.ReadU16BENext(1)",
  str% "\tif !cmp.Equal(out1, expected2) {",
  str% "",
  str% "\t\tt.Fatalf(\"expected uint16 array does not match the one gotten (got %#v, expected %#v)\", out1, expected2)",
  str% "",
  str% "\t}",
  str% "",
  str% "\toff = buf.Offset()",
  str% "\tif off != 2 {",
  str% "",
  str% "\t\tt.Fatalf(\"incorrect offset: %d\", off)",
  str% "",
  str% "\t}",
  str% "\tbuf.Seek(0x00, false)",
  str% "",
  str% "\tout2 := buf.ReadU32LENext(1)",
  str% "\tif !cmp.Equal(out2, expected3) {",
  str% "",
  str% "\t\tt.Fatalf(\"expected uint32 array does not match the one gotten (got %#v, expected %#v)\", out2, expected3)",
  str% "",
  str% "\t}",
  str% "",
  str% "\toff = buf.Offset()",
  str% "\tif off != 4 {",
  str% "",
  str% "\t\tt.Fatalf(\"incorrect offset: %d\", off)",
  str% "",
  str% "\t}",
  str% "\tbuf.Seek(0x00, false)",
  str% "",
  str% "\tout2 = buf.ReadU32BENext(1)",
  str% "\tif !cmp.Equal(out2, expected4) {",
  str% "",
  str% "\t\tt.Fatalf(\"expected uint32 array does not match the one gotten (got %#v, expected %#v)\", out2, expected4)",
  str% "",
  str% "\t}",
  str% "",
  str% "\toff = buf.Offset()",
  str% "\tif off != 4 {",
  str% "",
  str% "\t\tt.Fatalf(\"incorrect offset: %d\", off)",
  str% "",
  str% "\t}",
  str% "\tbuf.Seek(0x00, false)",
  str% "",
  str% "\tout3 := buf.ReadU64LENext(1)",
  str% "\tif !cmp.Equal(out3, expected5) {",
  str% "",
  str% "\t\tt.Fatalf(\"expected uint64 array does not match the one gotten (got %#v, expected %#v)\", out3, expected5)",
  str% "",
  str% "\t}",
  str% "",
  str% "\toff = buf.Offset()",
  str% "\tif off != 8 {",
  str% "",
  str% "\t\tt.Fatalf(\"incorrect offset: %d\", off)",
  str% "",
  str% "\t}",
  str% "\tbuf.Seek(0x00, false)",
  str% "",
  str% "\tout3 = buf.ReadU64BENext(1)",
  str% "\tif !cmp.Equal(out3, expected6) {",
  str% "",
  str% "\t\tt.Fatalf(\"expected uint64 array does not match the one gotten (got %#v, expected %#v)\", out3, expected6)",
  str% "",
  str% "\t}",
  str% "",
  str% "\toff = buf.Offset()",
  str% "\tif off != 8 {",
  str% "",
  str% "\t\tt.Fatalf(\"incorrect offset: %d\", off)",
  str% "",
  str% "\t}",
  str% "\tbuf.Seek(0x00, false)",
  str% "",
  str% "}"]

/-- v2/buffer_test.go:566-581 -/
def TestBufferWriteByte : List Str := [
  str% "func TestBufferWriteByte(t *testing.T) {",
  str% "",
  str% "\tvar expected byte = 0x04",
  str% "",
  str% "\tbuf := NewBuffer([]byte{0x00, 0x00, 0x00, 0x00})",
  str% "",
  str% "\tbuf.WriteByte(0x03, 0x04)",
  str% "",
  str% "\tout := buf.ReadByte(0x03)",
  str% "\tif expected != out {",
  str% "",
  str% "\t\tt.Fatalf(\"expected byte does not match the one gotten (got %d, expected %d)\", out, expected)",
  str% "",
  str% "\t}",
  str% "",
  str% "}"]

/-- v2/buffer_test.go:583-598 -/
def TestBufferWriteByteNext : List Str := [
  str% "func TestBufferWriteByteNext(t *testing.T) {",
  str% "",
  str% "\tvar expected byte = 0x01",
  str% "",
  str% "\tbuf := NewBuffer([]byte{0x00, 0x00, 0x00, 0x00})",
  str% "",
  str% "\tbuf.WriteByteNext(0x01)",
  str% "",
  str% "\tout := buf.ReadByte(0x00)",
  str% "\tif expected != out {",
  str% "",
  str% "\t\tt.Fatalf(\"expected byte does not match the one gotten (got %d, expected %d)\", out, expected)",
  str% "",
  str% "\t}",
  str% "",
  str% "}"]

/-- v2/buffer_test.go:600-615 -/
def TestBufferWriteBytes : List Str := [
  str% "func TestBufferWriteBytes(t *testing.T) {",
  str% "",
  str% "\tvar expected = []byte{0x01, 0x02}",
  str% "",
  str% "\tbuf := NewBuffer([]byte{0x00, 0x00, 0x00, 0x00})",
  str% "",
  str% "\tbuf.WriteBytes(0x02, []byte{0x01, 0x02})",
  str% "",
  str% "\tout := buf.ReadBytes(0x02, 2)",
  str% "\tif !cmp.Equal(expected, out) {",
  str% "",
  str% "\t\tt.Fatalf(\"expected byte array does not match the one gotten (got %#v, expected %#v)\", out, expected)",
  str% "",
  str% "\t}",
  str% "",
  str% "}"]

/-- v2/buffer_test.go:617-632 -/
def TestBufferWriteBytesNext : List Str := [
  str% "func TestBufferWriteBytesNext(t *testing.T) {",
  str% "",
  str% "\tvar expected = []byte{0x01, 0x02}",
  str% "",
  str% "\tbuf := NewBuffer([]byte{0x00, 0x00, 0x00, 0x00})",
  str% "",
  str% "\tbuf.WriteBytesNext([]byte{0x01, 0x02})",
  str% "",
  str% "\tout := buf.ReadBytes(0x00, 2)",
  str% "\tif !cmp.Equal(expected, out) {",
  str% "",
  str% "\t\tt.Fatalf(\"expected byte array does not match the one gotten (got %#v, expected %#v)\", out, expected)",
  str% "",
  str% "\t}",
  str% "",
  str% "}"]

/-- v2/buffer_test.go:634-708 -/
def TestBufferWriteUNEN : List Str := [
  str% "func TestBufferWriteUNEN(t *testing.T) {",
  str% "",
  str% "\tvar expected byte = 0x01",
  str% "",
  str% "\tbuf := NewBuffer([]byte{0x00, 0x00, 0x00, 0x00, 0x00, 0x00, 0x00, 0x00})",
  str% "",
  str% "\tbuf.WriteU16LE(0x00, []uint16{0x01, 0x01})",
  str% "",
  str% "\tout := buf.ReadBytes(0x00, 1)",
  str% "\tif expected != out[0] {",
  str% "",
  str% "\t\tt.Fatalf(\"expected byte does not match the one gotten (got %d, expected %d)\", out[0], expected)",
  str% "",
  str% "\t}",
  str% "",
  str% "\tout = buf.ReadBytes(0x02, 1)",
  str% "\tif expected != out[0] {",
  str% "",
  str% "\t\tt.Fatalf(\"expected byte does not match the one gotten (got %d, expected %d)\", out[0], expected)",
  str% "",
  str% "\t}",
  str% "",
  str% "\tbuf.WriteU16BE(0x00, []uint16{0x100, 0x100})",
  str% "",
  str% "\tout = buf.ReadBytes(0x00, 1)",
  str% "\tif expected != out[0] {",
  str% "",
  str% "\t\tt.Fatalf(\"expected byte does not match the one gotten (got %d, expected %d)\", out[0], expected)",
  str% "",
  str% "\t}",
  str% "",
  str% "\tout = buf.ReadBytes(0x02, 1)",
  str% "\tif expected != out[0] {",
  str% "",
  str% "\t\tt.Fatalf(\"expected byte does not match the one gotten (got %d, expected %d)\", out[0], expected)",
  str% "",
  str% "\t}",
  str% "",
  str% "\tbuf.WriteU32LE(0x00, []uint32{0x01})",
  str% "",
  str% "\tout = buf.ReadBytes(0x00, 1)",
  str% "\tif expected != out[0] {",
  str% "",
  str% "\t\tt.Fatalf(\"expected byte does not match the one gotten (got %d, expected %d)\", out[0], expected)",
  str% "",
  str% "\t}",
  str% "",
  str% "\tbuf.WriteU32BE(0x00, []uint32{0x1000000})",
  str% "",
  str% "\tout = buf.ReadBytes(0x00, 1)",
  str% "\tif expected != out[0] {",
  str% "",
  str% "\t\tt.Fatalf(\"expected byte does not match the one gotten (got %d, expected %d)\", out[0], expected)",
  str% "",
  str% "\t}",
  str% "",
  str% "\tbuf.WriteU64LE(0x00, []uint64{0x01})",
  str% "",
  str% "\tout = buf.ReadBytes(0x00, 1)",
  str% "\tif expected != out[0] {",
  str% "",
  str% "\t\tt.Fatalf(\"expected byte does not match the one gotten (got %d, expected %d)\", out[0], expected)",
  str% "",
  str% "\t}",
  str% "",
  str% "\tbuf.WriteU64BE(0x00, []uint64{0x100000000000000})",
  str% "",
  str% "\tout = buf.ReadBytes(0x00, 1)",
  str% "\tif expected != out[0] {",
  str% "",
  str% "\t\tt.Fatalf(\"expected byte does not match the one gotten (got %d, expected %d)\", out[0], expected)",
  str% "",
  str% "\t}",
  str% "",
  str% "}"]

/-- v2/buffer_test.go:710-818 -/
def TestBufferWriteUNENNext : List Str := [
  str% "func TestBufferWriteUNENNext(t *testing.T) {",
  str% "",
  str% "\tvar expected byte = 0x01",
  str% "",
  str% "\tbuf := NewBuffer([]byte{0x00, 0x00, 0x00, 0x00, 0x00, 0x00, 0x00, 0x00})",
  str% "",
  str% "\tbuf.WriteU16LENext([]uint16{0x01})",
  str% "",
  str% "\tout := buf.ReadBytes(0x00, 1)",
  str% "\tif expected != out[0] {",
  str% "",
  str% "\t\tt.Fatalf(\"expected byte does not match the one gotten (got %d, expected %d)\", out[0], expected)",
  str% "",
  str% "\t}",
  str% "",
  str% "\toff := buf.Offset()",
  str% "\tif off != 2 {",
  str% "",
  str% "\t\tt.Fatalf(\"incorrect offset: %d\", off)",
  str% "",
  str% "\t}",
  str% "\tbuf.Seek(0x00, false)",
  str% "",
  str% "\tbuf.WriteU16BENext([]uint16{0x100})",
  str% "",
  str% "\tout = buf.ReadBytes(0x00, 1)",
  str% "\tif expected != out[0] {",
  str% "",
  str% "\t\tt.Fatalf(\"expected byte does not match the one gotten (got %d, expected %d)\", out[0], expected)",
  str% "",
  str% "\t}",
  str% "",
  str% "\toff = buf.Offset()",
  str% "\tif off != 2 {",
  str% "",
  str% "\t\tt.Fatalf(\"incorrect offset: %d\", off)",
  str% "",
  str% "\t}",
  str% "\tbuf.Seek(0x00, false)",
  str% "",
  str% "\tbuf.WriteU32LENext([]uint32{0x01})",
  str% "",
  str% "\tout = buf.ReadBytes(0x00, 1)",
  str% "\tif expected != out[0] {",
  str% "",
  str% "\t\tt.Fatalf(\"expected byte does not match the one gotten (got %d, expected %d)\", out[0], expected)",
  str% "",
  str% "\t}",
  str% "",
  str% "\toff = buf.Offset()",
  str% "\tif off != 4 {",
  str% "",
  str% "\t\tt.Fatalf(\"incorrect offset: %d\", off)",
  str% "",
  str% "\t}",
  str% "\tbuf.Seek(0x00, false)",
  str% "",
  str% "\tbuf.WriteU32BENext([]uint32{0x1000000})",
  str% "",
  str% "\tout = buf.ReadBytes(0x00, 1)",
  str% "\tif expected != out[0] {",
  str% "",
  str% "\t\tt.Fatalf(\"expected byte does not match the one gotten (got %d, expected %d)\", out[0], expected)",
  str% "",
  str% "\t}",
  str% "",
  str% "\toff = buf.Offset()",
  str% "\tif off != 4 {",
  str% "",
  str% "\t\tt.Fatalf(\"incorrect offset: %d\", off)",
  str% "",
  str% "\t}",
  str% "\tbuf.Seek(0x00, false)",
  str% "",
  str% "\tbuf.WriteU64LENext([]uint64{0x01})",
  str% "",
  str% "\tout = buf.ReadBytes(0x00, 1)",
  str% "\tif expected != out[0] {",
  str% "",
  str% "\t\tt.Fatalf(\"expected byte does not match the one gotten (got %d, expected %d)\", out[0], expected)",
  str% "",
  str% "\t}",
  str% "",
  str% "\toff = buf.Offset()",
  str% "\tif off != 8 {",
  str% "",
  str% "\t\tt.Fatalf(\"incorrect offset: %d\", off)",
  str% "",
  str% "\t}",
  str% "\tbuf.Seek(0x00, false)",
  str% "",
  str% "\tbuf.WriteU64BENext([]uint64{0x100000000000000})",
  str% "",
  str% "\tout = buf.ReadBytes(0x00, 1)",
  str% "\tif expected != out[0] {",
  str% "",
  str% "\t\tt.Fatalf(\"expected byte does not match the one gotten (got %d, expected %d)\", out[0], expected)",
  str% "",
  str% "\t}",
  str% "",
  str% "\toff = buf.Offset()",
  str% "\tif off != 8 {",
  str% "",
  str% "\t\tt.Fatalf(\"incorrect offset: %d\", off)",
  str% "",
  str% "\t}",
  str% "\tbuf.Seek(0x00, false)",
  str% "",
  str% "}"]

/-- v2/buffer_test.go:820-833 -/
def TestBufferReadBit : List Str := [
  str% "func TestBufferReadBit(t *testing.T) {",
  str% "",
  str% "\tvar expected byte = 1",
  str% "",
  str% "\tbuf := NewBuffer([]byte{0x01, 0x00, 0x00, 0x00})",
  str% "",
  str% "\tout := buf.ReadBit(0x07)",
  str% "\tif expected != out {",
  str% "",
  str% "\t\tt.Fatalf(\"expected byte does not match the one gotten (got %d, expected %d)\", out, expected)",
  str% "",
  str% "\t}",
  str% "",
  str% "}"]

/-- v2/buffer_test.go:835-848 -/
def TestBufferReadBitNext : List Str := [
  str% "func TestBufferReadBitNext(t *testing.T) {",
  str% "",
  str% "\tvar expected byte = 1",
  str% "",
  str% "\tbuf := NewBuffer([]byte{0xff, 0x00, 0x00, 0x00})",
  str% "",
  str% "\tout := buf.ReadBitNext()",
  str% "\tif expected != out {",
  str% "",
  str% "\t\tt.Fatalf(\"expected byte does not match the one gotten (got %d, expected %d)\", out, expected)",
  str% "",
  str% "\t}",
  str% "",
  str% "}"]

/-- v2/buffer_test.go:850-863 -/
def TestBufferReadBits : List Str := [
  str% "func TestBufferReadBits(t *testing.T) {",
  str% "",
  str% "\tvar expected uint64 = 5",
  str% "",
  str% "\tbuf := NewBuffer([]byte{0x0d, 0x00, 0x00, 0x00})",
  str% "",
  str% "\tout := buf.ReadBits(0x05, 3)",
  str% "\tif expected != out {",
  str% "",
  str% "\t\tt.Fatalf(\"expected uint64 does not match the one gotten (got %d, expected %d)\", out, expected)",
  str% "",
  str% "\t}",
  str% "",
  str% "}"]

/-- v2/buffer_test.go:865-878 -/
def TestBufferReadBitsNext : List Str := [
  str% "func TestBufferReadBitsNext(t *testing.T) {",
  str% "",
  str% "\tvar expected uint64 = 13",
  str% "",
  str% "\tbuf := NewBuffer([]byte{0x0d, 0x00, 0x00, 0x00})",
  str% "",
  str% "\tout := buf.ReadBitsNext(8)",
  str% "\tif expected != out {",
  str% "",
  str% "\t\tt.Fatalf(\"expected uint64 does not match the one gotten (got %d, expected %d)\", out, expected)",
  str% "",
  str% "\t}",
  str% "",
  str% "}"]

/-- v2/buffer_test.go:880-895 -/
def TestBufferSetBit : List Str := [
  str% "func TestBufferSetBit(t *testing.T) {",
  str% "",
  str% "\tvar expected byte = 1",
  str% "",
  str% "\tbuf := NewBuffer([]byte{0x00, 0x00, 0x00, 0x00})",
  str% "",
  str% "\tbuf.SetBit(0x00, 1)",
  str% "",
  str% "\tout := buf.ReadBit(0x00)",
  str% "\tif expected != out {",
  str% "",
  str% "\t\tt.Fatalf(\"expected byte does not match the one gotten (got %d, expected %d)\", out, expected)",
  str% "",
  str% "\t}",
  str% "",
  str% "}"]

/-- v2/buffer_test.go:897-912 -/
def TestBufferSetBitNext : List Str := [
  str% "func TestBufferSetBitNext(t *testing.T) {",
  str% "",
  str% "\tvar expected byte = 1",
  str% "",
  str% "\tbuf := NewBuffer([]byte{0x00, 0x00, 0x00, 0x00})",
  str% "",
  str% "\tbuf.SetBitNext(1)",
  str% "",
  str% "\tout := buf.ReadBit(0x00)",
  str% "\tif expected != out {",
  str% "",
  str% "\t\tt.Fatalf(\"expected byte does not match the one gotten (got %d, expected %d)\", out, expected)",
  str% "",
  str% "\t}",
  str% "",
  str% "}"]

/-- v2/buffer_test.go:914-929 -/
def TestBufferSetBits : List Str := [
  str% "func TestBufferSetBits(t *testing.T) {",
  str% "",
  str% "\tvar expected uint64 = 5",
  str% "",
  str% "\tbuf := NewBuffer([]byte{0x00, 0x00, 0x00, 0x00})",
  str% "",
  str% "\tbuf.SetBits(0x06, 5, 3)",
  str% "",
  str% "\tout := buf.ReadBits(0x06, 3)",
  str% "\tif expected != out {",
  str% "",
  str% "\t\tt.Fatalf(\"expected uint64 does not match the one gotten (got %d, expected %d)\", out, expected)",
  str% "",
  str% "\t}",
  str% "",
  str% "}"]

/-- v2/buffer_test.go:931-946 -/
def TestBufferSetBitsNext : List Str := [
  str% "func TestBufferSetBitsNext(t *testing.T) {",
  str% "",
  str% "\tvar expected uint64 = 13",
  str% "",
  str% "\tbuf := NewBuffer([]byte{0x00, 0x00, 0x00, 0x00})",
  str% "",
  str% "\tbuf.SetBitsNext(13, 8)",
  str% "",
  str% "\tout := buf.ReadBits(0x00, 8)",
  str% "\tif expected != out {",
  str% "",
  str% "\t\tt.Fatalf(\"expected uint64 does not match the one gotten (got %d, expected %d)\", out, expected)",
  str% "",
  str% "\t}",
  str% "",
  str% "}"]

/-- v2/buffer_test.go:948-963 -/
def TestBufferFlipBit : List Str := [
  str% "func TestBufferFlipBit(t *testing.T) {",
  str% "",
  str% "\tvar expected byte",
  str% "",
  str% "\tbuf := NewBuffer([]byte{0xff, 0xff, 0xff, 0xff})",
  str% "",
  str% "\tbuf.FlipBit(0x01)",
  str% "",
  str% "\tout := buf.ReadBit(0x01)",
  str% "\tif expected != out {",
  str% "",
  str% "\t\tt.Fatalf(\"expected byte does not match the one gotten (got %d, expected %d)\", out, expected)",
  str% "",
  str% "\t}",
  str% "",
  str% "}"]

/-- v2/buffer_test.go:965-980 -/
def TestBufferFlipBitNext : List Str := [
  str% "func TestBufferFlipBitNext(t *testing.T) {",
  str% "",
  str% "\tvar expected byte = 1",
  str% "",
  str% "\tbuf := NewBuffer([]byte{0x00, 0x00, 0x00, 0x00})",
  str% "",
  str% "\tbuf.FlipBitNext()",
  str% "",
  str% "\tout := buf.ReadBit(0x00)",
  str% "\tif expected != out {",
  str% "",
  str% "\t\tt.Fatalf(\"expected byte does not match the one gotten (got %d, expected %d)\", out, expected)",
  str% "",
  str% "\t}",
  str% "",
  str% "}"]

/-- v2/buffer_test.go:982-996 -/
def TestBufferClearAllBits : List Str := [
  str% "func TestBufferClearAllBits(t *testing.T) {",
  str% "",
  str% "\tvar expected = []byte{0x00, 0x00, 0x00, 0x00}",
  str% "",
  str% "\tbuf := NewBuffer([]byte{0xff, 0x00, 0xff, 0x00})",
  str% "",
  str% "\tbuf.ClearAllBits()",
  str% "",
  str% "\tif !cmp.Equal(expected, buf.buf) {",
  str% "",
  str% "\t\tt.Fatalf(\"expected byte array does not match the one gotten (got %#v, expected %#v)\", buf.buf, expected)",
  str% "",
  str% "\t}",
  str% "",
  str% "}"]

/-- v2/buffer_test.go:998-1012 -/
def TestBufferSetAllBits : List Str := [
  str% "func TestBufferSetAllBits(t *testing.T) {",
  str% "",
  str% "\tvar expected = []byte{0xff, 0xff, 0xff, 0xff}",
  str% "",
  str% "\tbuf := NewBuffer([]byte{0x00, 0xff, 0x00, 0xff})",
  str% "",
  str% "\tbuf.SetAllBits()",
  str% "",
  str% "\tif !cmp.Equal(expected, buf.buf) {",
  str% "",
  str% "\t\tt.Fatalf(\"expected byte array does not match the one gotten (got %#v, expected %#v)\", buf.buf, expected)",
  str% "",
  str% "\t}",
  str% "",
  str% "}"]

/-- v2/buffer_test.go:1014-1028 -/
def TestBufferFlipAllBits : List Str := [
  str% "func TestBufferFlipAllBits(t *testing.T) {",
  str% "",
  str% "\tvar expected = []byte{0xff, 0x00, 0xff, 0x00}",
  str% "",
  str% "\tbuf := NewBuffer([]byte{0x00, 0xff, 0x00, 0xff})",
  str% "",
  str% "\tbuf.FlipAllBits()",
  str% "",
  str% "\tif !cmp.Equal(expected, buf.buf) {",
  str% "",
  str% "\t\tt.Fatalf(\"expected byte array does not match the one gotten (got %#v, expected %#v)\", buf.buf, expected)",
  str% "",
  str% "\t}",
  str% "",
  str% "}"]

/-- v2/buffer_test.go:1030-1038 -/
def TestBufferReadbitPanic1 : List Str := [
  str% "func TestBufferReadbitPanic1(t *testing.T) {",
  str% "",
  str% "\tdefer panicChecker(t, BufferOverreadError)",
  str% "",
  str% "\tbuf := NewBuffer([]byte{0x00, 0x00, 0x00, 0x00})",
  str% "",
  str% "\t_ = buf.readbit(0x20)",
  str% "",
  str% "}"]

/-- v2/buffer_test.go:1040-1048 -/
def TestBufferReadbitPanic2 : List Str := [
  str% "func TestBufferReadbitPanic2(t *testing.T) {",
  str% "",
  str% "\tdefer panicChecker(t, BufferUnderreadError)",
  str% "",
  str% "\tbuf := NewBuffer([]byte{0x00, 0x00, 0x00, 0x00})",
  str% "",
  str% "\t_ = buf.readbit(-0x01)",
  str% "",
  str% "}"]

/-- v2/buffer_test.go:1050-1058 -/
def TestBufferSetbitPanic1 : List Str := [
  str% "func TestBufferSetbitPanic1(t *testing.T) {",
  str% "",
  str% "\tdefer panicChecker(t, BufferOverwriteError)",
  str% "",
  str% "\tbuf := NewBuffer([]byte{0x00, 0x00, 0x00, 0x00})",
  str% "",
  str% "\tbuf.setbit(0x20, 1)",
  str% "",
  str% "}"]

/-- v2/buffer_test.go:1060-1068 -/
def TestBufferSetbitPanic2 : List Str := [
  str% "func TestBufferSetbitPanic2(t *testing.T) {",
  str% "",
  str% "\tdefer panicChecker(t, BufferUnderwriteError)",
  str% "",
  str% "\tbuf := NewBuffer([]byte{0x00, 0x00, 0x00, 0x00})",
  str% "",
  str% "\tbuf.setbit(-0x01, 1)",
  str% "",
  str% "}"]

/-- v2/buffer_test.go:1070-1078 -/
def TestBufferSetbitPanic3 : List Str := [
  str% "func TestBufferSetbitPanic3(t *testing.T) {",
  str% "",
  str% "\tdefer panicChecker(t, BufferInvalidBitError)",
  str% "",
  str% "\tbuf := NewBuffer([]byte{0x00, 0x00, 0x00, 0x00})",
  str% "",
  str% "\tbuf.setbit(0x00, 2)",
  str% "",
  str% "}"]

/-- v2/buffer_test.go:1080-1088 -/
def TestBufferFlipbitPanic1 : List Str := [
  str% "func TestBufferFlipbitPanic1(t *testing.T) {",
  str% "",
  str% "\tdefer panicChecker(t, BufferOverwriteError)",
  str% "",
  str% "\tbuf := NewBuffer([]byte{0x00, 0x00, 0x00, 0x00})",
  str% "",
  str% "\tbuf.flipbit(0x20)",
  str% "",
  str% "}"]

/-- v2/buffer_test.go:1090-1098 -/
def TestBufferFlipbitPanic2 : List Str := [
  str% "func TestBufferFlipbitPanic2(t *testing.T) {",
  str% "",
  str% "\tdefer panicChecker(t, BufferUnderwriteError)",
  str% "",
  str% "\tbuf := NewBuffer([]byte{0x00, 0x00, 0x00, 0x00})",
  str% "",
  str% "\tbuf.flipbit(-0x01)",
  str% "",
  str% "}"]

/-- v2/buffer_test.go:1100-1108 -/
def TestBufferWritePanic1 : List Str := [
  str% "func TestBufferWritePanic1(t *testing.T) {",
  str% "",
  str% "\tdefer panicChecker(t, BufferOverwriteError)",
  str% "",
  str% "\tbuf := NewBuffer([]byte{0x00, 0x00, 0x00, 0x00})",
  str% "",
  str% "\tbuf.write(0x04, []byte{0x01, 0x01})",
  str% "",
  str% "}"]

/-- v2/buffer_test.go:1110-1118 -/
def TestBufferWritePanic2 : List Str := [
  str% "func TestBufferWritePanic2(t *testing.T) {",
  str% "",
  str% "\tdefer panicChecker(t, BufferUnderwriteError)",
  str% "",
  str% "\tbuf := NewBuffer([]byte{0x00, 0x00, 0x00, 0x00})",
  str% "",
  str% "\tbuf.write(-0x01, []byte{0x01, 0x01})",
  str% "",
  str% "}"]

/-- v2/buffer_test.go:1120-1128 -/
def TestBufferReadPanic1 : List Str := [
  str% "func TestBufferReadPanic1(t *testing.T) {",
  str% "",
  str% "\tdefer panicChecker(t, BufferOverreadError)",
  str% "",
  str% "\tbuf := NewBuffer([]byte{0x00, 0x00, 0x00, 0x00})",
  str% "",
  str% "\t_ = buf.read(0x20, 1)",
  str% "",
  str% "}"]

/-- v2/buffer_test.go:1130-1138 -/
def TestBufferReadPanic2 : List Str := [
  str% "func TestBufferReadPanic2(t *testing.T) {",
  str% "",
  str% "\tdefer panicChecker(t, BufferUnderreadError)",
  str% "",
  str% "\tbuf := NewBuffer([]byte{0x00, 0x00, 0x00, 0x00})",
  str% "",
  str% "\t_ = buf.read(-0x01, 1)",
  str% "",
  str% "}"]

/-- v2/buffer_test.go:1140-1148 -/
def TestBufferWriteU16LEPanic1 : List Str := [
  str% "func TestBufferWriteU16LEPanic1(t *testing.T) {",
  str% "",
  str% "\tdefer panicChecker(t, BufferOverwriteError)",
  str% "",
  str% "\tbuf := NewBuffer([]byte{0x00, 0x00, 0x00, 0x00})",
  str% "",
  str% "\tbuf.writeU16LE(0x00, []uint16{0x01, 0x02, 0x03, 0x04})",
  str% "",
  str% "}"]

/-- v2/buffer_test.go:1150-1158 -/
def TestBufferWriteU16LEPanic2 : List Str := [
  str% "func TestBufferWriteU16LEPanic2(t *testing.T) {",
  str% "",
  str% "\tdefer panicChecker(t, BufferUnderwriteError)",
  str% "",
  str% "\tbuf := NewBuffer([]byte{0x00, 0x00, 0x00, 0x00})",
  str% "",
  str% "\tbuf.writeU16LE(-0x01, []uint16{0x01, 0x02})",
  str% "",
  str% "}"]

/-- v2/buffer_test.go:1160-1168 -/
def TestBufferWriteU16BEPanic1 : List Str := [
  str% "func TestBufferWriteU16BEPanic1(t *testing.T) {",
  str% "",
  str% "\tdefer panicChecker(t, BufferOverwriteError)",
  str% "",
  str% "\tbuf := NewBuffer([]byte{0x00, 0x00, 0x00, 0x00})",
  str% "",
  str% "\tbuf.writeU16BE(0x00, []uint16{0x01, 0x02, 0x03, 0x04})",
  str% "",
  str% "}"]

/-- v2/buffer_test.go:1170-1178 -/
def TestBufferWriteU16BEPanic2 : List Str := [
  str% "func TestBufferWriteU16BEPanic2(t *testing.T) {",
  str% "",
  str% "\tdefer panicChecker(t, BufferUnderwriteError)",
  str% "",
  str% "\tbuf := NewBuffer([]byte{0x00, 0x00, 0x00, 0x00})",
  str% "",
  str% "\tbuf.writeU16BE(-0x01, []uint16{0x01, 0x02})",
  str% "",
  str% "}"]

/-- v2/buffer_test.go:1180-1188 -/
def TestBufferWriteU32LEPanic1 : List Str := [
  str% "func TestBufferWriteU32LEPanic1(t *testing.T) {",
  str% "",
  str% "\tdefer panicChecker(t, BufferOverwriteError)",
  str% "",
  str% "\tbuf := NewBuffer([]byte{0x00, 0x00, 0x00, 0x00})",
  str% "",
  str% "\tbuf.writeU32LE(0x00, []uint32{0x01, 0x02, 0x03, 0x04})",
  str% "",
  str% "}"]

/-- v2/buffer_test.go:1190-1198 -/
def TestBufferWriteU32LEPanic2 : List Str := [
  str% "func TestBufferWriteU32LEPanic2(t *testing.T) {",
  str% "",
  str% "\tdefer panicChecker(t, BufferUnderwriteError)",
  str% "",
  str% "\tbuf := NewBuffer([]byte{0x00, 0x00, 0x00, 0x00})",
  str% "",
  str% "\tbuf.writeU32LE(-0x01, []uint32{0x01})",
  str% "",
  str% "}"]

/-- v2/buffer_test.go:1200-1208 -/
def TestBufferWriteU32BEPanic1 : List Str := [
  str% "func TestBufferWriteU32BEPanic1(t *testing.T) {",
  str% "",
  str% "\tdefer panicChecker(t, BufferOverwriteError)",
  str% "",
  str% "\tbuf := NewBuffer([]byte{0x00, 0x00, 0x00, 0x00})",
  str% "",
  str% "\tbuf.writeU32BE(0x00, []uint32{0x01, 0x02, 0x03, 0x04})",
  str% "",
  str% "}"]

/-- v2/buffer_test.go:1210-1218 -/
def TestBufferWriteU32BEPanic2 : List Str := [
  str% "func TestBufferWriteU32BEPanic2(t *testing.T) {",
  str% "",
  str% "\tdefer panicChecker(t, BufferUnderwriteError)",
  str% "",
  str% "\tbuf := NewBuffer([]byte{0x00, 0x00, 0x00, 0x00})",
  str% "",
  str% "\tbuf.writeU32BE(-0x01, []uint32{0x01})",
  str% "",
  str% "}"]

/-- v2/buffer_test.go:1220-1228 -/
def TestBufferWriteU64LEPanic1 : List Str := [
  str% "func TestBufferWriteU64LEPanic1(t *testing.T) {",
  str% "",
  str% "\tdefer panicChecker(t, BufferOverwriteError)",
  str% "",
  str% "\tbuf := NewBuffer([]byte{0x00, 0x00, 0x00, 0x00})",
  str% "",
  str% "\tbuf.writeU64LE(0x00, []uint64{0x01, 0x02, 0x03, 0x04})",
  str% "",
  str% "}"]

/-- v2/buffer_test.go:1230-1238 -/
def TestBufferWriteU64LEPanic2 : List Str := [
  str% "func TestBufferWriteU64LEPanic2(t *testing.T) {",
  str% "",
  str% "\tdefer panicChecker(t, BufferUnderwriteError)",
  str% "",
  str% "\tbuf := NewBuffer([]byte{0x00, 0x00, 0x00, 0x00, 0x00, 0x00, 0x00, 0x00})",
  str% "",
  str% "\tbuf.writeU64LE(-0x01, []uint64{0x01})",
  str% "",
  str% "}"]

/-- v2/buffer_test.go:1240-1248 -/
def TestBufferWriteU64BEPanic1 : List Str := [
  str% "func TestBufferWriteU64BEPanic1(t *testing.T) {",
  str% "",
  str% "\tdefer panicChecker(t, BufferOverwriteError)",
  str% "",
  str% "\tbuf := NewBuffer([]byte{0x00, 0x00, 0x00, 0x00})",
  str% "",
  str% "\tbuf.writeU64BE(0x00, []uint64{0x01, 0x02, 0x03, 0x04})",
  str% "",
  str% "}"]

/-- v2/buffer_test.go:1250-1258 -/
def TestBufferWriteU64BEPanic2 : List Str := [
  str% "func TestBufferWriteU64BEPanic2(t *testing.T) {",
  str% "",
  str% "\tdefer panicChecker(t, BufferUnderwriteError)",
  str% "",
  str% "\tbuf := NewBuffer([]byte{0x00, 0x00, 0x00, 0x00, 0x00, 0x00, 0x00, 0x00})",
  str% "",
  str% "\tbuf.writeU64BE(-0x01, []uint64{0x01})",
  str% "",
  str% "}"]

/-- v2/buffer_test.go:1260-1268 -/
def TestBufferReadU16LEPanic1 : List Str := [
  str% "func TestBufferReadU16LEPanic1(t *testing.T) {",
  str% "",
  str% "\tdefer panicChecker(t, BufferOverreadError)",
  str% "",
  str% "\tbuf := NewBuffer([]byte{0x00, 0x00, 0x00, 0x00})",
  str% "",
  str% "\t_ = buf.readU16LE(0x04, 1)",
  str% "",
  str% "}"]

/-- v2/buffer_test.go:1270-1278 -/
def TestBufferReadU16LEPanic2 : List Str := [
  str% "func TestBufferReadU16LEPanic2(t *testing.T) {",
  str% "",
  str% "\tdefer panicChecker(t, BufferUnderreadError)",
  str% "",
  str% "\tbuf := NewBuffer([]byte{0x00, 0x00, 0x00, 0x00})",
  str% "",
  str% "\t_ = buf.readU16LE(-0x01, 1)",
  str% "",
  str% "}"]

/-- v2/buffer_test.go:1280-1288 -/
def TestBufferReadU16BEPanic1 : List Str := [
  str% "func TestBufferReadU16BEPanic1(t *testing.T) {",
  str% "",
  str% "\tdefer panicChecker(t, BufferOverreadError)",
  str% "",
  str% "\tbuf := NewBuffer([]byte{0x00, 0x00, 0x00, 0x00})",
  str% "",
  str% "\t_ = buf.readU16BE(0x04, 1)",
  str% "",
  str% "}"]

/-- v2/buffer_test.go:1290-1298 -/
def TestBufferReadU16BEPanic2 : List Str := [
  str% "func TestBufferReadU16BEPanic2(t *testing.T) {",
  str% "",
  str% "\tdefer panicChecker(t, BufferUnderreadError)",
  str% "",
  str% "\tbuf := NewBuffer([]byte{0x00, 0x00, 0x00, 0x00})",
  str% "",
  str% "\t_ = buf.readU16BE(-0x01, 1)",
  str% "",
  str% "}"]

/-- v2/buffer_test.go:1300-1308 -/
def TestBufferReadU32LEPanic1 : List Str := [
  str% "func TestBufferReadU32LEPanic1(t *testing.T) {",
  str% "",
  str% "\tdefer panicChecker(t, BufferOverreadError)",
  str% "",
  str% "\tbuf := NewBuffer([]byte{0x00, 0x00, 0x00, 0x00})",
  str% "",
  str% "\t_ = buf.readU32LE(0x04, 1)",
  str% "",
  str% "}"]

/-- v2/buffer_test.go:1310-1318 -/
def TestBufferReadU32LEPanic2 : List Str := [
  str% "func TestBufferReadU32LEPanic2(t *testing.T) {",
  str% "",
  str% "\tdefer panicChecker(t, BufferUnderreadError)",
  str% "",
  str% "\tbuf := NewBuffer([]byte{0x00, 0x00, 0x00, 0x00})",
  str% "",
  str% "\t_ = buf.readU32LE(-0x01, 1)",
  str% "",
  str% "}"]

/-- v2/buffer_test.go:1320-1328 -/
def TestBufferReadU32BEPanic1 : List Str := [
  str% "func TestBufferReadU32BEPanic1(t *testing.T) {",
  str% "",
  str% "\tdefer panicChecker(t, BufferOverreadError)",
  str% "",
  str% "\tbuf := NewBuffer([]byte{0x00, 0x00, 0x00, 0x00})",
  str% "",
  str% "\t_ = buf.readU32BE(0x04, 1)",
  str% "",
  str% "}"]

/-- v2/buffer_test.go:1330-1338 -/
def TestBufferReadU32BEPanic2 : List Str := [
  str% "func TestBufferReadU32BEPanic2(t *testing.T) {",
  str% "",
  str% "\tdefer panicChecker(t, BufferUnderreadError)",
  str% "",
  str% "\tbuf := NewBuffer([]byte{0x00, 0x00, 0x00, 0x00})",
  str% "",
  str% "\t_ = buf.readU32BE(-0x01, 1)",
  str% "",
  str% "}"]

/-- v2/buffer_test.go:1340-1348 -/
def TestBufferReadU64LEPanic1 : List Str := [
  str% "func TestBufferReadU64LEPanic1(t *testing.T) {",
  str% "",
  str% "\tdefer panicChecker(t, BufferOverreadError)",
  str% "",
  str% "\tbuf := NewBuffer([]byte{0x00, 0x00, 0x00, 0x00})",
  str% "",
  str% "\t_ = buf.readU64LE(0x04, 1)",
  str% "",
  str% "}"]

/-- v2/buffer_test.go:1350-1358 -/
def TestBufferReadU64LEPanic2 : List Str := [
  str% "func TestBufferReadU64LEPanic2(t *testing.T) {",
  str% "",
  str% "\tdefer panicChecker(t, BufferUnderreadError)",
  str% "",
  str% "\tbuf := NewBuffer([]byte{0x00, 0x00, 0x00, 0x00, 0x00, 0x00, 0x00, 0x00})",
  str% "",
  str% "\t_ = buf.readU64LE(-0x01, 1)",
  str% "",
  str% "}"]

/-- v2/buffer_test.go:1360-1368 -/
def TestBufferReadU64BEPanic1 : List Str := [
  str% "func TestBufferReadU64BEPanic1(t *testing.T) {",
  str% "",
  str% "\tdefer panicChecker(t, BufferOverreadError)",
  str% "",
  str% "\tbuf := NewBuffer([]byte{0x00, 0x00, 0x00, 0x00})",
  str% "",
  str% "\t_ = buf.readU64BE(0x04, 1)",
  str% "",
  str% "}"]

/-- v2/buffer_test.go:1370-1378 -/
def TestBufferReadU64BEPanic2 : List Str := [
  str% "func TestBufferReadU64BEPanic2(t *testing.T) {",
  str% "",
  str% "\tdefer panicChecker(t, BufferUnderreadError)",
  str% "",
  str% "\tbuf := NewBuffer([]byte{0x00, 0x00, 0x00, 0x00, 0x00, 0x00, 0x00, 0x00})",
  str% "",
  str% "\t_ = buf.readU64BE(-0x01, 1)",
  str% "",
  str% "}"]

/-- All of them. -/
def text : List (List Str) := [TestNewBuffer, TestBufferBytes, TestBufferCapacity, TestBufferBitCapacity, TestBufferOffset, TestBufferBitOffset, TestBufferRefresh, TestBufferReset, TestBufferGrow, TestBufferSeek, TestBufferSeekBit, TestBufferAlignBit, TestBufferAlignByte, TestBufferAfter, TestBufferAfterBit, TestBufferReadByte, TestBufferReadByteNext, TestBufferReadBytes, TestBufferReadBytesNext, TestBufferReadUNEN, TestBufferReadUNENNext, TestBufferWriteByte, TestBufferWriteByteNext, TestBufferWriteBytes, TestBufferWriteBytesNext, TestBufferWriteUNEN, TestBufferWriteUNENNext, TestBufferReadBit, TestBufferReadBitNext, TestBufferReadBits, TestBufferReadBitsNext, TestBufferSetBit, TestBufferSetBitNext, TestBufferSetBits, TestBufferSetBitsNext, TestBufferFlipBit, TestBufferFlipBitNext, TestBufferClearAllBits, TestBufferSetAllBits, TestBufferFlipAllBits, TestBufferReadbitPanic1, TestBufferReadbitPanic2, TestBufferSetbitPanic1, TestBufferSetbitPanic2, TestBufferSetbitPanic3, TestBufferFlipbitPanic1, TestBufferFlipbitPanic2, TestBufferWritePanic1, TestBufferWritePanic2, TestBufferReadPanic1, TestBufferReadPanic2, TestBufferWriteU16LEPanic1, TestBufferWriteU16LEPanic2, TestBufferWriteU16BEPanic1, TestBufferWriteU16BEPanic2, TestBufferWriteU32LEPanic1, TestBufferWriteU32LEPanic2, TestBufferWriteU32BEPanic1, TestBufferWriteU32BEPanic2, TestBufferWriteU64LEPanic1, TestBufferWriteU64LEPanic2, TestBufferWriteU64BEPanic1, TestBufferWriteU64BEPanic2, TestBufferReadU16LEPanic1, TestBufferReadU16LEPanic2, TestBufferReadU16BEPanic1, TestBufferReadU16BEPanic2, TestBufferReadU32LEPanic1, TestBufferReadU32LEPanic2, TestBufferReadU32BEPanic1, TestBufferReadU32BEPanic2, TestBufferReadU64LEPanic1, TestBufferReadU64LEPanic2, TestBufferReadU64BEPanic1, TestBufferReadU64BEPanic2]

end Crunch.Src.V2BufferTest
