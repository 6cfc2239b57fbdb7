import Verif.Gen.Text

/-!
# The test functions of v1/buffer_test.go

Written by tools/src_embed.py.
-/

namespace Crunch.Src.V1BufferTest

open Crunch.Gen (Str)

/-- v1/buffer_test.go:42-89 -/
def TestNewBuffer : List Str := [
  str% "func TestNewBuffer(t *testing.T) {",
  str% "",
  str% "\tvar (",
  str% "\t\texpected1 = &Buffer{",
  str% "\t\t\tbuf:  []byte{0x00, 0x00, 0x00, 0x00},",
  str% "\t\t\toff:  0x00,",
  str% "\t\t\tcap:  4,",
  str% "\t\t\tboff: 0x00,",
  str% "\t\t\tbcap: 32,",
  str% "\t\t}",
  str% "\t\texpected2 = &Buffer{",
  str% "\t\t\tbuf:  []byte{},",
  str% "\t\t\toff:  0x00,",
  str% "\t\t\tcap:  0,",
  str% "\t\t\tboff: 0x00,",
  str% "\t\t\tbcap: 0,",
  str% "\t\t}",
  str% "\t\texpected3 = &Buffer{",
  str% "\t\t\tbuf:  []byte{0x00, 0x00, 0x00, 0x00, 0x00, 0x00, 0x00, 0x00},",
  str% "\t\t\toff:  0x00,",
  str% "\t\t\tcap:  8,",
  str% "\t\t\tboff: 0x00,",
  str% "\t\t\tbcap: 64,",
  str% "\t\t}",
  str% "\t)",
  str% "",
  str% "\tout := NewBuffer([]byte{0x00, 0x00, 0x00, 0x00})",
  str% "\tif !cmp.Equal(expected1, out, BufferComparer) {",
  str% "",
  str% "\t\tt.Fatalf(\"expected buffer does not match the one gotten (got %#v, expected %#v)\", out, expected1)",
  str% "",
  str% "\t}",
  str% "",
  str% "\tout = NewBuffer()",
  str% "\tif !cmp.Equal(expected2, out, BufferComparer) {",
  str% "",
  str% "\t\tt.Fatalf(\"expected buffer does not match the one gotten (got %#v, expected %#v)\", out, expected2)",
  str% "",
  str% "\t}",
  str% "",
  str% "\tout = NewBuffer([]byte{0x00, 0x00, 0x00, 0x00}, []byte{0x00, 0x00, 0x00, 0x00})",
  str% "\tif !cmp.Equal(expected3, out, BufferComparer) {",
  str% "",
  str% "\t\tt.Fatalf(\"expected buffer does not match the one gotten (got %#v, expected %#v)\", out, expected3)",
  str% "",
  str% "\t}",
  str% "",
  str% "}"]

/-- v1/buffer_test.go:91-104 -/
def TestBufferBytes : List Str := [
  str% "func TestBufferBytes(t *testing.T) {",
  str% "",
  str% "\tvar expected = []byte{0x01, 0x02, 0x03, 0x04}",
  str% "",
  str% "\tbuf := NewBuffer([]byte{0x01, 0x02, 0x03, 0x04})",
  str% "",
  str% "\tout := buf.Bytes()",
  str% "\tif !cmp.Equal(expected, out) {",
  str% "",
  str% "\t\tt.Fatalf(\"expected byte array does not match the one gotten (got %#v, expected %#v)\", out, expected)",
  str% "",
  str% "\t}",
  str% "",
  str% "}"]

/-- v1/buffer_test.go:106-119 -/
def TestBufferCapacity : List Str := [
  str% "func TestBufferCapacity(t *testing.T) {",
  str% "",
  str% "\tvar expected int64 = 4",
  str% "",
  str% "\tbuf := NewBuffer([]byte{0x00, 0x00, 0x00, 0x00})",
  str% "",
  str% "\tout := buf.Capacity()",
  str% "\tif expected != out {",
  str% "",
  str% "\t\tt.Fatalf(\"expected int64 does not match the one gotten (got %d, expected %d)\", out, expected)",
  str% "",
  str% "\t}",
  str% "",
  str% "}"]

/-- v1/buffer_test.go:121-134 -/
def TestBufferBitCapacity : List Str := [
  str% "func TestBufferBitCapacity(t *testing.T) {",
  str% "",
  str% "\tvar expected int64 = 32",
  str% "",
  str% "\tbuf := NewBuffer([]byte{0x00, 0x00, 0x00, 0x00})",
  str% "",
  str% "\tout := buf.BitCapacity()",
  str% "\tif expected != out {",
  str% "",
  str% "\t\tt.Fatalf(\"expected int64 does not match the one gotten (got %d, expected %d)\", out, expected)",
  str% "",
  str% "\t}",
  str% "",
  str% "}"]

/-- v1/buffer_test.go:136-151 -/
def TestBufferOffset : List Str := [
  str% "func TestBufferOffset(t *testing.T) {",
  str% "",
  str% "\tvar expected int64 = 0x02",
  str% "",
  str% "\tbuf := NewBuffer([]byte{0x00, 0x00, 0x00, 0x00})",
  str% "",
  str% "\tbuf.Seek(0x02, false)",
  str% "",
  str% "\tout := buf.Offset()",
  str% "\tif expected != out {",
  str% "",
  str% "\t\tt.Fatalf(\"expected int64 does not match the one gotten (got %d, expected %d)\", out, expected)",
  str% "",
  str% "\t}",
  str% "",
  str% "}"]

/-- v1/buffer_test.go:153-168 -/
def TestBufferBitOffset : List Str := [
  str% "func TestBufferBitOffset(t *testing.T) {",
  str% "",
  str% "\tvar expected int64 = 0x0f",
  str% "",
  str% "\tbuf := NewBuffer([]byte{0x00, 0x00, 0x00, 0x00})",
  str% "",
  str% "\tbuf.SeekBit(0x0f, false)",
  str% "",
  str% "\tout := buf.BitOffset()",
  str% "\tif expected != out {",
  str% "",
  str% "\t\tt.Fatalf(\"expected int64 does not match the one gotten (got %d, expected %d)\", out, expected)",
  str% "",
  str% "\t}",
  str% "",
  str% "}"]

/-- v1/buffer_test.go:170-187 -/
def TestBufferRefresh : List Str := [
  str% "func TestBufferRefresh(t *testing.T) {",
  str% "",
  str% "\tvar (",
  str% "\t\texpected1 int64 = 4",
  str% "\t\texpected2 int64 = 32",
  str% "\t)",
  str% "",
  str% "\tbuf := NewBuffer([]byte{0x00, 0x00, 0x00, 0x00})",
  str% "",
  str% "\tbuf.Refresh()",
  str% "",
  str% "\tif expected1 != buf.cap || expected2 != buf.bcap {",
  str% "",
  str% "\t\tt.Fatalf(\"expected int64(s) do not match the ones gotten (got %d and %d, expected %d and %d)\", buf.cap, buf.bcap, expected1, expected2)",
  str% "",
  str% "\t}",
  str% "",
  str% "}"]

/-- v1/buffer_test.go:189-204 -/
def TestBufferGrow : List Str := [
  str% "func TestBufferGrow(t *testing.T) {",
  str% "",
  str% "\tvar expected int64 = 4",
  str% "",
  str% "\tbuf := NewBuffer([]byte{0x00, 0x00})",
  str% "",
  str% "\tbuf.Grow(2)",
  str% "",
  str% "\tout := buf.Capacity()",
  str% "\tif expected != out {",
  str% "",
  str% "\t\tt.Fatalf(\"expected int64 does not match the one gotten (got %d, expected %d)\", out, expected)",
  str% "",
  str% "\t}",
  str% "",
  str% "}"]

/-- v1/buffer_test.go:206-222 -/
def TestBufferSeek : List Str := [
  str% "func TestBufferSeek(t *testing.T) {",
  str% "",
  str% "\tvar expected int64 = 0x04",
  str% "",
  str% "\tbuf := NewBuffer([]byte{0x00, 0x00, 0x00, 0x00})",
  str% "",
  str% "\tbuf.Seek(2, true)",
  str% "\tbuf.Seek(2, true)",
  str% "",
  str% "\tout := buf.Offset()",
  str% "\tif expected != out {",
  str% "",
  str% "\t\tt.Fatalf(\"expected int64 does not match the one gotten (got %d, expected %d)\", out, expected)",
  str% "",
  str% "\t}",
  str% "",
  str% "}"]

/-- v1/buffer_test.go:224-240 -/
def TestBufferSeekBit : List Str := [
  str% "func TestBufferSeekBit(t *testing.T) {",
  str% "",
  str% "\tvar expected int64 = 0x20",
  str% "",
  str% "\tbuf := NewBuffer([]byte{0x00, 0x00, 0x00, 0x00})",
  str% "",
  str% "\tbuf.SeekBit(16, true)",
  str% "\tbuf.SeekBit(16, true)",
  str% "",
  str% "\tout := buf.BitOffset()",
  str% "\tif expected != out {",
  str% "",
  str% "\t\tt.Fatalf(\"expected int64 does not match the one gotten (got %d, expected %d)\", out, expected)",
  str% "",
  str% "\t}",
  str% "",
  str% "}"]

/-- v1/buffer_test.go:242-258 -/
def TestBufferAlignBit : List Str := [
  str% "func TestBufferAlignBit(t *testing.T) {",
  str% "",
  str% "\tvar expected int64 = 0x20",
  str% "",
  str% "\tbuf := NewBuffer([]byte{0x00, 0x00, 0x00, 0x00})",
  str% "",
  str% "\tbuf.Seek(0x04, false)",
  str% "\tbuf.AlignBit()",
  str% "",
  str% "\tout := buf.BitOffset()",
  str% "\tif expected != out {",
  str% "",
  str% "\t\tt.Fatalf(\"expected int64 does not match the one gotten (got %d, expected %d)\", out, expected)",
  str% "",
  str% "\t}",
  str% "",
  str% "}"]

/-- v1/buffer_test.go:260-276 -/
def TestBufferAlignByte : List Str := [
  str% "func TestBufferAlignByte(t *testing.T) {",
  str% "",
  str% "\tvar expected int64 = 0x04",
  str% "",
  str% "\tbuf := NewBuffer([]byte{0x00, 0x00, 0x00, 0x00})",
  str% "",
  str% "\tbuf.SeekBit(0x20, false)",
  str% "\tbuf.AlignByte()",
  str% "",
  str% "\tout := buf.Offset()",
  str% "\tif expected != out {",
  str% "",
  str% "\t\tt.Fatalf(\"expected int64 does not match the one gotten (got %d, expected %d)\", out, expected)",
  str% "",
  str% "\t}",
  str% "",
  str% "}"]

/-- v1/buffer_test.go:278-301 -/
def TestBufferAfter : List Str := [
  str% "func TestBufferAfter(t *testing.T) {",
  str% "",
  str% "\tvar expected int64 = 2",
  str% "",
  str% "\tbuf := NewBuffer([]byte{0x00, 0x00, 0x00, 0x00})",
  str% "",
  str% "\tbuf.Seek(0x01, false)",
  str% "\tout := buf.After()",
  str% "",
  str% "\tif expected != out {",
  str% "",
  str% "\t\tt.Fatalf(\"expected int64 does not match the one gotten (got %d, expected %d)\", out, expected)",
  str% "",
  str% "\t}",
  str% "",
  str% "\tout = buf.After(0x01)",
  str% "",
  str% "\tif expected != out {",
  str% "",
  str% "\t\tt.Fatalf(\"expected int64 does not match the one gotten (got %d, expected %d)\", out, expected)",
  str% "",
  str% "\t}",
  str% "",
  str% "}"]

/-- v1/buffer_test.go:303-326 -/
def TestBufferAfterBit : List Str := [
  str% "func TestBufferAfterBit(t *testing.T) {",
  str% "",
  str% "\tvar expected int64 = 16",
  str% "",
  str% "\tbuf := NewBuffer([]byte{0x00, 0x00, 0x00, 0x00})",
  str% "",
  str% "\tbuf.SeekBit(0x0f, false)",
  str% "\tout := buf.AfterBit()",
  str% "",
  str% "\tif expected != out {",
  str% "",
  str% "\t\tt.Fatalf(\"expected int64 does not match the one gotten (got %d, expected %d)\", out, expected)",
  str% "",
  str% "\t}",
  str% "",
  str% "\tout = buf.AfterBit(0x0f)",
  str% "",
  str% "\tif expected != out {",
  str% "",
  str% "\t\tt.Fatalf(\"expected int64 does not match the one gotten (got %d, expected %d)\", out, expected)",
  str% "",
  str% "\t}",
  str% "",
  str% "}"]

/-- v1/buffer_test.go:328-341 -/
def TestBufferReadByte : List Str := [
  str% "func TestBufferReadByte(t *testing.T) {",
  str% "",
  str% "\tvar expected byte = 0x03",
  str% "",
  str% "\tbuf := NewBuffer([]byte{0x01, 0x02, 0x03, 0x04})",
  str% "",
  str% "\tout := buf.ReadByte(0x02)",
  str% "\tif expected != out {",
  str% "",
  str% "\t\tt.Fatalf(\"expected byte does not match the one gotten (got %d, expected %d)\", out, expected)",
  str% "",
  str% "\t}",
  str% "",
  str% "}"]

/-- v1/buffer_test.go:343-356 -/
def TestBufferReadByteNext : List Str := [
  str% "func TestBufferReadByteNext(t *testing.T) {",
  str% "",
  str% "\tvar expected byte = 0x01",
  str% "",
  str% "\tbuf := NewBuffer([]byte{0x01, 0x02, 0x03, 0x04})",
  str% "",
  str% "\tout := buf.ReadByteNext()",
  str% "\tif expected != out {",
  str% "",
  str% "\t\tt.Fatalf(\"expected byte does not match the one gotten (got %d, expected %d)\", out, expected)",
  str% "",
  str% "\t}",
  str% "",
  str% "}"]

/-- v1/buffer_test.go:358-371 -/
def TestBufferReadBytes : List Str := [
  str% "func TestBufferReadBytes(t *testing.T) {",
  str% "",
  str% "\tvar expected = []byte{0x03, 0x04}",
  str% "",
  str% "\tbuf := NewBuffer([]byte{0x01, 0x02, 0x03, 0x04})",
  str% "",
  str% "\tout := buf.ReadBytes(0x02, 2)",
  str% "\tif !cmp.Equal(expected, out) {",
  str% "",
  str% "\t\tt.Fatalf(\"expected byte array does not match the one gotten (got %#v, expected %#v)\", out, expected)",
  str% "",
  str% "\t}",
  str% "",
  str% "}"]

/-- v1/buffer_test.go:373-386 -/
def TestBufferReadBytesNext : List Str := [
  str% "func TestBufferReadBytesNext(t *testing.T) {",
  str% "",
  str% "\tvar expected = []byte{0x01, 0x02}",
  str% "",
  str% "\tbuf := NewBuffer([]byte{0x01, 0x02, 0x03, 0x04})",
  str% "",
  str% "\tout := buf.ReadBytesNext(2)",
  str% "\tif !cmp.Equal(expected, out) {",
  str% "",
  str% "\t\tt.Fatalf(\"expected byte array does not match the one gotten (got %#v, expected %#v)\", out, expected)",
  str% "",
  str% "\t}",
  str% "",
  str% "}"]

/-- v1/buffer_test.go:388-435 -/
def TestBufferReadComplex : List Str := [
  str% "func TestBufferReadComplex(t *testing.T) {",
  str% "",
  str% "\tvar (",
  str% "\t\texpected1 = []byte{0x01}",
  str% "\t\texpected2 = []uint16{0x01}",
  str% "\t\texpected3 = []uint16{0x100}",
  str% "\t\texpected4 = []uint32{0x01}",
  str% "\t\texpected5 = []uint64{0x01}",
  str% "\t)",
  str% "",
  str% "\tbuf := NewBuffer([]byte{0x01, 0x00, 0x00, 0x00, 0x00, 0x00, 0x00, 0x00})",
  str% "",
  str% "\tout1 := buf.ReadComplex(0x00, 1, Unsigned8, LittleEndian).([]byte)",
  str% "\tif !cmp.Equal(out1, expected1) {",
  str% "",
  str% "\t\tt.Fatalf(\"expected byte array does not match the one gotten (got %#v, expected %#v)\", out1, expected1)",
  str% "",
  str% "\t}",
  str% "",
  str% "\tout2 := buf.ReadComplex(0x00, 1, Unsigned16, LittleEndian).([]uint16)",
  str% "\tif !cmp.Equal(out2, expected2) {",
  str% "",
  str% "\t\tt.Fatalf(\"expected uint16 array does not match the one gotten (got %#v, expected %#v)\", out2, expected2)",
  str% "",
  str% "\t}",
  str% "",
  str% "\tout2 = buf.ReadComplex(0x00, 1, Unsigned16, BigEndian).([]uint16)",
  str% "\tif !cmp.Equal(out2, expected3) {",
  str% "",
  str% "\t\tt.Fatalf(\"expected uint16 array does not match the one gotten (got %#v, expected %#v)\", out2, expected3)",
  str% "",
  str% "\t}",
  str% "",
  str% "\tout3 := buf.ReadComplex(0x00, 1, Unsigned32, LittleEndian).([]uint32)",
  str% "\tif !cmp.Equal(out3, expected4) {",
  str% "",
  str% "\t\tt.Fatalf(\"expected uint32 array does not match the one gotten (got %#v, expected %#v)\", out3, expected4)",
  str% "",
  str% "\t}",
  str% "",
  str% "\tout4 := buf.ReadComplex(0x00, 1, Unsigned64, LittleEndian).([]uint64)",
  str% "\tif !cmp.Equal(out4, expected5) {",
  str% "",
  str% "\t\tt.Fatalf(\"expected uint64 array does not match the one gotten (got %#v, expected %#v)\", out4, expected5)",
  str% "",
  str% "\t}",
  str% "",
  str% "}"]

/-- v1/buffer_test.go:437-451 -/
def TestBufferReadComplexNext : List Str := [
  str% "func TestBufferReadComplexNext(t *testing.T) {",
  str% "",
  str% "\tvar expected = []byte{0x01, 0x02}",
  str% "",
  str% "\tbuf := NewBuffer([]byte{0x01, 0x02, 0x03, 0x04})",
  str% "",
  str% "\tout := buf.ReadComplexNext(2, Unsigned8, LittleEndian).([]byte)",
  str% "",
  str% "\tif !cmp.Equal(expected, out) {",
  str% "",
  str% "\t\tt.Fatalf(\"expected byte array does not match the one gotten (got %#v, expected %#v)\", out, expected)",
  str% "",
  str% "\t}",
  str% "",
  str% "}"]

/-- v1/buffer_test.go:453-468 -/
def TestBufferWriteByte : List Str := [
  str% "func TestBufferWriteByte(t *testing.T) {",
  str% "",
  str% "\tvar expected byte = 0x04",
  str% "",
  str% "\tbuf := NewBuffer([]byte{0x00, 0x00, 0x00, 0x00})",
  str% "",
  str% "\tbuf.WriteByte(0x03, 0x04)",
  str% "",
  str% "\tout := buf.ReadByte(0x03)",
  str% "\tif expected != out {",
  str% "",
  str% "\t\tt.Fatalf(\"expected byte does not match the one gotten (got %d, expected %d)\", out, expected)",
  str% "",
  str% "\t}",
  str% "",
  str% "}"]

/-- v1/buffer_test.go:470-485 -/
def TestBufferWriteByteNext : List Str := [
  str% "func TestBufferWriteByteNext(t *testing.T) {",
  str% "",
  str% "\tvar expected byte = 0x01",
  str% "",
  str% "\tbuf := NewBuffer([]byte{0x00, 0x00, 0x00, 0x00})",
  str% "",
  str% "\tbuf.WriteByteNext(0x01)",
  str% "",
  str% "\tout := buf.ReadByte(0x00)",
  str% "\tif expected != out {",
  str% "",
  str% "\t\tt.Fatalf(\"expected byte does not match the one gotten (got %d, expected %d)\", out, expected)",
  str% "",
  str% "\t}",
  str% "",
  str% "}"]

/-- v1/buffer_test.go:487-502 -/
def TestBufferWriteBytes : List Str := [
  str% "func TestBufferWriteBytes(t *testing.T) {",
  str% "",
  str% "\tvar expected = []byte{0x01, 0x02}",
  str% "",
  str% "\tbuf := NewBuffer([]byte{0x00, 0x00, 0x00, 0x00})",
  str% "",
  str% "\tbuf.WriteBytes(0x02, []byte{0x01, 0x02})",
  str% "",
  str% "\tout := buf.ReadBytes(0x02, 2)",
  str% "\tif !cmp.Equal(expected, out) {",
  str% "",
  str% "\t\tt.Fatalf(\"expected byte array does not match the one gotten (got %#v, expected %#v)\", out, expected)",
  str% "",
  str% "\t}",
  str% "",
  str% "}"]

/-- v1/buffer_test.go:504-519 -/
def TestBufferWriteBytesNext : List Str := [
  str% "func TestBufferWriteBytesNext(t *testing.T) {",
  str% "",
  str% "\tvar expected = []byte{0x01, 0x02}",
  str% "",
  str% "\tbuf := NewBuffer([]byte{0x00, 0x00, 0x00, 0x00})",
  str% "",
  str% "\tbuf.WriteBytesNext([]byte{0x01, 0x02})",
  str% "",
  str% "\tout := buf.ReadBytes(0x00, 2)",
  str% "\tif !cmp.Equal(expected, out) {",
  str% "",
  str% "\t\tt.Fatalf(\"expected byte array does not match the one gotten (got %#v, expected %#v)\", out, expected)",
  str% "",
  str% "\t}",
  str% "",
  str% "}"]

/-- v1/buffer_test.go:521-572 -/
def TestBufferWriteComplex : List Str := [
  str% "func TestBufferWriteComplex(t *testing.T) {",
  str% "",
  str% "\tvar expected byte = 0x01",
  str% "",
  str% "\tbuf := NewBuffer([]byte{0x00, 0x00, 0x00, 0x00, 0x00, 0x00, 0x00, 0x00})",
  str% "",
  str% "\tbuf.WriteComplex(0x00, []byte{0x01}, Unsigned8, LittleEndian)",
  str% "",
  str% "\tout := buf.ReadByte(0x00)",
  str% "\tif expected != out {",
  str% "",
  str% "\t\tt.Fatalf(\"expected byte does not match the one gotten (got %d, expected %d)\", out, expected)",
  str% "",
  str% "\t}",
  str% "",
  str% "\tbuf.WriteComplex(0x00, []uint16{0x01}, Unsigned16, LittleEndian)",
  str% "",
  str% "\tout = buf.ReadByte(0x00)",
  str% "\tif expected != out {",
  str% "",
  str% "\t\tt.Fatalf(\"expected byte does not match the one gotten (got %d, expected %d)\", out, expected)",
  str% "",
  str% "\t}",
  str% "",
  str% "\tbuf.WriteComplex(0x00, []uint16{0x100}, Unsigned16, BigEndian)",
  str% "",
  str% "\tout = buf.ReadByte(0x00)",
  str% "\tif expected != out {",
  str% "",
  str% "\t\tt.Fatalf(\"expected byte does not match the one gotten (got %d, expected %d)\", out, expected)",
  str% "",
  str% "\t}",
  str% "",
  str% "\tbuf.WriteComplex(0x00, []uint32{0x01}, Unsigned32, LittleEndian)",
  str% "",
  str% "\tout = buf.ReadByte(0x00)",
  str% "\tif expected != out {",
  str% "",
  str% "\t\tt.Fatalf(\"expected byte does not match the one gotten (got %d, expected %d)\", out, expected)",
  str% "",
  str% "\t}",
  str% "",
  str% "\tbuf.WriteComplex(0x00, []uint64{0x01}, Unsigned64, LittleEndian)",
  str% "",
  str% "\tout = buf.ReadByte(0x00)",
  str% "\tif expected != out {",
  str% "",
  str% "\t\tt.Fatalf(\"expected byte does not match the one gotten (got %d, expected %d)\", out, expected)",
  str% "",
  str% "\t}",
  str% "",
  str% "}"]

/-- v1/buffer_test.go:574-619 -/
def TestBufferWriteComplexNext : List Str := [
  str% "func TestBufferWriteComplexNext(t *testing.T) {",
  str% "",
  str% "\tvar expected byte = 0x01",
  str% "",
  str% "\tbuf := NewBuffer([]byte{0x00, 0x00, 0x00, 0x00, 0x00, 0x00, 0x00, 0x00})",
  str% "",
  str% "\tbuf.WriteComplexNext([]byte{0x01, 0x02}, Unsigned8, LittleEndian)",
  str% "",
  str% "\tout := buf.ReadByte(0x00)",
  str% "\tif expected != out {",
  str% "",
  str% "\t\tt.Fatalf(\"expected byte does not match the one gotten (got %d, expected %d)\", out, expected)",
  str% "",
  str% "\t}",
  str% "",
  str% "\tbuf.Seek(0x00, false)",
  str% "\tbuf.WriteComplexNext([]uint16{0x01}, Unsigned16, LittleEndian)",
  str% "",
  str% "\tout = buf.ReadByte(0x00)",
  str% "\tif expected != out {",
  str% "",
  str% "\t\tt.Fatalf(\"expected byte does not match the one gotten (got %d, expected %d)\", out, expected)",
  str% "",
  str% "\t}",
  str% "",
  str% "\tbuf.Seek(0x00, false)",
  str% "\tbuf.WriteComplexNext([]uint32{0x01}, Unsigned32, LittleEndian)",
  str% "",
  str% "\tout = buf.ReadByte(0x00)",
  str% "\tif expected != out {",
  str% "",
  str% "\t\tt.Fatalf(\"expected byte does not match the one gotten (got %d, expected %d)\", out, expected)",
  str% "",
  str% "\t}",
  str% "",
  str% "\tbuf.Seek(0x00, false)",
  str% "\tbuf.WriteComplexNext([]uint64{0x01}, Unsigned64, LittleEndian)",
  str% "",
  str% "\tout = buf.ReadByte(0x00)",
  str% "\tif expected != out {",
  str% "",
  str% "\t\tt.Fatalf(\"expected byte does not match the one gotten (got %d, expected %d)\", out, expected)",
  str% "",
  str% "\t}",
  str% "",
  str% "}"]

/-- v1/buffer_test.go:621-634 -/
def TestBufferReadBit : List Str := [
  str% "func TestBufferReadBit(t *testing.T) {",
  str% "",
  str% "\tvar expected byte = 1",
  str% "",
  str% "\tbuf := NewBuffer([]byte{0x01, 0x00, 0x00, 0x00})",
  str% "",
  str% "\tout := buf.ReadBit(0x07)",
  str% "\tif expected != out {",
  str% "",
  str% "\t\tt.Fatalf(\"expected byte does not match the one gotten (got %d, expected %d)\", out, expected)",
  str% "",
  str% "\t}",
  str% "",
  str% "}"]

/-- v1/buffer_test.go:636-649 -/
def TestBufferReadBitNext : List Str := [
  str% "func TestBufferReadBitNext(t *testing.T) {",
  str% "",
  str% "\tvar expected byte = 1",
  str% "",
  str% "\tbuf := NewBuffer([]byte{0xff, 0x00, 0x00, 0x00})",
  str% "",
  str% "\tout := buf.ReadBitNext()",
  str% "\tif expected != out {",
  str% "",
  str% "\t\tt.Fatalf(\"expected byte does not match the one gotten (got %d, expected %d)\", out, expected)",
  str% "",
  str% "\t}",
  str% "",
  str% "}"]

/-- v1/buffer_test.go:651-664 -/
def TestBufferReadBits : List Str := [
  str% "func TestBufferReadBits(t *testing.T) {",
  str% "",
  str% "\tvar expected uint64 = 5",
  str% "",
  str% "\tbuf := NewBuffer([]byte{0x0d, 0x00, 0x00, 0x00})",
  str% "",
  str% "\tout := buf.ReadBits(0x05, 3)",
  str% "\tif expected != out {",
  str% "",
  str% "\t\tt.Fatalf(\"expected uint64 does not match the one gotten (got %d, expected %d)\", out, expected)",
  str% "",
  str% "\t}",
  str% "",
  str% "}"]

/-- v1/buffer_test.go:666-679 -/
def TestBufferReadBitsNext : List Str := [
  str% "func TestBufferReadBitsNext(t *testing.T) {",
  str% "",
  str% "\tvar expected uint64 = 13",
  str% "",
  str% "\tbuf := NewBuffer([]byte{0x0d, 0x00, 0x00, 0x00})",
  str% "",
  str% "\tout := buf.ReadBitsNext(8)",
  str% "\tif expected != out {",
  str% "",
  str% "\t\tt.Fatalf(\"expected uint64 does not match the one gotten (got %d, expected %d)\", out, expected)",
  str% "",
  str% "\t}",
  str% "",
  str% "}"]

/-- v1/buffer_test.go:681-696 -/
def TestBufferSetBit : List Str := [
  str% "func TestBufferSetBit(t *testing.T) {",
  str% "",
  str% "\tvar expected byte = 1",
  str% "",
  str% "\tbuf := NewBuffer([]byte{0x00, 0x00, 0x00, 0x00})",
  str% "",
  str% "\tbuf.SetBit(0x00, 1)",
  str% "",
  str% "\tout := buf.ReadBit(0x00)",
  str% "\tif expected != out {",
  str% "",
  str% "\t\tt.Fatalf(\"expected byte does not match the one gotten (got %d, expected %d)\", out, expected)",
  str% "",
  str% "\t}",
  str% "",
  str% "}"]

/-- v1/buffer_test.go:698-713 -/
def TestBufferSetBitNext : List Str := [
  str% "func TestBufferSetBitNext(t *testing.T) {",
  str% "",
  str% "\tvar expected byte = 1",
  str% "",
  str% "\tbuf := NewBuffer([]byte{0x00, 0x00, 0x00, 0x00})",
  str% "",
  str% "\tbuf.SetBitNext(1)",
  str% "",
  str% "\tout := buf.ReadBit(0x00)",
  str% "\tif expected != out {",
  str% "",
  str% "\t\tt.Fatalf(\"expected byte does not match the one gotten (got %d, expected %d)\", out, expected)",
  str% "",
  str% "\t}",
  str% "",
  str% "}"]

/-- v1/buffer_test.go:715-730 -/
def TestBufferSetBits : List Str := [
  str% "func TestBufferSetBits(t *testing.T) {",
  str% "",
  str% "\tvar expected uint64 = 5",
  str% "",
  str% "\tbuf := NewBuffer([]byte{0x00, 0x00, 0x00, 0x00})",
  str% "",
  str% "\tbuf.SetBits(0x06, 5, 3)",
  str% "",
  str% "\tout := buf.ReadBits(0x06, 3)",
  str% "\tif expected != out {",
  str% "",
  str% "\t\tt.Fatalf(\"expected uint64 does not match the one gotten (got %d, expected %d)\", out, expected)",
  str% "",
  str% "\t}",
  str% "",
  str% "}"]

/-- v1/buffer_test.go:732-747 -/
def TestBufferSetBitsNext : List Str := [
  str% "func TestBufferSetBitsNext(t *testing.T) {",
  str% "",
  str% "\tvar expected uint64 = 13",
  str% "",
  str% "\tbuf := NewBuffer([]byte{0x00, 0x00, 0x00, 0x00})",
  str% "",
  str% "\tbuf.SetBitsNext(13, 8)",
  str% "",
  str% "\tout := buf.ReadBits(0x00, 8)",
  str% "\tif expected != out {",
  str% "",
  str% "\t\tt.Fatalf(\"expected uint64 does not match the one gotten (got %d, expected %d)\", out, expected)",
  str% "",
  str% "\t}",
  str% "",
  str% "}"]

/-- v1/buffer_test.go:749-764 -/
def TestBufferFlipBit : List Str := [
  str% "func TestBufferFlipBit(t *testing.T) {",
  str% "",
  str% "\tvar expected byte",
  str% "",
  str% "\tbuf := NewBuffer([]byte{0xff, 0xff, 0xff, 0xff})",
  str% "",
  str% "\tbuf.FlipBit(0x01)",
  str% "",
  str% "\tout := buf.ReadBit(0x01)",
  str% "\tif expected != out {",
  str% "",
  str% "\t\tt.Fatalf(\"expected byte does not match the one gotten (got %d, expected %d)\", out, expected)",
  str% "",
  str% "\t}",
  str% "",
  str% "}"]

/-- v1/buffer_test.go:766-781 -/
def TestBufferFlipBitNext : List Str := [
  str% "func TestBufferFlipBitNext(t *testing.T) {",
  str% "",
  str% "\tvar expected byte = 1",
  str% "",
  str% "\tbuf := NewBuffer([]byte{0x00, 0x00, 0x00, 0x00})",
  str% "",
  str% "\tbuf.FlipBitNext()",
  str% "",
  str% "\tout := buf.ReadBit(0x00)",
  str% "\tif expected != out {",
  str% "",
  str% "\t\tt.Fatalf(\"expected byte does not match the one gotten (got %d, expected %d)\", out, expected)",
  str% "",
  str% "\t}",
  str% "",
  str% "}"]

/-- v1/buffer_test.go:783-797 -/
def TestBufferClearAllBits : List Str := [
  str% "func TestBufferClearAllBits(t *testing.T) {",
  str% "",
  str% "\tvar expected = []byte{0x00, 0x00, 0x00, 0x00}",
  str% "",
  str% "\tbuf := NewBuffer([]byte{0xff, 0x00, 0xff, 0x00})",
  str% "",
  str% "\tbuf.ClearAllBits()",
  str% "",
  str% "\tif !cmp.Equal(expected, buf.buf) {",
  str% "",
  str% "\t\tt.Fatalf(\"expected byte array does not match the one gotten (got %#v, expected %#v)\", buf.buf, expected)",
  str% "",
  str% "\t}",
  str% "",
  str% "}"]

/-- v1/buffer_test.go:799-813 -/
def TestBufferSetAllBits : List Str := [
  str% "func TestBufferSetAllBits(t *testing.T) {",
  str% "",
  str% "\tvar expected = []byte{0xff, 0xff, 0xff, 0xff}",
  str% "",
  str% "\tbuf := NewBuffer([]byte{0x00, 0xff, 0x00, 0xff})",
  str% "",
  str% "\tbuf.SetAllBits()",
  str% "",
  str% "\tif !cmp.Equal(expected, buf.buf) {",
  str% "",
  str% "\t\tt.Fatalf(\"expected byte array does not match the one gotten (got %#v, expected %#v)\", buf.buf, expected)",
  str% "",
  str% "\t}",
  str% "",
  str% "}"]

/-- v1/buffer_test.go:815-829 -/
def TestBufferFlipAllBits : List Str := [
  str% "func TestBufferFlipAllBits(t *testing.T) {",
  str% "",
  str% "\tvar expected = []byte{0xff, 0x00, 0xff, 0x00}",
  str% "",
  str% "\tbuf := NewBuffer([]byte{0x00, 0xff, 0x00, 0xff})",
  str% "",
  str% "\tbuf.FlipAllBits()",
  str% "",
  str% "\tif !cmp.Equal(expected, buf.buf) {",
  str% "",
  str% "\t\tt.Fatalf(\"expected byte array does not match the one gotten (got %#v, expected %#v)\", buf.buf, expected)",
  str% "",
  str% "\t}",
  str% "",
  str% "}"]

/-- v1/buffer_test.go:831-839 -/
def TestBufferReadbitPanic1 : List Str := [
  str% "func TestBufferReadbitPanic1(t *testing.T) {",
  str% "",
  str% "\tdefer panicChecker(t, BufferOverreadError)",
  str% "",
  str% "\tbuf := NewBuffer([]byte{0x00, 0x00, 0x00, 0x00})",
  str% "",
  str% "\t_ = buf.readbit(0x20)",
  str% "",
  str% "}"]

/-- v1/buffer_test.go:841-849 -/
def TestBufferReadbitPanic2 : List Str := [
  str% "func TestBufferReadbitPanic2(t *testing.T) {",
  str% "",
  str% "\tdefer panicChecker(t, BufferUnderreadError)",
  str% "",
  str% "\tbuf := NewBuffer([]byte{0x00, 0x00, 0x00, 0x00})",
  str% "",
  str% "\t_ = buf.readbit(-0x01)",
  str% "",
  str% "}"]

/-- v1/buffer_test.go:851-859 -/
def TestBufferSetbitPanic1 : List Str := [
  str% "func TestBufferSetbitPanic1(t *testing.T) {",
  str% "",
  str% "\tdefer panicChecker(t, BufferOverwriteError)",
  str% "",
  str% "\tbuf := NewBuffer([]byte{0x00, 0x00, 0x00, 0x00})",
  str% "",
  str% "\tbuf.setbit(0x20, 1)",
  str% "",
  str% "}"]

/-- v1/buffer_test.go:861-869 -/
def TestBufferSetbitPanic2 : List Str := [
  str% "func TestBufferSetbitPanic2(t *testing.T) {",
  str% "",
  str% "\tdefer panicChecker(t, BufferUnderwriteError)",
  str% "",
  str% "\tbuf := NewBuffer([]byte{0x00, 0x00, 0x00, 0x00})",
  str% "",
  str% "\tbuf.setbit(-0x01, 1)",
  str% "",
  str% "}"]

/-- v1/buffer_test.go:871-879 -/
def TestBufferSetbitPanic3 : List Str := [
  str% "func TestBufferSetbitPanic3(t *testing.T) {",
  str% "",
  str% "\tdefer panicChecker(t, BufferInvalidBitError)",
  str% "",
  str% "\tbuf := NewBuffer([]byte{0x00, 0x00, 0x00, 0x00})",
  str% "",
  str% "\tbuf.setbit(0x00, 2)",
  str% "",
  str% "}"]

/-- v1/buffer_test.go:881-889 -/
def TestBufferFlipbitPanic1 : List Str := [
  str% "func TestBufferFlipbitPanic1(t *testing.T) {",
  str% "",
  str% "\tdefer panicChecker(t, BufferOverwriteError)",
  str% "",
  str% "\tbuf := NewBuffer([]byte{0x00, 0x00, 0x00, 0x00})",
  str% "",
  str% "\tbuf.flipbit(0x20)",
  str% "",
  str% "}"]

/-- v1/buffer_test.go:891-899 -/
def TestBufferFlipbitPanic2 : List Str := [
  str% "func TestBufferFlipbitPanic2(t *testing.T) {",
  str% "",
  str% "\tdefer panicChecker(t, BufferUnderwriteError)",
  str% "",
  str% "\tbuf := NewBuffer([]byte{0x00, 0x00, 0x00, 0x00})",
  str% "",
  str% "\tbuf.flipbit(-0x01)",
  str% "",
  str% "}"]

/-- v1/buffer_test.go:901-909 -/
def TestBufferWritePanic1 : List Str := [
  str% "func TestBufferWritePanic1(t *testing.T) {",
  str% "",
  str% "\tdefer panicChecker(t, BufferOverwriteError)",
  str% "",
  str% "\tbuf := NewBuffer([]byte{0x00, 0x00, 0x00, 0x00})",
  str% "",
  str% "\tbuf.write(0x04, []byte{0x01, 0x01})",
  str% "",
  str% "}"]

/-- v1/buffer_test.go:911-919 -/
def TestBufferWritePanic2 : List Str := [
  str% "func TestBufferWritePanic2(t *testing.T) {",
  str% "",
  str% "\tdefer panicChecker(t, BufferUnderwriteError)",
  str% "",
  str% "\tbuf := NewBuffer([]byte{0x00, 0x00, 0x00, 0x00})",
  str% "",
  str% "\tbuf.write(-0x01, []byte{0x01, 0x01})",
  str% "",
  str% "}"]

/-- v1/buffer_test.go:921-929 -/
def TestBufferReadPanic1 : List Str := [
  str% "func TestBufferReadPanic1(t *testing.T) {",
  str% "",
  str% "\tdefer panicChecker(t, BufferOverreadError)",
  str% "",
  str% "\tbuf := NewBuffer([]byte{0x00, 0x00, 0x00, 0x00})",
  str% "",
  str% "\t_ = buf.read(0x20, 1)",
  str% "",
  str% "}"]

/-- v1/buffer_test.go:931-939 -/
def TestBufferReadPanic2 : List Str := [
  str% "func TestBufferReadPanic2(t *testing.T) {",
  str% "",
  str% "\tdefer panicChecker(t, BufferUnderreadError)",
  str% "",
  str% "\tbuf := NewBuffer([]byte{0x00, 0x00, 0x00, 0x00})",
  str% "",
  str% "\t_ = buf.read(-0x01, 1)",
  str% "",
  str% "}"]

/-- v1/buffer_test.go:941-949 -/
def TestBufferReadComplexPanic : List Str := [
  str% "func TestBufferReadComplexPanic(t *testing.T) {",
  str% "",
  str% "\tdefer panicChecker(t, BufferInvalidIntegerSizeError)",
  str% "",
  str% "\tbuf := NewBuffer([]byte{0x00, 0x00, 0x00, 0x00})",
  str% "",
  str% "\t_ = buf.readComplex(0x00, 1, -1, LittleEndian).([]byte)",
  str% "",
  str% "}"]

/-- v1/buffer_test.go:951-959 -/
def TestBufferWriteComplexPanic : List Str := [
  str% "func TestBufferWriteComplexPanic(t *testing.T) {",
  str% "",
  str% "\tdefer panicChecker(t, BufferInvalidIntegerSizeError)",
  str% "",
  str% "\tbuf := NewBuffer([]byte{0x00, 0x00, 0x00, 0x00})",
  str% "",
  str% "\tbuf.writeComplex(0x00, 1, -1, LittleEndian)",
  str% "",
  str% "}"]

/-- All of them. -/
def text : List (List Str) := [TestNewBuffer, TestBufferBytes, TestBufferCapacity, TestBufferBitCapacity, TestBufferOffset, TestBufferBitOffset, TestBufferRefresh, TestBufferGrow, TestBufferSeek, TestBufferSeekBit, TestBufferAlignBit, TestBufferAlignByte, TestBufferAfter, TestBufferAfterBit, TestBufferReadByte, TestBufferReadByteNext, TestBufferReadBytes, TestBufferReadBytesNext, TestBufferReadComplex, TestBufferReadComplexNext, TestBufferWriteByte, TestBufferWriteByteNext, TestBufferWriteBytes, TestBufferWriteBytesNext, TestBufferWriteComplex, TestBufferWriteComplexNext, TestBufferReadBit, TestBufferReadBitNext, TestBufferReadBits, TestBufferReadBitsNext, TestBufferSetBit, TestBufferSetBitNext, TestBufferSetBits, TestBufferSetBitsNext, TestBufferFlipBit, TestBufferFlipBitNext, TestBufferClearAllBits, TestBufferSetAllBits, TestBufferFlipAllBits, TestBufferReadbitPanic1, TestBufferReadbitPanic2, TestBufferSetbitPanic1, TestBufferSetbitPanic2, TestBufferSetbitPanic3, TestBufferFlipbitPanic1, TestBufferFlipbitPanic2, TestBufferWritePanic1, TestBufferWritePanic2, TestBufferReadPanic1, TestBufferReadPanic2, TestBufferReadComplexPanic, TestBufferWriteComplexPanic]

end Crunch.Src.V1BufferTest
