import Verif.Gen.Text

/-!
# The test functions of v1/minibuf_test.go

Written by tools/src_embed.py.
-/

namespace Crunch.Src.V1MiniTest

open Crunch.Gen (Str)

/-- v1/minibuf_test.go:42-91 -/
def TestNewMiniBuffer : List Str := [
  str% "func TestNewMiniBuffer(t *testing.T) {",
  str% "",
  str% "\tvar (",
  str% "\t\texpected1 = &MiniBuffer{",
  str% "\t\t\tbuf:  []byte{0x00, 0x00, 0x00, 0x00},",
  str% "\t\t\toff:  0x00,",
  str% "\t\t\tcap:  4,",
  str% "\t\t\tboff: 0x00,",
  str% "\t\t\tbcap: 32,",
  str% "\t\t}",
  str% "\t\texpected2 = &MiniBuffer{",
  str% "\t\t\tbuf:  []byte{},",
  str% "\t\t\toff:  0x00,",
  str% "\t\t\tcap:  0,",
  str% "\t\t\tboff: 0x00,",
  str% "\t\t\tbcap: 0,",
  str% "\t\t}",
  str% "\t\texpected3 = &MiniBuffer{",
  str% "\t\t\tbuf:  []byte{0x00, 0x00, 0x00, 0x00, 0x00, 0x00, 0x00, 0x00},",
  str% "\t\t\toff:  0x00,",
  str% "\t\t\tcap:  8,",
  str% "\t\t\tboff: 0x00,",
  str% "\t\t\tbcap: 64,",
  str% "\t\t}",
  str% "\t)",
  str% "",
  str% "\tout := &MiniBuffer{}",
  str% "",
  str% "\tNewMiniBuffer(&out, []byte{0x00, 0x00, 0x00, 0x00})",
  str% "\tif !cmp.Equal(expected1, out, MiniBufferComparer) {",
  str% "",
  str% "\t\tt.Fatalf(\"expected minibuffer does not match the one gotten (got %#v, expected %#v)\", out, expected1)",
  str% "",
  str% "\t}",
  str% "",
  str% "\tNewMiniBuffer(&out)",
  str% "\tif !cmp.Equal(expected2, out, MiniBufferComparer) {",
  str% "",
  str% "\t\tt.Fatalf(\"expected minibuffer does not match the one gotten (got %#v, expected %#v)\", out, expected2)",
  str% "",
  str% "\t}",
  str% "",
  str% "\tNewMiniBuffer(&out, []byte{0x00, 0x00, 0x00, 0x00}, []byte{0x00, 0x00, 0x00, 0x00})",
  str% "\tif !cmp.Equal(expected3, out, MiniBufferComparer) {",
  str% "",
  str% "\t\tt.Fatalf(\"expected minibuffer does not match the one gotten (got %#v, expected %#v)\", out, expected3)",
  str% "",
  str% "\t}",
  str% "",
  str% "}"]

/-- v1/minibuf_test.go:93-108 -/
def TestMiniBufferBytes : List Str := [
  str% "func TestMiniBufferBytes(t *testing.T) {",
  str% "",
  str% "\tvar expected = []byte{0x01, 0x02, 0x03, 0x04}",
  str% "",
  str% "\tbuf := &MiniBuffer{}",
  str% "\tNewMiniBuffer(&buf, []byte{0x01, 0x02, 0x03, 0x04})",
  str% "",
  str% "\tout := []byte{}",
  str% "\tbuf.Bytes(&out)",
  str% "\tif !cmp.Equal(expected, out) {",
  str% "",
  str% "\t\tt.Fatalf(\"expected byte array does not match the one gotten (got %#v, expected %#v)\", out, expected)",
  str% "",
  str% "\t}",
  str% "",
  str% "}"]

/-- v1/minibuf_test.go:110-125 -/
def TestMiniBufferCapacity : List Str := [
  str% "func TestMiniBufferCapacity(t *testing.T) {",
  str% "",
  str% "\tvar expected int64 = 4",
  str% "",
  str% "\tbuf := &MiniBuffer{}",
  str% "\tNewMiniBuffer(&buf, []byte{0x00, 0x00, 0x00, 0x00})",
  str% "",
  str% "\tvar out int64",
  str% "\tbuf.Capacity(&out)",
  str% "\tif expected != out {",
  str% "",
  str% "\t\tt.Fatalf(\"expected int64 does not match the one gotten (got %d, expected %d)\", out, expected)",
  str% "",
  str% "\t}",
  str% "",
  str% "}"]

/-- v1/minibuf_test.go:127-142 -/
def TestMiniBufferBitCapacity : List Str := [
  str% "func TestMiniBufferBitCapacity(t *testing.T) {",
  str% "",
  str% "\tvar expected int64 = 32",
  str% "",
  str% "\tbuf := &MiniBuffer{}",
  str% "\tNewMiniBuffer(&buf, []byte{0x00, 0x00, 0x00, 0x00})",
  str% "",
  str% "\tvar out int64",
  str% "\tbuf.BitCapacity(&out)",
  str% "\tif expected != out {",
  str% "",
  str% "\t\tt.Fatalf(\"expected int64 does not match the one gotten (got %d, expected %d)\", out, expected)",
  str% "",
  str% "\t}",
  str% "",
  str% "}"]

/-- v1/minibuf_test.go:144-161 -/
def TestMiniBufferOffset : List Str := [
  str% "func TestMiniBufferOffset(t *testing.T) {",
  str% "",
  str% "\tvar expected int64 = 0x02",
  str% "",
  str% "\tbuf := &MiniBuffer{}",
  str% "\tNewMiniBuffer(&buf, []byte{0x00, 0x00, 0x00, 0x00})",
  str% "",
  str% "\tbuf.Seek(0x02, false)",
  str% "",
  str% "\tvar out int64",
  str% "\tbuf.Offset(&out)",
  str% "\tif expected != out {",
  str% "",
  str% "\t\tt.Fatalf(\"expected int64 does not match the one gotten (got %d, expected %d)\", out, expected)",
  str% "",
  str% "\t}",
  str% "",
  str% "}"]

/-- v1/minibuf_test.go:163-180 -/
def TestMiniBufferBitOffset : List Str := [
  str% "func TestMiniBufferBitOffset(t *testing.T) {",
  str% "",
  str% "\tvar expected int64 = 0x0f",
  str% "",
  str% "\tbuf := &MiniBuffer{}",
  str% "\tNewMiniBuffer(&buf, []byte{0x00, 0x00, 0x00, 0x00})",
  str% "",
  str% "\tbuf.SeekBit(0x0f, false)",
  str% "",
  str% "\tvar out int64",
  str% "\tbuf.BitOffset(&out)",
  str% "\tif expected != out {",
  str% "",
  str% "\t\tt.Fatalf(\"expected int64 does not match the one gotten (got %d, expected %d)\", out, expected)",
  str% "",
  str% "\t}",
  str% "",
  str% "}"]

/-- v1/minibuf_test.go:182-200 -/
def TestMiniBufferRefresh : List Str := [
  str% "func TestMiniBufferRefresh(t *testing.T) {",
  str% "",
  str% "\tvar (",
  str% "\t\texpected1 int64 = 4",
  str% "\t\texpected2 int64 = 32",
  str% "\t)",
  str% "",
  str% "\tbuf := &MiniBuffer{}",
  str% "\tNewMiniBuffer(&buf, []byte{0x00, 0x00, 0x00, 0x00})",
  str% "",
  str% "\tbuf.Refresh()",
  str% "",
  str% "\tif expected1 != buf.cap || expected2 != buf.bcap {",
  str% "",
  str% "\t\tt.Fatalf(\"expected int64(s) do not match the ones gotten (got %d and %d, expected %d and %d)\", buf.cap, buf.bcap, expected1, expected2)",
  str% "",
  str% "\t}",
  str% "",
  str% "}"]

/-- v1/minibuf_test.go:202-219 -/
def TestMiniBufferGrow : List Str := [
  str% "func TestMiniBufferGrow(t *testing.T) {",
  str% "",
  str% "\tvar expected int64 = 4",
  str% "",
  str% "\tbuf := &MiniBuffer{}",
  str% "\tNewMiniBuffer(&buf, []byte{0x00, 0x00})",
  str% "",
  str% "\tbuf.Grow(2)",
  str% "",
  str% "\tvar out int64",
  str% "\tbuf.Capacity(&out)",
  str% "\tif expected != out {",
  str% "",
  str% "\t\tt.Fatalf(\"expected int64 does not match the one gotten (got %d, expected %d)\", out, expected)",
  str% "",
  str% "\t}",
  str% "",
  str% "}"]

/-- v1/minibuf_test.go:221-239 -/
def TestMiniBufferSeek : List Str := [
  str% "func TestMiniBufferSeek(t *testing.T) {",
  str% "",
  str% "\tvar expected int64 = 0x04",
  str% "",
  str% "\tbuf := &MiniBuffer{}",
  str% "\tNewMiniBuffer(&buf, []byte{0x00, 0x00, 0x00, 0x00})",
  str% "",
  str% "\tbuf.Seek(2, true)",
  str% "\tbuf.Seek(2, true)",
  str% "",
  str% "\tvar out int64",
  str% "\tbuf.Offset(&out)",
  str% "\tif expected != out {",
  str% "",
  str% "\t\tt.Fatalf(\"expected int64 does not match the one gotten (got %d, expected %d)\", out, expected)",
  str% "",
  str% "\t}",
  str% "",
  str% "}"]

/-- v1/minibuf_test.go:241-259 -/
def TestMiniBufferSeekBit : List Str := [
  str% "func TestMiniBufferSeekBit(t *testing.T) {",
  str% "",
  str% "\tvar expected int64 = 0x20",
  str% "",
  str% "\tbuf := &MiniBuffer{}",
  str% "\tNewMiniBuffer(&buf, []byte{0x00, 0x00, 0x00, 0x00})",
  str% "",
  str% "\tbuf.SeekBit(16, true)",
  str% "\tbuf.SeekBit(16, true)",
  str% "",
  str% "\tvar out int64",
  str% "\tbuf.BitOffset(&out)",
  str% "\tif expected != out {",
  str% "",
  str% "\t\tt.Fatalf(\"expected int64 does not match the one gotten (got %d, expected %d)\", out, expected)",
  str% "",
  str% "\t}",
  str% "",
  str% "}"]

/-- v1/minibuf_test.go:261-279 -/
def TestMiniBufferAlignBit : List Str := [
  str% "func TestMiniBufferAlignBit(t *testing.T) {",
  str% "",
  str% "\tvar expected int64 = 0x20",
  str% "",
  str% "\tbuf := &MiniBuffer{}",
  str% "\tNewMiniBuffer(&buf, []byte{0x00, 0x00, 0x00, 0x00})",
  str% "",
  str% "\tbuf.Seek(0x04, false)",
  str% "\tbuf.AlignBit()",
  str% "",
  str% "\tvar out int64",
  str% "\tbuf.BitOffset(&out)",
  str% "\tif expected != out {",
  str% "",
  str% "\t\tt.Fatalf(\"expected int64 does not match the one gotten (got %d, expected %d)\", out, expected)",
  str% "",
  str% "\t}",
  str% "",
  str% "}"]

/-- v1/minibuf_test.go:281-299 -/
def TestMiniBufferAlignByte : List Str := [
  str% "func TestMiniBufferAlignByte(t *testing.T) {",
  str% "",
  str% "\tvar expected int64 = 0x04",
  str% "",
  str% "\tbuf := &MiniBuffer{}",
  str% "\tNewMiniBuffer(&buf, []byte{0x00, 0x00, 0x00, 0x00})",
  str% "",
  str% "\tbuf.SeekBit(0x20, false)",
  str% "\tbuf.AlignByte()",
  str% "",
  str% "\tvar out int64",
  str% "\tbuf.Offset(&out)",
  str% "\tif expected != out {",
  str% "",
  str% "\t\tt.Fatalf(\"expected int64 does not match the one gotten (got %d, expected %d)\", out, expected)",
  str% "",
  str% "\t}",
  str% "",
  str% "}"]

/-- v1/minibuf_test.go:301-327 -/
def TestMiniBufferAfter : List Str := [
  str% "func TestMiniBufferAfter(t *testing.T) {",
  str% "",
  str% "\tvar expected int64 = 2",
  str% "",
  str% "\tbuf := &MiniBuffer{}",
  str% "\tNewMiniBuffer(&buf, []byte{0x00, 0x00, 0x00, 0x00})",
  str% "",
  str% "\tvar out int64",
  str% "",
  str% "\tbuf.Seek(0x01, false)",
  str% "\tbuf.After(&out)",
  str% "",
  str% "\tif expected != out {",
  str% "",
  str% "\t\tt.Fatalf(\"expected int64 does not match the one gotten (got %d, expected %d)\", out, expected)",
  str% "",
  str% "\t}",
  str% "",
  str% "\tbuf.After(&out, 0x01)",
  str% "",
  str% "\tif expected != out {",
  str% "",
  str% "\t\tt.Fatalf(\"expected int64 does not match the one gotten (got %d, expected %d)\", out, expected)",
  str% "",
  str% "\t}",
  str% "",
  str% "}"]

/-- v1/minibuf_test.go:329-355 -/
def TestMiniBufferAfterBit : List Str := [
  str% "func TestMiniBufferAfterBit(t *testing.T) {",
  str% "",
  str% "\tvar expected int64 = 16",
  str% "",
  str% "\tbuf := &MiniBuffer{}",
  str% "\tNewMiniBuffer(&buf, []byte{0x00, 0x00, 0x00, 0x00})",
  str% "",
  str% "\tvar out int64",
  str% "",
  str% "\tbuf.SeekBit(0x0f, false)",
  str% "\tbuf.AfterBit(&out)",
  str% "",
  str% "\tif expected != out {",
  str% "",
  str% "\t\tt.Fatalf(\"expected int64 does not match the one gotten (got %d, expected %d)\", out, expected)",
  str% "",
  str% "\t}",
  str% "",
  str% "\tbuf.AfterBit(&out, 0x0f)",
  str% "",
  str% "\tif expected != out {",
  str% "",
  str% "\t\tt.Fatalf(\"expected int64 does not match the one gotten (got %d, expected %d)\", out, expected)",
  str% "",
  str% "\t}",
  str% "",
  str% "}"]

/-- v1/minibuf_test.go:357-372 -/
def TestMiniBufferReadBytes : List Str := [
  str% "func TestMiniBufferReadBytes(t *testing.T) {",
  str% "",
  str% "\tvar expected = []byte{0x03, 0x04}",
  str% "",
  str% "\tbuf := &MiniBuffer{}",
  str% "\tNewMiniBuffer(&buf, []byte{0x01, 0x02, 0x03, 0x04})",
  str% "",
  str% "\tvar out []byte",
  str% "\tbuf.ReadBytes(&out, 0x02, 2)",
  str% "\tif !cmp.Equal(expected, out) {",
  str% "",
  str% "\t\tt.Fatalf(\"expected byte array does not match the one gotten (got %#v, expected %#v)\", out, expected)",
  str% "",
  str% "\t}",
  str% "",
  str% "}"]

/-- v1/minibuf_test.go:374-389 -/
def TestMiniBufferReadBytesNext : List Str := [
  str% "func TestMiniBufferReadBytesNext(t *testing.T) {",
  str% "",
  str% "\tvar expected = []byte{0x01, 0x02}",
  str% "",
  str% "\tbuf := &MiniBuffer{}",
  str% "\tNewMiniBuffer(&buf, []byte{0x01, 0x02, 0x03, 0x04})",
  str% "",
  str% "\tvar out []byte",
  str% "\tbuf.ReadBytesNext(&out, 2)",
  str% "\tif !cmp.Equal(expected, out) {",
  str% "",
  str% "\t\tt.Fatalf(\"expected byte array does not match the one gotten (got %#v, expected %#v)\", out, expected)",
  str% "",
  str% "\t}",
  str% "",
  str% "}"]

/-- v1/minibuf_test.go:391-441 -/
def TestMiniBufferReadComplex : List Str := [
  str% "func TestMiniBufferReadComplex(t *testing.T) {",
  str% "",
  str% "\tvar (",
  str% "\t\texpected1 = []byte{0x01}",
  str% "\t\texpected2 = []uint16{0x01}",
  str% "\t\texpected3 = []uint16{0x100}",
  str% "\t\texpected4 = []uint32{0x01}",
  str% "\t\texpected5 = []uint64{0x01}",
  str% "\t)",
  str% "",
  str% "\tbuf := &MiniBuffer{}",
  str% "\tNewMiniBuffer(&buf, []byte{0x01, 0x00, 0x00, 0x00, 0x00, 0x00, 0x00, 0x00})",
  str% "",
  str% "\tvar out interface{}",
  str% "",
  str% "\tbuf.ReadComplex(&out, 0x00, 1, Unsigned8, LittleEndian)",
  str% "\tif !cmp.Equal(out.([]byte), expected1) {",
  str% "",
  str% "\t\tt.Fatalf(\"expected byte array does not match the one gotten (got %#v, expected %#v)\", out.([]byte), expected1)",
  str% "",
  str% "\t}",
  str% "",
  str% "\tbuf.ReadComplex(&out, 0x00, 1, Unsigned16, LittleEndian)",
  str% "\tif !cmp.Equal(out.([]uint16), expected2) {",
  str% "",
  str% "\t\tt.Fatalf(\"expected uint16 array does not match the one gotten (got %#v, expected %#v)\", out.([]uint16), expected2)",
  str% "",
  str% "\t}",
  str% "",
  str% "\tbuf.ReadComplex(&out, 0x00, 1, Unsigned16, BigEndian)",
  str% "\tif !cmp.Equal(out.([]uint16), expected3) {",
  str% "",
  str% "\t\tt.Fatalf(\"expected uint16 array does not match the one gotten (got %#v, expected %#v)\", out.([]uint16), expected3)",
  str% "",
  str% "\t}",
  str% "",
  str% "\tbuf.ReadComplex(&out, 0x00, 1, Unsigned32, LittleEndian)",
  str% "\tif !cmp.Equal(out.([]uint32), expected4) {",
  str% "",
  str% "\t\tt.Fatalf(\"expected uint32 array does not match the one gotten (got %#v, expected %#v)\", out.([]uint32), expected4)",
  str% "",
  str% "\t}",
  str% "",
  str% "\tbuf.ReadComplex(&out, 0x00, 1, Unsigned64, LittleEndian)",
  str% "\tif !cmp.Equal(out.([]uint64), expected5) {",
  str% "",
  str% "\t\tt.Fatalf(\"expected uint64 array does not match the one gotten (got %#v, expected %#v)\", out.([]uint64), expected5)",
  str% "",
  str% "\t}",
  str% "",
  str% "}"]

/-- v1/minibuf_test.go:443-459 -/
def TestMiniBufferReadComplexNext : List Str := [
  str% "func TestMiniBufferReadComplexNext(t *testing.T) {",
  str% "",
  str% "\tvar expected = []byte{0x01, 0x02}",
  str% "",
  str% "\tbuf := &MiniBuffer{}",
  str% "\tNewMiniBuffer(&buf, []byte{0x01, 0x02, 0x03, 0x04})",
  str% "",
  str% "\tvar out interface{}",
  str% "\tbuf.ReadComplexNext(&out, 2, Unsigned8, LittleEndian)",
  str% "",
  str% "\tif !cmp.Equal(expected, out.([]byte)) {",
  str% "",
  str% "\t\tt.Fatalf(\"expected byte array does not match the one gotten (got %#v, expected %#v)\", out.([]byte), expected)",
  str% "",
  str% "\t}",
  str% "",
  str% "}"]

/-- v1/minibuf_test.go:461-478 -/
def TestMiniBufferWriteBytes : List Str := [
  str% "func TestMiniBufferWriteBytes(t *testing.T) {",
  str% "",
  str% "\tvar expected = []byte{0x01, 0x02}",
  str% "",
  str% "\tbuf := &MiniBuffer{}",
  str% "\tNewMiniBuffer(&buf, []byte{0x00, 0x00, 0x00, 0x00})",
  str% "",
  str% "\tbuf.WriteBytes(0x02, []byte{0x01, 0x02})",
  str% "",
  str% "\tvar out []byte",
  str% "\tbuf.ReadBytes(&out, 0x02, 2)",
  str% "\tif !cmp.Equal(expected, out) {",
  str% "",
  str% "\t\tt.Fatalf(\"expected byte array does not match the one gotten (got %#v, expected %#v)\", out, expected)",
  str% "",
  str% "\t}",
  str% "",
  str% "}"]

/-- v1/minibuf_test.go:480-497 -/
def TestMiniBufferWriteBytesNext : List Str := [
  str% "func TestMiniBufferWriteBytesNext(t *testing.T) {",
  str% "",
  str% "\tvar expected = []byte{0x01, 0x02}",
  str% "",
  str% "\tbuf := &MiniBuffer{}",
  str% "\tNewMiniBuffer(&buf, []byte{0x00, 0x00, 0x00, 0x00})",
  str% "",
  str% "\tbuf.WriteBytesNext([]byte{0x01, 0x02})",
  str% "",
  str% "\tvar out []byte",
  str% "\tbuf.ReadBytes(&out, 0x00, 2)",
  str% "\tif !cmp.Equal(expected, out) {",
  str% "",
  str% "\t\tt.Fatalf(\"expected byte array does not match the one gotten (got %#v, expected %#v)\", out, expected)",
  str% "",
  str% "\t}",
  str% "",
  str% "}"]

/-- v1/minibuf_test.go:499-552 -/
def TestMiniBufferWriteComplex : List Str := [
  str% "func TestMiniBufferWriteComplex(t *testing.T) {",
  str% "",
  str% "\tvar expected byte = 0x01",
  str% "",
  str% "\tbuf := &MiniBuffer{}",
  str% "\tNewMiniBuffer(&buf, []byte{0x00, 0x00, 0x00, 0x00, 0x00, 0x00, 0x00, 0x00})",
  str% "",
  str% "\tbuf.WriteComplex(0x00, []byte{0x01}, Unsigned8, LittleEndian)",
  str% "",
  str% "\tvar out []byte",
  str% "\tbuf.ReadBytes(&out, 0x00, 1)",
  str% "\tif expected != out[0] {",
  str% "",
  str% "\t\tt.Fatalf(\"expected byte does not match the one gotten (got %d, expected %d)\", out, expected)",
  str% "",
  str% "\t}",
  str% "",
  str% "\tbuf.WriteComplex(0x00, []uint16{0x01}, Unsigned16, LittleEndian)",
  str% "",
  str% "\tbuf.ReadBytes(&out, 0x00, 1)",
  str% "\tif expected != out[0] {",
  str% "",
  str% "\t\tt.Fatalf(\"expected byte does not match the one gotten (got %d, expected %d)\", out, expected)",
  str% "",
  str% "\t}",
  str% "",
  str% "\tbuf.WriteComplex(0x00, []uint16{0x100}, Unsigned16, BigEndian)",
  str% "",
  str% "\tbuf.ReadBytes(&out, 0x00, 1)",
  str% "\tif expected != out[0] {",
  str% "",
  str% "\t\tt.Fatalf(\"expected byte does not match the one gotten (got %d, expected %d)\", out, expected)",
  str% "",
  str% "\t}",
  str% "",
  str% "\tbuf.WriteComplex(0x00, []uint32{0x01}, Unsigned32, LittleEndian)",
  str% "",
  str% "\tbuf.ReadBytes(&out, 0x00, 1)",
  str% "\tif expected != out[0] {",
  str% "",
  str% "\t\tt.Fatalf(\"expected byte does not match the one gotten (got %d, expected %d)\", out, expected)",
  str% "",
  str% "\t}",
  str% "",
  str% "\tbuf.WriteComplex(0x00, []uint64{0x01}, Unsigned64, LittleEndian)",
  str% "",
  str% "\tbuf.ReadBytes(&out, 0x00, 1)",
  str% "\tif expected != out[0] {",
  str% "",
  str% "\t\tt.Fatalf(\"expected byte does not match the one gotten (got %d, expected %d)\", out, expected)",
  str% "",
  str% "\t}",
  str% "",
  str% "}"]

/-- v1/minibuf_test.go:554-601 -/
def TestMiniBufferWriteComplexNext : List Str := [
  str% "func TestMiniBufferWriteComplexNext(t *testing.T) {",
  str% "",
  str% "\tvar expected byte = 0x01",
  str% "",
  str% "\tbuf := &MiniBuffer{}",
  str% "\tNewMiniBuffer(&buf, []byte{0x00, 0x00, 0x00, 0x00, 0x00, 0x00, 0x00, 0x00})",
  str% "",
  str% "\tbuf.WriteComplexNext([]byte{0x01, 0x02}, Unsigned8, LittleEndian)",
  str% "",
  str% "\tvar out []byte",
  str% "\tbuf.ReadBytes(&out, 0x00, 1)",
  str% "\tif expected != out[0] {",
  str% "",
  str% "\t\tt.Fatalf(\"expected byte does not match the one gotten (got %d, expected %d)\", out, expected)",
  str% "",
  str% "\t}",
  str% "",
  str% "\tbuf.Seek(0x00, false)",
  str% "\tbuf.WriteComplexNext([]uint16{0x01}, Unsigned16, LittleEndian)",
  str% "",
  str% "\tbuf.ReadBytes(&out, 0x00, 1)",
  str% "\tif expected != out[0] {",
  str% "",
  str% "\t\tt.Fatalf(\"expected byte does not match the one gotten (got %d, expected %d)\", out, expected)",
  str% "",
  str% "\t}",
  str% "",
  str% "\tbuf.Seek(0x00, false)",
  str% "\tbuf.WriteComplexNext([]uint32{0x01}, Unsigned32, LittleEndian)",
  str% "",
  str% "\tbuf.ReadBytes(&out, 0x00, 1)",
  str% "\tif expected != out[0] {",
  str% "",
  str% "\t\tt.Fatalf(\"expected byte does not match the one gotten (got %d, expected %d)\", out, expected)",
  str% "",
  str% "\t}",
  str% "",
  str% "\tbuf.Seek(0x00, false)",
  str% "\tbuf.WriteComplexNext([]uint64{0x01}, Unsigned64, LittleEndian)",
  str% "",
  str% "\tbuf.ReadBytes(&out, 0x00, 1)",
  str% "\tif expected != out[0] {",
  str% "",
  str% "\t\tt.Fatalf(\"expected byte does not match the one gotten (got %d, expected %d)\", out, expected)",
  str% "",
  str% "\t}",
  str% "",
  str% "}"]

/-- v1/minibuf_test.go:603-618 -/
def TestMiniBufferReadBit : List Str := [
  str% "func TestMiniBufferReadBit(t *testing.T) {",
  str% "",
  str% "\tvar expected byte = 1",
  str% "",
  str% "\tbuf := &MiniBuffer{}",
  str% "\tNewMiniBuffer(&buf, []byte{0x01, 0x00, 0x00, 0x00})",
  str% "",
  str% "\tvar out byte",
  str% "\tbuf.ReadBit(&out, 0x07)",
  str% "\tif expected != out {",
  str% "",
  str% "\t\tt.Fatalf(\"expected byte does not match the one gotten (got %d, expected %d)\", out, expected)",
  str% "",
  str% "\t}",
  str% "",
  str% "}"]

/-- v1/minibuf_test.go:620-635 -/
def TestMiniBufferReadBitNext : List Str := [
  str% "func TestMiniBufferReadBitNext(t *testing.T) {",
  str% "",
  str% "\tvar expected byte = 1",
  str% "",
  str% "\tbuf := &MiniBuffer{}",
  str% "\tNewMiniBuffer(&buf, []byte{0xff, 0x00, 0x00, 0x00})",
  str% "",
  str% "\tvar out byte",
  str% "\tbuf.ReadBitNext(&out)",
  str% "\tif expected != out {",
  str% "",
  str% "\t\tt.Fatalf(\"expected byte does not match the one gotten (got %d, expected %d)\", out, expected)",
  str% "",
  str% "\t}",
  str% "",
  str% "}"]

/-- v1/minibuf_test.go:637-652 -/
def TestMiniBufferReadBits : List Str := [
  str% "func TestMiniBufferReadBits(t *testing.T) {",
  str% "",
  str% "\tvar expected uint64 = 5",
  str% "",
  str% "\tbuf := &MiniBuffer{}",
  str% "\tNewMiniBuffer(&buf, []byte{0x0d, 0x00, 0x00, 0x00})",
  str% "",
  str% "\tvar out uint64",
  str% "\tbuf.ReadBits(&out, 0x05, 3)",
  str% "\tif expected != out {",
  str% "",
  str% "\t\tt.Fatalf(\"expected uint64 does not match the one gotten (got %d, expected %d)\", out, expected)",
  str% "",
  str% "\t}",
  str% "",
  str% "}"]

/-- v1/minibuf_test.go:654-669 -/
def TestMiniBufferReadBitsNext : List Str := [
  str% "func TestMiniBufferReadBitsNext(t *testing.T) {",
  str% "",
  str% "\tvar expected uint64 = 13",
  str% "",
  str% "\tbuf := &MiniBuffer{}",
  str% "\tNewMiniBuffer(&buf, []byte{0x0d, 0x00, 0x00, 0x00})",
  str% "",
  str% "\tvar out uint64",
  str% "\tbuf.ReadBitsNext(&out, 8)",
  str% "\tif expected != out {",
  str% "",
  str% "\t\tt.Fatalf(\"expected uint64 does not match the one gotten (got %d, expected %d)\", out, expected)",
  str% "",
  str% "\t}",
  str% "",
  str% "}"]

/-- v1/minibuf_test.go:671-688 -/
def TestMiniBufferSetBit : List Str := [
  str% "func TestMiniBufferSetBit(t *testing.T) {",
  str% "",
  str% "\tvar expected byte = 1",
  str% "",
  str% "\tbuf := &MiniBuffer{}",
  str% "\tNewMiniBuffer(&buf, []byte{0x00, 0x00, 0x00, 0x00})",
  str% "",
  str% "\tbuf.SetBit(0x00, 1)",
  str% "",
  str% "\tvar out byte",
  str% "\tbuf.ReadBit(&out, 0x00)",
  str% "\tif expected != out {",
  str% "",
  str% "\t\tt.Fatalf(\"expected byte does not match the one gotten (got %d, expected %d)\", out, expected)",
  str% "",
  str% "\t}",
  str% "",
  str% "}"]

/-- v1/minibuf_test.go:690-707 -/
def TestMiniBufferSetBitNext : List Str := [
  str% "func TestMiniBufferSetBitNext(t *testing.T) {",
  str% "",
  str% "\tvar expected byte = 1",
  str% "",
  str% "\tbuf := &MiniBuffer{}",
  str% "\tNewMiniBuffer(&buf, []byte{0x00, 0x00, 0x00, 0x00})",
  str% "",
  str% "\tbuf.SetBitNext(1)",
  str% "",
  str% "\tvar out byte",
  str% "\tbuf.ReadBit(&out, 0x00)",
  str% "\tif expected != out {",
  str% "",
  str% "\t\tt.Fatalf(\"expected byte does not match the one gotten (got %d, expected %d)\", out, expected)",
  str% "",
  str% "\t}",
  str% "",
  str% "}"]

/-- v1/minibuf_test.go:709-726 -/
def TestMiniBufferSetBits : List Str := [
  str% "func TestMiniBufferSetBits(t *testing.T) {",
  str% "",
  str% "\tvar expected uint64 = 5",
  str% "",
  str% "\tbuf := &MiniBuffer{}",
  str% "\tNewMiniBuffer(&buf, []byte{0x00, 0x00, 0x00, 0x00})",
  str% "",
  str% "\tbuf.SetBits(0x06, 5, 3)",
  str% "",
  str% "\tvar out uint64",
  str% "\tbuf.ReadBits(&out, 0x06, 3)",
  str% "\tif expected != out {",
  str% "",
  str% "\t\tt.Fatalf(\"expected uint64 does not match the one gotten (got %d, expected %d)\", out, expected)",
  str% "",
  str% "\t}",
  str% "",
  str% "}"]

/-- v1/minibuf_test.go:728-745 -/
def TestMiniBufferSetBitsNext : List Str := [
  str% "func TestMiniBufferSetBitsNext(t *testing.T) {",
  str% "",
  str% "\tvar expected uint64 = 13",
  str% "",
  str% "\tbuf := &MiniBuffer{}",
  str% "\tNewMiniBuffer(&buf, []byte{0x00, 0x00, 0x00, 0x00})",
  str% "",
  str% "\tbuf.SetBitsNext(13, 8)",
  str% "",
  str% "\tvar out uint64",
  str% "\tbuf.ReadBits(&out, 0x00, 8)",
  str% "\tif expected != out {",
  str% "",
  str% "\t\tt.Fatalf(\"expected uint64 does not match the one gotten (got %d, expected %d)\", out, expected)",
  str% "",
  str% "\t}",
  str% "",
  str% "}"]

/-- v1/minibuf_test.go:747-764 -/
def TestMiniBufferFlipBit : List Str := [
  str% "func TestMiniBufferFlipBit(t *testing.T) {",
  str% "",
  str% "\tvar expected byte",
  str% "",
  str% "\tbuf := &MiniBuffer{}",
  str% "\tNewMiniBuffer(&buf, []byte{0xff, 0xff, 0xff, 0xff})",
  str% "",
  str% "\tbuf.FlipBit(0x01)",
  str% "",
  str% "\tvar out byte",
  str% "\tbuf.ReadBit(&out, 0x01)",
  str% "\tif expected != out {",
  str% "",
  str% "\t\tt.Fatalf(\"expected byte does not match the one gotten (got %d, expected %d)\", out, expected)",
  str% "",
  str% "\t}",
  str% "",
  str% "}"]

/-- v1/minibuf_test.go:766-783 -/
def TestMiniBufferFlipBitNext : List Str := [
  str% "func TestMiniBufferFlipBitNext(t *testing.T) {",
  str% "",
  str% "\tvar expected byte = 1",
  str% "",
  str% "\tbuf := &MiniBuffer{}",
  str% "\tNewMiniBuffer(&buf, []byte{0x00, 0x00, 0x00, 0x00})",
  str% "",
  str% "\tbuf.FlipBitNext()",
  str% "",
  str% "\tvar out byte",
  str% "\tbuf.ReadBit(&out, 0x00)",
  str% "\tif expected != out {",
  str% "",
  str% "\t\tt.Fatalf(\"expected byte does not match the one gotten (got %d, expected %d)\", out, expected)",
  str% "",
  str% "\t}",
  str% "",
  str% "}"]

/-- v1/minibuf_test.go:785-800 -/
def TestMiniBufferClearAllBits : List Str := [
  str% "func TestMiniBufferClearAllBits(t *testing.T) {",
  str% "",
  str% "\tvar expected = []byte{0x00, 0x00, 0x00, 0x00}",
  str% "",
  str% "\tbuf := &MiniBuffer{}",
  str% "\tNewMiniBuffer(&buf, []byte{0xff, 0x00, 0xff, 0x00})",
  str% "",
  str% "\tbuf.ClearAllBits()",
  str% "",
  str% "\tif !cmp.Equal(expected, buf.buf) {",
  str% "",
  str% "\t\tt.Fatalf(\"expected byte array does not match the one gotten (got %#v, expected %#v)\", buf.buf, expected)",
  str% "",
  str% "\t}",
  str% "",
  str% "}"]

/-- v1/minibuf_test.go:802-817 -/
def TestMiniBufferSetAllBits : List Str := [
  str% "func TestMiniBufferSetAllBits(t *testing.T) {",
  str% "",
  str% "\tvar expected = []byte{0xff, 0xff, 0xff, 0xff}",
  str% "",
  str% "\tbuf := &MiniBuffer{}",
  str% "\tNewMiniBuffer(&buf, []byte{0x00, 0xff, 0x00, 0xff})",
  str% "",
  str% "\tbuf.SetAllBits()",
  str% "",
  str% "\tif !cmp.Equal(expected, buf.buf) {",
  str% "",
  str% "\t\tt.Fatalf(\"expected byte array does not match the one gotten (got %#v, expected %#v)\", buf.buf, expected)",
  str% "",
  str% "\t}",
  str% "",
  str% "}"]

/-- v1/minibuf_test.go:819-834 -/
def TestMiniBufferFlipAllBits : List Str := [
  str% "func TestMiniBufferFlipAllBits(t *testing.T) {",
  str% "",
  str% "\tvar expected = []byte{0xff, 0x00, 0xff, 0x00}",
  str% "",
  str% "\tbuf := &MiniBuffer{}",
  str% "\tNewMiniBuffer(&buf, []byte{0x00, 0xff, 0x00, 0xff})",
  str% "",
  str% "\tbuf.FlipAllBits()",
  str% "",
  str% "\tif !cmp.Equal(expected, buf.buf) {",
  str% "",
  str% "\t\tt.Fatalf(\"expected byte array does not match the one gotten (got %#v, expected %#v)\", buf.buf, expected)",
  str% "",
  str% "\t}",
  str% "",
  str% "}"]

/-- v1/minibuf_test.go:836-845 -/
def TestMiniBufferSetbitPanic : List Str := [
  str% "func TestMiniBufferSetbitPanic(t *testing.T) {",
  str% "",
  str% "\tdefer panicChecker(t, BufferInvalidBitError)",
  str% "",
  str% "\tbuf := &MiniBuffer{}",
  str% "\tNewMiniBuffer(&buf, []byte{0x00, 0x00, 0x00, 0x00})",
  str% "",
  str% "\tbuf.setbit(0x00, 2)",
  str% "",
  str% "}"]

/-- v1/minibuf_test.go:847-857 -/
def TestMiniBufferReadComplexPanic : List Str := [
  str% "func TestMiniBufferReadComplexPanic(t *testing.T) {",
  str% "",
  str% "\tdefer panicChecker(t, BufferInvalidIntegerSizeError)",
  str% "",
  str% "\tbuf := &MiniBuffer{}",
  str% "\tNewMiniBuffer(&buf, []byte{0x00, 0x00, 0x00, 0x00})",
  str% "",
  str% "\tvar _out interface{}",
  str% "\tbuf.readComplex(&_out, 0x00, 1, -1, LittleEndian)",
  str% "",
  str% "}"]

/-- v1/minibuf_test.go:859-868 -/
def TestMiniBufferWriteComplexPanic : List Str := [
  str% "func TestMiniBufferWriteComplexPanic(t *testing.T) {",
  str% "",
  str% "\tdefer panicChecker(t, BufferInvalidIntegerSizeError)",
  str% "",
  str% "\tbuf := &MiniBuffer{}",
  str% "\tNewMiniBuffer(&buf, []byte{0x00, 0x00, 0x00, 0x00})",
  str% "",
  str% "\tbuf.writeComplex(0x00, 1, -1, LittleEndian)",
  str% "",
  str% "}"]

/-- All of them. -/
def text : List (List Str) := [TestNewMiniBuffer, TestMiniBufferBytes, TestMiniBufferCapacity, TestMiniBufferBitCapacity, TestMiniBufferOffset, TestMiniBufferBitOffset, TestMiniBufferRefresh, TestMiniBufferGrow, TestMiniBufferSeek, TestMiniBufferSeekBit, TestMiniBufferAlignBit, TestMiniBufferAlignByte, TestMiniBufferAfter, TestMiniBufferAfterBit, TestMiniBufferReadBytes, TestMiniBufferReadBytesNext, TestMiniBufferReadComplex, TestMiniBufferReadComplexNext, TestMiniBufferWriteBytes, TestMiniBufferWriteBytesNext, TestMiniBufferWriteComplex, TestMiniBufferWriteComplexNext, TestMiniBufferReadBit, TestMiniBufferReadBitNext, TestMiniBufferReadBits, TestMiniBufferReadBitsNext, TestMiniBufferSetBit, TestMiniBufferSetBitNext, TestMiniBufferSetBits, TestMiniBufferSetBitsNext, TestMiniBufferFlipBit, TestMiniBufferFlipBitNext, TestMiniBufferClearAllBits, TestMiniBufferSetAllBits, TestMiniBufferFlipAllBits, TestMiniBufferSetbitPanic, TestMiniBufferReadComplexPanic, TestMiniBufferWriteComplexPanic]

end Crunch.Src.V1MiniTest
