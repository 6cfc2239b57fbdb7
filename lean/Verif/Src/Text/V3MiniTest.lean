import Verif.Gen.Text

/-!
# The test functions of v3/minibuf_test.go

Written by tools/src_embed.py.
-/

namespace Crunch.Src.V3MiniTest

open Crunch.Gen (Str)

/-- v3/minibuf_test.go:42-91 -/
def TestNewMiniBuffer : List Str := [
  str% "func TestNewMiniBuffer(t *testing.T) {",
  str% "",
  str% "\tvar (",
  str% "\t\texpected1 = &MiniBuffer{",
  str% "\t\t\tbuf:  []byte{0x00, 0x00, 0x00, 0x00},",
  str% "\t\t\toff:  0x00,",
  str% "\t\t\tcap:  4,",
  str% "\t\t\tboff: 0x00,",
  str% "\t\t\tbcap: 32,",
  str% "\t\t}",
  str% "\t\texpected2 = &MiniBuffer{",
  str% "\t\t\tbuf:  []byte{},",
  str% "\t\t\toff:  0x00,",
  str% "\t\t\tcap:  0,",
  str% "\t\t\tboff: 0x00,",
  str% "\t\t\tbcap: 0,",
  str% "\t\t}",
  str% "\t\texpected3 = &MiniBuffer{",
  str% "\t\t\tbuf:  []byte{0x00, 0x00, 0x00, 0x00, 0x00, 0x00, 0x00, 0x00},",
  str% "\t\t\toff:  0x00,",
  str% "\t\t\tcap:  8,",
  str% "\t\t\tboff: 0x00,",
  str% "\t\t\tbcap: 64,",
  str% "\t\t}",
  str% "\t)",
  str% "",
  str% "\tout := &MiniBuffer{}",
  str% "",
  str% "\tNewMiniBuffer(&out, []byte{0x00, 0x00, 0x00, 0x00})",
  str% "\tif !cmp.Equal(expected1, out, MiniBufferComparer) {",
  str% "",
  str% "\t\tt.Fatalf(\"expected minibuffer does not match the one gotten (got %#v, expected %#v)\", out, expected1)",
  str% "",
  str% "\t}",
  str% "",
  str% "\tNewMiniBuffer(&out)",
  str% "\tif !cmp.Equal(expected2, out, MiniBufferComparer) {",
  str% "",
  str% "\t\tt.Fatalf(\"expected minibuffer does not match the one gotten (got %#v, expected %#v)\", out, expected2)",
  str% "",
  str% "\t}",
  str% "",
  str% "\tNewMiniBuffer(&out, []byte{0x00, 0x00, 0x00, 0x00}, []byte{0x00, 0x00, 0x00, 0x00})",
  str% "\tif !cmp.Equal(expected3, out, MiniBufferComparer) {",
  str% "",
  str% "\t\tt.Fatalf(\"expected minibuffer does not match the one gotten (got %#v, expected %#v)\", out, expected3)",
  str% "",
  str% "\t}",
  str% "",
  str% "}"]

/-- v3/minibuf_test.go:93-108 -/
def TestMiniBufferBytes : List Str := [
  str% "func TestMiniBufferBytes(t *testing.T) {",
  str% "",
  str% "\tvar expected = []byte{0x01, 0x02, 0x03, 0x04}",
  str% "",
  str% "\tbuf := &MiniBuffer{}",
  str% "\tNewMiniBuffer(&buf, []byte{0x01, 0x02, 0x03, 0x04})",
  str% "",
  str% "\tout := []byte{}",
  str% "\tbuf.Bytes(&out)",
  str% "\tif !cmp.Equal(expected, out) {",
  str% "",
  str% "\t\tt.Fatalf(\"expected byte array does not match the one gotten (got %#v, expected %#v)\", out, expected)",
  str% "",
  str% "\t}",
  str% "",
  str% "}"]

/-- v3/minibuf_test.go:110-125 -/
def TestMiniBufferByteCapacity : List Str := [
  str% "func TestMiniBufferByteCapacity(t *testing.T) {",
  str% "",
  str% "\tvar expected int64 = 4",
  str% "",
  str% "\tbuf := &MiniBuffer{}",
  str% "\tNewMiniBuffer(&buf, []byte{0x00, 0x00, 0x00, 0x00})",
  str% "",
  str% "\tvar out int64",
  str% "\tbuf.ByteCapacity(&out)",
  str% "\tif expected != out {",
  str% "",
  str% "\t\tt.Fatalf(\"expected int64 does not match the one gotten (got %d, expected %d)\", out, expected)",
  str% "",
  str% "\t}",
  str% "",
  str% "}"]

/-- v3/minibuf_test.go:127-142 -/
def TestMiniBufferBitCapacity : List Str := [
  str% "func TestMiniBufferBitCapacity(t *testing.T) {",
  str% "",
  str% "\tvar expected int64 = 32",
  str% "",
  str% "\tbuf := &MiniBuffer{}",
  str% "\tNewMiniBuffer(&buf, []byte{0x00, 0x00, 0x00, 0x00})",
  str% "",
  str% "\tvar out int64",
  str% "\tbuf.BitCapacity(&out)",
  str% "\tif expected != out {",
  str% "",
  str% "\t\tt.Fatalf(\"expected int64 does not match the one gotten (got %d, expected %d)\", out, expected)",
  str% "",
  str% "\t}",
  str% "",
  str% "}"]

/-- v3/minibuf_test.go:144-161 -/
def TestMiniBufferByteOffset : List Str := [
  str% "func TestMiniBufferByteOffset(t *testing.T) {",
  str% "",
  str% "\tvar expected int64 = 0x02",
  str% "",
  str% "\tbuf := &MiniBuffer{}",
  str% "\tNewMiniBuffer(&buf, []byte{0x00, 0x00, 0x00, 0x00})",
  str% "",
  str% "\tbuf.SeekByte(0x02, false)",
  str% "",
  str% "\tvar out int64",
  str% "\tbuf.ByteOffset(&out)",
  str% "\tif expected != out {",
  str% "",
  str% "\t\tt.Fatalf(\"expected int64 does not match the one gotten (got %d, expected %d)\", out, expected)",
  str% "",
  str% "\t}",
  str% "",
  str% "}"]

/-- v3/minibuf_test.go:163-180 -/
def TestMiniBufferBitOffset : List Str := [
  str% "func TestMiniBufferBitOffset(t *testing.T) {",
  str% "",
  str% "\tvar expected int64 = 0x0f",
  str% "",
  str% "\tbuf := &MiniBuffer{}",
  str% "\tNewMiniBuffer(&buf, []byte{0x00, 0x00, 0x00, 0x00})",
  str% "",
  str% "\tbuf.SeekBit(0x0f, false)",
  str% "",
  str% "\tvar out int64",
  str% "\tbuf.BitOffset(&out)",
  str% "\tif expected != out {",
  str% "",
  str% "\t\tt.Fatalf(\"expected int64 does not match the one gotten (got %d, expected %d)\", out, expected)",
  str% "",
  str% "\t}",
  str% "",
  str% "}"]

/-- v3/minibuf_test.go:182-200 -/
def TestMiniBufferRefresh : List Str := [
  str% "func TestMiniBufferRefresh(t *testing.T) {",
  str% "",
  str% "\tvar (",
  str% "\t\texpected1 int64 = 4",
  str% "\t\texpected2 int64 = 32",
  str% "\t)",
  str% "",
  str% "\tbuf := &MiniBuffer{}",
  str% "\tNewMiniBuffer(&buf, []byte{0x00, 0x00, 0x00, 0x00})",
  str% "",
  str% "\tbuf.Refresh()",
  str% "",
  str% "\tif expected1 != buf.cap || expected2 != buf.bcap {",
  str% "",
  str% "\t\tt.Fatalf(\"expected int64(s) do not match the ones gotten (got %d and %d, expected %d and %d)\", buf.cap, buf.bcap, expected1, expected2)",
  str% "",
  str% "\t}",
  str% "",
  str% "}"]

/-- v3/minibuf_test.go:202-217 -/
def TestMiniBufferReset : List Str := [
  str% "func TestMiniBufferReset(t *testing.T) {",
  str% "",
  str% "\tvar expected = []byte{}",
  str% "",
  str% "\tbuf := &MiniBuffer{}",
  str% "\tNewMiniBuffer(&buf, []byte{0x00, 0x00, 0x00, 0x00})",
  str% "",
  str% "\tbuf.Reset()",
  str% "",
  str% "\tif !cmp.Equal(expected, buf.buf) {",
  str% "",
  str% "\t\tt.Fatalf(\"expected byte array does not match the one gotten (got %#v, expected %#v)\", buf.buf, expected)",
  str% "",
  str% "\t}",
  str% "",
  str% "}"]

/-- v3/minibuf_test.go:219-247 -/
def TestMiniBufferTruncateLeft : List Str := [
  str% "func TestMiniBufferTruncateLeft(t *testing.T) {",
  str% "",
  str% "\tvar (",
  str% "\t\texpected1 byte  = 0x02",
  str% "\t\texpected2 int64 = 1",
  str% "\t)",
  str% "",
  str% "\tbuf := &MiniBuffer{}",
  str% "\tNewMiniBuffer(&buf, []byte{0x01, 0x02})",
  str% "",
  str% "\tbuf.TruncateLeft(1)",
  str% "",
  str% "\tvar out1 []byte",
  str% "\tbuf.ReadBytes(&out1, 0x00, 1)",
  str% "\tif expected1 != out1[0] {",
  str% "",
  str% "\t\tt.Fatalf(\"expected byte does not match the one gotten (got %d, expected %d)\", out1, expected1)",
  str% "",
  str% "\t}",
  str% "",
  str% "\tvar out2 int64",
  str% "\tbuf.ByteCapacity(&out2)",
  str% "\tif expected2 != out2 {",
  str% "",
  str% "\t\tt.Fatalf(\"expected int64 does not match the one gotten (got %d, expected %d)\", out2, expected2)",
  str% "",
  str% "\t}",
  str% "",
  str% "}"]

/-- v3/minibuf_test.go:249-277 -/
def TestMiniBufferTruncateRight : List Str := [
  str% "func TestMiniBufferTruncateRight(t *testing.T) {",
  str% "",
  str% "\tvar (",
  str% "\t\texpected1 byte  = 0x01",
  str% "\t\texpected2 int64 = 1",
  str% "\t)",
  str% "",
  str% "\tbuf := &MiniBuffer{}",
  str% "\tNewMiniBuffer(&buf, []byte{0x01, 0x02})",
  str% "",
  str% "\tbuf.TruncateRight(1)",
  str% "",
  str% "\tvar out1 []byte",
  str% "\tbuf.ReadBytes(&out1, 0x00, 1)",
  str% "\tif expected1 != out1[0] {",
  str% "",
  str% "\t\tt.Fatalf(\"expected byte does not match the one gotten (got %d, expected %d)\", out1, expected1)",
  str% "",
  str% "\t}",
  str% "",
  str% "\tvar out2 int64",
  str% "\tbuf.ByteCapacity(&out2)",
  str% "\tif expected2 != out2 {",
  str% "",
  str% "\t\tt.Fatalf(\"expected int64 does not match the one gotten (got %d, expected %d)\", out2, expected2)",
  str% "",
  str% "\t}",
  str% "",
  str% "}"]

/-- v3/minibuf_test.go:279-296 -/
def TestMiniBufferGrow : List Str := [
  str% "func TestMiniBufferGrow(t *testing.T) {",
  str% "",
  str% "\tvar expected int64 = 4",
  str% "",
  str% "\tbuf := &MiniBuffer{}",
  str% "\tNewMiniBuffer(&buf, []byte{0x00, 0x00})",
  str% "",
  str% "\tbuf.Grow(2)",
  str% "",
  str% "\tvar out int64",
  str% "\tbuf.ByteCapacity(&out)",
  str% "\tif expected != out {",
  str% "",
  str% "\t\tt.Fatalf(\"expected int64 does not match the one gotten (got %d, expected %d)\", out, expected)",
  str% "",
  str% "\t}",
  str% "",
  str% "}"]

/-- v3/minibuf_test.go:298-315 -/
def TestMiniBufferGrow2 : List Str := [
  str% "func TestMiniBufferGrow2(t *testing.T) {",
  str% "",
  str% "\tvar expected int64 = 4",
  str% "",
  str% "\tbuf := &MiniBuffer{}",
  str% "\tNewMiniBuffer(&buf, make([]byte, 2, 4))",
  str% "",
  str% "\tbuf.Grow(2)",
  str% "",
  str% "\tvar out int64",
  str% "\tbuf.ByteCapacity(&out)",
  str% "\tif expected != out {",
  str% "",
  str% "\t\tt.Fatalf(\"expected int64 does not match the one gotten (got %d, expected %d)\", out, expected)",
  str% "",
  str% "\t}",
  str% "",
  str% "}"]

/-- v3/minibuf_test.go:317-335 -/
def TestMiniBufferSeekByte : List Str := [
  str% "func TestMiniBufferSeekByte(t *testing.T) {",
  str% "",
  str% "\tvar expected int64 = 0x04",
  str% "",
  str% "\tbuf := &MiniBuffer{}",
  str% "\tNewMiniBuffer(&buf, []byte{0x00, 0x00, 0x00, 0x00})",
  str% "",
  str% "\tbuf.SeekByte(2, true)",
  str% "\tbuf.SeekByte(2, true)",
  str% "",
  str% "\tvar out int64",
  str% "\tbuf.ByteOffset(&out)",
  str% "\tif expected != out {",
  str% "",
  str% "\t\tt.Fatalf(\"expected int64 does not match the one gotten (got %d, expected %d)\", out, expected)",
  str% "",
  str% "\t}",
  str% "",
  str% "}"]

/-- v3/minibuf_test.go:337-355 -/
def TestMiniBufferSeekBit : List Str := [
  str% "func TestMiniBufferSeekBit(t *testing.T) {",
  str% "",
  str% "\tvar expected int64 = 0x20",
  str% "",
  str% "\tbuf := &MiniBuffer{}",
  str% "\tNewMiniBuffer(&buf, []byte{0x00, 0x00, 0x00, 0x00})",
  str% "",
  str% "\tbuf.SeekBit(16, true)",
  str% "\tbuf.SeekBit(16, true)",
  str% "",
  str% "\tvar out int64",
  str% "\tbuf.BitOffset(&out)",
  str% "\tif expected != out {",
  str% "",
  str% "\t\tt.Fatalf(\"expected int64 does not match the one gotten (got %d, expected %d)\", out, expected)",
  str% "",
  str% "\t}",
  str% "",
  str% "}"]

/-- v3/minibuf_test.go:357-375 -/
def TestMiniBufferAlignBit : List Str := [
  str% "func TestMiniBufferAlignBit(t *testing.T) {",
  str% "",
  str% "\tvar expected int64 = 0x20",
  str% "",
  str% "\tbuf := &MiniBuffer{}",
  str% "\tNewMiniBuffer(&buf, []byte{0x00, 0x00, 0x00, 0x00})",
  str% "",
  str% "\tbuf.SeekByte(0x04, false)",
  str% "\tbuf.AlignBit()",
  str% "",
  str% "\tvar out int64",
  str% "\tbuf.BitOffset(&out)",
  str% "\tif expected != out {",
  str% "",
  str% "\t\tt.Fatalf(\"expected int64 does not match the one gotten (got %d, expected %d)\", out, expected)",
  str% "",
  str% "\t}",
  str% "",
  str% "}"]

/-- v3/minibuf_test.go:377-395 -/
def TestMiniBufferAlignByte : List Str := [
  str% "func TestMiniBufferAlignByte(t *testing.T) {",
  str% "",
  str% "\tvar expected int64 = 0x04",
  str% "",
  str% "\tbuf := &MiniBuffer{}",
  str% "\tNewMiniBuffer(&buf, []byte{0x00, 0x00, 0x00, 0x00})",
  str% "",
  str% "\tbuf.SeekBit(0x20, false)",
  str% "\tbuf.AlignByte()",
  str% "",
  str% "\tvar out int64",
  str% "\tbuf.ByteOffset(&out)",
  str% "\tif expected != out {",
  str% "",
  str% "\t\tt.Fatalf(\"expected int64 does not match the one gotten (got %d, expected %d)\", out, expected)",
  str% "",
  str% "\t}",
  str% "",
  str% "}"]

/-- v3/minibuf_test.go:397-423 -/
def TestMiniBufferAfterByte : List Str := [
  str% "func TestMiniBufferAfterByte(t *testing.T) {",
  str% "",
  str% "\tvar expected int64 = 2",
  str% "",
  str% "\tbuf := &MiniBuffer{}",
  str% "\tNewMiniBuffer(&buf, []byte{0x00, 0x00, 0x00, 0x00})",
  str% "",
  str% "\tvar out int64",
  str% "",
  str% "\tbuf.SeekByte(0x01, false)",
  str% "\tbuf.AfterByte(&out)",
  str% "",
  str% "\tif expected != out {",
  str% "",
  str% "\t\tt.Fatalf(\"expected int64 does not match the one gotten (got %d, expected %d)\", out, expected)",
  str% "",
  str% "\t}",
  str% "",
  str% "\tbuf.AfterByte(&out, 0x01)",
  str% "",
  str% "\tif expected != out {",
  str% "",
  str% "\t\tt.Fatalf(\"expected int64 does not match the one gotten (got %d, expected %d)\", out, expected)",
  str% "",
  str% "\t}",
  str% "",
  str% "}"]

/-- v3/minibuf_test.go:425-451 -/
def TestMiniBufferAfterBit : List Str := [
  str% "func TestMiniBufferAfterBit(t *testing.T) {",
  str% "",
  str% "\tvar expected int64 = 16",
  str% "",
  str% "\tbuf := &MiniBuffer{}",
  str% "\tNewMiniBuffer(&buf, []byte{0x00, 0x00, 0x00, 0x00})",
  str% "",
  str% "\tvar out int64",
  str% "",
  str% "\tbuf.SeekBit(0x0f, false)",
  str% "\tbuf.AfterBit(&out)",
  str% "",
  str% "\tif expected != out {",
  str% "",
  str% "\t\tt.Fatalf(\"expected int64 does not match the one gotten (got %d, expected %d)\", out, expected)",
  str% "",
  str% "\t}",
  str% "",
  str% "\tbuf.AfterBit(&out, 0x0f)",
  str% "",
  str% "\tif expected != out {",
  str% "",
  str% "\t\tt.Fatalf(\"expected int64 does not match the one gotten (got %d, expected %d)\", out, expected)",
  str% "",
  str% "\t}",
  str% "",
  str% "}"]

/-- v3/minibuf_test.go:453-468 -/
def TestMiniBufferReadBytes : List Str := [
  str% "func TestMiniBufferReadBytes(t *testing.T) {",
  str% "",
  str% "\tvar expected = []byte{0x03, 0x04}",
  str% "",
  str% "\tbuf := &MiniBuffer{}",
  str% "\tNewMiniBuffer(&buf, []byte{0x01, 0x02, 0x03, 0x04})",
  str% "",
  str% "\tvar out []byte",
  str% "\tbuf.ReadBytes(&out, 0x02, 2)",
  str% "\tif !cmp.Equal(expected, out) {",
  str% "",
  str% "\t\tt.Fatalf(\"expected byte array does not match the one gotten (got %#v, expected %#v)\", out, expected)",
  str% "",
  str% "\t}",
  str% "",
  str% "}"]

/-- v3/minibuf_test.go:470-485 -/
def TestMiniBufferReadBytesNext : List Str := [
  str% "func TestMiniBufferReadBytesNext(t *testing.T) {",
  str% "",
  str% "\tvar expected = []byte{0x01, 0x02}",
  str% "",
  str% "\tbuf := &MiniBuffer{}",
  str% "\tNewMiniBuffer(&buf, []byte{0x01, 0x02, 0x03, 0x04})",
  str% "",
  str% "\tvar out []byte",
  str% "\tbuf.ReadBytesNext(&out, 2)",
  str% "\tif !cmp.Equal(expected, out) {",
  str% "",
  str% "\t\tt.Fatalf(\"expected byte array does not match the one gotten (got %#v, expected %#v)\", out, expected)",
  str% "",
  str% "\t}",
  str% "",
  str% "}"]

/-- v3/minibuf_test.go:488-835 -/
def TestMiniBufferReadSNEN : List Str := [
  str% "func TestMiniBufferReadSNEN(t *testing.T) {",
  str% "",
  str% "\tvar (",
  str% "\t\texpectedReadu16le = []uint16{0x01, 0x00}",
  str% "\t\texpectedReadu16be = []uint16{0x100, 0x00}",
  str% "\t\texpectedReadu32le = []uint32{0x01, 0x00}",
  str% "\t\texpectedReadu32be = []uint32{0x1000000, 0x00}",
  str% "\t\texpectedReadu64le = []uint64{0x01, 0x01}",
  str% "\t\texpectedReadu64be = []uint64{0x100000000000000, 0x100000000000000}",
  str% "",
  str% "\t\texpectedReadi16le = []int16{0x01, 0x00}",
  str% "\t\texpectedReadi16be = []int16{0x100, 0x00}",
  str% "\t\texpectedReadi32le = []int32{0x01, 0x00}",
  str% "\t\texpectedReadi32be = []int32{0x1000000, 0x00}",
  str% "\t\texpectedReadi64le = []int64{0x01, 0x01}",
  str% "\t\texpectedReadi64be = []int64{0x100000000000000, 0x100000000000000}",
  str% "",
  str% "\t\toff = int64(0)",
  str% "",
  str% "\t\tout1 = []uint16{0x00, 0x00}",
  str% "\t\tout2 = []uint32{0x00, 0x00}",
  str% "\t\tout3 = []uint64{0x00, 0x00}",
  str% "",
  str% "\t\tout4 = []int16{0x00, 0x00}",
  str% "\t\tout5 = []int32{0x00, 0x00}",
  str% "\t\tout6 = []int64{0x00, 0x00}",
  str% "",
  str% "\t\tout7 = []float32{0x00, 0x00}",
  str% "\t\tout8 = []float64{0x00, 0x00}",
  str% "\t)",
  str% "",
  str% "\tbuf := &MiniBuffer{}",
  str% "\tNewMiniBuffer(&buf, []byte{0x01, 0x00, 0x00, 0x00, 0x00, 0x00, 0x00, 0x00, 0x01, 0x00, 0x00, 0x00, 0x00, 0x00, 0x00, 0x00})",
  str% "",
  str% "\t//",
  str% "\t// u16le",
  str% "\t//",
  str% "",
  str% "\tbuf.ReadU16LENext(&out1, 2)",
  str% "\tif !cmp.Equal(out1, expectedReadu16le) {",
  str% "",
  str% "\t\tt.Fatalf(\"expected uint16 array does not match the one gotten (got %#v, expected %#v)\", out1, expectedReadu16le)",
  str% "",
  str% "\t}",
  str% "",
  str% "\tbuf.ByteOffset(&off)",
  str% "\tif off != 4 {",
  str% "",
  str% "\t\tt.Fatalf(\"incorrect offset: %d\", off)",
  str% "",
  str% "\t}",
  str% "\tbuf.SeekByte(0x00, false)",
  str% "",
  str% "\t//",
  str% "\t// u16be",
  str% "\t//",
  str% "",
  str% "\tbuf.ReadU16BENext(&out1, 2)",
  str% "\tif !cmp.Equal(out1, expectedReadu16be) {",
  str% "",
  str% "\t\tt.Fatalf(\"expected uint16 array does not match the one gotten (got %#v, expected %#v)\", out1, expectedReadu16be)",
  str% "",
  str% "\t}",
  str% "",
  str% "\tbuf.ByteOffset(&off)",
  str% "\tif off != 4 {",
  str% "",
  str% "\t\tt.Fatalf(\"incorrect offset: %d\", off)",
  str% "",
  str% "\t}",
  str% "\tbuf.SeekByte(0x00, false)",
  str% "",
  str% "\t//",
  str% "\t// u32le",
  str% "\t//",
  str% "",
  str% "\tbuf.ReadU32LENext(&out2, 2)",
  str% "\tif !cmp.Equal(out2, expectedReadu32le) {",
  str% "",
  str% "\t\tt.Fatalf(\"expected uint32 array does not match the one gotten (got %#v, expected %#v)\", out2, expectedReadu32le)",
  str% "",
  str% "\t}",
  str% "",
  str% "\tbuf.ByteOffset(&off)",
  str% "\tif off != 8 {",
  str% "",
  str% "\t\tt.Fatalf(\"incorrect offset: %d\", off)",
  str% "",
  str% "\t}",
  str% "\tbuf.SeekByte(0x00, false)",
  str% "",
  str% "\t//",
  str% "\t// u32be",
  str% "\t//",
  str% "",
  str% "\tbuf.ReadU32BENext(&out2, 2)",
  str% "\tif !cmp.Equal(out2, expectedReadu32be) {",
  str% "",
  str% "\t\tt.Fatalf(\"expected uint32 array does not match the one gotten (got %#v, expected %#v)\", out2, expectedReadu32be)",
  str% "",
  str% "\t}",
  str% "",
  str% "\tbuf.ByteOffset(&off)",
  str% "\tif off != 8 {",
  str% "",
  str% "\t\tt.Fatalf(\"incorrect offset: %d\", off)",
  str% "",
  str% "\t}",
  str% "\tbuf.SeekByte(0x00, false)",
  str% "",
  str% "\t//",
  str% "\t// u64le",
  str% "\t//",
  str% "",
  str% "\tbuf.ReadU64LENext(&out3, 2)",
  str% "\tif !cmp.Equal(out3, expectedReadu64le) {",
  str% "",
  str% "\t\tt.Fatalf(\"expected uint64 array does not match the one gotten (got %#v, expected %#v)\", out3, expectedReadu64le)",
  str% "",
  str% "\t}",
  str% "",
  str% "\tbuf.ByteOffset(&off)",
  str% "\tif off != 16 {",
  str% "",
  str% "\t\tt.Fatalf(\"incorrect offset: %d\", off)",
  str% "",
  str% "\t}",
  str% "\tbuf.SeekByte(0x00, false)",
  str% "",
  str% "\t//",
  str% "\t// u64be",
  str% "\t//",
  str% "",
  str% "\tbuf.ReadU64BENext(&out3, 2)",
  str% "\tif !cmp.Equal(out3, expectedReadu64be) {",
  str% "",
  str% "\t\tt.Fatalf(\"expected uint64 array does not match the one gotten (got %#v, expected %#v)\", out3, expectedReadu64be)",
  str% "",
  str% "\t}",
  str% "",
  str% "\tbuf.ByteOffset(&off)",
  str% "\tif off != 16 {",
  str% "",
  str% "\t\tt.Fatalf(\"incorrect offset: %d\", off)",
  str% "",
  str% "\t}",
  str% "\tbuf.SeekByte(0x00, false)",
  str% "",
  str% "\t//",
  str% "\t// i16le",
  str% "\t//",
  str% "",
  str% "\tbuf.ReadI16LENext(&out4, 2)",
  str% "\tif !cmp.Equal(out4, expectedReadi16le) {",
  str% "",
  str% "\t\tt.Fatalf(\"expected int16 array does not match the one gotten (got %#v, expected %#v)\", out4, expectedReadi16le)",
  str% "",
  str% "\t}",
  str% "",
  str% "\tbuf.ByteOffset(&off)",
  str% "\tif off != 4 {",
  str% "",
  str% "\t\tt.Fatalf(\"incorrect offset: %d\", off)",
  str% "",
  str% "\t}",
  str% "\tbuf.SeekByte(0x00, false)",
  str% "",
  str% "\t//",
  str% "\t// i16be",
  str% "\t//",
  str% "",
  str% "\tbuf.ReadI16BENext(&out4, 2)",
  str% "\tif !cmp.Equal(out4, expectedReadi16be) {",
  str% "",
  str% "\t\tt.Fatalf(\"expected int16 array does not match the one gotten (got %#v, expected %#v)\", out4, expectedReadi16be)",
  str% "",
  str% "\t}",
  str% "",
  str% "\tbuf.ByteOffset(&off)",
  str% "\tif off != 4 {",
  str% "",
  str% "\t\tt.Fatalf(\"incorrect offset: %d\", off)",
  str% "",
  str% "\t}",
  str% "\tbuf.SeekByte(0x00, false)",
  str% "",
  str% "\t//",
  str% "\t// i32le",
  str% "\t//",
  str% "",
  str% "\tbuf.ReadI32LENext(&out5, 2)",
  str% "\tif !cmp.Equal(out5, expectedReadi32le) {",
  str% "",
  str% "\t\tt.Fatalf(\"expected int32 array does not match the one gotten (got %#v, expected %#v)\", out5, expectedReadi32le)",
  str% "",
  str% "\t}",
  str% "",
  str% "\tbuf.ByteOffset(&off)",
  str% "\tif off != 8 {",
  str% "",
  str% "\t\tt.Fatalf(\"incorrect offset: %d\", off)",
  str% "",
  str% "\t}",
  str% "\tbuf.SeekByte(0x00, false)",
  str% "",
  str% "\t//",
  str% "\t// i32be",
  str% "\t//",
  str% "",
  str% "\tbuf.ReadI32BENext(&out5, 2)",
  str% "\tif !cmp.Equal(out5, expectedReadi32be) {",
  str% "",
  str% "\t\tt.Fatalf(\"expected int32 array does not match the one gotten (got %#v, expected %#v)\", out5, expectedReadi32be)",
  str% "",
  str% "\t}",
  str% "",
  str% "\tbuf.ByteOffset(&off)",
  str% "\tif off != 8 {",
  str% "",
  str% "\t\tt.Fatalf(\"incorrect offset: %d\", off)",
  str% "",
  str% "\t}",
  str% "\tbuf.SeekByte(0x00, false)",
  str% "",
  str% "\t//",
  str% "\t// i64le",
  str% "\t//",
  str% "",
  str% "\tbuf.ReadI64LENext(&out6, 2)",
  str% "\tif !cmp.Equal(out6, expectedReadi64le) {",
  str% "",
  str% "\t\tt.Fatalf(\"expected int64 array does not match the one gotten (got %#v, expected %#v)\", out6, expectedReadi64le)",
  str% "",
  str% "\t}",
  str% "",
  str% "\tbuf.ByteOffset(&off)",
  str% "\tif off != 16 {",
  str% "",
  str% "\t\tt.Fatalf(\"incorrect offset: %d\", off)",
  str% "",
  str% "\t}",
  str% "\tbuf.SeekByte(0x00, false)",
  str% "",
  str% "\t//",
  str% "\t// i64be",
  str% "\t//",
  str% "",
  str% "\tbuf.ReadI64BENext(&out6, 2)",
  str% "\tif !cmp.Equal(out6, expectedReadi64be) {",
  str% "",
  str% "\t\tt.Fatalf(\"expected int64 array does not match the one gotten (got %#v, expected %#v)\", out6, expectedReadi64be)",
  str% "",
  str% "\t}",
  str% "",
  str% "\tbuf.ByteOffset(&off)",
  str% "\tif off != 16 {",
  str% "",
  str% "\t\tt.Fatalf(\"incorrect offset: %d\", off)",
  str% "",
  str% "\t}",
  str% "\tbuf.SeekByte(0x00, false)",
  str% "",
  str% "\t//",
  str% "\t// floats (we use a slightly different buffer to have higher confidence here)",
  str% "\t//",
  str% "",
  str% "\tvar (",
  str% "\t\texpectedReadf32le = []float32{-45.318115, -8.536945e+32}",
  str% "\t\texpectedReadf32be = []float32{-3.081406, -1.0854726e-29}",
  str% "\t\texpectedReadf64le = []float64{-1.498274907009045e+261, 5.278146837874356e-99}",
  str% "\t\texpectedReadf64be = []float64{-42.42, 3.621}",
  str% "\t)",
  str% "",
  str% "\tNewMiniBuffer(&buf, []byte{0xc0, 0x45, 0x35, 0xc2, 0x8f, 0x5c, 0x28, 0xf6, 0x40, 0xc, 0xf7, 0xce, 0xd9, 0x16, 0x87, 0x2b})",
  str% "",
  str% "\t//",
  str% "\t// f32le",
  str% "\t//",
  str% "",
  str% "\tbuf.ReadF32LENext(&out7, 2)",
  str% "\tif !cmp.Equal(out7, expectedReadf32le) {",
  str% "",
  str% "\t\tt.Fatalf(\"expected float32 array does not match the one gotten (got %#v, expected %#v)\", out7, expectedReadf32le)",
  str% "",
  str% "\t}",
  str% "\tbuf.ByteOffset(&off)",
  str% "\tif off != 8 {",
  str% "",
  str% "\t\tt.Fatalf(\"incorrect offset: %d\", off)",
  str% "",
  str% "\t}",
  str% "\tbuf.SeekByte(0x00, false)",
  str% "",
  str% "\t//",
  str% "\t// f32be",
  str% "\t//",
  str% "",
  str% "\tbuf.ReadF32BENext(&out7, 2)",
  str% "\tif !cmp.Equal(out7, expectedReadf32be) {",
  str% "",
  str% "\t\tt.Fatalf(\"expected float32 array does not match the one gotten (got %#v, expected %#v)\", out7, expectedReadf32be)",
  str% "",
  str% "\t}",
  str% "\tbuf.ByteOffset(&off)",
  str% "\tif off != 8 {",
  str% "",
  str% "\t\tt.Fatalf(\"incorrect offset: %d\", off)",
  str% "",
  str% "\t}",
  str% "\tbuf.SeekByte(0x00, false)",
  str% "",
  str% "\t//",
  str% "\t// f64le",
  str% "\t//",
  str% "",
  str% "\tbuf.ReadF64LENext(&out8, 2)",
  str% "\tif !cmp.Equal(out8, expectedReadf64le) {",
  str% "",
  str% "\t\tt.Fatalf(\"expected float64 array does not match the one gotten (got %#v, expected %#v)\", out8, expectedReadf64le)",
  str% "",
  str% "\t}",
  str% "\tbuf.ByteOffset(&off)",
  str% "\tif off != 16 {",
  str% "",
  str% "\t\tt.Fatalf(\"incorrect offset: %d\", off)",
  str% "",
  str% "\t}",
  str% "\tbuf.SeekByte(0x00, false)",
  str% "",
  str% "\t//",
  str% "\t// f64be",
  str% "\t//",
  str% "",
  str% "\tbuf.ReadF64BENext(&out8, 2)",
  str% "\tif !cmp.Equal(out8, expectedReadf64be) {",
  str% "",
  str% "\t\tt.Fatalf(\"expected float64 array does not match the one gotten (got %#v, expected %#v)\", out8, expectedReadf64be)",
  str% "",
  str% "\t}",
  str% "\tbuf.ByteOffset(&off)",
  str% "\tif off != 16 {",
  str% "",
  str% "\t\tt.Fatalf(\"incorrect offset: %d\", off)",
  str% "",
  str% "\t}",
  str% "\tbuf.SeekByte(0x00, false)",
  str% "",
  str% "}"]

/-- v3/minibuf_test.go:837-854 -/
def TestMiniBufferWriteBytes : List Str := [
  str% "func TestMiniBufferWriteBytes(t *testing.T) {",
  str% "",
  str% "\tvar expected = []byte{0x01, 0x02}",
  str% "",
  str% "\tbuf := &MiniBuffer{}",
  str% "\tNewMiniBuffer(&buf, []byte{0x00, 0x00, 0x00, 0x00})",
  str% "",
  str% "\tbuf.WriteBytes(0x02, []byte{0x01, 0x02})",
  str% "",
  str% "\tvar out []byte",
  str% "\tbuf.ReadBytes(&out, 0x02, 2)",
  str% "\tif !cmp.Equal(expected, out) {",
  str% "",
  str% "\t\tt.Fatalf(\"expected byte array does not match the one gotten (got %#v, expected %#v)\", out, expected)",
  str% "",
  str% "\t}",
  str% "",
  str% "}"]

/-- v3/minibuf_test.go:856-873 -/
def TestMiniBufferWriteBytesNext : List Str := [
  str% "func TestMiniBufferWriteBytesNext(t *testing.T) {",
  str% "",
  str% "\tvar expected = []byte{0x01, 0x02}",
  str% "",
  str% "\tbuf := &MiniBuffer{}",
  str% "\tNewMiniBuffer(&buf, []byte{0x00, 0x00, 0x00, 0x00})",
  str% "",
  str% "\tbuf.WriteBytesNext([]byte{0x01, 0x02})",
  str% "",
  str% "\tvar out []byte",
  str% "\tbuf.ReadBytes(&out, 0x00, 2)",
  str% "\tif !cmp.Equal(expected, out) {",
  str% "",
  str% "\t\tt.Fatalf(\"expected byte array does not match the one gotten (got %#v, expected %#v)\", out, expected)",
  str% "",
  str% "\t}",
  str% "",
  str% "}"]

/-- v3/minibuf_test.go:876-1314 -/
def TestMiniBufferWriteSNEN : List Str := [
  str% "func TestMiniBufferWriteSNEN(t *testing.T) {",
  str% "",
  str% "\tvar (",
  str% "\t\tout           = []byte{0x00}",
  str% "\t\toff           = int64(0)",
  str% "\t\texpected byte = 0x01",
  str% "\t)",
  str% "",
  str% "\tbuf := &MiniBuffer{}",
  str% "\tNewMiniBuffer(&buf, []byte{0x00, 0x00, 0x00, 0x00, 0x00, 0x00, 0x00, 0x00, 0x00, 0x00, 0x00, 0x00, 0x00, 0x00, 0x00, 0x00})",
  str% "",
  str% "\t//",
  str% "\t// u16le",
  str% "\t//",
  str% "",
  str% "\tbuf.WriteU16LENext([]uint16{0x01, 0x01})",
  str% "",
  str% "\tbuf.ReadBytes(&out, 0x00, 1)",
  str% "\tif expected != out[0] {",
  str% "",
  str% "\t\tt.Fatalf(\"expected byte does not match the one gotten (got %d, expected %d)\", out[0], expected)",
  str% "",
  str% "\t}",
  str% "",
  str% "\tbuf.ReadBytes(&out, 0x02, 1)",
  str% "\tif expected != out[0] {",
  str% "",
  str% "\t\tt.Fatalf(\"expected byte does not match the one gotten (got %d, expected %d)\", out[0], expected)",
  str% "",
  str% "\t}",
  str% "",
  str% "\tbuf.ByteOffset(&off)",
  str% "\tif off != 4 {",
  str% "",
  str% "\t\tt.Fatalf(\"incorrect offset: %d\", off)",
  str% "",
  str% "\t}",
  str% "\tbuf.SeekByte(0x00, false)",
  str% "",
  str% "\t//",
  str% "\t// u16be",
  str% "\t//",
  str% "",
  str% "\tbuf.WriteU16BENext([]uint16{0x100, 0x100})",
  str% "",
  str% "\tbuf.ReadBytes(&out, 0x00, 1)",
  str% "\tif expected != out[0] {",
  str% "",
  str% "\t\tt.Fatalf(\"expected byte does not match the one gotten (got %d, expected %d)\", out[0], expected)",
  str% "",
  str% "\t}",
  str% "",
  str% "\tbuf.ReadBytes(&out, 0x02, 1)",
  str% "\tif expected != out[0] {",
  str% "",
  str% "\t\tt.Fatalf(\"expected byte does not match the one gotten (got %d, expected %d)\", out[0], expected)",
  str% "",
  str% "\t}",
  str% "",
  str% "\tbuf.ByteOffset(&off)",
  str% "\tif off != 4 {",
  str% "",
  str% "\t\tt.Fatalf(\"incorrect offset: %d\", off)",
  str% "",
  str% "\t}",
  str% "\tbuf.SeekByte(0x00, false)",
  str% "",
  str% "\t//",
  str% "\t// u32le",
  str% "\t//",
  str% "",
  str% "\tbuf.WriteU32LENext([]uint32{0x01, 0x01})",
  str% "",
  str% "\tbuf.ReadBytes(&out, 0x00, 1)",
  str% "\tif expected != out[0] {",
  str% "",
  str% "\t\tt.Fatalf(\"expected byte does not match the one gotten (got %d, expected %d)\", out[0], expected)",
  str% "",
  str% "\t}",
  str% "",
  str% "\tbuf.ReadBytes(&out, 0x04, 1)",
  str% "\tif expected != out[0] {",
  str% "",
  str% "\t\tt.Fatalf(\"expected byte does not match the one gotten (got %d, expected %d)\", out[0], expected)",
  str% "",
  str% "\t}",
  str% "",
  str% "\tbuf.ByteOffset(&off)",
  str% "\tif off != 8 {",
  str% "",
  str% "\t\tt.Fatalf(\"incorrect offset: %d\", off)",
  str% "",
  str% "\t}",
  str% "\tbuf.SeekByte(0x00, false)",
  str% "",
  str% "\t//",
  str% "\t// u32be",
  str% "\t//",
  str% "",
  str% "\tbuf.WriteU32BENext([]uint32{0x1000000, 0x1000000})",
  str% "",
  str% "\tbuf.ReadBytes(&out, 0x00, 1)",
  str% "\tif expected != out[0] {",
  str% "",
  str% "\t\tt.Fatalf(\"expected byte does not match the one gotten (got %d, expected %d)\", out[0], expected)",
  str% "",
  str% "\t}",
  str% "",
  str% "\tbuf.ReadBytes(&out, 0x04, 1)",
  str% "\tif expected != out[0] {",
  str% "",
  str% "\t\tt.Fatalf(\"expected byte does not match the one gotten (got %d, expected %d)\", out[0], expected)",
  str% "",
  str% "\t}",
  str% "",
  str% "\tbuf.ByteOffset(&off)",
  str% "\tif off != 8 {",
  str% "",
  str% "\t\tt.Fatalf(\"incorrect offset: %d\", off)",
  str% "",
  str% "\t}",
  str% "\tbuf.SeekByte(0x00, false)",
  str% "",
  str% "\t//",
  str% "\t// u64le",
  str% "\t//",
  str% "",
  str% "\tbuf.WriteU64LENext([]uint64{0x01, 0x01})",
  str% "",
  str% "\tbuf.ReadBytes(&out, 0x00, 1)",
  str% "\tif expected != out[0] {",
  str% "",
  str% "\t\tt.Fatalf(\"expected byte does not match the one gotten (got %d, expected %d)\", out[0], expected)",
  str% "",
  str% "\t}",
  str% "",
  str% "\tbuf.ReadBytes(&out, 0x08, 1)",
  str% "\tif expected != out[0] {",
  str% "",
  str% "\t\tt.Fatalf(\"expected byte does not match the one gotten (got %d, expected %d)\", out[0], expected)",
  str% "",
  str% "\t}",
  str% "",
  str% "\tbuf.ByteOffset(&off)",
  str% "\tif off != 16 {",
  str% "",
  str% "\t\tt.Fatalf(\"incorrect offset: %d\", off)",
  str% "",
  str% "\t}",
  str% "\tbuf.SeekByte(0x00, false)",
  str% "",
  str% "\t//",
  str% "\t// u64be",
  str% "\t//",
  str% "",
  str% "\tbuf.WriteU64BENext([]uint64{0x100000000000000, 0x100000000000000})",
  str% "",
  str% "\tbuf.ReadBytes(&out, 0x00, 1)",
  str% "\tif expected != out[0] {",
  str% "",
  str% "\t\tt.Fatalf(\"expected byte does not match the one gotten (got %d, expected %d)\", out[0], expected)",
  str% "",
  str% "\t}",
  str% "",
  str% "\tbuf.ReadBytes(&out, 0x08, 1)",
  str% "\tif expected != out[0] {",
  str% "",
  str% "\t\tt.Fatalf(\"expected byte does not match the one gotten (got %d, expected %d)\", out[0], expected)",
  str% "",
  str% "\t}",
  str% "",
  str% "\tbuf.ByteOffset(&off)",
  str% "\tif off != 16 {",
  str% "",
  str% "\t\tt.Fatalf(\"incorrect offset: %d\", off)",
  str% "",
  str% "\t}",
  str% "\tbuf.SeekByte(0x00, false)",
  str% "",
  str% "\t//",
  str% "\t// i16le",
  str% "\t//",
  str% "",
  str% "\tbuf.WriteI16LENext([]int16{0x01, 0x01})",
  str% "",
  str% "\tbuf.ReadBytes(&out, 0x00, 1)",
  str% "\tif expected != out[0] {",
  str% "",
  str% "\t\tt.Fatalf(\"expected byte does not match the one gotten (got %d, expected %d)\", out[0], expected)",
  str% "",
  str% "\t}",
  str% "",
  str% "\tbuf.ReadBytes(&out, 0x02, 1)",
  str% "\tif expected != out[0] {",
  str% "",
  str% "\t\tt.Fatalf(\"expected byte does not match the one gotten (got %d, expected %d)\", out[0], expected)",
  str% "",
  str% "\t}",
  str% "",
  str% "\tbuf.ByteOffset(&off)",
  str% "\tif off != 4 {",
  str% "",
  str% "\t\tt.Fatalf(\"incorrect offset: %d\", off)",
  str% "",
  str% "\t}",
  str% "\tbuf.SeekByte(0x00, false)",
  str% "",
  str% "\t//",
  str% "\t// i16be",
  str% "\t//",
  str% "",
  str% "\tbuf.WriteI16BENext([]int16{0x100, 0x100})",
  str% "",
  str% "\tbuf.ReadBytes(&out, 0x00, 1)",
  str% "\tif expected != out[0] {",
  str% "",
  str% "\t\tt.Fatalf(\"expected byte does not match the one gotten (got %d, expected %d)\", out[0], expected)",
  str% "",
  str% "\t}",
  str% "",
  str% "\tbuf.ReadBytes(&out, 0x02, 1)",
  str% "\tif expected != out[0] {",
  str% "",
  str% "\t\tt.Fatalf(\"expected byte does not match the one gotten (got %d, expected %d)\", out[0], expected)",
  str% "",
  str% "\t}",
  str% "",
  str% "\tbuf.ByteOffset(&off)",
  str% "\tif off != 4 {",
  str% "",
  str% "\t\tt.Fatalf(\"incorrect offset: %d\", off)",
  str% "",
  str% "\t}",
  str% "\tbuf.SeekByte(0x00, false)",
  str% "",
  str% "\t//",
  str% "\t// i32le",
  str% "\t//",
  str% "",
  str% "\tbuf.WriteI32LENext([]int32{0x01, 0x01})",
  str% "",
  str% "\tbuf.ReadBytes(&out, 0x00, 1)",
  str% "\tif expected != out[0] {",
  str% "",
  str% "\t\tt.Fatalf(\"expected byte does not match the one gotten (got %d, expected %d)\", out[0], expected)",
  str% "",
  str% "\t}",
  str% "",
  str% "\tbuf.ReadBytes(&out, 0x04, 1)",
  str% "\tif expected != out[0] {",
  str% "",
  str% "\t\tt.Fatalf(\"expected byte does not match the one gotten (got %d, expected %d)\", out[0], expected)",
  str% "",
  str% "\t}",
  str% "",
  str% "\tbuf.ByteOffset(&off)",
  str% "\tif off != 8 {",
  str% "",
  str% "\t\tt.Fatalf(\"incorrect offset: %d\", off)",
  str% "",
  str% "\t}",
  str% "\tbuf.SeekByte(0x00, false)",
  str% "",
  str% "\t//",
  str% "\t// i32be",
  str% "\t//",
  str% "",
  str% "\tbuf.WriteI32BENext([]int32{0x1000000, 0x1000000})",
  str% "",
  str% "\tbuf.ReadBytes(&out, 0x00, 1)",
  str% "\tif expected != out[0] {",
  str% "",
  str% "\t\tt.Fatalf(\"expected byte does not match the one gotten (got %d, expected %d)\", out[0], expected)",
  str% "",
  str% "\t}",
  str% "",
  str% "\tbuf.ReadBytes(&out, 0x04, 1)",
  str% "\tif expected != out[0] {",
  str% "",
  str% "\t\tt.Fatalf(\"expected byte does not match the one gotten (got %d, expected %d)\", out[0], expected)",
  str% "",
  str% "\t}",
  str% "",
  str% "\tbuf.ByteOffset(&off)",
  str% "\tif off != 8 {",
  str% "",
  str% "\t\tt.Fatalf(\"incorrect offset: %d\", off)",
  str% "",
  str% "\t}",
  str% "\tbuf.SeekByte(0x00, false)",
  str% "",
  str% "\t//",
  str% "\t// i64le",
  str% "\t//",
  str% "",
  str% "\tbuf.WriteI64LENext([]int64{0x01, 0x01})",
  str% "",
  str% "\tbuf.ReadBytes(&out, 0x00, 1)",
  str% "\tif expected != out[0] {",
  str% "",
  str% "\t\tt.Fatalf(\"expected byte does not match the one gotten (got %d, expected %d)\", out[0], expected)",
  str% "",
  str% "\t}",
  str% "",
  str% "\tbuf.ReadBytes(&out, 0x08, 1)",
  str% "\tif expected != out[0] {",
  str% "",
  str% "\t\tt.Fatalf(\"expected byte does not match the one gotten (got %d, expected %d)\", out[0], expected)",
  str% "",
  str% "\t}",
  str% "",
  str% "\tbuf.ByteOffset(&off)",
  str% "\tif off != 16 {",
  str% "",
  str% "\t\tt.Fatalf(\"incorrect offset: %d\", off)",
  str% "",
  str% "\t}",
  str% "\tbuf.SeekByte(0x00, false)",
  str% "",
  str% "\t//",
  str% "\t// i64be",
  str% "\t//",
  str% "",
  str% "\tbuf.WriteI64BENext([]int64{0x100000000000000, 0x100000000000000})",
  str% "",
  str% "\tbuf.ReadBytes(&out, 0x00, 1)",
  str% "\tif expected != out[0] {",
  str% "",
  str% "\t\tt.Fatalf(\"expected byte does not match the one gotten (got %d, expected %d)\", out[0], expected)",
  str% "",
  str% "\t}",
  str% "",
  str% "\tbuf.ReadBytes(&out, 0x08, 1)",
  str% "\tif expected != out[0] {",
  str% "",
  str% "\t\tt.Fatalf(\"expected byte does not match the one gotten (got %d, expected %d)\", out[0], expected)",
  str% "",
  str% "\t}",
  str% "",
  str% "\tbuf.ByteOffset(&off)",
  str% "\tif off != 16 {",
  str% "",
  str% "\t\tt.Fatalf(\"incorrect offset: %d\", off)",
  str% "",
  str% "\t}",
  str% "\tbuf.SeekByte(0x00, false)",
  str% "",
  str% "\t//",
  str% "\t// floats (we use a slightly different expected integer array to have higher confidence here)",
  str% "\t//",
  str% "",
  str% "\tNewMiniBuffer(&buf, []byte{0x00, 0x00, 0x00, 0x00, 0x00, 0x00, 0x00, 0x00, 0x00, 0x00, 0x00, 0x00, 0x00, 0x00, 0x00, 0x00})",
  str% "",
  str% "\texpected2 := []byte{0xc0, 0x45, 0x35, 0xc2, 0x8f, 0x5c, 0x28, 0xf6, 0x40, 0xc, 0xf7, 0xce, 0xd9, 0x16, 0x87, 0x2b}",
  str% "",
  str% "\t//",
  str% "\t// f32le",
  str% "\t//",
  str% "",
  str% "\tbuf.WriteF32LENext([]float32{-45.318115, -8.536945e+32})",
  str% "",
  str% "\tbuf.ReadBytes(&out, 0x00, 8)",
  str% "\tif !cmp.Equal(expected2[0:8], out) {",
  str% "",
  str% "\t\tt.Fatalf(\"expected byte array does not match the one gotten (got %#v, expected %#v)\", out, expected2)",
  str% "",
  str% "\t}",
  str% "",
  str% "\tbuf.ByteOffset(&off)",
  str% "\tif off != 8 {",
  str% "",
  str% "\t\tt.Fatalf(\"incorrect offset: %d\", off)",
  str% "",
  str% "\t}",
  str% "\tbuf.SeekByte(0x00, false)",
  str% "",
  str% "\t//",
  str% "\t// f32be",
  str% "\t//",
  str% "",
  str% "\tbuf.WriteF32BENext([]float32{-3.081406, -1.0854726e-29})",
  str% "",
  str% "\tbuf.ReadBytes(&out, 0x00, 8)",
  str% "\tif !cmp.Equal(expected2[0:8], out) {",
  str% "",
  str% "\t\tt.Fatalf(\"expected byte array does not match the one gotten (got %#v, expected %#v)\", out, expected2)",
  str% "",
  str% "\t}",
  str% "",
  str% "\tbuf.ByteOffset(&off)",
  str% "\tif off != 8 {",
  str% "",
  str% "\t\tt.Fatalf(\"incorrect offset: %d\", off)",
  str% "",
  str% "\t}",
  str% "\tbuf.SeekByte(0x00, false)",
  str% "",
  str% "\t//",
  str% "\t// f64le",
  str% "\t//",
  str% "",
  str% "\tbuf.WriteF64LENext([]float64{-1.498274907009045e+261, 5.278146837874356e-99})",
  str% "",
  str% "\tbuf.ReadBytes(&out, 0x00, 16)",
  str% "\tif !cmp.Equal(expected2, out) {",
  str% "",
  str% "\t\tt.Fatalf(\"expected byte array does not match the one gotten (got %#v, expected %#v)\", out, expected2)",
  str% "",
  str% "\t}",
  str% "",
  str% "\tbuf.ByteOffset(&off)",
  str% "\tif off != 16 {",
  str% "",
  str% "\t\tt.Fatalf(\"incorrect offset: %d\", off)",
  str% "",
  str% "\t}",
  str% "\tbuf.SeekByte(0x00, false)",
  str% "",
  str% "\t//",
  str% "\t// f64be",
  str% "\t//",
  str% "",
  str% "\tbuf.WriteF64BENext([]float64{-42.42, 3.621})",
  str% "",
  str% "\tbuf.ReadBytes(&out, 0x00, 16)",
  str% "\tif !cmp.Equal(expected2, out) {",
  str% "",
  str% "\t\tt.Fatalf(\"expected byte array does not match the one gotten (got %#v, expected %#v)\", out, expected2)",
  str% "",
  str% "\t}",
  str% "",
  str% "\tbuf.ByteOffset(&off)",
  str% "\tif off != 16 {",
  str% "",
  str% "\t\tt.Fatalf(\"incorrect offset: %d\", off)",
  str% "",
  str% "\t}",
  str% "\tbuf.SeekByte(0x00, false)",
  str% "}"]

/-- v3/minibuf_test.go:1316-1331 -/
def TestMiniBufferReadBit : List Str := [
  str% "func TestMiniBufferReadBit(t *testing.T) {",
  str% "",
  str% "\tvar expected byte = 1",
  str% "",
  str% "\tbuf := &MiniBuffer{}",
  str% "\tNewMiniBuffer(&buf, []byte{0x01, 0x00, 0x00, 0x00})",
  str% "",
  str% "\tvar out byte",
  str% "\tbuf.ReadBit(&out, 0x07)",
  str% "\tif expected != out {",
  str% "",
  str% "\t\tt.Fatalf(\"expected byte does not match the one gotten (got %d, expected %d)\", out, expected)",
  str% "",
  str% "\t}",
  str% "",
  str% "}"]

/-- v3/minibuf_test.go:1333-1348 -/
def TestMiniBufferReadBitNext : List Str := [
  str% "func TestMiniBufferReadBitNext(t *testing.T) {",
  str% "",
  str% "\tvar expected byte = 1",
  str% "",
  str% "\tbuf := &MiniBuffer{}",
  str% "\tNewMiniBuffer(&buf, []byte{0xff, 0x00, 0x00, 0x00})",
  str% "",
  str% "\tvar out byte",
  str% "\tbuf.ReadBitNext(&out)",
  str% "\tif expected != out {",
  str% "",
  str% "\t\tt.Fatalf(\"expected byte does not match the one gotten (got %d, expected %d)\", out, expected)",
  str% "",
  str% "\t}",
  str% "",
  str% "}"]

/-- v3/minibuf_test.go:1350-1365 -/
def TestMiniBufferReadBits : List Str := [
  str% "func TestMiniBufferReadBits(t *testing.T) {",
  str% "",
  str% "\tvar expected uint64 = 5",
  str% "",
  str% "\tbuf := &MiniBuffer{}",
  str% "\tNewMiniBuffer(&buf, []byte{0x0d, 0x00, 0x00, 0x00})",
  str% "",
  str% "\tvar out uint64",
  str% "\tbuf.ReadBits(&out, 0x05, 3)",
  str% "\tif expected != out {",
  str% "",
  str% "\t\tt.Fatalf(\"expected uint64 does not match the one gotten (got %d, expected %d)\", out, expected)",
  str% "",
  str% "\t}",
  str% "",
  str% "}"]

/-- v3/minibuf_test.go:1367-1382 -/
def TestMiniBufferReadBitsNext : List Str := [
  str% "func TestMiniBufferReadBitsNext(t *testing.T) {",
  str% "",
  str% "\tvar expected uint64 = 13",
  str% "",
  str% "\tbuf := &MiniBuffer{}",
  str% "\tNewMiniBuffer(&buf, []byte{0x0d, 0x00, 0x00, 0x00})",
  str% "",
  str% "\tvar out uint64",
  str% "\tbuf.ReadBitsNext(&out, 8)",
  str% "\tif expected != out {",
  str% "",
  str% "\t\tt.Fatalf(\"expected uint64 does not match the one gotten (got %d, expected %d)\", out, expected)",
  str% "",
  str% "\t}",
  str% "",
  str% "}"]

/-- v3/minibuf_test.go:1384-1401 -/
def TestMiniBufferSetBit : List Str := [
  str% "func TestMiniBufferSetBit(t *testing.T) {",
  str% "",
  str% "\tvar expected byte = 1",
  str% "",
  str% "\tbuf := &MiniBuffer{}",
  str% "\tNewMiniBuffer(&buf, []byte{0x00, 0x00, 0x00, 0x00})",
  str% "",
  str% "\tbuf.SetBit(0x00)",
  str% "",
  str% "\tvar out byte",
  str% "\tbuf.ReadBit(&out, 0x00)",
  str% "\tif expected != out {",
  str% "",
  str% "\t\tt.Fatalf(\"expected byte does not match the one gotten (got %d, expected %d)\", out, expected)",
  str% "",
  str% "\t}",
  str% "",
  str% "}"]

/-- v3/minibuf_test.go:1403-1420 -/
def TestMiniBufferSetBitNext : List Str := [
  str% "func TestMiniBufferSetBitNext(t *testing.T) {",
  str% "",
  str% "\tvar expected byte = 1",
  str% "",
  str% "\tbuf := &MiniBuffer{}",
  str% "\tNewMiniBuffer(&buf, []byte{0x00, 0x00, 0x00, 0x00})",
  str% "",
  str% "\tbuf.SetBitNext()",
  str% "",
  str% "\tvar out byte",
  str% "\tbuf.ReadBit(&out, 0x00)",
  str% "\tif expected != out {",
  str% "",
  str% "\t\tt.Fatalf(\"expected byte does not match the one gotten (got %d, expected %d)\", out, expected)",
  str% "",
  str% "\t}",
  str% "",
  str% "}"]

/-- v3/minibuf_test.go:1422-1439 -/
def TestMiniBufferClearBit : List Str := [
  str% "func TestMiniBufferClearBit(t *testing.T) {",
  str% "",
  str% "\tvar expected byte",
  str% "",
  str% "\tbuf := &MiniBuffer{}",
  str% "\tNewMiniBuffer(&buf, []byte{0x00, 0x00, 0x00, 0x00})",
  str% "",
  str% "\tbuf.ClearBit(0x00)",
  str% "",
  str% "\tvar out byte",
  str% "\tbuf.ReadBit(&out, 0x00)",
  str% "\tif expected != out {",
  str% "",
  str% "\t\tt.Fatalf(\"expected byte does not match the one gotten (got %d, expected %d)\", out, expected)",
  str% "",
  str% "\t}",
  str% "",
  str% "}"]

/-- v3/minibuf_test.go:1441-1458 -/
def TestMiniBufferClearBitNext : List Str := [
  str% "func TestMiniBufferClearBitNext(t *testing.T) {",
  str% "",
  str% "\tvar expected byte",
  str% "",
  str% "\tbuf := &MiniBuffer{}",
  str% "\tNewMiniBuffer(&buf, []byte{0x00, 0x00, 0x00, 0x00})",
  str% "",
  str% "\tbuf.ClearBitNext()",
  str% "",
  str% "\tvar out byte",
  str% "\tbuf.ReadBit(&out, 0x00)",
  str% "\tif expected != out {",
  str% "",
  str% "\t\tt.Fatalf(\"expected byte does not match the one gotten (got %d, expected %d)\", out, expected)",
  str% "",
  str% "\t}",
  str% "",
  str% "}"]

/-- v3/minibuf_test.go:1460-1477 -/
def TestMiniBufferSetBits : List Str := [
  str% "func TestMiniBufferSetBits(t *testing.T) {",
  str% "",
  str% "\tvar expected uint64 = 5",
  str% "",
  str% "\tbuf := &MiniBuffer{}",
  str% "\tNewMiniBuffer(&buf, []byte{0x00, 0x00, 0x00, 0x00})",
  str% "",
  str% "\tbuf.SetBits(0x06, 5, 3)",
  str% "",
  str% "\tvar out uint64",
  str% "\tbuf.ReadBits(&out, 0x06, 3)",
  str% "\tif expected != out {",
  str% "",
  str% "\t\tt.Fatalf(\"expected uint64 does not match the one gotten (got %d, expected %d)\", out, expected)",
  str% "",
  str% "\t}",
  str% "",
  str% "}"]

/-- v3/minibuf_test.go:1479-1496 -/
def TestMiniBufferSetBitsNext : List Str := [
  str% "func TestMiniBufferSetBitsNext(t *testing.T) {",
  str% "",
  str% "\tvar expected uint64 = 13",
  str% "",
  str% "\tbuf := &MiniBuffer{}",
  str% "\tNewMiniBuffer(&buf, []byte{0x00, 0x00, 0x00, 0x00})",
  str% "",
  str% "\tbuf.SetBitsNext(13, 8)",
  str% "",
  str% "\tvar out uint64",
  str% "\tbuf.ReadBits(&out, 0x00, 8)",
  str% "\tif expected != out {",
  str% "",
  str% "\t\tt.Fatalf(\"expected uint64 does not match the one gotten (got %d, expected %d)\", out, expected)",
  str% "",
  str% "\t}",
  str% "",
  str% "}"]

/-- v3/minibuf_test.go:1498-1515 -/
def TestMiniBufferFlipBit : List Str := [
  str% "func TestMiniBufferFlipBit(t *testing.T) {",
  str% "",
  str% "\tvar expected byte",
  str% "",
  str% "\tbuf := &MiniBuffer{}",
  str% "\tNewMiniBuffer(&buf, []byte{0xff, 0xff, 0xff, 0xff})",
  str% "",
  str% "\tbuf.FlipBit(0x01)",
  str% "",
  str% "\tvar out byte",
  str% "\tbuf.ReadBit(&out, 0x01)",
  str% "\tif expected != out {",
  str% "",
  str% "\t\tt.Fatalf(\"expected byte does not match the one gotten (got %d, expected %d)\", out, expected)",
  str% "",
  str% "\t}",
  str% "",
  str% "}"]

/-- v3/minibuf_test.go:1517-1534 -/
def TestMiniBufferFlipBitNext : List Str := [
  str% "func TestMiniBufferFlipBitNext(t *testing.T) {",
  str% "",
  str% "\tvar expected byte = 1",
  str% "",
  str% "\tbuf := &MiniBuffer{}",
  str% "\tNewMiniBuffer(&buf, []byte{0x00, 0x00, 0x00, 0x00})",
  str% "",
  str% "\tbuf.FlipBitNext()",
  str% "",
  str% "\tvar out byte",
  str% "\tbuf.ReadBit(&out, 0x00)",
  str% "\tif expected != out {",
  str% "",
  str% "\t\tt.Fatalf(\"expected byte does not match the one gotten (got %d, expected %d)\", out, expected)",
  str% "",
  str% "\t}",
  str% "",
  str% "}"]

/-- v3/minibuf_test.go:1536-1551 -/
def TestMiniBufferClearAllBits : List Str := [
  str% "func TestMiniBufferClearAllBits(t *testing.T) {",
  str% "",
  str% "\tvar expected = []byte{0x00, 0x00, 0x00, 0x00}",
  str% "",
  str% "\tbuf := &MiniBuffer{}",
  str% "\tNewMiniBuffer(&buf, []byte{0xff, 0x00, 0xff, 0x00})",
  str% "",
  str% "\tbuf.ClearAllBits()",
  str% "",
  str% "\tif !cmp.Equal(expected, buf.buf) {",
  str% "",
  str% "\t\tt.Fatalf(\"expected byte array does not match the one gotten (got %#v, expected %#v)\", buf.buf, expected)",
  str% "",
  str% "\t}",
  str% "",
  str% "}"]

/-- v3/minibuf_test.go:1553-1568 -/
def TestMiniBufferSetAllBits : List Str := [
  str% "func TestMiniBufferSetAllBits(t *testing.T) {",
  str% "",
  str% "\tvar expected = []byte{0xff, 0xff, 0xff, 0xff}",
  str% "",
  str% "\tbuf := &MiniBuffer{}",
  str% "\tNewMiniBuffer(&buf, []byte{0x00, 0xff, 0x00, 0xff})",
  str% "",
  str% "\tbuf.SetAllBits()",
  str% "",
  str% "\tif !cmp.Equal(expected, buf.buf) {",
  str% "",
  str% "\t\tt.Fatalf(\"expected byte array does not match the one gotten (got %#v, expected %#v)\", buf.buf, expected)",
  str% "",
  str% "\t}",
  str% "",
  str% "}"]

/-- v3/minibuf_test.go:1570-1585 -/
def TestMiniBufferFlipAllBits : List Str := [
  str% "func TestMiniBufferFlipAllBits(t *testing.T) {",
  str% "",
  str% "\tvar expected = []byte{0xff, 0x00, 0xff, 0x00}",
  str% "",
  str% "\tbuf := &MiniBuffer{}",
  str% "\tNewMiniBuffer(&buf, []byte{0x00, 0xff, 0x00, 0xff})",
  str% "",
  str% "\tbuf.FlipAllBits()",
  str% "",
  str% "\tif !cmp.Equal(expected, buf.buf) {",
  str% "",
  str% "\t\tt.Fatalf(\"expected byte array does not match the one gotten (got %#v, expected %#v)\", buf.buf, expected)",
  str% "",
  str% "\t}",
  str% "",
  str% "}"]

/-- All of them. -/
def text : List (List Str) := [TestNewMiniBuffer, TestMiniBufferBytes, TestMiniBufferByteCapacity, TestMiniBufferBitCapacity, TestMiniBufferByteOffset, TestMiniBufferBitOffset, TestMiniBufferRefresh, TestMiniBufferReset, TestMiniBufferTruncateLeft, TestMiniBufferTruncateRight, TestMiniBufferGrow, TestMiniBufferGrow2, TestMiniBufferSeekByte, TestMiniBufferSeekBit, TestMiniBufferAlignBit, TestMiniBufferAlignByte, TestMiniBufferAfterByte, TestMiniBufferAfterBit, TestMiniBufferReadBytes, TestMiniBufferReadBytesNext, TestMiniBufferReadSNEN, TestMiniBufferWriteBytes, TestMiniBufferWriteBytesNext, TestMiniBufferWriteSNEN, TestMiniBufferReadBit, TestMiniBufferReadBitNext, TestMiniBufferReadBits, TestMiniBufferReadBitsNext, TestMiniBufferSetBit, TestMiniBufferSetBitNext, TestMiniBufferClearBit, TestMiniBufferClearBitNext, TestMiniBufferSetBits, TestMiniBufferSetBitsNext, TestMiniBufferFlipBit, TestMiniBufferFlipBitNext, TestMiniBufferClearAllBits, TestMiniBufferSetAllBits, TestMiniBufferFlipAllBits]

end Crunch.Src.V3MiniTest
