import Verif.Gen.Text

/-!
# The benchmark functions of the test files

Written by tools/src_embed.py.
-/

namespace Crunch.Src.V3BufferBench

open Crunch.Gen (Str)

/-- v3/buffer_test.go:2354-2366 -/
def BenchmarkBufferWriteBytes : List Str := [
  str% "func BenchmarkBufferWriteBytes(b *testing.B) {",
  str% "",
  str% "\tb.ReportAllocs()",
  str% "",
  str% "\tbuf := NewBuffer([]byte{0x00, 0x00, 0x00, 0x00})",
  str% "",
  str% "\tfor n := 0; n < b.N; n++ {",
  str% "",
  str% "\t\tbuf.WriteBytes(0x00, []byte{0x01, 0x02})",
  str% "",
  str% "\t}",
  str% "",
  str% "}"]

/-- v3/buffer_test.go:2368-2383 -/
def BenchmarkBufferReadBytes : List Str := [
  str% "func BenchmarkBufferReadBytes(b *testing.B) {",
  str% "",
  str% "\tb.ReportAllocs()",
  str% "",
  str% "\tbuf := NewBuffer([]byte{0x00, 0x00, 0x00, 0x00})",
  str% "",
  str% "\tvar out []byte",
  str% "\tfor n := 0; n < b.N; n++ {",
  str% "",
  str% "\t\tout = buf.ReadBytes(0x00, 2)",
  str% "",
  str% "\t}",
  str% "",
  str% "\t_ = out",
  str% "",
  str% "}"]

/-- v3/buffer_test.go:2385-2397 -/
def BenchmarkBufferWriteU32LE : List Str := [
  str% "func BenchmarkBufferWriteU32LE(b *testing.B) {",
  str% "",
  str% "\tb.ReportAllocs()",
  str% "",
  str% "\tbuf := NewBuffer([]byte{0x00, 0x00, 0x00, 0x00, 0x00, 0x00, 0x00, 0x00})",
  str% "",
  str% "\tfor n := 0; n < b.N; n++ {",
  str% "",
  str% "\t\tbuf.WriteU32LE(0x00, []uint32{0x01, 0x02})",
  str% "",
  str% "\t}",
  str% "",
  str% "}"]

/-- v3/buffer_test.go:2399-2414 -/
def BenchmarkBufferReadU32LE : List Str := [
  str% "func BenchmarkBufferReadU32LE(b *testing.B) {",
  str% "",
  str% "\tb.ReportAllocs()",
  str% "",
  str% "\tbuf := NewBuffer([]byte{0x00, 0x00, 0x00, 0x00, 0x00, 0x00, 0x00, 0x00})",
  str% "",
  str% "\tvar out []uint32",
  str% "\tfor n := 0; n < b.N; n++ {",
  str% "",
  str% "\t\tout = buf.ReadU32LE(0x00, 2)",
  str% "",
  str% "\t}",
  str% "",
  str% "\t_ = out",
  str% "",
  str% "}"]

/-- v3/buffer_test.go:2416-2428 -/
def BenchmarkBufferReadBit : List Str := [
  str% "func BenchmarkBufferReadBit(b *testing.B) {",
  str% "",
  str% "\tb.ReportAllocs()",
  str% "",
  str% "\tbuf := NewBuffer([]byte{0x00, 0x00, 0x00, 0x00})",
  str% "",
  str% "\tfor n := 0; n < b.N; n++ {",
  str% "",
  str% "\t\t_ = buf.ReadBit(0x00)",
  str% "",
  str% "\t}",
  str% "",
  str% "}"]

/-- v3/buffer_test.go:2430-2442 -/
def BenchmarkBufferReadBits : List Str := [
  str% "func BenchmarkBufferReadBits(b *testing.B) {",
  str% "",
  str% "\tb.ReportAllocs()",
  str% "",
  str% "\tbuf := NewBuffer([]byte{0x00, 0x00, 0x00, 0x00})",
  str% "",
  str% "\tfor n := 0; n < b.N; n++ {",
  str% "",
  str% "\t\t_ = buf.ReadBits(0x00, 2)",
  str% "",
  str% "\t}",
  str% "",
  str% "}"]

/-- v3/buffer_test.go:2444-2456 -/
def BenchmarkBufferSetBit : List Str := [
  str% "func BenchmarkBufferSetBit(b *testing.B) {",
  str% "",
  str% "\tb.ReportAllocs()",
  str% "",
  str% "\tbuf := NewBuffer([]byte{0x00, 0x00, 0x00, 0x00})",
  str% "",
  str% "\tfor n := 0; n < b.N; n++ {",
  str% "",
  str% "\t\tbuf.SetBit(0x00)",
  str% "",
  str% "\t}",
  str% "",
  str% "}"]

/-- v3/buffer_test.go:2458-2470 -/
def BenchmarkBufferClearBit : List Str := [
  str% "func BenchmarkBufferClearBit(b *testing.B) {",
  str% "",
  str% "\tb.ReportAllocs()",
  str% "",
  str% "\tbuf := NewBuffer([]byte{0x00, 0x00, 0x00, 0x00})",
  str% "",
  str% "\tfor n := 0; n < b.N; n++ {",
  str% "",
  str% "\t\tbuf.ClearBit(0x00)",
  str% "",
  str% "\t}",
  str% "",
  str% "}"]

/-- v3/buffer_test.go:2472-2485 -/
def BenchmarkBufferGrow : List Str := [
  str% "func BenchmarkBufferGrow(b *testing.B) {",
  str% "",
  str% "\tb.ReportAllocs()",
  str% "",
  str% "\tbuf := NewBuffer()",
  str% "",
  str% "\tfor n := 0; n < b.N; n++ {",
  str% "",
  str% "\t\tbuf.Grow(1)",
  str% "\t\tbuf.Reset()",
  str% "",
  str% "\t}",
  str% "",
  str% "}"]

/-- All of them. -/
def text : List (List Str) := [BenchmarkBufferWriteBytes, BenchmarkBufferReadBytes, BenchmarkBufferWriteU32LE, BenchmarkBufferReadU32LE, BenchmarkBufferReadBit, BenchmarkBufferReadBits, BenchmarkBufferSetBit, BenchmarkBufferClearBit, BenchmarkBufferGrow]

end Crunch.Src.V3BufferBench

namespace Crunch.Src.V3MiniBench

open Crunch.Gen (Str)

/-- v3/minibuf_test.go:1593-1606 -/
def BenchmarkMiniBufferWriteBytes : List Str := [
  str% "func BenchmarkMiniBufferWriteBytes(b *testing.B) {",
  str% "",
  str% "\tb.ReportAllocs()",
  str% "",
  str% "\tbuf := &MiniBuffer{}",
  str% "\tNewMiniBuffer(&buf, []byte{0x00, 0x00, 0x00, 0x00})",
  str% "",
  str% "\tfor n := 0; n < b.N; n++ {",
  str% "",
  str% "\t\tbuf.WriteBytes(0x00, []byte{0x01, 0x02})",
  str% "",
  str% "\t}",
  str% "",
  str% "}"]

/-- v3/minibuf_test.go:1608-1623 -/
def BenchmarkMiniBufferReadBytes : List Str := [
  str% "func BenchmarkMiniBufferReadBytes(b *testing.B) {",
  str% "",
  str% "\tb.ReportAllocs()",
  str% "",
  str% "\tbuf := &MiniBuffer{}",
  str% "\tNewMiniBuffer(&buf, []byte{0x00, 0x00, 0x00, 0x00})",
  str% "",
  str% "\tout := []byte{}",
  str% "",
  str% "\tfor n := 0; n < b.N; n++ {",
  str% "",
  str% "\t\tbuf.ReadBytes(&out, 0x00, 2)",
  str% "",
  str% "\t}",
  str% "",
  str% "}"]

/-- v3/minibuf_test.go:1625-1638 -/
def BenchmarkMiniBufferWriteU32LE : List Str := [
  str% "func BenchmarkMiniBufferWriteU32LE(b *testing.B) {",
  str% "",
  str% "\tb.ReportAllocs()",
  str% "",
  str% "\tbuf := &MiniBuffer{}",
  str% "\tNewMiniBuffer(&buf, []byte{0x00, 0x00, 0x00, 0x00, 0x00, 0x00, 0x00, 0x00})",
  str% "",
  str% "\tfor n := 0; n < b.N; n++ {",
  str% "",
  str% "\t\tbuf.WriteU32LE(0x00, []uint32{0x01, 0x02})",
  str% "",
  str% "\t}",
  str% "",
  str% "}"]

/-- v3/minibuf_test.go:1640-1656 -/
def BenchmarkMiniBufferReadU32LE : List Str := [
  str% "func BenchmarkMiniBufferReadU32LE(b *testing.B) {",
  str% "",
  str% "\tb.ReportAllocs()",
  str% "",
  str% "\tbuf := &MiniBuffer{}",
  str% "\tNewMiniBuffer(&buf, []byte{0x00, 0x00, 0x00, 0x00, 0x00, 0x00, 0x00, 0x00})",
  str% "",
  str% "\tout := []uint32{0x00, 0x00}",
  str% "\tfor n := 0; n < b.N; n++ {",
  str% "",
  str% "\t\tbuf.ReadU32LE(&out, 0x00, 2)",
  str% "",
  str% "\t}",
  str% "",
  str% "\t_ = out",
  str% "",
  str% "}"]

/-- v3/minibuf_test.go:1658-1671 -/
def BenchmarkMiniBufferWriteF32LE : List Str := [
  str% "func BenchmarkMiniBufferWriteF32LE(b *testing.B) {",
  str% "",
  str% "\tb.ReportAllocs()",
  str% "",
  str% "\tbuf := &MiniBuffer{}",
  str% "\tNewMiniBuffer(&buf, []byte{0x00, 0x00, 0x00, 0x00, 0x00, 0x00, 0x00, 0x00})",
  str% "",
  str% "\tfor n := 0; n < b.N; n++ {",
  str% "",
  str% "\t\tbuf.WriteF32LE(0x00, []float32{0.01, 0.02})",
  str% "",
  str% "\t}",
  str% "",
  str% "}"]

/-- v3/minibuf_test.go:1673-1689 -/
def BenchmarkMiniBufferReadF32LE : List Str := [
  str% "func BenchmarkMiniBufferReadF32LE(b *testing.B) {",
  str% "",
  str% "\tb.ReportAllocs()",
  str% "",
  str% "\tbuf := &MiniBuffer{}",
  str% "\tNewMiniBuffer(&buf, []byte{0x00, 0x00, 0x00, 0x00, 0x00, 0x00, 0x00, 0x00})",
  str% "",
  str% "\tout := []float32{0x00, 0x00}",
  str% "\tfor n := 0; n < b.N; n++ {",
  str% "",
  str% "\t\tbuf.ReadF32LE(&out, 0x00, 2)",
  str% "",
  str% "\t}",
  str% "",
  str% "\t_ = out",
  str% "",
  str% "}"]

/-- v3/minibuf_test.go:1691-1707 -/
def BenchmarkMiniBufferReadBit : List Str := [
  str% "func BenchmarkMiniBufferReadBit(b *testing.B) {",
  str% "",
  str% "\tb.ReportAllocs()",
  str% "",
  str% "\tbuf := &MiniBuffer{}",
  str% "\tNewMiniBuffer(&buf, []byte{0x00, 0x00, 0x00, 0x00})",
  str% "",
  str% "\tvar out byte",
  str% "\tfor n := 0; n < b.N; n++ {",
  str% "",
  str% "\t\tbuf.ReadBit(&out, 0x00)",
  str% "",
  str% "\t}",
  str% "",
  str% "\t_ = out",
  str% "",
  str% "}"]

/-- v3/minibuf_test.go:1709-1725 -/
def BenchmarkMiniBufferReadBits : List Str := [
  str% "func BenchmarkMiniBufferReadBits(b *testing.B) {",
  str% "",
  str% "\tb.ReportAllocs()",
  str% "",
  str% "\tbuf := &MiniBuffer{}",
  str% "\tNewMiniBuffer(&buf, []byte{0x00, 0x00, 0x00, 0x00})",
  str% "",
  str% "\tvar out uint64",
  str% "\tfor n := 0; n < b.N; n++ {",
  str% "",
  str% "\t\tbuf.ReadBits(&out, 0x00, 2)",
  str% "",
  str% "\t}",
  str% "",
  str% "\t_ = out",
  str% "",
  str% "}"]

/-- v3/minibuf_test.go:1727-1740 -/
def BenchmarkMiniBufferSetBit : List Str := [
  str% "func BenchmarkMiniBufferSetBit(b *testing.B) {",
  str% "",
  str% "\tb.ReportAllocs()",
  str% "",
  str% "\tbuf := &MiniBuffer{}",
  str% "\tNewMiniBuffer(&buf, []byte{0x00, 0x00, 0x00, 0x00})",
  str% "",
  str% "\tfor n := 0; n < b.N; n++ {",
  str% "",
  str% "\t\tbuf.SetBit(0x00)",
  str% "",
  str% "\t}",
  str% "",
  str% "}"]

/-- v3/minibuf_test.go:1742-1755 -/
def BenchmarkMiniBufferClearBit : List Str := [
  str% "func BenchmarkMiniBufferClearBit(b *testing.B) {",
  str% "",
  str% "\tb.ReportAllocs()",
  str% "",
  str% "\tbuf := &MiniBuffer{}",
  str% "\tNewMiniBuffer(&buf, []byte{0x00, 0x00, 0x00, 0x00})",
  str% "",
  str% "\tfor n := 0; n < b.N; n++ {",
  str% "",
  str% "\t\tbuf.ClearBit(0x00)",
  str% "",
  str% "\t}",
  str% "",
  str% "}"]

/-- v3/minibuf_test.go:1757-1771 -/
def BenchmarkMiniBufferGrow : List Str := [
  str% "func BenchmarkMiniBufferGrow(b *testing.B) {",
  str% "",
  str% "\tb.ReportAllocs()",
  str% "",
  str% "\tbuf := &MiniBuffer{}",
  str% "\tNewMiniBuffer(&buf)",
  str% "",
  str% "\tfor n := 0; n < b.N; n++ {",
  str% "",
  str% "\t\tbuf.Grow(1)",
  str% "\t\tbuf.Reset()",
  str% "",
  str% "\t}",
  str% "",
  str% "}"]

/-- All of them. -/
def text : List (List Str) := [BenchmarkMiniBufferWriteBytes, BenchmarkMiniBufferReadBytes, BenchmarkMiniBufferWriteU32LE, BenchmarkMiniBufferReadU32LE, BenchmarkMiniBufferWriteF32LE, BenchmarkMiniBufferReadF32LE, BenchmarkMiniBufferReadBit, BenchmarkMiniBufferReadBits, BenchmarkMiniBufferSetBit, BenchmarkMiniBufferClearBit, BenchmarkMiniBufferGrow]

end Crunch.Src.V3MiniBench

namespace Crunch.Src.V2BufferBench

open Crunch.Gen (Str)

/-- v2/buffer_test.go:1386-1398 -/
def BenchmarkBufferWrite : List Str := [
  str% "func BenchmarkBufferWrite(b *testing.B) {",
  str% "",
  str% "\tb.ReportAllocs()",
  str% "",
  str% "\tbuf := NewBuffer([]byte{0x00, 0x00, 0x00, 0x00})",
  str% "",
  str% "\tfor n := 0; n < b.N; n++ {",
  str% "",
  str% "\t\tbuf.WriteBytes(0x00, []byte{0x01, 0x02})",
  str% "",
  str% "\t}",
  str% "",
  str% "}"]

/-- v2/buffer_test.go:1400-1415 -/
def BenchmarkBufferRead : List Str := [
  str% "func BenchmarkBufferRead(b *testing.B) {",
  str% "",
  str% "\tb.ReportAllocs()",
  str% "",
  str% "\tbuf := NewBuffer([]byte{0x00, 0x00, 0x00, 0x00})",
  str% "",
  str% "\tvar out []byte",
  str% "\tfor n := 0; n < b.N; n++ {",
  str% "",
  str% "\t\tout = buf.ReadBytes(0x00, 2)",
  str% "",
  str% "\t}",
  str% "",
  str% "\t_ = out",
  str% "",
  str% "}"]

/-- v2/buffer_test.go:1417-1429 -/
def BenchmarkBufferWriteU32LE : List Str := [
  str% "func BenchmarkBufferWriteU32LE(b *testing.B) {",
  str% "",
  str% "\tb.ReportAllocs()",
  str% "",
  str% "\tbuf := NewBuffer([]byte{0x00, 0x00, 0x00, 0x00, 0x00, 0x00, 0x00, 0x00})",
  str% "",
  str% "\tfor n := 0; n < b.N; n++ {",
  str% "",
  str% "\t\tbuf.WriteU32LE(0x00, []uint32{0x01, 0x02})",
  str% "",
  str% "\t}",
  str% "",
  str% "}"]

/-- v2/buffer_test.go:1431-1446 -/
def BenchmarkBufferReadU32LE : List Str := [
  str% "func BenchmarkBufferReadU32LE(b *testing.B) {",
  str% "",
  str% "\tb.ReportAllocs()",
  str% "",
  str% "\tbuf := NewBuffer([]byte{0x00, 0x00, 0x00, 0x00, 0x00, 0x00, 0x00, 0x00})",
  str% "",
  str% "\tvar out []uint32",
  str% "\tfor n := 0; n < b.N; n++ {",
  str% "",
  str% "\t\tout = buf.ReadU32LE(0x00, 2)",
  str% "",
  str% "\t}",
  str% "",
  str% "\t_ = out",
  str% "",
  str% "}"]

/-- All of them. -/
def text : List (List Str) := [BenchmarkBufferWrite, BenchmarkBufferRead, BenchmarkBufferWriteU32LE, BenchmarkBufferReadU32LE]

end Crunch.Src.V2BufferBench

namespace Crunch.Src.V2MiniBench

open Crunch.Gen (Str)

/-- v2/minibuf_test.go:1071-1084 -/
def BenchmarkMiniBufferWrite : List Str := [
  str% "func BenchmarkMiniBufferWrite(b *testing.B) {",
  str% "",
  str% "\tb.ReportAllocs()",
  str% "",
  str% "\tbuf := &MiniBuffer{}",
  str% "\tNewMiniBuffer(&buf, []byte{0x00, 0x00, 0x00, 0x00})",
  str% "",
  str% "\tfor n := 0; n < b.N; n++ {",
  str% "",
  str% "\t\tbuf.WriteBytes(0x00, []byte{0x01, 0x02})",
  str% "",
  str% "\t}",
  str% "",
  str% "}"]

/-- v2/minibuf_test.go:1086-1101 -/
def BenchmarkMiniBufferRead : List Str := [
  str% "func BenchmarkMiniBufferRead(b *testing.B) {",
  str% "",
  str% "\tb.ReportAllocs()",
  str% "",
  str% "\tbuf := &MiniBuffer{}",
  str% "\tNewMiniBuffer(&buf, []byte{0x00, 0x00, 0x00, 0x00})",
  str% "",
  str% "\tout := []byte{}",
  str% "",
  str% "\tfor n := 0; n < b.N; n++ {",
  str% "",
  str% "\t\tbuf.ReadBytes(&out, 0x00, 2)",
  str% "",
  str% "\t}",
  str% "",
  str% "}"]

/-- v2/minibuf_test.go:1103-1116 -/
def BenchmarkMiniBufferWriteU32LE : List Str := [
  str% "func BenchmarkMiniBufferWriteU32LE(b *testing.B) {",
  str% "",
  str% "\tb.ReportAllocs()",
  str% "",
  str% "\tbuf := &MiniBuffer{}",
  str% "\tNewMiniBuffer(&buf, []byte{0x00, 0x00, 0x00, 0x00, 0x00, 0x00, 0x00, 0x00})",
  str% "",
  str% "\tfor n := 0; n < b.N; n++ {",
  str% "",
  str% "\t\tbuf.WriteU32LE(0x00, []uint32{0x01, 0x02})",
  str% "",
  str% "\t}",
  str% "",
  str% "}"]

/-- v2/minibuf_test.go:1118-1134 -/
def BenchmarkMiniBufferReadU32LE : List Str := [
  str% "func BenchmarkMiniBufferReadU32LE(b *testing.B) {",
  str% "",
  str% "\tb.ReportAllocs()",
  str% "",
  str% "\tbuf := &MiniBuffer{}",
  str% "\tNewMiniBuffer(&buf, []byte{0x00, 0x00, 0x00, 0x00, 0x00, 0x00, 0x00, 0x00})",
  str% "",
  str% "\tout := []uint32{0x00, 0x00, 0x00, 0x00, 0x00, 0x00, 0x00, 0x00}",
  str% "\tfor n := 0; n < b.N; n++ {",
  str% "",
  str% "\t\tbuf.ReadU32LE(&out, 0x00, 2)",
  str% "",
  str% "\t}",
  str% "",
  str% "\t_ = out",
  str% "",
  str% "}"]

/-- All of them. -/
def text : List (List Str) := [BenchmarkMiniBufferWrite, BenchmarkMiniBufferRead, BenchmarkMiniBufferWriteU32LE, BenchmarkMiniBufferReadU32LE]

end Crunch.Src.V2MiniBench

namespace Crunch.Src.V1BufferBench

open Crunch.Gen (Str)

/-- v1/buffer_test.go:967-979 -/
def BenchmarkBufferWrite : List Str := [
  str% "func BenchmarkBufferWrite(b *testing.B) {",
  str% "",
  str% "\tb.ReportAllocs()",
  str% "",
  str% "\tbuf := NewBuffer([]byte{0x00, 0x00, 0x00, 0x00})",
  str% "",
  str% "\tfor n := 0; n < b.N; n++ {",
  str% "",
  str% "\t\tbuf.WriteBytes(0x00, []byte{0x01, 0x02})",
  str% "",
  str% "\t}",
  str% "",
  str% "}"]

/-- v1/buffer_test.go:981-996 -/
def BenchmarkBufferRead : List Str := [
  str% "func BenchmarkBufferRead(b *testing.B) {",
  str% "",
  str% "\tb.ReportAllocs()",
  str% "",
  str% "\tbuf := NewBuffer([]byte{0x00, 0x00, 0x00, 0x00})",
  str% "",
  str% "\tvar out []byte",
  str% "\tfor n := 0; n < b.N; n++ {",
  str% "",
  str% "\t\tout = buf.ReadBytes(0x00, 2)",
  str% "",
  str% "\t}",
  str% "",
  str% "\t_ = out",
  str% "",
  str% "}"]

/-- All of them. -/
def text : List (List Str) := [BenchmarkBufferWrite, BenchmarkBufferRead]

end Crunch.Src.V1BufferBench

namespace Crunch.Src.V1MiniBench

open Crunch.Gen (Str)

/-- v1/minibuf_test.go:876-889 -/
def BenchmarkMiniBufferWrite : List Str := [
  str% "func BenchmarkMiniBufferWrite(b *testing.B) {",
  str% "",
  str% "\tb.ReportAllocs()",
  str% "",
  str% "\tbuf := &MiniBuffer{}",
  str% "\tNewMiniBuffer(&buf, []byte{0x00, 0x00, 0x00, 0x00})",
  str% "",
  str% "\tfor n := 0; n < b.N; n++ {",
  str% "",
  str% "\t\tbuf.WriteBytes(0x00, []byte{0x01, 0x02})",
  str% "",
  str% "\t}",
  str% "",
  str% "}"]

/-- v1/minibuf_test.go:891-906 -/
def BenchmarkMiniBufferRead : List Str := [
  str% "func BenchmarkMiniBufferRead(b *testing.B) {",
  str% "",
  str% "\tb.ReportAllocs()",
  str% "",
  str% "\tbuf := &MiniBuffer{}",
  str% "\tNewMiniBuffer(&buf, []byte{0x00, 0x00, 0x00, 0x00})",
  str% "",
  str% "\tout := []byte{}",
  str% "",
  str% "\tfor n := 0; n < b.N; n++ {",
  str% "",
  str% "\t\tbuf.ReadBytes(&out, 0x00, 2)",
  str% "",
  str% "\t}",
  str% "",
  str% "}"]

/-- All of them. -/
def text : List (List Str) := [BenchmarkMiniBufferWrite, BenchmarkMiniBufferRead]

end Crunch.Src.V1MiniBench
