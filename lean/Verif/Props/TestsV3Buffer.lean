import Verif.Props.TestsNew
import Verif.Src.Tactic
import Verif.Src.Text.V3BufferTest

/-! # C134: the tests of /repo/v3/buffer_test.go pass, from the texts, one by one -/

namespace Crunch.Src.Tests.V3BufferTest

open Crunch.Gen

/-- The test passes, whatever `append` allocates ahead. -/
private abbrev Ok (l : List Str) : Prop := Passes (str% "Buffer") V3Buffer.P (runBuf V3Buffer.P) l

private theorem TestNewBuffer_passes : Ok V3BufferTest.TestNewBuffer := ⟨newTest, parse_new, newTest_passes builds_v3⟩
private theorem TestBufferBytes_passes : Ok V3BufferTest.TestBufferBytes := of_check (by kexact (fun _ : Nat → Nat → Nat => Eq.refl true))
private theorem TestBufferByteCapacity_passes : Ok V3BufferTest.TestBufferByteCapacity := of_check (by kexact (fun _ : Nat → Nat → Nat => Eq.refl true))
private theorem TestBufferBitCapacity_passes : Ok V3BufferTest.TestBufferBitCapacity := of_check (by kexact (fun _ : Nat → Nat → Nat => Eq.refl true))
private theorem TestBufferByteOffset_passes : Ok V3BufferTest.TestBufferByteOffset := of_check (by kexact (fun _ : Nat → Nat → Nat => Eq.refl true))
private theorem TestBufferBitOffset_passes : Ok V3BufferTest.TestBufferBitOffset := of_check (by kexact (fun _ : Nat → Nat → Nat => Eq.refl true))
private theorem TestBufferRefresh_passes : Ok V3BufferTest.TestBufferRefresh := of_check (by kexact (fun _ : Nat → Nat → Nat => Eq.refl true))
private theorem TestBufferReset_passes : Ok V3BufferTest.TestBufferReset := of_check (by kexact (fun _ : Nat → Nat → Nat => Eq.refl true))
private theorem TestBufferTruncateLeft_passes : Ok V3BufferTest.TestBufferTruncateLeft := of_check (by kexact (fun _ : Nat → Nat → Nat => Eq.refl true))
private theorem TestBufferTruncateRight_passes : Ok V3BufferTest.TestBufferTruncateRight := of_check (by kexact (fun _ : Nat → Nat → Nat => Eq.refl true))
private theorem TestBufferGrow_passes : Ok V3BufferTest.TestBufferGrow := of_check (by kexact (fun _ : Nat → Nat → Nat => Eq.refl true))
private theorem TestBufferGrow2_passes : Ok V3BufferTest.TestBufferGrow2 := of_check (by kexact (fun _ : Nat → Nat → Nat => Eq.refl true))
private theorem TestBufferSeekByte_passes : Ok V3BufferTest.TestBufferSeekByte := of_check (by kexact (fun _ : Nat → Nat → Nat => Eq.refl true))
private theorem TestBufferSeekBit_passes : Ok V3BufferTest.TestBufferSeekBit := of_check (by kexact (fun _ : Nat → Nat → Nat => Eq.refl true))
private theorem TestBufferAlignBit_passes : Ok V3BufferTest.TestBufferAlignBit := of_check (by kexact (fun _ : Nat → Nat → Nat => Eq.refl true))
private theorem TestBufferAlignByte_passes : Ok V3BufferTest.TestBufferAlignByte := of_check (by kexact (fun _ : Nat → Nat → Nat => Eq.refl true))
private theorem TestBufferAfterByte_passes : Ok V3BufferTest.TestBufferAfterByte := of_check (by kexact (fun _ : Nat → Nat → Nat => Eq.refl true))
private theorem TestBufferAfterBit_passes : Ok V3BufferTest.TestBufferAfterBit := of_check (by kexact (fun _ : Nat → Nat → Nat => Eq.refl true))
private theorem TestBufferReadByte_passes : Ok V3BufferTest.TestBufferReadByte := of_check (by kexact (fun _ : Nat → Nat → Nat => Eq.refl true))
private theorem TestBufferReadByteNext_passes : Ok V3BufferTest.TestBufferReadByteNext := of_check (by kexact (fun _ : Nat → Nat → Nat => Eq.refl true))
private theorem TestBufferReadBytes_passes : Ok V3BufferTest.TestBufferReadBytes := of_check (by kexact (fun _ : Nat → Nat → Nat => Eq.refl true))
private theorem TestBufferReadBytesNext_passes : Ok V3BufferTest.TestBufferReadBytesNext := of_check (by kexact (fun _ : Nat → Nat → Nat => Eq.refl true))
private theorem TestBufferReadSNEN_passes : Ok V3BufferTest.TestBufferReadSNEN := of_check (by kexact (fun _ : Nat → Nat → Nat => Eq.refl true))
private theorem TestBufferWriteByte_passes : Ok V3BufferTest.TestBufferWriteByte := of_check (by kexact (fun _ : Nat → Nat → Nat => Eq.refl true))
private theorem TestBufferWriteByteNext_passes : Ok V3BufferTest.TestBufferWriteByteNext := of_check (by kexact (fun _ : Nat → Nat → Nat => Eq.refl true))
private theorem TestBufferWriteBytes_passes : Ok V3BufferTest.TestBufferWriteBytes := of_check (by kexact (fun _ : Nat → Nat → Nat => Eq.refl true))
private theorem TestBufferWriteBytesNext_passes : Ok V3BufferTest.TestBufferWriteBytesNext := of_check (by kexact (fun _ : Nat → Nat → Nat => Eq.refl true))
private theorem TestBufferWriteSNEN_passes : Ok V3BufferTest.TestBufferWriteSNEN := of_check (by kexact (fun _ : Nat → Nat → Nat => Eq.refl true))
private theorem TestBufferReadBit_passes : Ok V3BufferTest.TestBufferReadBit := of_check (by kexact (fun _ : Nat → Nat → Nat => Eq.refl true))
private theorem TestBufferReadBitNext_passes : Ok V3BufferTest.TestBufferReadBitNext := of_check (by kexact (fun _ : Nat → Nat → Nat => Eq.refl true))
private theorem TestBufferReadBits_passes : Ok V3BufferTest.TestBufferReadBits := of_check (by kexact (fun _ : Nat → Nat → Nat => Eq.refl true))
private theorem TestBufferReadBitsNext_passes : Ok V3BufferTest.TestBufferReadBitsNext := of_check (by kexact (fun _ : Nat → Nat → Nat => Eq.refl true))
private theorem TestBufferSetBit_passes : Ok V3BufferTest.TestBufferSetBit := of_check (by kexact (fun _ : Nat → Nat → Nat => Eq.refl true))
private theorem TestBufferSetBitNext_passes : Ok V3BufferTest.TestBufferSetBitNext := of_check (by kexact (fun _ : Nat → Nat → Nat => Eq.refl true))
private theorem TestBufferClearBit_passes : Ok V3BufferTest.TestBufferClearBit := of_check (by kexact (fun _ : Nat → Nat → Nat => Eq.refl true))
private theorem TestBufferClearBitNext_passes : Ok V3BufferTest.TestBufferClearBitNext := of_check (by kexact (fun _ : Nat → Nat → Nat => Eq.refl true))
private theorem TestBufferSetBits_passes : Ok V3BufferTest.TestBufferSetBits := of_check (by kexact (fun _ : Nat → Nat → Nat => Eq.refl true))
private theorem TestBufferSetBitsNext_passes : Ok V3BufferTest.TestBufferSetBitsNext := of_check (by kexact (fun _ : Nat → Nat → Nat => Eq.refl true))
private theorem TestBufferFlipBit_passes : Ok V3BufferTest.TestBufferFlipBit := of_check (by kexact (fun _ : Nat → Nat → Nat => Eq.refl true))
private theorem TestBufferFlipBitNext_passes : Ok V3BufferTest.TestBufferFlipBitNext := of_check (by kexact (fun _ : Nat → Nat → Nat => Eq.refl true))
private theorem TestBufferClearAllBits_passes : Ok V3BufferTest.TestBufferClearAllBits := of_check (by kexact (fun _ : Nat → Nat → Nat => Eq.refl true))
private theorem TestBufferSetAllBits_passes : Ok V3BufferTest.TestBufferSetAllBits := of_check (by kexact (fun _ : Nat → Nat → Nat => Eq.refl true))
private theorem TestBufferFlipAllBits_passes : Ok V3BufferTest.TestBufferFlipAllBits := of_check (by kexact (fun _ : Nat → Nat → Nat => Eq.refl true))
private theorem TestBufferReadbitPanic1_passes : Ok V3BufferTest.TestBufferReadbitPanic1 := of_check (by kexact (fun _ : Nat → Nat → Nat => Eq.refl true))
private theorem TestBufferReadbitPanic2_passes : Ok V3BufferTest.TestBufferReadbitPanic2 := of_check (by kexact (fun _ : Nat → Nat → Nat => Eq.refl true))
private theorem TestBufferSetbitPanic1_passes : Ok V3BufferTest.TestBufferSetbitPanic1 := of_check (by kexact (fun _ : Nat → Nat → Nat => Eq.refl true))
private theorem TestBufferSetbitPanic2_passes : Ok V3BufferTest.TestBufferSetbitPanic2 := of_check (by kexact (fun _ : Nat → Nat → Nat => Eq.refl true))
private theorem TestBufferClearbitPanic1_passes : Ok V3BufferTest.TestBufferClearbitPanic1 := of_check (by kexact (fun _ : Nat → Nat → Nat => Eq.refl true))
private theorem TestBufferClearbitPanic2_passes : Ok V3BufferTest.TestBufferClearbitPanic2 := of_check (by kexact (fun _ : Nat → Nat → Nat => Eq.refl true))
private theorem TestBufferFlipbitPanic1_passes : Ok V3BufferTest.TestBufferFlipbitPanic1 := of_check (by kexact (fun _ : Nat → Nat → Nat => Eq.refl true))
private theorem TestBufferFlipbitPanic2_passes : Ok V3BufferTest.TestBufferFlipbitPanic2 := of_check (by kexact (fun _ : Nat → Nat → Nat => Eq.refl true))
private theorem TestBufferWriteBytesPanic1_passes : Ok V3BufferTest.TestBufferWriteBytesPanic1 := of_check (by kexact (fun _ : Nat → Nat → Nat => Eq.refl true))
private theorem TestBufferWriteBytesPanic2_passes : Ok V3BufferTest.TestBufferWriteBytesPanic2 := of_check (by kexact (fun _ : Nat → Nat → Nat => Eq.refl true))
private theorem TestBufferReadBytesPanic1_passes : Ok V3BufferTest.TestBufferReadBytesPanic1 := of_check (by kexact (fun _ : Nat → Nat → Nat => Eq.refl true))
private theorem TestBufferReadBytesPanic2_passes : Ok V3BufferTest.TestBufferReadBytesPanic2 := of_check (by kexact (fun _ : Nat → Nat → Nat => Eq.refl true))
private theorem TestBufferWriteU16LEPanic1_passes : Ok V3BufferTest.TestBufferWriteU16LEPanic1 := of_check (by kexact (fun _ : Nat → Nat → Nat => Eq.refl true))
private theorem TestBufferWriteU16LEPanic2_passes : Ok V3BufferTest.TestBufferWriteU16LEPanic2 := of_check (by kexact (fun _ : Nat → Nat → Nat => Eq.refl true))
private theorem TestBufferWriteU16BEPanic1_passes : Ok V3BufferTest.TestBufferWriteU16BEPanic1 := of_check (by kexact (fun _ : Nat → Nat → Nat => Eq.refl true))
private theorem TestBufferWriteU16BEPanic2_passes : Ok V3BufferTest.TestBufferWriteU16BEPanic2 := of_check (by kexact (fun _ : Nat → Nat → Nat => Eq.refl true))
private theorem TestBufferWriteU32LEPanic1_passes : Ok V3BufferTest.TestBufferWriteU32LEPanic1 := of_check (by kexact (fun _ : Nat → Nat → Nat => Eq.refl true))
private theorem TestBufferWriteU32LEPanic2_passes : Ok V3BufferTest.TestBufferWriteU32LEPanic2 := of_check (by kexact (fun _ : Nat → Nat → Nat => Eq.refl true))
private theorem TestBufferWriteU32BEPanic1_passes : Ok V3BufferTest.TestBufferWriteU32BEPanic1 := of_check (by kexact (fun _ : Nat → Nat → Nat => Eq.refl true))
private theorem TestBufferWriteU32BEPanic2_passes : Ok V3BufferTest.TestBufferWriteU32BEPanic2 := of_check (by kexact (fun _ : Nat → Nat → Nat => Eq.refl true))
private theorem TestBufferWriteU64LEPanic1_passes : Ok V3BufferTest.TestBufferWriteU64LEPanic1 := of_check (by kexact (fun _ : Nat → Nat → Nat => Eq.refl true))
private theorem TestBufferWriteU64LEPanic2_passes : Ok V3BufferTest.TestBufferWriteU64LEPanic2 := of_check (by kexact (fun _ : Nat → Nat → Nat => Eq.refl true))
private theorem TestBufferWriteU64BEPanic1_passes : Ok V3BufferTest.TestBufferWriteU64BEPanic1 := of_check (by kexact (fun _ : Nat → Nat → Nat => Eq.refl true))
private theorem TestBufferWriteU64BEPanic2_passes : Ok V3BufferTest.TestBufferWriteU64BEPanic2 := of_check (by kexact (fun _ : Nat → Nat → Nat => Eq.refl true))
private theorem TestBufferWriteI16LEPanic1_passes : Ok V3BufferTest.TestBufferWriteI16LEPanic1 := of_check (by kexact (fun _ : Nat → Nat → Nat => Eq.refl true))
private theorem TestBufferWriteI16LEPanic2_passes : Ok V3BufferTest.TestBufferWriteI16LEPanic2 := of_check (by kexact (fun _ : Nat → Nat → Nat => Eq.refl true))
private theorem TestBufferWriteI16BEPanic1_passes : Ok V3BufferTest.TestBufferWriteI16BEPanic1 := of_check (by kexact (fun _ : Nat → Nat → Nat => Eq.refl true))
private theorem TestBufferWriteI16BEPanic2_passes : Ok V3BufferTest.TestBufferWriteI16BEPanic2 := of_check (by kexact (fun _ : Nat → Nat → Nat => Eq.refl true))
private theorem TestBufferWriteI32LEPanic1_passes : Ok V3BufferTest.TestBufferWriteI32LEPanic1 := of_check (by kexact (fun _ : Nat → Nat → Nat => Eq.refl true))
private theorem TestBufferWriteI32LEPanic2_passes : Ok V3BufferTest.TestBufferWriteI32LEPanic2 := of_check (by kexact (fun _ : Nat → Nat → Nat => Eq.refl true))
private theorem TestBufferWriteI32BEPanic1_passes : Ok V3BufferTest.TestBufferWriteI32BEPanic1 := of_check (by kexact (fun _ : Nat → Nat → Nat => Eq.refl true))
private theorem TestBufferWriteI32BEPanic2_passes : Ok V3BufferTest.TestBufferWriteI32BEPanic2 := of_check (by kexact (fun _ : Nat → Nat → Nat => Eq.refl true))
private theorem TestBufferWriteI64LEPanic1_passes : Ok V3BufferTest.TestBufferWriteI64LEPanic1 := of_check (by kexact (fun _ : Nat → Nat → Nat => Eq.refl true))
private theorem TestBufferWriteI64LEPanic2_passes : Ok V3BufferTest.TestBufferWriteI64LEPanic2 := of_check (by kexact (fun _ : Nat → Nat → Nat => Eq.refl true))
private theorem TestBufferWriteI64BEPanic1_passes : Ok V3BufferTest.TestBufferWriteI64BEPanic1 := of_check (by kexact (fun _ : Nat → Nat → Nat => Eq.refl true))
private theorem TestBufferWriteI64BEPanic2_passes : Ok V3BufferTest.TestBufferWriteI64BEPanic2 := of_check (by kexact (fun _ : Nat → Nat → Nat => Eq.refl true))
private theorem TestBufferWriteF32LEPanic1_passes : Ok V3BufferTest.TestBufferWriteF32LEPanic1 := of_check (by kexact (fun _ : Nat → Nat → Nat => Eq.refl true))
private theorem TestBufferWriteF32LEPanic2_passes : Ok V3BufferTest.TestBufferWriteF32LEPanic2 := of_check (by kexact (fun _ : Nat → Nat → Nat => Eq.refl true))
private theorem TestBufferWriteF32BEPanic1_passes : Ok V3BufferTest.TestBufferWriteF32BEPanic1 := of_check (by kexact (fun _ : Nat → Nat → Nat => Eq.refl true))
private theorem TestBufferWriteF32BEPanic2_passes : Ok V3BufferTest.TestBufferWriteF32BEPanic2 := of_check (by kexact (fun _ : Nat → Nat → Nat => Eq.refl true))
private theorem TestBufferWriteF64LEPanic1_passes : Ok V3BufferTest.TestBufferWriteF64LEPanic1 := of_check (by kexact (fun _ : Nat → Nat → Nat => Eq.refl true))
private theorem TestBufferWriteF64LEPanic2_passes : Ok V3BufferTest.TestBufferWriteF64LEPanic2 := of_check (by kexact (fun _ : Nat → Nat → Nat => Eq.refl true))
private theorem TestBufferWriteF64BEPanic1_passes : Ok V3BufferTest.TestBufferWriteF64BEPanic1 := of_check (by kexact (fun _ : Nat → Nat → Nat => Eq.refl true))
private theorem TestBufferWriteF64BEPanic2_passes : Ok V3BufferTest.TestBufferWriteF64BEPanic2 := of_check (by kexact (fun _ : Nat → Nat → Nat => Eq.refl true))
private theorem TestBufferReadU16LEPanic1_passes : Ok V3BufferTest.TestBufferReadU16LEPanic1 := of_check (by kexact (fun _ : Nat → Nat → Nat => Eq.refl true))
private theorem TestBufferReadU16LEPanic2_passes : Ok V3BufferTest.TestBufferReadU16LEPanic2 := of_check (by kexact (fun _ : Nat → Nat → Nat => Eq.refl true))
private theorem TestBufferReadU16BEPanic1_passes : Ok V3BufferTest.TestBufferReadU16BEPanic1 := of_check (by kexact (fun _ : Nat → Nat → Nat => Eq.refl true))
private theorem TestBufferReadU16BEPanic2_passes : Ok V3BufferTest.TestBufferReadU16BEPanic2 := of_check (by kexact (fun _ : Nat → Nat → Nat => Eq.refl true))
private theorem TestBufferReadU32LEPanic1_passes : Ok V3BufferTest.TestBufferReadU32LEPanic1 := of_check (by kexact (fun _ : Nat → Nat → Nat => Eq.refl true))
private theorem TestBufferReadU32LEPanic2_passes : Ok V3BufferTest.TestBufferReadU32LEPanic2 := of_check (by kexact (fun _ : Nat → Nat → Nat => Eq.refl true))
private theorem TestBufferReadU32BEPanic1_passes : Ok V3BufferTest.TestBufferReadU32BEPanic1 := of_check (by kexact (fun _ : Nat → Nat → Nat => Eq.refl true))
private theorem TestBufferReadU32BEPanic2_passes : Ok V3BufferTest.TestBufferReadU32BEPanic2 := of_check (by kexact (fun _ : Nat → Nat → Nat => Eq.refl true))
private theorem TestBufferReadU64LEPanic1_passes : Ok V3BufferTest.TestBufferReadU64LEPanic1 := of_check (by kexact (fun _ : Nat → Nat → Nat => Eq.refl true))
private theorem TestBufferReadU64LEPanic2_passes : Ok V3BufferTest.TestBufferReadU64LEPanic2 := of_check (by kexact (fun _ : Nat → Nat → Nat => Eq.refl true))
private theorem TestBufferReadU64BEPanic1_passes : Ok V3BufferTest.TestBufferReadU64BEPanic1 := of_check (by kexact (fun _ : Nat → Nat → Nat => Eq.refl true))
private theorem TestBufferReadU64BEPanic2_passes : Ok V3BufferTest.TestBufferReadU64BEPanic2 := of_check (by kexact (fun _ : Nat → Nat → Nat => Eq.refl true))
private theorem TestBufferReadI16LEPanic1_passes : Ok V3BufferTest.TestBufferReadI16LEPanic1 := of_check (by kexact (fun _ : Nat → Nat → Nat => Eq.refl true))
private theorem TestBufferReadI16LEPanic2_passes : Ok V3BufferTest.TestBufferReadI16LEPanic2 := of_check (by kexact (fun _ : Nat → Nat → Nat => Eq.refl true))
private theorem TestBufferReadI16BEPanic1_passes : Ok V3BufferTest.TestBufferReadI16BEPanic1 := of_check (by kexact (fun _ : Nat → Nat → Nat => Eq.refl true))
private theorem TestBufferReadI16BEPanic2_passes : Ok V3BufferTest.TestBufferReadI16BEPanic2 := of_check (by kexact (fun _ : Nat → Nat → Nat => Eq.refl true))
private theorem TestBufferReadI32LEPanic1_passes : Ok V3BufferTest.TestBufferReadI32LEPanic1 := of_check (by kexact (fun _ : Nat → Nat → Nat => Eq.refl true))
private theorem TestBufferReadI32LEPanic2_passes : Ok V3BufferTest.TestBufferReadI32LEPanic2 := of_check (by kexact (fun _ : Nat → Nat → Nat => Eq.refl true))
private theorem TestBufferReadI32BEPanic1_passes : Ok V3BufferTest.TestBufferReadI32BEPanic1 := of_check (by kexact (fun _ : Nat → Nat → Nat => Eq.refl true))
private theorem TestBufferReadI32BEPanic2_passes : Ok V3BufferTest.TestBufferReadI32BEPanic2 := of_check (by kexact (fun _ : Nat → Nat → Nat => Eq.refl true))
private theorem TestBufferReadI64LEPanic1_passes : Ok V3BufferTest.TestBufferReadI64LEPanic1 := of_check (by kexact (fun _ : Nat → Nat → Nat => Eq.refl true))
private theorem TestBufferReadI64LEPanic2_passes : Ok V3BufferTest.TestBufferReadI64LEPanic2 := of_check (by kexact (fun _ : Nat → Nat → Nat => Eq.refl true))
private theorem TestBufferReadI64BEPanic1_passes : Ok V3BufferTest.TestBufferReadI64BEPanic1 := of_check (by kexact (fun _ : Nat → Nat → Nat => Eq.refl true))
private theorem TestBufferReadI64BEPanic2_passes : Ok V3BufferTest.TestBufferReadI64BEPanic2 := of_check (by kexact (fun _ : Nat → Nat → Nat => Eq.refl true))
private theorem TestBufferReadF32LEPanic1_passes : Ok V3BufferTest.TestBufferReadF32LEPanic1 := of_check (by kexact (fun _ : Nat → Nat → Nat => Eq.refl true))
private theorem TestBufferReadF32LEPanic2_passes : Ok V3BufferTest.TestBufferReadF32LEPanic2 := of_check (by kexact (fun _ : Nat → Nat → Nat => Eq.refl true))
private theorem TestBufferReadF32BEPanic1_passes : Ok V3BufferTest.TestBufferReadF32BEPanic1 := of_check (by kexact (fun _ : Nat → Nat → Nat => Eq.refl true))
private theorem TestBufferReadF32BEPanic2_passes : Ok V3BufferTest.TestBufferReadF32BEPanic2 := of_check (by kexact (fun _ : Nat → Nat → Nat => Eq.refl true))
private theorem TestBufferReadF64LEPanic1_passes : Ok V3BufferTest.TestBufferReadF64LEPanic1 := of_check (by kexact (fun _ : Nat → Nat → Nat => Eq.refl true))
private theorem TestBufferReadF64LEPanic2_passes : Ok V3BufferTest.TestBufferReadF64LEPanic2 := of_check (by kexact (fun _ : Nat → Nat → Nat => Eq.refl true))
private theorem TestBufferReadF64BEPanic1_passes : Ok V3BufferTest.TestBufferReadF64BEPanic1 := of_check (by kexact (fun _ : Nat → Nat → Nat => Eq.refl true))
private theorem TestBufferReadF64BEPanic2_passes : Ok V3BufferTest.TestBufferReadF64BEPanic2 := of_check (by kexact (fun _ : Nat → Nat → Nat => Eq.refl true))
private theorem TestBufferGrowPanic_passes : Ok V3BufferTest.TestBufferGrowPanic := of_check (by kexact (fun _ : Nat → Nat → Nat => Eq.refl true))
private theorem TestBufferTruncateLeftPanic_passes : Ok V3BufferTest.TestBufferTruncateLeftPanic := of_check (by kexact (fun _ : Nat → Nat → Nat => Eq.refl true))
private theorem TestBufferTruncateRightPanic_passes : Ok V3BufferTest.TestBufferTruncateRightPanic := of_check (by kexact (fun _ : Nat → Nat → Nat => Eq.refl true))

private theorem all : ∀ l ∈ V3BufferTest.text, Ok l :=
  all_cons TestNewBuffer_passes <|
  all_cons TestBufferBytes_passes <|
  all_cons TestBufferByteCapacity_passes <|
  all_cons TestBufferBitCapacity_passes <|
  all_cons TestBufferByteOffset_passes <|
  all_cons TestBufferBitOffset_passes <|
  all_cons TestBufferRefresh_passes <|
  all_cons TestBufferReset_passes <|
  all_cons TestBufferTruncateLeft_passes <|
  all_cons TestBufferTruncateRight_passes <|
  all_cons TestBufferGrow_passes <|
  all_cons TestBufferGrow2_passes <|
  all_cons TestBufferSeekByte_passes <|
  all_cons TestBufferSeekBit_passes <|
  all_cons TestBufferAlignBit_passes <|
  all_cons TestBufferAlignByte_passes <|
  all_cons TestBufferAfterByte_passes <|
  all_cons TestBufferAfterBit_passes <|
  all_cons TestBufferReadByte_passes <|
  all_cons TestBufferReadByteNext_passes <|
  all_cons TestBufferReadBytes_passes <|
  all_cons TestBufferReadBytesNext_passes <|
  all_cons TestBufferReadSNEN_passes <|
  all_cons TestBufferWriteByte_passes <|
  all_cons TestBufferWriteByteNext_passes <|
  all_cons TestBufferWriteBytes_passes <|
  all_cons TestBufferWriteBytesNext_passes <|
  all_cons TestBufferWriteSNEN_passes <|
  all_cons TestBufferReadBit_passes <|
  all_cons TestBufferReadBitNext_passes <|
  all_cons TestBufferReadBits_passes <|
  all_cons TestBufferReadBitsNext_passes <|
  all_cons TestBufferSetBit_passes <|
  all_cons TestBufferSetBitNext_passes <|
  all_cons TestBufferClearBit_passes <|
  all_cons TestBufferClearBitNext_passes <|
  all_cons TestBufferSetBits_passes <|
  all_cons TestBufferSetBitsNext_passes <|
  all_cons TestBufferFlipBit_passes <|
  all_cons TestBufferFlipBitNext_passes <|
  all_cons TestBufferClearAllBits_passes <|
  all_cons TestBufferSetAllBits_passes <|
  all_cons TestBufferFlipAllBits_passes <|
  all_cons TestBufferReadbitPanic1_passes <|
  all_cons TestBufferReadbitPanic2_passes <|
  all_cons TestBufferSetbitPanic1_passes <|
  all_cons TestBufferSetbitPanic2_passes <|
  all_cons TestBufferClearbitPanic1_passes <|
  all_cons TestBufferClearbitPanic2_passes <|
  all_cons TestBufferFlipbitPanic1_passes <|
  all_cons TestBufferFlipbitPanic2_passes <|
  all_cons TestBufferWriteBytesPanic1_passes <|
  all_cons TestBufferWriteBytesPanic2_passes <|
  all_cons TestBufferReadBytesPanic1_passes <|
  all_cons TestBufferReadBytesPanic2_passes <|
  all_cons TestBufferWriteU16LEPanic1_passes <|
  all_cons TestBufferWriteU16LEPanic2_passes <|
  all_cons TestBufferWriteU16BEPanic1_passes <|
  all_cons TestBufferWriteU16BEPanic2_passes <|
  all_cons TestBufferWriteU32LEPanic1_passes <|
  all_cons TestBufferWriteU32LEPanic2_passes <|
  all_cons TestBufferWriteU32BEPanic1_passes <|
  all_cons TestBufferWriteU32BEPanic2_passes <|
  all_cons TestBufferWriteU64LEPanic1_passes <|
  all_cons TestBufferWriteU64LEPanic2_passes <|
  all_cons TestBufferWriteU64BEPanic1_passes <|
  all_cons TestBufferWriteU64BEPanic2_passes <|
  all_cons TestBufferWriteI16LEPanic1_passes <|
  all_cons TestBufferWriteI16LEPanic2_passes <|
  all_cons TestBufferWriteI16BEPanic1_passes <|
  all_cons TestBufferWriteI16BEPanic2_passes <|
  all_cons TestBufferWriteI32LEPanic1_passes <|
  all_cons TestBufferWriteI32LEPanic2_passes <|
  all_cons TestBufferWriteI32BEPanic1_passes <|
  all_cons TestBufferWriteI32BEPanic2_passes <|
  all_cons TestBufferWriteI64LEPanic1_passes <|
  all_cons TestBufferWriteI64LEPanic2_passes <|
  all_cons TestBufferWriteI64BEPanic1_passes <|
  all_cons TestBufferWriteI64BEPanic2_passes <|
  all_cons TestBufferWriteF32LEPanic1_passes <|
  all_cons TestBufferWriteF32LEPanic2_passes <|
  all_cons TestBufferWriteF32BEPanic1_passes <|
  all_cons TestBufferWriteF32BEPanic2_passes <|
  all_cons TestBufferWriteF64LEPanic1_passes <|
  all_cons TestBufferWriteF64LEPanic2_passes <|
  all_cons TestBufferWriteF64BEPanic1_passes <|
  all_cons TestBufferWriteF64BEPanic2_passes <|
  all_cons TestBufferReadU16LEPanic1_passes <|
  all_cons TestBufferReadU16LEPanic2_passes <|
  all_cons TestBufferReadU16BEPanic1_passes <|
  all_cons TestBufferReadU16BEPanic2_passes <|
  all_cons TestBufferReadU32LEPanic1_passes <|
  all_cons TestBufferReadU32LEPanic2_passes <|
  all_cons TestBufferReadU32BEPanic1_passes <|
  all_cons TestBufferReadU32BEPanic2_passes <|
  all_cons TestBufferReadU64LEPanic1_passes <|
  all_cons TestBufferReadU64LEPanic2_passes <|
  all_cons TestBufferReadU64BEPanic1_passes <|
  all_cons TestBufferReadU64BEPanic2_passes <|
  all_cons TestBufferReadI16LEPanic1_passes <|
  all_cons TestBufferReadI16LEPanic2_passes <|
  all_cons TestBufferReadI16BEPanic1_passes <|
  all_cons TestBufferReadI16BEPanic2_passes <|
  all_cons TestBufferReadI32LEPanic1_passes <|
  all_cons TestBufferReadI32LEPanic2_passes <|
  all_cons TestBufferReadI32BEPanic1_passes <|
  all_cons TestBufferReadI32BEPanic2_passes <|
  all_cons TestBufferReadI64LEPanic1_passes <|
  all_cons TestBufferReadI64LEPanic2_passes <|
  all_cons TestBufferReadI64BEPanic1_passes <|
  all_cons TestBufferReadI64BEPanic2_passes <|
  all_cons TestBufferReadF32LEPanic1_passes <|
  all_cons TestBufferReadF32LEPanic2_passes <|
  all_cons TestBufferReadF32BEPanic1_passes <|
  all_cons TestBufferReadF32BEPanic2_passes <|
  all_cons TestBufferReadF64LEPanic1_passes <|
  all_cons TestBufferReadF64LEPanic2_passes <|
  all_cons TestBufferReadF64BEPanic1_passes <|
  all_cons TestBufferReadF64BEPanic2_passes <|
  all_cons TestBufferGrowPanic_passes <|
  all_cons TestBufferTruncateLeftPanic_passes <|
  all_cons TestBufferTruncateRightPanic_passes <|
  all_nil

/-- C134 (/repo/v3/buffer_test.go): every test of the file passes, when the methods are run from their texts. -/
theorem C134_v3_buffer :
    ∃ funs, compileAll V3Buffer.text = some funs ∧
    ∀ l ∈ V3BufferTest.text, Passes (str% "Buffer") ⟨funs, V3Buffer.errs⟩ (runBuf ⟨funs, V3Buffer.errs⟩) l :=
  ⟨_, V3Buffer.link, all⟩

/-- There are 122 of them. -/
example : V3BufferTest.text.length = 122 := by rfl

end Crunch.Src.Tests.V3BufferTest
