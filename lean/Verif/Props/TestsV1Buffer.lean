import Verif.Props.TestsNew
import Verif.Src.Tactic
import Verif.Src.Text.V1BufferTest

/-! # C134: the tests of /repo/v1/buffer_test.go pass, from the texts, one by one -/

namespace Crunch.Src.Tests.V1BufferTest

open Crunch.Gen

/-- The test passes, whatever `append` allocates ahead. -/
private abbrev Ok (l : List Str) : Prop := Passes (str% "Buffer") V1Buffer.P (runProg V1Buffer.P) l

private theorem TestNewBuffer_passes : Ok V1BufferTest.TestNewBuffer := ⟨newTest, parse_new, newTest_passes builds_v1⟩
private theorem TestBufferBytes_passes : Ok V1BufferTest.TestBufferBytes := of_check (by kexact (fun _ : Nat → Nat → Nat => Eq.refl true))
private theorem TestBufferCapacity_passes : Ok V1BufferTest.TestBufferCapacity := of_check (by kexact (fun _ : Nat → Nat → Nat => Eq.refl true))
private theorem TestBufferBitCapacity_passes : Ok V1BufferTest.TestBufferBitCapacity := of_check (by kexact (fun _ : Nat → Nat → Nat => Eq.refl true))
private theorem TestBufferOffset_passes : Ok V1BufferTest.TestBufferOffset := of_check (by kexact (fun _ : Nat → Nat → Nat => Eq.refl true))
private theorem TestBufferBitOffset_passes : Ok V1BufferTest.TestBufferBitOffset := of_check (by kexact (fun _ : Nat → Nat → Nat => Eq.refl true))
private theorem TestBufferRefresh_passes : Ok V1BufferTest.TestBufferRefresh := of_check (by kexact (fun _ : Nat → Nat → Nat => Eq.refl true))
private theorem TestBufferGrow_passes : Ok V1BufferTest.TestBufferGrow := of_check (by kexact (fun _ : Nat → Nat → Nat => Eq.refl true))
private theorem TestBufferSeek_passes : Ok V1BufferTest.TestBufferSeek := of_check (by kexact (fun _ : Nat → Nat → Nat => Eq.refl true))
private theorem TestBufferSeekBit_passes : Ok V1BufferTest.TestBufferSeekBit := of_check (by kexact (fun _ : Nat → Nat → Nat => Eq.refl true))
private theorem TestBufferAlignBit_passes : Ok V1BufferTest.TestBufferAlignBit := of_check (by kexact (fun _ : Nat → Nat → Nat => Eq.refl true))
private theorem TestBufferAlignByte_passes : Ok V1BufferTest.TestBufferAlignByte := of_check (by kexact (fun _ : Nat → Nat → Nat => Eq.refl true))
private theorem TestBufferAfter_passes : Ok V1BufferTest.TestBufferAfter := of_check (by kexact (fun _ : Nat → Nat → Nat => Eq.refl true))
private theorem TestBufferAfterBit_passes : Ok V1BufferTest.TestBufferAfterBit := of_check (by kexact (fun _ : Nat → Nat → Nat => Eq.refl true))
private theorem TestBufferReadByte_passes : Ok V1BufferTest.TestBufferReadByte := of_check (by kexact (fun _ : Nat → Nat → Nat => Eq.refl true))
private theorem TestBufferReadByteNext_passes : Ok V1BufferTest.TestBufferReadByteNext := of_check (by kexact (fun _ : Nat → Nat → Nat => Eq.refl true))
private theorem TestBufferReadBytes_passes : Ok V1BufferTest.TestBufferReadBytes := of_check (by kexact (fun _ : Nat → Nat → Nat => Eq.refl true))
private theorem TestBufferReadBytesNext_passes : Ok V1BufferTest.TestBufferReadBytesNext := of_check (by kexact (fun _ : Nat → Nat → Nat => Eq.refl true))
private theorem TestBufferReadComplex_passes : Ok V1BufferTest.TestBufferReadComplex := of_check (by kexact (fun _ : Nat → Nat → Nat => Eq.refl true))
private theorem TestBufferReadComplexNext_passes : Ok V1BufferTest.TestBufferReadComplexNext := of_check (by kexact (fun _ : Nat → Nat → Nat => Eq.refl true))
private theorem TestBufferWriteByte_passes : Ok V1BufferTest.TestBufferWriteByte := of_check (by kexact (fun _ : Nat → Nat → Nat => Eq.refl true))
private theorem TestBufferWriteByteNext_passes : Ok V1BufferTest.TestBufferWriteByteNext := of_check (by kexact (fun _ : Nat → Nat → Nat => Eq.refl true))
private theorem TestBufferWriteBytes_passes : Ok V1BufferTest.TestBufferWriteBytes := of_check (by kexact (fun _ : Nat → Nat → Nat => Eq.refl true))
private theorem TestBufferWriteBytesNext_passes : Ok V1BufferTest.TestBufferWriteBytesNext := of_check (by kexact (fun _ : Nat → Nat → Nat => Eq.refl true))
private theorem TestBufferWriteComplex_passes : Ok V1BufferTest.TestBufferWriteComplex := of_check (by kexact (fun _ : Nat → Nat → Nat => Eq.refl true))
private theorem TestBufferWriteComplexNext_passes : Ok V1BufferTest.TestBufferWriteComplexNext := of_check (by kexact (fun _ : Nat → Nat → Nat => Eq.refl true))
private theorem TestBufferReadBit_passes : Ok V1BufferTest.TestBufferReadBit := of_check (by kexact (fun _ : Nat → Nat → Nat => Eq.refl true))
private theorem TestBufferReadBitNext_passes : Ok V1BufferTest.TestBufferReadBitNext := of_check (by kexact (fun _ : Nat → Nat → Nat => Eq.refl true))
private theorem TestBufferReadBits_passes : Ok V1BufferTest.TestBufferReadBits := of_check (by kexact (fun _ : Nat → Nat → Nat => Eq.refl true))
private theorem TestBufferReadBitsNext_passes : Ok V1BufferTest.TestBufferReadBitsNext := of_check (by kexact (fun _ : Nat → Nat → Nat => Eq.refl true))
private theorem TestBufferSetBit_passes : Ok V1BufferTest.TestBufferSetBit := of_check (by kexact (fun _ : Nat → Nat → Nat => Eq.refl true))
private theorem TestBufferSetBitNext_passes : Ok V1BufferTest.TestBufferSetBitNext := of_check (by kexact (fun _ : Nat → Nat → Nat => Eq.refl true))
private theorem TestBufferSetBits_passes : Ok V1BufferTest.TestBufferSetBits := of_check (by kexact (fun _ : Nat → Nat → Nat => Eq.refl true))
private theorem TestBufferSetBitsNext_passes : Ok V1BufferTest.TestBufferSetBitsNext := of_check (by kexact (fun _ : Nat → Nat → Nat => Eq.refl true))
private theorem TestBufferFlipBit_passes : Ok V1BufferTest.TestBufferFlipBit := of_check (by kexact (fun _ : Nat → Nat → Nat => Eq.refl true))
private theorem TestBufferFlipBitNext_passes : Ok V1BufferTest.TestBufferFlipBitNext := of_check (by kexact (fun _ : Nat → Nat → Nat => Eq.refl true))
private theorem TestBufferClearAllBits_passes : Ok V1BufferTest.TestBufferClearAllBits := of_check (by kexact (fun _ : Nat → Nat → Nat => Eq.refl true))
private theorem TestBufferSetAllBits_passes : Ok V1BufferTest.TestBufferSetAllBits := of_check (by kexact (fun _ : Nat → Nat → Nat => Eq.refl true))
private theorem TestBufferFlipAllBits_passes : Ok V1BufferTest.TestBufferFlipAllBits := of_check (by kexact (fun _ : Nat → Nat → Nat => Eq.refl true))
private theorem TestBufferReadbitPanic1_passes : Ok V1BufferTest.TestBufferReadbitPanic1 := of_check (by kexact (fun _ : Nat → Nat → Nat => Eq.refl true))
private theorem TestBufferReadbitPanic2_passes : Ok V1BufferTest.TestBufferReadbitPanic2 := of_check (by kexact (fun _ : Nat → Nat → Nat => Eq.refl true))
private theorem TestBufferSetbitPanic1_passes : Ok V1BufferTest.TestBufferSetbitPanic1 := of_check (by kexact (fun _ : Nat → Nat → Nat => Eq.refl true))
private theorem TestBufferSetbitPanic2_passes : Ok V1BufferTest.TestBufferSetbitPanic2 := of_check (by kexact (fun _ : Nat → Nat → Nat => Eq.refl true))
private theorem TestBufferSetbitPanic3_passes : Ok V1BufferTest.TestBufferSetbitPanic3 := of_check (by kexact (fun _ : Nat → Nat → Nat => Eq.refl true))
private theorem TestBufferFlipbitPanic1_passes : Ok V1BufferTest.TestBufferFlipbitPanic1 := of_check (by kexact (fun _ : Nat → Nat → Nat => Eq.refl true))
private theorem TestBufferFlipbitPanic2_passes : Ok V1BufferTest.TestBufferFlipbitPanic2 := of_check (by kexact (fun _ : Nat → Nat → Nat => Eq.refl true))
private theorem TestBufferWritePanic1_passes : Ok V1BufferTest.TestBufferWritePanic1 := of_check (by kexact (fun _ : Nat → Nat → Nat => Eq.refl true))
private theorem TestBufferWritePanic2_passes : Ok V1BufferTest.TestBufferWritePanic2 := of_check (by kexact (fun _ : Nat → Nat → Nat => Eq.refl true))
private theorem TestBufferReadPanic1_passes : Ok V1BufferTest.TestBufferReadPanic1 := of_check (by kexact (fun _ : Nat → Nat → Nat => Eq.refl true))
private theorem TestBufferReadPanic2_passes : Ok V1BufferTest.TestBufferReadPanic2 := of_check (by kexact (fun _ : Nat → Nat → Nat => Eq.refl true))
private theorem TestBufferReadComplexPanic_passes : Ok V1BufferTest.TestBufferReadComplexPanic := of_check (by kexact (fun _ : Nat → Nat → Nat => Eq.refl true))
private theorem TestBufferWriteComplexPanic_passes : Ok V1BufferTest.TestBufferWriteComplexPanic := of_check (by kexact (fun _ : Nat → Nat → Nat => Eq.refl true))

private theorem all : ∀ l ∈ V1BufferTest.text, Ok l :=
  all_cons TestNewBuffer_passes <|
  all_cons TestBufferBytes_passes <|
  all_cons TestBufferCapacity_passes <|
  all_cons TestBufferBitCapacity_passes <|
  all_cons TestBufferOffset_passes <|
  all_cons TestBufferBitOffset_passes <|
  all_cons TestBufferRefresh_passes <|
  all_cons TestBufferGrow_passes <|
  all_cons TestBufferSeek_passes <|
  all_cons TestBufferSeekBit_passes <|
  all_cons TestBufferAlignBit_passes <|
  all_cons TestBufferAlignByte_passes <|
  all_cons TestBufferAfter_passes <|
  all_cons TestBufferAfterBit_passes <|
  all_cons TestBufferReadByte_passes <|
  all_cons TestBufferReadByteNext_passes <|
  all_cons TestBufferReadBytes_passes <|
  all_cons TestBufferReadBytesNext_passes <|
  all_cons TestBufferReadComplex_passes <|
  all_cons TestBufferReadComplexNext_passes <|
  all_cons TestBufferWriteByte_passes <|
  all_cons TestBufferWriteByteNext_passes <|
  all_cons TestBufferWriteBytes_passes <|
  all_cons TestBufferWriteBytesNext_passes <|
  all_cons TestBufferWriteComplex_passes <|
  all_cons TestBufferWriteComplexNext_passes <|
  all_cons TestBufferReadBit_passes <|
  all_cons TestBufferReadBitNext_passes <|
  all_cons TestBufferReadBits_passes <|
  all_cons TestBufferReadBitsNext_passes <|
  all_cons TestBufferSetBit_passes <|
  all_cons TestBufferSetBitNext_passes <|
  all_cons TestBufferSetBits_passes <|
  all_cons TestBufferSetBitsNext_passes <|
  all_cons TestBufferFlipBit_passes <|
  all_cons TestBufferFlipBitNext_passes <|
  all_cons TestBufferClearAllBits_passes <|
  all_cons TestBufferSetAllBits_passes <|
  all_cons TestBufferFlipAllBits_passes <|
  all_cons TestBufferReadbitPanic1_passes <|
  all_cons TestBufferReadbitPanic2_passes <|
  all_cons TestBufferSetbitPanic1_passes <|
  all_cons TestBufferSetbitPanic2_passes <|
  all_cons TestBufferSetbitPanic3_passes <|
  all_cons TestBufferFlipbitPanic1_passes <|
  all_cons TestBufferFlipbitPanic2_passes <|
  all_cons TestBufferWritePanic1_passes <|
  all_cons TestBufferWritePanic2_passes <|
  all_cons TestBufferReadPanic1_passes <|
  all_cons TestBufferReadPanic2_passes <|
  all_cons TestBufferReadComplexPanic_passes <|
  all_cons TestBufferWriteComplexPanic_passes <|
  all_nil

/-- C134 (/repo/v1/buffer_test.go): every test of the file passes, when the methods are run from their texts. -/
theorem C134_v1_buffer :
    ∃ funs, compileAll (V1Utils.text ++ V1Buffer.text) = some funs ∧
    ∀ l ∈ V1BufferTest.text, Passes (str% "Buffer") ⟨funs, V1Buffer.errs⟩ (runProg ⟨funs, V1Buffer.errs⟩) l :=
  ⟨_, compileAll_append V1Utils.link V1Buffer.link, all⟩

/-- There are 52 of them. -/
example : V1BufferTest.text.length = 52 := by rfl

end Crunch.Src.Tests.V1BufferTest
