import Verif.Props.TestsNew
import Verif.Src.Tactic
import Verif.Src.Text.V2BufferTest

/-! # C134: the tests of /repo/v2/buffer_test.go pass, from the texts, one by one -/

namespace Crunch.Src.Tests.V2BufferTest

open Crunch.Gen

/-- The test passes, whatever `append` allocates ahead. -/
private abbrev Ok (l : List Str) : Prop := Passes (str% "Buffer") V2Buffer.P (runProg V2Buffer.P) l

private theorem TestNewBuffer_passes : Ok V2BufferTest.TestNewBuffer := ⟨newTest, parse_new, newTest_passes builds_v2⟩
private theorem TestBufferBytes_passes : Ok V2BufferTest.TestBufferBytes := of_check (by kexact (fun _ : Nat → Nat → Nat => Eq.refl true))
private theorem TestBufferCapacity_passes : Ok V2BufferTest.TestBufferCapacity := of_check (by kexact (fun _ : Nat → Nat → Nat => Eq.refl true))
private theorem TestBufferBitCapacity_passes : Ok V2BufferTest.TestBufferBitCapacity := of_check (by kexact (fun _ : Nat → Nat → Nat => Eq.refl true))
private theorem TestBufferOffset_passes : Ok V2BufferTest.TestBufferOffset := of_check (by kexact (fun _ : Nat → Nat → Nat => Eq.refl true))
private theorem TestBufferBitOffset_passes : Ok V2BufferTest.TestBufferBitOffset := of_check (by kexact (fun _ : Nat → Nat → Nat => Eq.refl true))
private theorem TestBufferRefresh_passes : Ok V2BufferTest.TestBufferRefresh := of_check (by kexact (fun _ : Nat → Nat → Nat => Eq.refl true))
private theorem TestBufferReset_passes : Ok V2BufferTest.TestBufferReset := of_check (by kexact (fun _ : Nat → Nat → Nat => Eq.refl true))
private theorem TestBufferGrow_passes : Ok V2BufferTest.TestBufferGrow := of_check (by kexact (fun _ : Nat → Nat → Nat => Eq.refl true))
private theorem TestBufferSeek_passes : Ok V2BufferTest.TestBufferSeek := of_check (by kexact (fun _ : Nat → Nat → Nat => Eq.refl true))
private theorem TestBufferSeekBit_passes : Ok V2BufferTest.TestBufferSeekBit := of_check (by kexact (fun _ : Nat → Nat → Nat => Eq.refl true))
private theorem TestBufferAlignBit_passes : Ok V2BufferTest.TestBufferAlignBit := of_check (by kexact (fun _ : Nat → Nat → Nat => Eq.refl true))
private theorem TestBufferAlignByte_passes : Ok V2BufferTest.TestBufferAlignByte := of_check (by kexact (fun _ : Nat → Nat → Nat => Eq.refl true))
private theorem TestBufferAfter_passes : Ok V2BufferTest.TestBufferAfter := of_check (by kexact (fun _ : Nat → Nat → Nat => Eq.refl true))
private theorem TestBufferAfterBit_passes : Ok V2BufferTest.TestBufferAfterBit := of_check (by kexact (fun _ : Nat → Nat → Nat => Eq.refl true))
private theorem TestBufferReadByte_passes : Ok V2BufferTest.TestBufferReadByte := of_check (by kexact (fun _ : Nat → Nat → Nat => Eq.refl true))
private theorem TestBufferReadByteNext_passes : Ok V2BufferTest.TestBufferReadByteNext := of_check (by kexact (fun _ : Nat → Nat → Nat => Eq.refl true))
private theorem TestBufferReadBytes_passes : Ok V2BufferTest.TestBufferReadBytes := of_check (by kexact (fun _ : Nat → Nat → Nat => Eq.refl true))
private theorem TestBufferReadBytesNext_passes : Ok V2BufferTest.TestBufferReadBytesNext := of_check (by kexact (fun _ : Nat → Nat → Nat => Eq.refl true))
private theorem TestBufferReadUNEN_passes : Ok V2BufferTest.TestBufferReadUNEN := of_check (by kexact (fun _ : Nat → Nat → Nat => Eq.refl true))
private theorem TestBufferReadUNENNext_passes : Ok V2BufferTest.TestBufferReadUNENNext := of_check (by kexact (fun _ : Nat → Nat → Nat => Eq.refl true))
private theorem TestBufferWriteByte_passes : Ok V2BufferTest.TestBufferWriteByte := of_check (by kexact (fun _ : Nat → Nat → Nat => Eq.refl true))
private theorem TestBufferWriteByteNext_passes : Ok V2BufferTest.TestBufferWriteByteNext := of_check (by kexact (fun _ : Nat → Nat → Nat => Eq.refl true))
private theorem TestBufferWriteBytes_passes : Ok V2BufferTest.TestBufferWriteBytes := of_check (by kexact (fun _ : Nat → Nat → Nat => Eq.refl true))
private theorem TestBufferWriteBytesNext_passes : Ok V2BufferTest.TestBufferWriteBytesNext := of_check (by kexact (fun _ : Nat → Nat → Nat => Eq.refl true))
private theorem TestBufferWriteUNEN_passes : Ok V2BufferTest.TestBufferWriteUNEN := of_check (by kexact (fun _ : Nat → Nat → Nat => Eq.refl true))
private theorem TestBufferWriteUNENNext_passes : Ok V2BufferTest.TestBufferWriteUNENNext := of_check (by kexact (fun _ : Nat → Nat → Nat => Eq.refl true))
private theorem TestBufferReadBit_passes : Ok V2BufferTest.TestBufferReadBit := of_check (by kexact (fun _ : Nat → Nat → Nat => Eq.refl true))
private theorem TestBufferReadBitNext_passes : Ok V2BufferTest.TestBufferReadBitNext := of_check (by kexact (fun _ : Nat → Nat → Nat => Eq.refl true))
private theorem TestBufferReadBits_passes : Ok V2BufferTest.TestBufferReadBits := of_check (by kexact (fun _ : Nat → Nat → Nat => Eq.refl true))
private theorem TestBufferReadBitsNext_passes : Ok V2BufferTest.TestBufferReadBitsNext := of_check (by kexact (fun _ : Nat → Nat → Nat => Eq.refl true))
private theorem TestBufferSetBit_passes : Ok V2BufferTest.TestBufferSetBit := of_check (by kexact (fun _ : Nat → Nat → Nat => Eq.refl true))
private theorem TestBufferSetBitNext_passes : Ok V2BufferTest.TestBufferSetBitNext := of_check (by kexact (fun _ : Nat → Nat → Nat => Eq.refl true))
private theorem TestBufferSetBits_passes : Ok V2BufferTest.TestBufferSetBits := of_check (by kexact (fun _ : Nat → Nat → Nat => Eq.refl true))
private theorem TestBufferSetBitsNext_passes : Ok V2BufferTest.TestBufferSetBitsNext := of_check (by kexact (fun _ : Nat → Nat → Nat => Eq.refl true))
private theorem TestBufferFlipBit_passes : Ok V2BufferTest.TestBufferFlipBit := of_check (by kexact (fun _ : Nat → Nat → Nat => Eq.refl true))
private theorem TestBufferFlipBitNext_passes : Ok V2BufferTest.TestBufferFlipBitNext := of_check (by kexact (fun _ : Nat → Nat → Nat => Eq.refl true))
private theorem TestBufferClearAllBits_passes : Ok V2BufferTest.TestBufferClearAllBits := of_check (by kexact (fun _ : Nat → Nat → Nat => Eq.refl true))
private theorem TestBufferSetAllBits_passes : Ok V2BufferTest.TestBufferSetAllBits := of_check (by kexact (fun _ : Nat → Nat → Nat => Eq.refl true))
private theorem TestBufferFlipAllBits_passes : Ok V2BufferTest.TestBufferFlipAllBits := of_check (by kexact (fun _ : Nat → Nat → Nat => Eq.refl true))
private theorem TestBufferReadbitPanic1_passes : Ok V2BufferTest.TestBufferReadbitPanic1 := of_check (by kexact (fun _ : Nat → Nat → Nat => Eq.refl true))
private theorem TestBufferReadbitPanic2_passes : Ok V2BufferTest.TestBufferReadbitPanic2 := of_check (by kexact (fun _ : Nat → Nat → Nat => Eq.refl true))
private theorem TestBufferSetbitPanic1_passes : Ok V2BufferTest.TestBufferSetbitPanic1 := of_check (by kexact (fun _ : Nat → Nat → Nat => Eq.refl true))
private theorem TestBufferSetbitPanic2_passes : Ok V2BufferTest.TestBufferSetbitPanic2 := of_check (by kexact (fun _ : Nat → Nat → Nat => Eq.refl true))
private theorem TestBufferSetbitPanic3_passes : Ok V2BufferTest.TestBufferSetbitPanic3 := of_check (by kexact (fun _ : Nat → Nat → Nat => Eq.refl true))
private theorem TestBufferFlipbitPanic1_passes : Ok V2BufferTest.TestBufferFlipbitPanic1 := of_check (by kexact (fun _ : Nat → Nat → Nat => Eq.refl true))
private theorem TestBufferFlipbitPanic2_passes : Ok V2BufferTest.TestBufferFlipbitPanic2 := of_check (by kexact (fun _ : Nat → Nat → Nat => Eq.refl true))
private theorem TestBufferWritePanic1_passes : Ok V2BufferTest.TestBufferWritePanic1 := of_check (by kexact (fun _ : Nat → Nat → Nat => Eq.refl true))
private theorem TestBufferWritePanic2_passes : Ok V2BufferTest.TestBufferWritePanic2 := of_check (by kexact (fun _ : Nat → Nat → Nat => Eq.refl true))
private theorem TestBufferReadPanic1_passes : Ok V2BufferTest.TestBufferReadPanic1 := of_check (by kexact (fun _ : Nat → Nat → Nat => Eq.refl true))
private theorem TestBufferReadPanic2_passes : Ok V2BufferTest.TestBufferReadPanic2 := of_check (by kexact (fun _ : Nat → Nat → Nat => Eq.refl true))
private theorem TestBufferWriteU16LEPanic1_passes : Ok V2BufferTest.TestBufferWriteU16LEPanic1 := of_check (by kexact (fun _ : Nat → Nat → Nat => Eq.refl true))
private theorem TestBufferWriteU16LEPanic2_passes : Ok V2BufferTest.TestBufferWriteU16LEPanic2 := of_check (by kexact (fun _ : Nat → Nat → Nat => Eq.refl true))
private theorem TestBufferWriteU16BEPanic1_passes : Ok V2BufferTest.TestBufferWriteU16BEPanic1 := of_check (by kexact (fun _ : Nat → Nat → Nat => Eq.refl true))
private theorem TestBufferWriteU16BEPanic2_passes : Ok V2BufferTest.TestBufferWriteU16BEPanic2 := of_check (by kexact (fun _ : Nat → Nat → Nat => Eq.refl true))
private theorem TestBufferWriteU32LEPanic1_passes : Ok V2BufferTest.TestBufferWriteU32LEPanic1 := of_check (by kexact (fun _ : Nat → Nat → Nat => Eq.refl true))
private theorem TestBufferWriteU32LEPanic2_passes : Ok V2BufferTest.TestBufferWriteU32LEPanic2 := of_check (by kexact (fun _ : Nat → Nat → Nat => Eq.refl true))
private theorem TestBufferWriteU32BEPanic1_passes : Ok V2BufferTest.TestBufferWriteU32BEPanic1 := of_check (by kexact (fun _ : Nat → Nat → Nat => Eq.refl true))
private theorem TestBufferWriteU32BEPanic2_passes : Ok V2BufferTest.TestBufferWriteU32BEPanic2 := of_check (by kexact (fun _ : Nat → Nat → Nat => Eq.refl true))
private theorem TestBufferWriteU64LEPanic1_passes : Ok V2BufferTest.TestBufferWriteU64LEPanic1 := of_check (by kexact (fun _ : Nat → Nat → Nat => Eq.refl true))
private theorem TestBufferWriteU64LEPanic2_passes : Ok V2BufferTest.TestBufferWriteU64LEPanic2 := of_check (by kexact (fun _ : Nat → Nat → Nat => Eq.refl true))
private theorem TestBufferWriteU64BEPanic1_passes : Ok V2BufferTest.TestBufferWriteU64BEPanic1 := of_check (by kexact (fun _ : Nat → Nat → Nat => Eq.refl true))
private theorem TestBufferWriteU64BEPanic2_passes : Ok V2BufferTest.TestBufferWriteU64BEPanic2 := of_check (by kexact (fun _ : Nat → Nat → Nat => Eq.refl true))
private theorem TestBufferReadU16LEPanic1_passes : Ok V2BufferTest.TestBufferReadU16LEPanic1 := of_check (by kexact (fun _ : Nat → Nat → Nat => Eq.refl true))
private theorem TestBufferReadU16LEPanic2_passes : Ok V2BufferTest.TestBufferReadU16LEPanic2 := of_check (by kexact (fun _ : Nat → Nat → Nat => Eq.refl true))
private theorem TestBufferReadU16BEPanic1_passes : Ok V2BufferTest.TestBufferReadU16BEPanic1 := of_check (by kexact (fun _ : Nat → Nat → Nat => Eq.refl true))
private theorem TestBufferReadU16BEPanic2_passes : Ok V2BufferTest.TestBufferReadU16BEPanic2 := of_check (by kexact (fun _ : Nat → Nat → Nat => Eq.refl true))
private theorem TestBufferReadU32LEPanic1_passes : Ok V2BufferTest.TestBufferReadU32LEPanic1 := of_check (by kexact (fun _ : Nat → Nat → Nat => Eq.refl true))
private theorem TestBufferReadU32LEPanic2_passes : Ok V2BufferTest.TestBufferReadU32LEPanic2 := of_check (by kexact (fun _ : Nat → Nat → Nat => Eq.refl true))
private theorem TestBufferReadU32BEPanic1_passes : Ok V2BufferTest.TestBufferReadU32BEPanic1 := of_check (by kexact (fun _ : Nat → Nat → Nat => Eq.refl true))
private theorem TestBufferReadU32BEPanic2_passes : Ok V2BufferTest.TestBufferReadU32BEPanic2 := of_check (by kexact (fun _ : Nat → Nat → Nat => Eq.refl true))
private theorem TestBufferReadU64LEPanic1_passes : Ok V2BufferTest.TestBufferReadU64LEPanic1 := of_check (by kexact (fun _ : Nat → Nat → Nat => Eq.refl true))
private theorem TestBufferReadU64LEPanic2_passes : Ok V2BufferTest.TestBufferReadU64LEPanic2 := of_check (by kexact (fun _ : Nat → Nat → Nat => Eq.refl true))
private theorem TestBufferReadU64BEPanic1_passes : Ok V2BufferTest.TestBufferReadU64BEPanic1 := of_check (by kexact (fun _ : Nat → Nat → Nat => Eq.refl true))
private theorem TestBufferReadU64BEPanic2_passes : Ok V2BufferTest.TestBufferReadU64BEPanic2 := of_check (by kexact (fun _ : Nat → Nat → Nat => Eq.refl true))

private theorem all : ∀ l ∈ V2BufferTest.text, Ok l :=
  all_cons TestNewBuffer_passes <|
  all_cons TestBufferBytes_passes <|
  all_cons TestBufferCapacity_passes <|
  all_cons TestBufferBitCapacity_passes <|
  all_cons TestBufferOffset_passes <|
  all_cons TestBufferBitOffset_passes <|
  all_cons TestBufferRefresh_passes <|
  all_cons TestBufferReset_passes <|
  all_cons TestBufferGrow_passes <|
  all_cons TestBufferSeek_passes <|
  all_cons TestBufferSeekBit_passes <|
  all_cons TestBufferAlignBit_passes <|
  all_cons TestBufferAlignByte_passes <|
  all_cons TestBufferAfter_passes <|
  all_cons TestBufferAfterBit_passes <|
  all_cons TestBufferReadByte_passes <|
  all_cons TestBufferReadByteNext_passes <|
  all_cons TestBufferReadBytes_passes <|
  all_cons TestBufferReadBytesNext_passes <|
  all_cons TestBufferReadUNEN_passes <|
  all_cons TestBufferReadUNENNext_passes <|
  all_cons TestBufferWriteByte_passes <|
  all_cons TestBufferWriteByteNext_passes <|
  all_cons TestBufferWriteBytes_passes <|
  all_cons TestBufferWriteBytesNext_passes <|
  all_cons TestBufferWriteUNEN_passes <|
  all_cons TestBufferWriteUNENNext_passes <|
  all_cons TestBufferReadBit_passes <|
  all_cons TestBufferReadBitNext_passes <|
  all_cons TestBufferReadBits_passes <|
  all_cons TestBufferReadBitsNext_passes <|
  all_cons TestBufferSetBit_passes <|
  all_cons TestBufferSetBitNext_passes <|
  all_cons TestBufferSetBits_passes <|
  all_cons TestBufferSetBitsNext_passes <|
  all_cons TestBufferFlipBit_passes <|
  all_cons TestBufferFlipBitNext_passes <|
  all_cons TestBufferClearAllBits_passes <|
  all_cons TestBufferSetAllBits_passes <|
  all_cons TestBufferFlipAllBits_passes <|
  all_cons TestBufferReadbitPanic1_passes <|
  all_cons TestBufferReadbitPanic2_passes <|
  all_cons TestBufferSetbitPanic1_passes <|
  all_cons TestBufferSetbitPanic2_passes <|
  all_cons TestBufferSetbitPanic3_passes <|
  all_cons TestBufferFlipbitPanic1_passes <|
  all_cons TestBufferFlipbitPanic2_passes <|
  all_cons TestBufferWritePanic1_passes <|
  all_cons TestBufferWritePanic2_passes <|
  all_cons TestBufferReadPanic1_passes <|
  all_cons TestBufferReadPanic2_passes <|
  all_cons TestBufferWriteU16LEPanic1_passes <|
  all_cons TestBufferWriteU16LEPanic2_passes <|
  all_cons TestBufferWriteU16BEPanic1_passes <|
  all_cons TestBufferWriteU16BEPanic2_passes <|
  all_cons TestBufferWriteU32LEPanic1_passes <|
  all_cons TestBufferWriteU32LEPanic2_passes <|
  all_cons TestBufferWriteU32BEPanic1_passes <|
  all_cons TestBufferWriteU32BEPanic2_passes <|
  all_cons TestBufferWriteU64LEPanic1_passes <|
  all_cons TestBufferWriteU64LEPanic2_passes <|
  all_cons TestBufferWriteU64BEPanic1_passes <|
  all_cons TestBufferWriteU64BEPanic2_passes <|
  all_cons TestBufferReadU16LEPanic1_passes <|
  all_cons TestBufferReadU16LEPanic2_passes <|
  all_cons TestBufferReadU16BEPanic1_passes <|
  all_cons TestBufferReadU16BEPanic2_passes <|
  all_cons TestBufferReadU32LEPanic1_passes <|
  all_cons TestBufferReadU32LEPanic2_passes <|
  all_cons TestBufferReadU32BEPanic1_passes <|
  all_cons TestBufferReadU32BEPanic2_passes <|
  all_cons TestBufferReadU64LEPanic1_passes <|
  all_cons TestBufferReadU64LEPanic2_passes <|
  all_cons TestBufferReadU64BEPanic1_passes <|
  all_cons TestBufferReadU64BEPanic2_passes <|
  all_nil

/-- C134 (/repo/v2/buffer_test.go): every test of the file passes, when the methods are run from their texts. -/
theorem C134_v2_buffer :
    ∃ funs, compileAll (V2Utils.text ++ V2Buffer.text) = some funs ∧
    ∀ l ∈ V2BufferTest.text, Passes (str% "Buffer") ⟨funs, V2Buffer.errs⟩ (runProg ⟨funs, V2Buffer.errs⟩) l :=
  ⟨_, compileAll_append V2Utils.link V2Buffer.link, all⟩

/-- There are 75 of them. -/
example : V2BufferTest.text.length = 75 := by rfl

end Crunch.Src.Tests.V2BufferTest
