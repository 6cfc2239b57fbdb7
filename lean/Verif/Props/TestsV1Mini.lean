import Verif.Props.TestsNew
import Verif.Src.Tactic
import Verif.Src.Text.V1MiniTest

/-! # C134: the tests of /repo/v1/minibuf_test.go pass, from the texts, one by one -/

namespace Crunch.Src.Tests.V1MiniTest

open Crunch.Gen

/-- The test passes, whatever `append` allocates ahead. -/
private abbrev Ok (l : List Str) : Prop := Passes (str% "MiniBuffer") V1Mini.P (runMini V1Mini.P) l

private theorem TestNewMiniBuffer_passes : Ok V1MiniTest.TestNewMiniBuffer := ⟨newMiniTest, parse_newMini, newMiniTest_passes builds_v1m⟩
private theorem TestMiniBufferBytes_passes : Ok V1MiniTest.TestMiniBufferBytes := of_check (by kexact (fun _ : Nat → Nat → Nat => Eq.refl true))
private theorem TestMiniBufferCapacity_passes : Ok V1MiniTest.TestMiniBufferCapacity := of_check (by kexact (fun _ : Nat → Nat → Nat => Eq.refl true))
private theorem TestMiniBufferBitCapacity_passes : Ok V1MiniTest.TestMiniBufferBitCapacity := of_check (by kexact (fun _ : Nat → Nat → Nat => Eq.refl true))
private theorem TestMiniBufferOffset_passes : Ok V1MiniTest.TestMiniBufferOffset := of_check (by kexact (fun _ : Nat → Nat → Nat => Eq.refl true))
private theorem TestMiniBufferBitOffset_passes : Ok V1MiniTest.TestMiniBufferBitOffset := of_check (by kexact (fun _ : Nat → Nat → Nat => Eq.refl true))
private theorem TestMiniBufferRefresh_passes : Ok V1MiniTest.TestMiniBufferRefresh := of_check (by kexact (fun _ : Nat → Nat → Nat => Eq.refl true))
private theorem TestMiniBufferGrow_passes : Ok V1MiniTest.TestMiniBufferGrow := of_check (by kexact (fun _ : Nat → Nat → Nat => Eq.refl true))
private theorem TestMiniBufferSeek_passes : Ok V1MiniTest.TestMiniBufferSeek := of_check (by kexact (fun _ : Nat → Nat → Nat => Eq.refl true))
private theorem TestMiniBufferSeekBit_passes : Ok V1MiniTest.TestMiniBufferSeekBit := of_check (by kexact (fun _ : Nat → Nat → Nat => Eq.refl true))
private theorem TestMiniBufferAlignBit_passes : Ok V1MiniTest.TestMiniBufferAlignBit := of_check (by kexact (fun _ : Nat → Nat → Nat => Eq.refl true))
private theorem TestMiniBufferAlignByte_passes : Ok V1MiniTest.TestMiniBufferAlignByte := of_check (by kexact (fun _ : Nat → Nat → Nat => Eq.refl true))
private theorem TestMiniBufferAfter_passes : Ok V1MiniTest.TestMiniBufferAfter := of_check (by kexact (fun _ : Nat → Nat → Nat => Eq.refl true))
private theorem TestMiniBufferAfterBit_passes : Ok V1MiniTest.TestMiniBufferAfterBit := of_check (by kexact (fun _ : Nat → Nat → Nat => Eq.refl true))
private theorem TestMiniBufferReadBytes_passes : Ok V1MiniTest.TestMiniBufferReadBytes := of_check (by kexact (fun _ : Nat → Nat → Nat => Eq.refl true))
private theorem TestMiniBufferReadBytesNext_passes : Ok V1MiniTest.TestMiniBufferReadBytesNext := of_check (by kexact (fun _ : Nat → Nat → Nat => Eq.refl true))
private theorem TestMiniBufferReadComplex_passes : Ok V1MiniTest.TestMiniBufferReadComplex := of_check (by kexact (fun _ : Nat → Nat → Nat => Eq.refl true))
private theorem TestMiniBufferReadComplexNext_passes : Ok V1MiniTest.TestMiniBufferReadComplexNext := of_check (by kexact (fun _ : Nat → Nat → Nat => Eq.refl true))
private theorem TestMiniBufferWriteBytes_passes : Ok V1MiniTest.TestMiniBufferWriteBytes := of_check (by kexact (fun _ : Nat → Nat → Nat => Eq.refl true))
private theorem TestMiniBufferWriteBytesNext_passes : Ok V1MiniTest.TestMiniBufferWriteBytesNext := of_check (by kexact (fun _ : Nat → Nat → Nat => Eq.refl true))
private theorem TestMiniBufferWriteComplex_passes : Ok V1MiniTest.TestMiniBufferWriteComplex := of_check (by kexact (fun _ : Nat → Nat → Nat => Eq.refl true))
private theorem TestMiniBufferWriteComplexNext_passes : Ok V1MiniTest.TestMiniBufferWriteComplexNext := of_check (by kexact (fun _ : Nat → Nat → Nat => Eq.refl true))
private theorem TestMiniBufferReadBit_passes : Ok V1MiniTest.TestMiniBufferReadBit := of_check (by kexact (fun _ : Nat → Nat → Nat => Eq.refl true))
private theorem TestMiniBufferReadBitNext_passes : Ok V1MiniTest.TestMiniBufferReadBitNext := of_check (by kexact (fun _ : Nat → Nat → Nat => Eq.refl true))
private theorem TestMiniBufferReadBits_passes : Ok V1MiniTest.TestMiniBufferReadBits := of_check (by kexact (fun _ : Nat → Nat → Nat => Eq.refl true))
private theorem TestMiniBufferReadBitsNext_passes : Ok V1MiniTest.TestMiniBufferReadBitsNext := of_check (by kexact (fun _ : Nat → Nat → Nat => Eq.refl true))
private theorem TestMiniBufferSetBit_passes : Ok V1MiniTest.TestMiniBufferSetBit := of_check (by kexact (fun _ : Nat → Nat → Nat => Eq.refl true))
private theorem TestMiniBufferSetBitNext_passes : Ok V1MiniTest.TestMiniBufferSetBitNext := of_check (by kexact (fun _ : Nat → Nat → Nat => Eq.refl true))
private theorem TestMiniBufferSetBits_passes : Ok V1MiniTest.TestMiniBufferSetBits := of_check (by kexact (fun _ : Nat → Nat → Nat => Eq.refl true))
private theorem TestMiniBufferSetBitsNext_passes : Ok V1MiniTest.TestMiniBufferSetBitsNext := of_check (by kexact (fun _ : Nat → Nat → Nat => Eq.refl true))
private theorem TestMiniBufferFlipBit_passes : Ok V1MiniTest.TestMiniBufferFlipBit := of_check (by kexact (fun _ : Nat → Nat → Nat => Eq.refl true))
private theorem TestMiniBufferFlipBitNext_passes : Ok V1MiniTest.TestMiniBufferFlipBitNext := of_check (by kexact (fun _ : Nat → Nat → Nat => Eq.refl true))
private theorem TestMiniBufferClearAllBits_passes : Ok V1MiniTest.TestMiniBufferClearAllBits := of_check (by kexact (fun _ : Nat → Nat → Nat => Eq.refl true))
private theorem TestMiniBufferSetAllBits_passes : Ok V1MiniTest.TestMiniBufferSetAllBits := of_check (by kexact (fun _ : Nat → Nat → Nat => Eq.refl true))
private theorem TestMiniBufferFlipAllBits_passes : Ok V1MiniTest.TestMiniBufferFlipAllBits := of_check (by kexact (fun _ : Nat → Nat → Nat => Eq.refl true))
private theorem TestMiniBufferSetbitPanic_passes : Ok V1MiniTest.TestMiniBufferSetbitPanic := of_check (by kexact (fun _ : Nat → Nat → Nat => Eq.refl true))
private theorem TestMiniBufferReadComplexPanic_passes : Ok V1MiniTest.TestMiniBufferReadComplexPanic := of_check (by kexact (fun _ : Nat → Nat → Nat => Eq.refl true))
private theorem TestMiniBufferWriteComplexPanic_passes : Ok V1MiniTest.TestMiniBufferWriteComplexPanic := of_check (by kexact (fun _ : Nat → Nat → Nat => Eq.refl true))

private theorem all : ∀ l ∈ V1MiniTest.text, Ok l :=
  all_cons TestNewMiniBuffer_passes <|
  all_cons TestMiniBufferBytes_passes <|
  all_cons TestMiniBufferCapacity_passes <|
  all_cons TestMiniBufferBitCapacity_passes <|
  all_cons TestMiniBufferOffset_passes <|
  all_cons TestMiniBufferBitOffset_passes <|
  all_cons TestMiniBufferRefresh_passes <|
  all_cons TestMiniBufferGrow_passes <|
  all_cons TestMiniBufferSeek_passes <|
  all_cons TestMiniBufferSeekBit_passes <|
  all_cons TestMiniBufferAlignBit_passes <|
  all_cons TestMiniBufferAlignByte_passes <|
  all_cons TestMiniBufferAfter_passes <|
  all_cons TestMiniBufferAfterBit_passes <|
  all_cons TestMiniBufferReadBytes_passes <|
  all_cons TestMiniBufferReadBytesNext_passes <|
  all_cons TestMiniBufferReadComplex_passes <|
  all_cons TestMiniBufferReadComplexNext_passes <|
  all_cons TestMiniBufferWriteBytes_passes <|
  all_cons TestMiniBufferWriteBytesNext_passes <|
  all_cons TestMiniBufferWriteComplex_passes <|
  all_cons TestMiniBufferWriteComplexNext_passes <|
  all_cons TestMiniBufferReadBit_passes <|
  all_cons TestMiniBufferReadBitNext_passes <|
  all_cons TestMiniBufferReadBits_passes <|
  all_cons TestMiniBufferReadBitsNext_passes <|
  all_cons TestMiniBufferSetBit_passes <|
  all_cons TestMiniBufferSetBitNext_passes <|
  all_cons TestMiniBufferSetBits_passes <|
  all_cons TestMiniBufferSetBitsNext_passes <|
  all_cons TestMiniBufferFlipBit_passes <|
  all_cons TestMiniBufferFlipBitNext_passes <|
  all_cons TestMiniBufferClearAllBits_passes <|
  all_cons TestMiniBufferSetAllBits_passes <|
  all_cons TestMiniBufferFlipAllBits_passes <|
  all_cons TestMiniBufferSetbitPanic_passes <|
  all_cons TestMiniBufferReadComplexPanic_passes <|
  all_cons TestMiniBufferWriteComplexPanic_passes <|
  all_nil

/-- C134 (/repo/v1/minibuf_test.go): every test of the file passes, when the methods are run from their texts. -/
theorem C134_v1_mini :
    ∃ funs, compileAll (V1Utils.text ++ V1Mini.text) = some funs ∧
    ∀ l ∈ V1MiniTest.text, Passes (str% "MiniBuffer") ⟨funs, V1Mini.errs⟩ (runMini ⟨funs, V1Mini.errs⟩) l :=
  ⟨_, compileAll_append V1Utils.link V1Mini.link, all⟩

/-- There are 38 of them. -/
example : V1MiniTest.text.length = 38 := by rfl

end Crunch.Src.Tests.V1MiniTest
