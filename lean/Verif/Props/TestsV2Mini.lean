import Verif.Props.TestsNew
import Verif.Src.Tactic
import Verif.Src.Text.V2MiniTest

/-! # C134: the tests of /repo/v2/minibuf_test.go pass, from the texts, one by one -/

namespace Crunch.Src.Tests.V2MiniTest

open Crunch.Gen

/-- The test passes, whatever `append` allocates ahead. -/
private abbrev Ok (l : List Str) : Prop := Passes (str% "MiniBuffer") V2Mini.P (runMini V2Mini.P) l

private theorem TestNewMiniBuffer_passes : Ok V2MiniTest.TestNewMiniBuffer := ⟨newMiniTest, parse_newMini, newMiniTest_passes builds_v2m⟩
private theorem TestMiniBufferBytes_passes : Ok V2MiniTest.TestMiniBufferBytes := of_check (by kexact (fun _ : Nat → Nat → Nat => Eq.refl true))
private theorem TestMiniBufferCapacity_passes : Ok V2MiniTest.TestMiniBufferCapacity := of_check (by kexact (fun _ : Nat → Nat → Nat => Eq.refl true))
private theorem TestMiniBufferBitCapacity_passes : Ok V2MiniTest.TestMiniBufferBitCapacity := of_check (by kexact (fun _ : Nat → Nat → Nat => Eq.refl true))
private theorem TestMiniBufferOffset_passes : Ok V2MiniTest.TestMiniBufferOffset := of_check (by kexact (fun _ : Nat → Nat → Nat => Eq.refl true))
private theorem TestMiniBufferBitOffset_passes : Ok V2MiniTest.TestMiniBufferBitOffset := of_check (by kexact (fun _ : Nat → Nat → Nat => Eq.refl true))
private theorem TestMiniBufferRefresh_passes : Ok V2MiniTest.TestMiniBufferRefresh := of_check (by kexact (fun _ : Nat → Nat → Nat => Eq.refl true))
private theorem TestMiniBufferReset_passes : Ok V2MiniTest.TestMiniBufferReset := of_check (by kexact (fun _ : Nat → Nat → Nat => Eq.refl true))
private theorem TestMiniBufferGrow_passes : Ok V2MiniTest.TestMiniBufferGrow := of_check (by kexact (fun _ : Nat → Nat → Nat => Eq.refl true))
private theorem TestMiniBufferSeek_passes : Ok V2MiniTest.TestMiniBufferSeek := of_check (by kexact (fun _ : Nat → Nat → Nat => Eq.refl true))
private theorem TestMiniBufferSeekBit_passes : Ok V2MiniTest.TestMiniBufferSeekBit := of_check (by kexact (fun _ : Nat → Nat → Nat => Eq.refl true))
private theorem TestMiniBufferAlignBit_passes : Ok V2MiniTest.TestMiniBufferAlignBit := of_check (by kexact (fun _ : Nat → Nat → Nat => Eq.refl true))
private theorem TestMiniBufferAlignByte_passes : Ok V2MiniTest.TestMiniBufferAlignByte := of_check (by kexact (fun _ : Nat → Nat → Nat => Eq.refl true))
private theorem TestMiniBufferAfter_passes : Ok V2MiniTest.TestMiniBufferAfter := of_check (by kexact (fun _ : Nat → Nat → Nat => Eq.refl true))
private theorem TestMiniBufferAfterBit_passes : Ok V2MiniTest.TestMiniBufferAfterBit := of_check (by kexact (fun _ : Nat → Nat → Nat => Eq.refl true))
private theorem TestMiniBufferReadBytes_passes : Ok V2MiniTest.TestMiniBufferReadBytes := of_check (by kexact (fun _ : Nat → Nat → Nat => Eq.refl true))
private theorem TestMiniBufferReadBytesNext_passes : Ok V2MiniTest.TestMiniBufferReadBytesNext := of_check (by kexact (fun _ : Nat → Nat → Nat => Eq.refl true))
private theorem TestMiniBufferReadUNEN_passes : Ok V2MiniTest.TestMiniBufferReadUNEN := of_check (by kexact (fun _ : Nat → Nat → Nat => Eq.refl true))
private theorem TestMiniBufferReadUNENNext_passes : Ok V2MiniTest.TestMiniBufferReadUNENNext := of_check (by kexact (fun _ : Nat → Nat → Nat => Eq.refl true))
private theorem TestMiniBufferWriteBytes_passes : Ok V2MiniTest.TestMiniBufferWriteBytes := of_check (by kexact (fun _ : Nat → Nat → Nat => Eq.refl true))
private theorem TestMiniBufferWriteBytesNext_passes : Ok V2MiniTest.TestMiniBufferWriteBytesNext := of_check (by kexact (fun _ : Nat → Nat → Nat => Eq.refl true))
private theorem TestMiniBufferWriteUNEN_passes : Ok V2MiniTest.TestMiniBufferWriteUNEN := of_check (by kexact (fun _ : Nat → Nat → Nat => Eq.refl true))
private theorem TestMiniBufferWriteUNENNext_passes : Ok V2MiniTest.TestMiniBufferWriteUNENNext := of_check (by kexact (fun _ : Nat → Nat → Nat => Eq.refl true))
private theorem TestMiniBufferReadBit_passes : Ok V2MiniTest.TestMiniBufferReadBit := of_check (by kexact (fun _ : Nat → Nat → Nat => Eq.refl true))
private theorem TestMiniBufferReadBitNext_passes : Ok V2MiniTest.TestMiniBufferReadBitNext := of_check (by kexact (fun _ : Nat → Nat → Nat => Eq.refl true))
private theorem TestMiniBufferReadBits_passes : Ok V2MiniTest.TestMiniBufferReadBits := of_check (by kexact (fun _ : Nat → Nat → Nat => Eq.refl true))
private theorem TestMiniBufferReadBitsNext_passes : Ok V2MiniTest.TestMiniBufferReadBitsNext := of_check (by kexact (fun _ : Nat → Nat → Nat => Eq.refl true))
private theorem TestMiniBufferSetBit_passes : Ok V2MiniTest.TestMiniBufferSetBit := of_check (by kexact (fun _ : Nat → Nat → Nat => Eq.refl true))
private theorem TestMiniBufferSetBitNext_passes : Ok V2MiniTest.TestMiniBufferSetBitNext := of_check (by kexact (fun _ : Nat → Nat → Nat => Eq.refl true))
private theorem TestMiniBufferSetBits_passes : Ok V2MiniTest.TestMiniBufferSetBits := of_check (by kexact (fun _ : Nat → Nat → Nat => Eq.refl true))
private theorem TestMiniBufferSetBitsNext_passes : Ok V2MiniTest.TestMiniBufferSetBitsNext := of_check (by kexact (fun _ : Nat → Nat → Nat => Eq.refl true))
private theorem TestMiniBufferFlipBit_passes : Ok V2MiniTest.TestMiniBufferFlipBit := of_check (by kexact (fun _ : Nat → Nat → Nat => Eq.refl true))
private theorem TestMiniBufferFlipBitNext_passes : Ok V2MiniTest.TestMiniBufferFlipBitNext := of_check (by kexact (fun _ : Nat → Nat → Nat => Eq.refl true))
private theorem TestMiniBufferClearAllBits_passes : Ok V2MiniTest.TestMiniBufferClearAllBits := of_check (by kexact (fun _ : Nat → Nat → Nat => Eq.refl true))
private theorem TestMiniBufferSetAllBits_passes : Ok V2MiniTest.TestMiniBufferSetAllBits := of_check (by kexact (fun _ : Nat → Nat → Nat => Eq.refl true))
private theorem TestMiniBufferFlipAllBits_passes : Ok V2MiniTest.TestMiniBufferFlipAllBits := of_check (by kexact (fun _ : Nat → Nat → Nat => Eq.refl true))
private theorem TestMiniBufferSetbitPanic_passes : Ok V2MiniTest.TestMiniBufferSetbitPanic := of_check (by kexact (fun _ : Nat → Nat → Nat => Eq.refl true))

private theorem all : ∀ l ∈ V2MiniTest.text, Ok l :=
  all_cons TestNewMiniBuffer_passes <|
  all_cons TestMiniBufferBytes_passes <|
  all_cons TestMiniBufferCapacity_passes <|
  all_cons TestMiniBufferBitCapacity_passes <|
  all_cons TestMiniBufferOffset_passes <|
  all_cons TestMiniBufferBitOffset_passes <|
  all_cons TestMiniBufferRefresh_passes <|
  all_cons TestMiniBufferReset_passes <|
  all_cons TestMiniBufferGrow_passes <|
  all_cons TestMiniBufferSeek_passes <|
  all_cons TestMiniBufferSeekBit_passes <|
  all_cons TestMiniBufferAlignBit_passes <|
  all_cons TestMiniBufferAlignByte_passes <|
  all_cons TestMiniBufferAfter_passes <|
  all_cons TestMiniBufferAfterBit_passes <|
  all_cons TestMiniBufferReadBytes_passes <|
  all_cons TestMiniBufferReadBytesNext_passes <|
  all_cons TestMiniBufferReadUNEN_passes <|
  all_cons TestMiniBufferReadUNENNext_passes <|
  all_cons TestMiniBufferWriteBytes_passes <|
  all_cons TestMiniBufferWriteBytesNext_passes <|
  all_cons TestMiniBufferWriteUNEN_passes <|
  all_cons TestMiniBufferWriteUNENNext_passes <|
  all_cons TestMiniBufferReadBit_passes <|
  all_cons TestMiniBufferReadBitNext_passes <|
  all_cons TestMiniBufferReadBits_passes <|
  all_cons TestMiniBufferReadBitsNext_passes <|
  all_cons TestMiniBufferSetBit_passes <|
  all_cons TestMiniBufferSetBitNext_passes <|
  all_cons TestMiniBufferSetBits_passes <|
  all_cons TestMiniBufferSetBitsNext_passes <|
  all_cons TestMiniBufferFlipBit_passes <|
  all_cons TestMiniBufferFlipBitNext_passes <|
  all_cons TestMiniBufferClearAllBits_passes <|
  all_cons TestMiniBufferSetAllBits_passes <|
  all_cons TestMiniBufferFlipAllBits_passes <|
  all_cons TestMiniBufferSetbitPanic_passes <|
  all_nil

/-- C134 (/repo/v2/minibuf_test.go): every test of the file passes, when the methods are run from their texts. -/
theorem C134_v2_mini :
    ∃ funs, compileAll (V2Utils.text ++ V2Mini.text) = some funs ∧
    ∀ l ∈ V2MiniTest.text, Passes (str% "MiniBuffer") ⟨funs, V2Mini.errs⟩ (runMini ⟨funs, V2Mini.errs⟩) l :=
  ⟨_, compileAll_append V2Utils.link V2Mini.link, all⟩

/-- There are 37 of them. -/
example : V2MiniTest.text.length = 37 := by rfl

end Crunch.Src.Tests.V2MiniTest
