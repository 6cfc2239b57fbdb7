import Verif.Props.TestsNew
import Verif.Src.Tactic
import Verif.Src.Text.V3MiniTest

/-! # C134: the tests of /repo/v3/minibuf_test.go pass, from the texts, one by one -/

namespace Crunch.Src.Tests.V3MiniTest

open Crunch.Gen

/-- The test passes, whatever `append` allocates ahead. -/
private abbrev Ok (l : List Str) : Prop := Passes (str% "MiniBuffer") V3Mini.P (runMini V3Mini.P) l

private theorem TestNewMiniBuffer_passes : Ok V3MiniTest.TestNewMiniBuffer := ⟨newMiniTest, parse_newMini, newMiniTest_passes builds_v3m⟩
private theorem TestMiniBufferBytes_passes : Ok V3MiniTest.TestMiniBufferBytes := of_check (by kexact (fun _ : Nat → Nat → Nat => Eq.refl true))
private theorem TestMiniBufferByteCapacity_passes : Ok V3MiniTest.TestMiniBufferByteCapacity := of_check (by kexact (fun _ : Nat → Nat → Nat => Eq.refl true))
private theorem TestMiniBufferBitCapacity_passes : Ok V3MiniTest.TestMiniBufferBitCapacity := of_check (by kexact (fun _ : Nat → Nat → Nat => Eq.refl true))
private theorem TestMiniBufferByteOffset_passes : Ok V3MiniTest.TestMiniBufferByteOffset := of_check (by kexact (fun _ : Nat → Nat → Nat => Eq.refl true))
private theorem TestMiniBufferBitOffset_passes : Ok V3MiniTest.TestMiniBufferBitOffset := of_check (by kexact (fun _ : Nat → Nat → Nat => Eq.refl true))
private theorem TestMiniBufferRefresh_passes : Ok V3MiniTest.TestMiniBufferRefresh := of_check (by kexact (fun _ : Nat → Nat → Nat => Eq.refl true))
private theorem TestMiniBufferReset_passes : Ok V3MiniTest.TestMiniBufferReset := of_check (by kexact (fun _ : Nat → Nat → Nat => Eq.refl true))
private theorem TestMiniBufferTruncateLeft_passes : Ok V3MiniTest.TestMiniBufferTruncateLeft := of_check (by kexact (fun _ : Nat → Nat → Nat => Eq.refl true))
private theorem TestMiniBufferTruncateRight_passes : Ok V3MiniTest.TestMiniBufferTruncateRight := of_check (by kexact (fun _ : Nat → Nat → Nat => Eq.refl true))
private theorem TestMiniBufferGrow_passes : Ok V3MiniTest.TestMiniBufferGrow := of_check (by kexact (fun _ : Nat → Nat → Nat => Eq.refl true))
private theorem TestMiniBufferGrow2_passes : Ok V3MiniTest.TestMiniBufferGrow2 := of_check (by kexact (fun _ : Nat → Nat → Nat => Eq.refl true))
private theorem TestMiniBufferSeekByte_passes : Ok V3MiniTest.TestMiniBufferSeekByte := of_check (by kexact (fun _ : Nat → Nat → Nat => Eq.refl true))
private theorem TestMiniBufferSeekBit_passes : Ok V3MiniTest.TestMiniBufferSeekBit := of_check (by kexact (fun _ : Nat → Nat → Nat => Eq.refl true))
private theorem TestMiniBufferAlignBit_passes : Ok V3MiniTest.TestMiniBufferAlignBit := of_check (by kexact (fun _ : Nat → Nat → Nat => Eq.refl true))
private theorem TestMiniBufferAlignByte_passes : Ok V3MiniTest.TestMiniBufferAlignByte := of_check (by kexact (fun _ : Nat → Nat → Nat => Eq.refl true))
private theorem TestMiniBufferAfterByte_passes : Ok V3MiniTest.TestMiniBufferAfterByte := of_check (by kexact (fun _ : Nat → Nat → Nat => Eq.refl true))
private theorem TestMiniBufferAfterBit_passes : Ok V3MiniTest.TestMiniBufferAfterBit := of_check (by kexact (fun _ : Nat → Nat → Nat => Eq.refl true))
private theorem TestMiniBufferReadBytes_passes : Ok V3MiniTest.TestMiniBufferReadBytes := of_check (by kexact (fun _ : Nat → Nat → Nat => Eq.refl true))
private theorem TestMiniBufferReadBytesNext_passes : Ok V3MiniTest.TestMiniBufferReadBytesNext := of_check (by kexact (fun _ : Nat → Nat → Nat => Eq.refl true))
private theorem TestMiniBufferReadSNEN_passes : Ok V3MiniTest.TestMiniBufferReadSNEN := of_check (by kexact (fun _ : Nat → Nat → Nat => Eq.refl true))
private theorem TestMiniBufferWriteBytes_passes : Ok V3MiniTest.TestMiniBufferWriteBytes := of_check (by kexact (fun _ : Nat → Nat → Nat => Eq.refl true))
private theorem TestMiniBufferWriteBytesNext_passes : Ok V3MiniTest.TestMiniBufferWriteBytesNext := of_check (by kexact (fun _ : Nat → Nat → Nat => Eq.refl true))
private theorem TestMiniBufferWriteSNEN_passes : Ok V3MiniTest.TestMiniBufferWriteSNEN := of_check (by kexact (fun _ : Nat → Nat → Nat => Eq.refl true))
private theorem TestMiniBufferReadBit_passes : Ok V3MiniTest.TestMiniBufferReadBit := of_check (by kexact (fun _ : Nat → Nat → Nat => Eq.refl true))
private theorem TestMiniBufferReadBitNext_passes : Ok V3MiniTest.TestMiniBufferReadBitNext := of_check (by kexact (fun _ : Nat → Nat → Nat => Eq.refl true))
private theorem TestMiniBufferReadBits_passes : Ok V3MiniTest.TestMiniBufferReadBits := of_check (by kexact (fun _ : Nat → Nat → Nat => Eq.refl true))
private theorem TestMiniBufferReadBitsNext_passes : Ok V3MiniTest.TestMiniBufferReadBitsNext := of_check (by kexact (fun _ : Nat → Nat → Nat => Eq.refl true))
private theorem TestMiniBufferSetBit_passes : Ok V3MiniTest.TestMiniBufferSetBit := of_check (by kexact (fun _ : Nat → Nat → Nat => Eq.refl true))
private theorem TestMiniBufferSetBitNext_passes : Ok V3MiniTest.TestMiniBufferSetBitNext := of_check (by kexact (fun _ : Nat → Nat → Nat => Eq.refl true))
private theorem TestMiniBufferClearBit_passes : Ok V3MiniTest.TestMiniBufferClearBit := of_check (by kexact (fun _ : Nat → Nat → Nat => Eq.refl true))
private theorem TestMiniBufferClearBitNext_passes : Ok V3MiniTest.TestMiniBufferClearBitNext := of_check (by kexact (fun _ : Nat → Nat → Nat => Eq.refl true))
private theorem TestMiniBufferSetBits_passes : Ok V3MiniTest.TestMiniBufferSetBits := of_check (by kexact (fun _ : Nat → Nat → Nat => Eq.refl true))
private theorem TestMiniBufferSetBitsNext_passes : Ok V3MiniTest.TestMiniBufferSetBitsNext := of_check (by kexact (fun _ : Nat → Nat → Nat => Eq.refl true))
private theorem TestMiniBufferFlipBit_passes : Ok V3MiniTest.TestMiniBufferFlipBit := of_check (by kexact (fun _ : Nat → Nat → Nat => Eq.refl true))
private theorem TestMiniBufferFlipBitNext_passes : Ok V3MiniTest.TestMiniBufferFlipBitNext := of_check (by kexact (fun _ : Nat → Nat → Nat => Eq.refl true))
private theorem TestMiniBufferClearAllBits_passes : Ok V3MiniTest.TestMiniBufferClearAllBits := of_check (by kexact (fun _ : Nat → Nat → Nat => Eq.refl true))
private theorem TestMiniBufferSetAllBits_passes : Ok V3MiniTest.TestMiniBufferSetAllBits := of_check (by kexact (fun _ : Nat → Nat → Nat => Eq.refl true))
private theorem TestMiniBufferFlipAllBits_passes : Ok V3MiniTest.TestMiniBufferFlipAllBits := of_check (by kexact (fun _ : Nat → Nat → Nat => Eq.refl true))

private theorem all : ∀ l ∈ V3MiniTest.text, Ok l :=
  all_cons TestNewMiniBuffer_passes <|
  all_cons TestMiniBufferBytes_passes <|
  all_cons TestMiniBufferByteCapacity_passes <|
  all_cons TestMiniBufferBitCapacity_passes <|
  all_cons TestMiniBufferByteOffset_passes <|
  all_cons TestMiniBufferBitOffset_passes <|
  all_cons TestMiniBufferRefresh_passes <|
  all_cons TestMiniBufferReset_passes <|
  all_cons TestMiniBufferTruncateLeft_passes <|
  all_cons TestMiniBufferTruncateRight_passes <|
  all_cons TestMiniBufferGrow_passes <|
  all_cons TestMiniBufferGrow2_passes <|
  all_cons TestMiniBufferSeekByte_passes <|
  all_cons TestMiniBufferSeekBit_passes <|
  all_cons TestMiniBufferAlignBit_passes <|
  all_cons TestMiniBufferAlignByte_passes <|
  all_cons TestMiniBufferAfterByte_passes <|
  all_cons TestMiniBufferAfterBit_passes <|
  all_cons TestMiniBufferReadBytes_passes <|
  all_cons TestMiniBufferReadBytesNext_passes <|
  all_cons TestMiniBufferReadSNEN_passes <|
  all_cons TestMiniBufferWriteBytes_passes <|
  all_cons TestMiniBufferWriteBytesNext_passes <|
  all_cons TestMiniBufferWriteSNEN_passes <|
  all_cons TestMiniBufferReadBit_passes <|
  all_cons TestMiniBufferReadBitNext_passes <|
  all_cons TestMiniBufferReadBits_passes <|
  all_cons TestMiniBufferReadBitsNext_passes <|
  all_cons TestMiniBufferSetBit_passes <|
  all_cons TestMiniBufferSetBitNext_passes <|
  all_cons TestMiniBufferClearBit_passes <|
  all_cons TestMiniBufferClearBitNext_passes <|
  all_cons TestMiniBufferSetBits_passes <|
  all_cons TestMiniBufferSetBitsNext_passes <|
  all_cons TestMiniBufferFlipBit_passes <|
  all_cons TestMiniBufferFlipBitNext_passes <|
  all_cons TestMiniBufferClearAllBits_passes <|
  all_cons TestMiniBufferSetAllBits_passes <|
  all_cons TestMiniBufferFlipAllBits_passes <|
  all_nil

/-- C134 (/repo/v3/minibuf_test.go): every test of the file passes, when the methods are run from their texts. -/
theorem C134_v3_mini :
    ∃ funs, compileAll V3Mini.text = some funs ∧
    ∀ l ∈ V3MiniTest.text, Passes (str% "MiniBuffer") ⟨funs, V3Mini.errs⟩ (runMini ⟨funs, V3Mini.errs⟩) l :=
  ⟨_, V3Mini.link, all⟩

/-- There are 39 of them. -/
example : V3MiniTest.text.length = 39 := by rfl

end Crunch.Src.Tests.V3MiniTest
