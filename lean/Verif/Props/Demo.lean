import Verif.Lemmas.ByteOps

/-! Concrete states used to show that the hypotheses of the property theorems can be met. -/

namespace Crunch.V3

/-- A buffer of 12 bytes inside an array of 20, with 4 spare bytes, and a second array. -/
def demo : St :=
  { mem := { arrays := [[1, 2, 3, 4, 5, 6, 7, 8, 9, 10, 11, 12, 13, 14, 15, 16, 17, 18, 19, 20], [0xAA, 0xBB, 0xCC]],
             slack := fun _ n => n }
    b := { buf := { arr := 0, off := 2, len := 12, cap := 16 }, off := 3, cap := 12, boff := 5, bcap := 96 } }

theorem demo_wf : WF demo := ⟨⟨by decide, by decide, by decide⟩, by decide, by decide⟩

/-- A slice over the second array of `demo`. -/
def demoSrc : Slice := { arr := 1, off := 0, len := 3, cap := 3 }
theorem demoSrc_ok : SliceOK demo.mem demoSrc := ⟨by decide, by decide, by decide⟩

/-- The empty buffer of `demo`'s memory. -/
def demoEmpty : St := { demo with b := ⟨⟨0, 2, 0, 0⟩, 0, 0, 0, 0⟩ }
theorem demoEmpty_wf : WF demoEmpty := ⟨⟨by decide, by decide, by decide⟩, by decide, by decide⟩

end Crunch.V3
