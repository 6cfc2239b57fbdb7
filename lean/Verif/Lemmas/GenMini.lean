import Verif.Lemmas.GenBuffer

/-! The checks of the segments of one file, by computation in the kernel, eight segments at a time to save memory. -/

namespace Crunch.Gen

theorem mini_checked0 : ((miniSegs.drop 0).take 8).all segOk = true := by decide +kernel
theorem mini_checked1 : ((miniSegs.drop 8).take 8).all segOk = true := by decide +kernel
theorem mini_checked2 : ((miniSegs.drop 16).take 8).all segOk = true := by decide +kernel
theorem mini_checked3 : ((miniSegs.drop 24).take 8).all segOk = true := by decide +kernel
theorem mini_checked4 : ((miniSegs.drop 32).take 8).all segOk = true := by decide +kernel
theorem mini_checked5 : ((miniSegs.drop 40).take 8).all segOk = true := by decide +kernel
theorem mini_checked6 : ((miniSegs.drop 48).take 8).all segOk = true := by decide +kernel
theorem mini_checked7 : ((miniSegs.drop 56).take 8).all segOk = true := by decide +kernel
theorem mini_checked8 : ((miniSegs.drop 64).take 8).all segOk = true := by decide +kernel

theorem mini_checked : ∀ s ∈ miniSegs, segOk s = true := by
  have e : miniSegs = (miniSegs.drop 0).take 8 ++ ((miniSegs.drop 8).take 8 ++ ((miniSegs.drop 16).take 8 ++ ((miniSegs.drop 24).take 8 ++ ((miniSegs.drop 32).take 8 ++ ((miniSegs.drop 40).take 8 ++ ((miniSegs.drop 48).take 8 ++ ((miniSegs.drop 56).take 8 ++ ((miniSegs.drop 64).take 8)))))))) := rfl
  rw [e]
  simp only [List.mem_append]
  rintro s (h | h | h | h | h | h | h | h | h)
  · exact List.all_eq_true.mp mini_checked0 s h
  · exact List.all_eq_true.mp mini_checked1 s h
  · exact List.all_eq_true.mp mini_checked2 s h
  · exact List.all_eq_true.mp mini_checked3 s h
  · exact List.all_eq_true.mp mini_checked4 s h
  · exact List.all_eq_true.mp mini_checked5 s h
  · exact List.all_eq_true.mp mini_checked6 s h
  · exact List.all_eq_true.mp mini_checked7 s h
  · exact List.all_eq_true.mp mini_checked8 s h

end Crunch.Gen
