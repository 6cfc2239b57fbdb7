import Verif.Lemmas.GenLex

/-! The checks of the segments of one file, by computation in the kernel, eight segments at a time to save memory. -/

namespace Crunch.Gen

theorem buffer_checked0 : ((bufferSegs.drop 0).take 8).all segOk = true := by decide +kernel
theorem buffer_checked1 : ((bufferSegs.drop 8).take 8).all segOk = true := by decide +kernel
theorem buffer_checked2 : ((bufferSegs.drop 16).take 8).all segOk = true := by decide +kernel
theorem buffer_checked3 : ((bufferSegs.drop 24).take 8).all segOk = true := by decide +kernel
theorem buffer_checked4 : ((bufferSegs.drop 32).take 8).all segOk = true := by decide +kernel
theorem buffer_checked5 : ((bufferSegs.drop 40).take 8).all segOk = true := by decide +kernel
theorem buffer_checked6 : ((bufferSegs.drop 48).take 8).all segOk = true := by decide +kernel
theorem buffer_checked7 : ((bufferSegs.drop 56).take 8).all segOk = true := by decide +kernel
theorem buffer_checked8 : ((bufferSegs.drop 64).take 8).all segOk = true := by decide +kernel

theorem buffer_checked : ∀ s ∈ bufferSegs, segOk s = true := by
  have e : bufferSegs = (bufferSegs.drop 0).take 8 ++ ((bufferSegs.drop 8).take 8 ++ ((bufferSegs.drop 16).take 8 ++ ((bufferSegs.drop 24).take 8 ++ ((bufferSegs.drop 32).take 8 ++ ((bufferSegs.drop 40).take 8 ++ ((bufferSegs.drop 48).take 8 ++ ((bufferSegs.drop 56).take 8 ++ ((bufferSegs.drop 64).take 8)))))))) := rfl
  rw [e]
  simp only [List.mem_append]
  rintro s (h | h | h | h | h | h | h | h | h)
  · exact List.all_eq_true.mp buffer_checked0 s h
  · exact List.all_eq_true.mp buffer_checked1 s h
  · exact List.all_eq_true.mp buffer_checked2 s h
  · exact List.all_eq_true.mp buffer_checked3 s h
  · exact List.all_eq_true.mp buffer_checked4 s h
  · exact List.all_eq_true.mp buffer_checked5 s h
  · exact List.all_eq_true.mp buffer_checked6 s h
  · exact List.all_eq_true.mp buffer_checked7 s h
  · exact List.all_eq_true.mp buffer_checked8 s h

end Crunch.Gen
