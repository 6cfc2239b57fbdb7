import Verif.Props.Progress
import Verif.Lemmas.CapInv

/-!
# The cached capacities of a shared `Buffer` (C92)
-/

namespace Crunch.V2
open V3 (St WF Val demo demo_wf)

/-- Whenever the mutex is free, the slice fits its array, the byte capacity is at most the length of the content and the
bit capacity is eight times the byte capacity. -/
theorem C92_capacity_bound {c0 c : Conf Op2 Val} {τ : Trace Op2 Val} (q : Quiet c0) (h0 : WF c0.sh.st) (e : Exec exec anyOp c0 τ c)
    (hf : c.sh.locked = false) :
    c.sh.st.OK ∧ c.sh.st.b.cap.toInt ≤ c.sh.st.b.buf.len ∧ c.sh.st.b.bcap = c.sh.st.b.cap * 8 :=
  shared_keeps (fun op _ => exec_brk op) (fun op _ => exec_keeps_le op) q (wf_capLe h0) e hf

/-- Unless somebody is in a call of `Grow`, the buffer is then well-formed: both capacities are those of the content. -/
theorem C92_capacity_exact {c0 c : Conf Op2 Val} {τ : Trace Op2 Val} (q : Quiet c0) (h0 : WF c0.sh.st) (e : Exec exec anyOp c0 τ c)
    (hn : ∀ i n p, c.thr i ≠ .busy (.grow n) p) (hf : c.sh.locked = false) : WF c.sh.st :=
  capEq_wf.mp ⟨shared_owes_free (fun op _ => exec_brk op) (fun op _ => exec_keeps_eq op) q (capEq_wf.mpr h0).1 e
    (fun i op p hi => by cases op <;> first | rfl | exact absurd hi (hn i _ p)) hf, (C92_capacity_bound q h0 e hf).1⟩

/-- So it is well-formed whenever nobody is in a call, even if some call has left the mutex locked. -/
theorem C92_capacity_idle {c0 c : Conf Op2 Val} {τ : Trace Op2 Val} (q : Quiet c0) (h0 : WF c0.sh.st) (e : Exec exec anyOp c0 τ c)
    (hn : ∀ i, c.thr i = .idle) : WF c.sh.st :=
  capEq_wf.mp ⟨shared_owes_idle (fun op _ => exec_brk op) (fun op _ => exec_keeps_eq op) q (capEq_wf.mpr h0).1 e hn,
    (shared_owes_idle (g := fun _ => false) (fun op _ => exec_brk op) (fun op _ => exec_keeps_le op) q (wf_capLe h0) e hn).1⟩

/-- One goroutine grows the buffer and has left its first section. -/
def demoLag : List (Nat × Option Op2) := (0, some (.grow 4)) :: steps 0 5

/-- In the middle of `Grow` the mutex is free and the capacity is less than the length of the content: a write that would fit
there is refused. -/
theorem C92_capacity_lags : ∃ τ c, Exec exec anyOp (rest _ _ demo) τ c ∧ started 0 τ = [.grow 4] ∧ c.sh.locked = false ∧
    c.sh.st.b.cap = 12 ∧ c.sh.st.b.buf.len = 16 ∧ ((Buffer.WriteByte 15 7).run c.sh).1 = .panic (.err BufferOverwriteError) := by
  obtain ⟨τ, c, e, h⟩ := sched_ex (allowed := anyOp) (ex := exec) (c0 := rest _ _ demo) demoLag
    (fun τ c => (started 0 τ matches [.grow 4]) && !c.sh.locked && c.sh.st.b.cap == 12 && c.sh.st.b.buf.len == 16 &&
      (match ((Buffer.WriteByte 15 7).run c.sh).1 with | .panic (.err x) => decide (x = BufferOverwriteError) | _ => false))
    (fun _ _ _ _ => trivial) (by decide +kernel)
  simp only [Bool.and_eq_true, beq_iff_eq, Bool.not_eq_true'] at h
  obtain ⟨⟨⟨⟨h1, h2⟩, h3⟩, h4⟩, h5⟩ := h
  refine ⟨τ, c, e, ?_, h2, h3, h4, ?_⟩
  · split at h1
    · assumption
    · exact nomatch h1
  · split at h5
    · rename_i h; rw [h, of_decide_eq_true h5]
    · exact nomatch h5

/-- After two goroutines have grown the buffer at once it is as long as its capacity says. -/
example : ∃ τ c, Exec exec anyOp (rest _ _ demo) τ c ∧ (∀ i, c.thr i = .idle) ∧ c.sh.st.b.cap = 20 := by
  obtain ⟨τ, c, e, hi, h⟩ := sched_ex_done (allowed := anyOp) (ex := exec) (rest_quiet demo) 2
    ((0, some (.grow 4)) :: (1, some (.grow 4)) :: steps 0 5 ++ steps 1 12 ++ steps 0 7)
    (fun _ c => c.sh.st.b.cap == 20) (fun _ _ _ _ => trivial) (by decide) (by decide +kernel)
  exact ⟨τ, c, e, hi, by simpa using h⟩

end Crunch.V2

namespace Crunch.V1
open V3 (St WF)

/-- C92 for v1: whenever the mutex is free, the slice fits its array, the byte capacity is at most the length of the content and the
bit capacity is eight times the byte capacity. -/
theorem C92_v1_capacity_bound {c0 c : Conf Op1 Val1} {τ : Trace Op1 Val1} (q : Quiet c0) (h0 : WF c0.sh.st) (e : Exec exec1 anyOp1 c0 τ c)
    (hf : c.sh.locked = false) :
    c.sh.st.OK ∧ c.sh.st.b.cap.toInt ≤ c.sh.st.b.buf.len ∧ c.sh.st.b.bcap = c.sh.st.b.cap * 8 :=
  shared_keeps (fun op _ => exec1_brk op) (fun op _ => exec1_keeps_le op) q (wf_capLe h0) e hf

/-- C92 for v1: unless somebody is in a call of `Grow`, the buffer is then well-formed: both capacities are those of the content. -/
theorem C92_v1_capacity_exact {c0 c : Conf Op1 Val1} {τ : Trace Op1 Val1} (q : Quiet c0) (h0 : WF c0.sh.st) (e : Exec exec1 anyOp1 c0 τ c)
    (hn : ∀ i n p, c.thr i ≠ .busy (.grow n) p) (hf : c.sh.locked = false) : WF c.sh.st :=
  capEq_wf.mp ⟨shared_owes_free (fun op _ => exec1_brk op) (fun op _ => exec1_keeps_eq op) q (capEq_wf.mpr h0).1 e
    (fun i op p hi => by cases op <;> first | rfl | exact absurd hi (hn i _ p)) hf, (C92_v1_capacity_bound q h0 e hf).1⟩

/-- C92 for v1: so it is well-formed whenever nobody is in a call, even if some call has left the mutex locked. -/
theorem C92_v1_capacity_idle {c0 c : Conf Op1 Val1} {τ : Trace Op1 Val1} (q : Quiet c0) (h0 : WF c0.sh.st) (e : Exec exec1 anyOp1 c0 τ c)
    (hn : ∀ i, c.thr i = .idle) : WF c.sh.st :=
  capEq_wf.mp ⟨shared_owes_idle (fun op _ => exec1_brk op) (fun op _ => exec1_keeps_eq op) q (capEq_wf.mpr h0).1 e hn,
    (shared_owes_idle (g := fun _ => false) (fun op _ => exec1_brk op) (fun op _ => exec1_keeps_le op) q (wf_capLe h0) e hn).1⟩

end Crunch.V1
