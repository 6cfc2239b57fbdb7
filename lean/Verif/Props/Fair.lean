import Verif.Props.SourceConc
import Verif.Lemmas.FairRun

/-!
# Fair schedules (C98)

C90 says that calls in progress can always be finished.  Here the schedule is infinite and not ours to choose: if it is fair, every call
does finish.
-/

namespace Crunch.V2
open V3 (St WF Val demo demo_wf)

/-- C98: on a fair schedule every call finishes, as long as no call ends by a panic inside its locked section. -/
theorem C98_fair_finish {c0 : Conf Op2 Val} (q : Quiet c0) (r : Run exec anyOp c0) (hf : r.Fair)
    (hn : ∀ n, ¬ EndedInside (r.trace n)) {n i : Nat} {op : Op2} {p : Prog Val} (hb : (r.conf n).thr i = .busy op p) :
    ∃ m x, n ≤ m ∧ r.sched m = some (i, .finish op x) :=
  fair_finish (fun op _ => exec_brk op) q r hf hn hb

/-- C98: on a fair schedule of calls other than writes and `Grow`, every call finishes. -/
theorem C98_reads_fair {c0 : Conf Op2 Val} (q : Quiet c0) (r : Run exec (fun op => leaks op = false) c0) (hf : r.Fair)
    {n i : Nat} {op : Op2} {p : Prog Val} (hb : (r.conf n).thr i = .busy op p) :
    ∃ m x, n ≤ m ∧ r.sched m = some (i, .finish op x) :=
  fair_finish (fun op _ => exec_brk op) q r hf (fun n => (C90_reads_finish q (r.exec n)).1) hb

/-- C98: on a fair schedule in which the writes have decent arguments and nobody grows or resets the buffer, every call finishes. -/
theorem C98_decent_fair {c0 : Conf Op2 Val} (q : Quiet c0) (h0 : WF c0.sh.st)
    (r : Run exec (fun op => op ≠ .reset ∧ (leaks op = true → Decent c0.sh.st.b.buf.len op)) c0) (hf : r.Fair)
    {n i : Nat} {op : Op2} {p : Prog Val} (hb : (r.conf n).thr i = .busy op p) :
    ∃ m x, n ≤ m ∧ r.sched m = some (i, .finish op x) :=
  fair_finish (fun op _ => exec_brk op) q r hf (fun n => (C93_finish_partial q h0 (r.exec n)).1) hb

/-- C98: on a schedule that is not fair a call may never finish: `Seek` waits for the mutex for ever, although it is free again and
again, while another goroutine makes one call after another; all of them finish. -/
theorem C98_starvation {c0 : Conf Op2 Val} (q : Quiet c0) :
    ∃ r : Run exec (fun op => leaks op = false) c0, r.sched 0 = some (0, .start (.seek 1 false)) ∧
      (∀ m op x, r.sched m ≠ some (0, .finish op x)) ∧ (∀ n, ∃ m, n ≤ m ∧ r.Ready 0 m) ∧
      ∀ n, ∃ m, n ≤ m ∧ r.sched m = some (1, .finish (.seek 0 true) (.ok .unit)) :=
  starves (op0 := Op2.seek 1 false) (op1 := Op2.seek 0 true) rfl rfl rfl rfl q

/-- A fair run in which both goroutines have calls in progress at moment 5, and both finish. -/
example : ∃ r : Run exec (fun op => op ≠ .reset ∧ (leaks op = true → Decent demo.b.buf.len op)) (rest _ _ demo), r.Fair ∧
    (∃ p, (r.conf 2).thr 0 = .busy (.writeByte (some 0) 7) p) ∧ ∃ p, (r.conf 2).thr 1 = .busy (.seek 1 true) p := by
  obtain ⟨τ, c, e, hi, h⟩ := sched_ex_done (allowed := fun op => op ≠ .reset ∧ (leaks op = true → Decent demo.b.buf.len op)) (ex := exec) (rest_quiet demo) 2
    ((0, some (.writeByte (some 0) 7)) :: (1, some (.seek 1 true)) :: steps 0 6 ++ steps 1 5)
    (fun τ _ => τ matches (0, .start (.writeByte (some 0) 7)) :: (1, .start (.seek 1 true)) :: _)
    (allowed_of fun op ho => by
      rcases (by simpa [steps, List.filterMap_cons, List.filterMap_append, List.filterMap_replicate_of_none] using ho :
        op = _ ∨ op = _) with rfl | rfl
      · exact ⟨nofun, fun _ _ => by decide⟩
      · exact ⟨nofun, nofun⟩) (by decide) (by decide +kernel)
  obtain ⟨r, hf, ht, hr⟩ := exists_run e hi
  refine ⟨r, hf, ?_⟩
  split at h
  · rename_i t
    have h0 : r.sched 0 = some (0, .start (.writeByte (some 0) 7)) := r.sched_of_trace ht 0 (by simp)
    have h1 : r.sched 1 = some (1, .start (.seek 1 true)) := r.sched_of_trace ht 1 (by simp)
    have s0 := r.step 0 _ _ h0
    have s1 := r.step 1 _ _ h1
    generalize r.conf 1 = c1 at s0 s1
    generalize r.conf 2 = c2 at s1
    cases s0
    cases s1
    exact ⟨⟨_, rfl⟩, _, rfl⟩
  · exact nomatch h

end Crunch.V2

namespace Crunch.Src

/-- C98: on a fair schedule every call run from the text finishes: as long as no call ends by a panic inside its locked section; when
there are no writes and no `Grow`; when writes have decent arguments and nobody grows or resets the
buffer. -/
theorem C98_fair_text :
    ∃ funs, compileAll (V2Utils.text ++ V2Buffer.text) = some funs ∧
    ∀ (fuel depth : Nat), 2 ^ 64 < fuel → 4 ≤ depth → ∀ {c0 : Conf V2.Op2 V}, Quiet c0 →
    (∀ (r : Run (textCall ⟨funs, V2Buffer.errs⟩ fuel depth) Two.Fits c0), r.Fair → (∀ n, ¬ EndedInside (r.trace n)) →
      ∀ n i op p, (r.conf n).thr i = .busy op p → ∃ m x, n ≤ m ∧ r.sched m = some (i, .finish op x)) ∧
    (∀ (r : Run (textCall ⟨funs, V2Buffer.errs⟩ fuel depth) (fun op => V2.leaks op = false ∧ Two.Fits op) c0), r.Fair →
      ∀ n i op p, (r.conf n).thr i = .busy op p → ∃ m x, n ≤ m ∧ r.sched m = some (i, .finish op x)) ∧
    (V3.WF c0.sh.st → ∀ (r : Run (textCall ⟨funs, V2Buffer.errs⟩ fuel depth) (fun op => (op ≠ .reset ∧ (V2.leaks op = true → V2.Decent c0.sh.st.b.buf.len op)) ∧ Two.Fits op) c0), r.Fair →
      ∀ n i op p, (r.conf n).thr i = .busy op p → ∃ m x, n ≤ m ∧ r.sched m = some (i, .finish op x)) := by
  obtain ⟨funs, hc, h⟩ := C86_buffer_text
  obtain ⟨funs1, hc1, h1⟩ := C97_reads_finish_text
  obtain ⟨funs2, hc2, h2⟩ := C97_decent_finish_text
  obtain rfl : funs = funs1 := Option.some.inj (hc.symm.trans hc1)
  obtain rfl : funs = funs2 := Option.some.inj (hc.symm.trans hc2)
  refine ⟨funs, hc, fun fuel depth hf hd c0 q => ?_⟩
  have hb : ∀ op, Two.Fits op → Brk false false (textCall ⟨funs, V2Buffer.errs⟩ fuel depth op) := fun op ho => by
    rw [h fuel depth hf hd op ho]
    exact (V2.exec_brk op).bind fun _ => rfl
  exact ⟨fun r hr hn n i op p hp => fair_finish hb q r hr hn hp,
    fun r hr n i op p hp => fair_finish (fun op ho => hb op ho.2) q r hr (fun n => (h1 fuel depth hf hd q (r.exec n)).1) hp,
    fun hw r hr n i op p hp => fair_finish (fun op ho => hb op ho.2) q r hr (fun n => (h2 fuel depth hf hd q hw (r.exec n)).1) hp⟩

end Crunch.Src

namespace Crunch.V1
open V3 (St WF Val demo demo_wf)

/-- C98: on a fair schedule every call finishes, as long as no call ends by a panic inside its locked section. -/
theorem C98_v1_fair_finish {c0 : Conf Op1 Val1} (q : Quiet c0) (r : Run exec1 anyOp1 c0) (hf : r.Fair)
    (hn : ∀ n, ¬ EndedInside (r.trace n)) {n i : Nat} {op : Op1} {p : Prog Val1} (hb : (r.conf n).thr i = .busy op p) :
    ∃ m x, n ≤ m ∧ r.sched m = some (i, .finish op x) :=
  fair_finish (fun op _ => exec1_brk op) q r hf hn hb

/-- C98: on a fair schedule of calls other than writes and `Grow`, every call finishes. -/
theorem C98_v1_reads_fair {c0 : Conf Op1 Val1} (q : Quiet c0) (r : Run exec1 (fun op => leaks1 op = false) c0) (hf : r.Fair)
    {n i : Nat} {op : Op1} {p : Prog Val1} (hb : (r.conf n).thr i = .busy op p) :
    ∃ m x, n ≤ m ∧ r.sched m = some (i, .finish op x) :=
  fair_finish (fun op _ => exec1_brk op) q r hf (fun n => (C90_v1_reads_finish q (r.exec n)).1) hb

/-- C98: on a fair schedule in which the writes have decent arguments and nobody grows the buffer, every call finishes. -/
theorem C98_v1_decent_fair {c0 : Conf Op1 Val1} (q : Quiet c0) (h0 : WF c0.sh.st)
    (r : Run exec1 (fun op => leaks1 op = true → Decent c0.sh.st.b.buf.len op) c0) (hf : r.Fair)
    {n i : Nat} {op : Op1} {p : Prog Val1} (hb : (r.conf n).thr i = .busy op p) :
    ∃ m x, n ≤ m ∧ r.sched m = some (i, .finish op x) :=
  fair_finish (fun op _ => exec1_brk op) q r hf (fun n => (C93_v1_finish q h0 (r.exec n)).1) hb

/-- C98: on a schedule that is not fair a call may never finish: `Seek` waits for the mutex for ever, although it is free again and
again, while another goroutine makes one call after another; all of them finish. -/
theorem C98_v1_starvation {c0 : Conf Op1 Val1} (q : Quiet c0) :
    ∃ r : Run exec1 (fun op => leaks1 op = false) c0, r.sched 0 = some (0, .start (.seek 1 false)) ∧
      (∀ m op x, r.sched m ≠ some (0, .finish op x)) ∧ (∀ n, ∃ m, n ≤ m ∧ r.Ready 0 m) ∧
      ∀ n, ∃ m, n ≤ m ∧ r.sched m = some (1, .finish (.seek 0 true) (.ok (.val .unit))) :=
  starves (op0 := Op1.seek 1 false) (op1 := Op1.seek 0 true) rfl rfl rfl rfl q

/-- A fair run in which both goroutines have calls in progress at moment 5, and both finish. -/
example : ∃ r : Run exec1 (fun op => leaks1 op = true → Decent demo.b.buf.len op) (rest _ _ demo), r.Fair ∧
    (∃ p, (r.conf 2).thr 0 = .busy (.writeByte (some 0) 7) p) ∧ ∃ p, (r.conf 2).thr 1 = .busy (.seek 1 true) p := by
  obtain ⟨τ, c, e, hi, h⟩ := sched_ex_done (allowed := fun op => leaks1 op = true → Decent demo.b.buf.len op) (ex := exec1) (rest_quiet demo) 2
    ((0, some (.writeByte (some 0) 7)) :: (1, some (.seek 1 true)) :: steps 0 6 ++ steps 1 5)
    (fun τ _ => τ matches (0, .start (.writeByte (some 0) 7)) :: (1, .start (.seek 1 true)) :: _)
    (allowed_of fun op ho => by
      rcases (by simpa [steps, List.filterMap_cons, List.filterMap_append, List.filterMap_replicate_of_none] using ho :
        op = _ ∨ op = _) with rfl | rfl
      · exact fun _ => ⟨_, rfl, fun _ => by decide⟩
      · exact nofun) (by decide) (by decide +kernel)
  obtain ⟨r, hf, ht, hr⟩ := exists_run e hi
  refine ⟨r, hf, ?_⟩
  split at h
  · rename_i t
    have h0 : r.sched 0 = some (0, .start (.writeByte (some 0) 7)) := r.sched_of_trace ht 0 (by simp)
    have h1 : r.sched 1 = some (1, .start (.seek 1 true)) := r.sched_of_trace ht 1 (by simp)
    have s0 := r.step 0 _ _ h0
    have s1 := r.step 1 _ _ h1
    generalize r.conf 1 = c1 at s0 s1
    generalize r.conf 2 = c2 at s1
    cases s0
    cases s1
    exact ⟨⟨_, rfl⟩, _, rfl⟩
  · exact nomatch h

end Crunch.V1

namespace Crunch.Src

/-- C98: on a fair schedule every call run from the text finishes: as long as no call ends by a panic inside its locked section; when
there are no writes and no `Grow`; when writes have decent arguments and nobody grows the buffer. -/
theorem C98_v1_fair_text :
    ∃ funs, compileAll (V1Utils.text ++ V1Buffer.text) = some funs ∧
    ∀ (fuel depth : Nat), 2 ^ 64 < fuel → 4 ≤ depth → ∀ {c0 : Conf V1.Op1 V}, Quiet c0 →
    (∀ (r : Run (textCall1 ⟨funs, V1Buffer.errs⟩ fuel depth) One.Fits c0), r.Fair → (∀ n, ¬ EndedInside (r.trace n)) →
      ∀ n i op p, (r.conf n).thr i = .busy op p → ∃ m x, n ≤ m ∧ r.sched m = some (i, .finish op x)) ∧
    (∀ (r : Run (textCall1 ⟨funs, V1Buffer.errs⟩ fuel depth) (fun op => V1.leaks1 op = false ∧ One.Fits op) c0), r.Fair →
      ∀ n i op p, (r.conf n).thr i = .busy op p → ∃ m x, n ≤ m ∧ r.sched m = some (i, .finish op x)) ∧
    (V3.WF c0.sh.st → ∀ (r : Run (textCall1 ⟨funs, V1Buffer.errs⟩ fuel depth) (fun op => (V1.leaks1 op = true → V1.Decent c0.sh.st.b.buf.len op) ∧ One.Fits op) c0), r.Fair →
      ∀ n i op p, (r.conf n).thr i = .busy op p → ∃ m x, n ≤ m ∧ r.sched m = some (i, .finish op x)) := by
  obtain ⟨funs, hc, h⟩ := C87_buffer_text
  obtain ⟨funs1, hc1, h1⟩ := C97_v1_reads_finish_text
  obtain ⟨funs2, hc2, h2⟩ := C97_v1_decent_finish_text
  obtain rfl : funs = funs1 := Option.some.inj (hc.symm.trans hc1)
  obtain rfl : funs = funs2 := Option.some.inj (hc.symm.trans hc2)
  refine ⟨funs, hc, fun fuel depth hf hd c0 q => ?_⟩
  have hb : ∀ op, One.Fits op → Brk false false (textCall1 ⟨funs, V1Buffer.errs⟩ fuel depth op) := fun op ho => by
    rw [h fuel depth hf hd op ho]
    exact (V1.exec1_brk op).bind fun _ => rfl
  exact ⟨fun r hr hn n i op p hp => fair_finish hb q r hr hn hp,
    fun r hr n i op p hp => fair_finish (fun op ho => hb op ho.2) q r hr (fun n => (h1 fuel depth hf hd q (r.exec n)).1) hp,
    fun hw r hr n i op p hp => fair_finish (fun op ho => hb op ho.2) q r hr (fun n => (h2 fuel depth hf hd q hw (r.exec n)).1) hp⟩

end Crunch.Src
