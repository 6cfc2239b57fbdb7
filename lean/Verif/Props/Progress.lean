import Verif.Props.Conc
import Verif.Props.V1Seq
import Verif.Lemmas.TidyOps
import Verif.Lemmas.HeldOps

/-!
# Progress and data races of the shared v1 and v2 `Buffer`s (C90, C91)

A step of `Step ex noCall` is a step of a call already in progress: nobody starts a new one.
-/

namespace Crunch.V2
open V3 (St WF Val demo demo_wf)

/-! ## C90 -/

/-- No deadlock: unless some call has ended by a panic inside its locked section, either nobody is in a call or some call in
progress can take a step. -/
theorem C90_no_deadlock {c0 c : Conf Op2 Val} {τ : Trace Op2 Val} (q : Quiet c0) (e : Exec exec anyOp c0 τ c)
    (hn : ¬ EndedInside τ) : (∀ i, c.thr i = .idle) ∨ ∃ i a c', Step exec noCall c i a c' :=
  shared_no_deadlock (fun op _ => exec_brk op) q e hn

/-- No livelock: the calls in progress cannot go on forever, however they are scheduled. -/
theorem C90_no_livelock {c0 c : Conf Op2 Val} {τ : Trace Op2 Val} (q : Quiet c0) (e : Exec exec anyOp c0 τ c)
    (f : Nat → Conf Op2 Val) (i : Nat → Nat) (a : Nat → Act Op2 Val) (h0 : f 0 = c) :
    ¬ ∀ n, Step exec noCall (f n) (i n) (a n) (f (n + 1)) :=
  shared_finite q e f i a h0

/-- So the calls in progress can always be brought to their ends, unless one of them ends by a panic inside its section. -/
theorem C90_calls_finish {c0 c : Conf Op2 Val} {τ : Trace Op2 Val} (q : Quiet c0) (e : Exec exec anyOp c0 τ c) :
    ∃ τ' c', Exec exec noCall c τ' c' ∧ ((∀ i, c'.thr i = .idle) ∨ EndedInside (τ ++ τ')) :=
  shared_finish (fun op _ => exec_brk op) q e

/-- Calls other than writes and `Grow` never end inside their sections, whatever the others do: they can always be finished. -/
theorem C90_reads_finish {c0 c : Conf Op2 Val} {τ : Trace Op2 Val} (q : Quiet c0)
    (e : Exec exec (fun op => leaks op = false) c0 τ c) :
    ¬ EndedInside τ ∧ ∃ τ' c', Exec exec noCall c τ' c' ∧ ∀ i, c'.thr i = .idle :=
  ⟨(exec_tidy_thr (fun op h => exec_tidy op h) q e).1, shared_tidy (fun op h => ⟨exec_brk op, exec_tidy op h⟩) q e⟩

/-- After a call has ended inside its section the mutex stays locked, nobody enters a section and the state never changes again. -/
theorem C90_stuck {c0 c c' : Conf Op2 Val} {τ τ' : Trace Op2 Val} (q : Quiet c0) (e : Exec exec anyOp c0 τ c) (h : EndedInside τ)
    (e' : Exec exec anyOp c τ' c') : c'.sh.locked = true ∧ c'.sh.st = c.sh.st ∧ sections (τ ++ τ') = sections τ :=
  shared_stuck (fun op _ => exec_brk op) q e h e'

/-- The calls of `demoCalls` are in progress, one inside its section, the other waiting. -/
example : ∃ τ c, Exec exec anyOp (rest _ _ demo) τ c ∧ c.thr 0 ≠ .idle ∧ c.thr 1 ≠ .idle ∧ ¬ EndedInside τ := by
  obtain ⟨τ, c, e, h⟩ := sched_ex (allowed := anyOp) (ex := exec) (c0 := rest _ _ demo) demoCalls
    (fun τ c => !(c.thr 0).isIdle && !(c.thr 1).isIdle && τ.all (fun x => !(x.2 matches .finish _ _)))
    (fun _ _ _ _ => trivial) (by decide +kernel)
  simp only [Bool.and_eq_true, Bool.not_eq_true'] at h
  refine ⟨τ, c, e, fun hi => ?_, fun hi => ?_, ?_⟩
  · rw [hi] at h; exact nomatch h.1.1
  · rw [hi] at h; exact nomatch h.1.2
  · rintro ⟨τ1, i, op, r, τ2, rfl, _⟩
    have := List.all_eq_true.mp h.2 (i, .finish op r) (by simp)
    exact nomatch this

/-- `Grow(-1)` ends inside its section; a goroutine that wants to seek waits forever. -/
def demoStuck : List (Nat × Option Op2) := (0, some (.grow (-1))) :: steps 0 3 ++ [(1, some (.seek 1 false))]

example : ∃ τ c, Exec exec anyOp (rest _ _ demo) τ c ∧ EndedInside τ ∧ c.thr 1 ≠ .idle := by
  obtain ⟨τ, c, e, h⟩ := sched_ex (allowed := anyOp) (ex := exec) (c0 := rest _ _ demo) demoStuck
    (fun τ c => (τ matches [_, _, _, (0, .finish _ _), _]) && inside (τ.take 3) 0 && !(c.thr 1).isIdle)
    (fun _ _ _ _ => trivial) (by decide +kernel)
  simp only [Bool.and_eq_true, Bool.not_eq_true'] at h
  refine ⟨τ, c, e, ?_, fun hi => ?_⟩
  · obtain ⟨⟨h1, h2⟩, _⟩ := h
    split at h1
    · exact ⟨_, _, _, _, _, rfl, h2⟩
    · exact nomatch h1
  · rw [hi] at h; exact nomatch h.2

/-! ## C91 -/

/-- C91, the full statement: goroutines calling methods never race. -/
def C91_full : Prop :=
  ∀ (s : St), WF s → ∀ (τ : Trace Op2 Val) (c : Conf Op2 Val), Exec exec anyOp (rest _ _ s) τ c → ∀ l, ¬ c.Race l

/-- One goroutine seeks, another asks for the offset. -/
def demoOffsetRace : List (Nat × Option Op2) := [(0, some (.seek 1 false)), (0, none), (1, some .offset)]

/-- One goroutine reads a byte, having left the section in which it took the slice; another one is about to write it. -/
def demoByteRace : List (Nat × Option Op2) :=
  (0, some (.readByte (some 0))) :: steps 0 4 ++ (1, some (.writeByte (some 0) 7)) :: steps 1 3

/-- C91 is false: `Offset` reads the offset without the mutex while `Seek` assigns it, and `ReadByte` loads the byte after
releasing the mutex while `WriteByte` stores it. -/
theorem C91_race_free_false : ¬ C91_full ∧
    (∃ τ c, Exec exec anyOp (rest _ _ demo) τ c ∧ started 0 τ = [.seek 1 false] ∧ started 1 τ = [.offset] ∧ c.Race (.field .off)) ∧
    (∃ τ c, Exec exec anyOp (rest _ _ demo) τ c ∧ started 0 τ = [.readByte (some 0)] ∧ started 1 τ = [.writeByte (some 0) 7] ∧
      c.Race (.byte 0 2)) := by
  have h1 : ∃ τ c, Exec exec anyOp (rest _ _ demo) τ c ∧ started 0 τ = [.seek 1 false] ∧ started 1 τ = [.offset] ∧
      c.Race (.field .off) := by
    obtain ⟨τ, c, e, h⟩ := sched_ex (allowed := anyOp) (ex := exec) (c0 := rest _ _ demo) demoOffsetRace
      (fun τ c => (c.thr 0 matches .busy _ (.setI .off _ _)) && (c.thr 1 matches .busy _ (.getI .off _)) &&
        (started 0 τ matches [.seek 1 false]) && (started 1 τ matches [.offset]))
      (fun _ _ _ _ => trivial) (by decide +kernel)
    simp only [Bool.and_eq_true] at h
    obtain ⟨⟨⟨h1, h2⟩, h3⟩, h4⟩ := h
    refine ⟨τ, c, e, ?_, ?_, 0, 1, by decide, ?_, .inr ?_⟩
    · split at h3
      · assumption
      · exact nomatch h3
    · split at h4
      · assumption
      · exact nomatch h4
    · split at h1
      · rename_i h; exact ⟨_, _, h, rfl⟩
      · exact nomatch h1
    · split at h2
      · rename_i h; exact ⟨_, _, h, rfl⟩
      · exact nomatch h2
  have h2 : ∃ τ c, Exec exec anyOp (rest _ _ demo) τ c ∧ started 0 τ = [.readByte (some 0)] ∧ started 1 τ = [.writeByte (some 0) 7] ∧
      c.Race (.byte 0 2) := by
    obtain ⟨τ, c, e, h⟩ := sched_ex (allowed := anyOp) (ex := exec) (c0 := rest _ _ demo) demoByteRace
      (fun τ c => (c.thr 1 matches .busy _ (.store ⟨0, 2, _, _⟩ 0 _ _)) && (c.thr 0 matches .busy _ (.load ⟨0, 2, _, _⟩ 0 _)) &&
        (started 0 τ matches [.readByte (some 0)]) && (started 1 τ matches [.writeByte (some 0) 7]))
      (fun _ _ _ _ => trivial) (by decide +kernel)
    simp only [Bool.and_eq_true] at h
    obtain ⟨⟨⟨h1, h2⟩, h3⟩, h4⟩ := h
    refine ⟨τ, c, e, ?_, ?_, 1, 0, by decide, ?_, .inr ?_⟩
    · split at h3
      · assumption
      · exact nomatch h3
    · split at h4
      · assumption
      · exact nomatch h4
    · split at h1
      · rename_i h; exact ⟨_, _, h, rfl⟩
      · exact nomatch h1
    · split at h2
      · rename_i h; exact ⟨_, _, h, rfl⟩
      · exact nomatch h2
  refine ⟨fun hf => ?_, h1, h2⟩
  obtain ⟨τ, c, e, _, _, hr⟩ := h1
  exact hf demo demo_wf τ c e _ hr

/-- C91, what holds for all calls: two goroutines are never about to change something at once, so that in every race one side
only reads. -/
theorem C91_one_writer_partial {c0 c : Conf Op2 Val} {τ : Trace Op2 Val} (q : Quiet c0) (e : Exec exec anyOp c0 τ c)
    {i j : Nat} {l l' : Loc} (hi : c.aboutToWrite i l) (hj : c.aboutToWrite j l') : i = j :=
  shared_no_two_writers (fun op _ => exec_brk op) q e hi hj

/-- C91: the bytes of memory are never raced for, as long as nobody calls `ReadByte` or `ReadByteNext`. -/
theorem C91_bytes_partial {c0 c : Conf Op2 Val} {τ : Trace Op2 Val} (q : Quiet c0)
    (e : Exec exec (fun op => ∀ p, op ≠ .readByte p) c0 τ c) (arr n : Nat) : ¬ c.Race (.byte arr n) :=
  shared_no_byte_race (fun op h => ⟨exec_brk op, exec_held op h⟩) q e arr n

/-- C91: calls with a single section that look only at the capacities before it (C67) never race. -/
theorem C91_atomic_partial {c0 c : Conf Op2 Val} {τ : Trace Op2 Val} (q : Quiet c0) (e : Exec exec Atomic c0 τ c) (l : Loc) :
    ¬ c.Race l :=
  shared_once_race_free exec_once q e l

/-- In the middle of `demoRace` one goroutine is about to store a byte and the other one waits for the mutex. -/
example : ∃ τ c, Exec exec Atomic (rest _ _ demo) τ c ∧ c.aboutToWrite 0 (.byte 0 3) ∧ c.thr 1 ≠ .idle := by
  obtain ⟨τ, c, e, h⟩ := sched_ex (allowed := Atomic) (ex := exec) (c0 := rest _ _ demo) (demoRace.take 7)
    (fun _ c => (c.thr 0 matches .busy _ (.store ⟨0, 2, _, _⟩ 1 _ _)) && !(c.thr 1).isIdle)
    (allowed_of fun op ho => by
      rcases (by simpa [demoRace, steps, List.filterMap_cons, List.filterMap_append, List.filterMap_replicate_of_none] using ho :
        op = _ ∨ op = _) with rfl | rfl <;> rfl) (by decide +kernel)
  simp only [Bool.and_eq_true, Bool.not_eq_true'] at h
  refine ⟨τ, c, e, ?_, fun hi => ?_⟩
  · have h1 := h.1
    split at h1
    · rename_i h2; exact ⟨_, _, h2, rfl⟩
    · exact nomatch h1
  · rw [hi] at h; exact nomatch h.2

end Crunch.V2

namespace Crunch.V1
open V3 (St WF demo demo_wf)

/-! ## C90 for v1 -/

/-- C90 for v1: no deadlock. -/
theorem C90_v1_no_deadlock {c0 c : Conf Op1 Val1} {τ : Trace Op1 Val1} (q : Quiet c0) (e : Exec exec1 anyOp1 c0 τ c)
    (hn : ¬ EndedInside τ) : (∀ i, c.thr i = .idle) ∨ ∃ i a c', Step exec1 noCall c i a c' :=
  shared_no_deadlock (fun op _ => exec1_brk op) q e hn

/-- C90 for v1: no livelock. -/
theorem C90_v1_no_livelock {c0 c : Conf Op1 Val1} {τ : Trace Op1 Val1} (q : Quiet c0) (e : Exec exec1 anyOp1 c0 τ c)
    (f : Nat → Conf Op1 Val1) (i : Nat → Nat) (a : Nat → Act Op1 Val1) (h0 : f 0 = c) :
    ¬ ∀ n, Step exec1 noCall (f n) (i n) (a n) (f (n + 1)) :=
  shared_finite q e f i a h0

/-- C90 for v1: the calls in progress can be finished, unless one of them ends by a panic inside its section. -/
theorem C90_v1_calls_finish {c0 c : Conf Op1 Val1} {τ : Trace Op1 Val1} (q : Quiet c0) (e : Exec exec1 anyOp1 c0 τ c) :
    ∃ τ' c', Exec exec1 noCall c τ' c' ∧ ((∀ i, c'.thr i = .idle) ∨ EndedInside (τ ++ τ')) :=
  shared_finish (fun op _ => exec1_brk op) q e

/-- C90 for v1: calls other than writes and `Grow` never end inside their sections and can always be finished. -/
theorem C90_v1_reads_finish {c0 c : Conf Op1 Val1} {τ : Trace Op1 Val1} (q : Quiet c0)
    (e : Exec exec1 (fun op => leaks1 op = false) c0 τ c) :
    ¬ EndedInside τ ∧ ∃ τ' c', Exec exec1 noCall c τ' c' ∧ ∀ i, c'.thr i = .idle :=
  ⟨(exec_tidy_thr (fun op h => exec1_tidy op h) q e).1, shared_tidy (fun op h => ⟨exec1_brk op, exec1_tidy op h⟩) q e⟩

/-- C90 for v1: after a call has ended inside its section nothing ever changes again. -/
theorem C90_v1_stuck {c0 c c' : Conf Op1 Val1} {τ τ' : Trace Op1 Val1} (q : Quiet c0) (e : Exec exec1 anyOp1 c0 τ c)
    (h : EndedInside τ) (e' : Exec exec1 anyOp1 c τ' c') :
    c'.sh.locked = true ∧ c'.sh.st = c.sh.st ∧ sections (τ ++ τ') = sections τ :=
  shared_stuck (fun op _ => exec1_brk op) q e h e'

/-! ## C91 for v1 -/

/-- C91 for v1, the full statement: goroutines calling methods never race. -/
def C91_v1_full : Prop :=
  ∀ (s : St), WF s → ∀ (τ : Trace Op1 Val1) (c : Conf Op1 Val1), Exec exec1 anyOp1 (rest _ _ s) τ c → ∀ l, ¬ c.Race l

/-- One goroutine decodes integers from the slice it got in its section; another one writes. -/
def demoComplexRace : List (Nat × Option Op1) :=
  (0, some (.readComplex (some 0) 1 Unsigned16 (some .be))) :: steps 0 5 ++
    (1, some (.writeComplex (some 0) (.u16 [0xAABB]) Unsigned16 (some .be))) :: steps 1 3

/-- C91 for v1 is false: `ReadComplex` decodes the bytes after releasing the mutex. -/
theorem C91_v1_race_free_false : ¬ C91_v1_full := by
  intro hf
  obtain ⟨τ, c, e, h⟩ := sched_ex (allowed := anyOp1) (ex := exec1) (c0 := rest _ _ demo) demoComplexRace
    (fun τ c => (c.thr 1 matches .busy _ (.store ⟨0, 2, _, _⟩ 0 _ _)) && (c.thr 0 matches .busy _ (.load ⟨0, 2, _, _⟩ 0 _)))
    (fun _ _ _ _ => trivial) (by decide +kernel)
  simp only [Bool.and_eq_true] at h
  obtain ⟨h1, h2⟩ := h
  refine hf demo demo_wf τ c e (.byte 0 2) ⟨1, 0, by decide, ?_, .inr ?_⟩
  · split at h1
    · rename_i h; exact ⟨_, _, h, rfl⟩
    · exact nomatch h1
  · split at h2
    · rename_i h; exact ⟨_, _, h, rfl⟩
    · exact nomatch h2

/-- C91 for v1, what holds for all calls: two goroutines are never about to change something at once. -/
theorem C91_v1_one_writer_partial {c0 c : Conf Op1 Val1} {τ : Trace Op1 Val1} (q : Quiet c0) (e : Exec exec1 anyOp1 c0 τ c)
    {i j : Nat} {l l' : Loc} (hi : c.aboutToWrite i l) (hj : c.aboutToWrite j l') : i = j :=
  shared_no_two_writers (fun op _ => exec1_brk op) q e hi hj

/-- C91 for v1: the bytes of memory are never raced for, as long as nobody calls `ReadByte` or reads integers of several bytes
with `ReadComplex`. -/
theorem C91_v1_bytes_partial {c0 c : Conf Op1 Val1} {τ : Trace Op1 Val1} (q : Quiet c0)
    (e : Exec exec1 (fun op => loadsLater op = false) c0 τ c) (arr n : Nat) : ¬ c.Race (.byte arr n) :=
  shared_no_byte_race (fun op h => ⟨exec1_brk op, exec1_held op h⟩) q e arr n

/-- C91 for v1: calls with a single section that look only at the capacities before it never race. -/
theorem C91_v1_atomic_partial {c0 c : Conf Op1 Val1} {τ : Trace Op1 Val1} (q : Quiet c0) (e : Exec exec1 Atomic1 c0 τ c) (l : Loc) :
    ¬ c.Race l :=
  shared_once_race_free exec1_once q e l

end Crunch.V1
