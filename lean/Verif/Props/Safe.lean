import Verif.Props.Capacity
import Verif.Lemmas.SafeOps

/-!
# What calls on a shared `Buffer` can fail with (C93)

The checks at the head of a method are made before the mutex is taken, so that what they found may be out of date when the section
runs.  `InRange L op` says that the arguments of `op` name a range in the first `L` bytes, `Decent L op` that they do not take the
arithmetic of the checks by surprise (`Verif/Ranges.lean`).
-/

namespace Crunch

theorem held0_wf {s : V3.St} (h : V3.WF s) : Held0 s.b.buf.len s := by
  have h1 := h.ok.len_le
  have h2 := h.ok.cap_le
  have hm : maxAlloc = 2 ^ 48 := rfl
  have e1 : s.b.cap.toInt = s.b.buf.len := by rw [h.cap]; exact toInt_ofNat (by omega)
  have e2 : s.b.bcap.toInt = (8 * s.b.buf.len : Nat) := by rw [h.bcap]; exact toInt_ofNat (by omega)
  exact ⟨h1, h2, by omega, by omega, by omega, by omega⟩

theorem first_ended {τ : Trace O V} (h : EndedInside τ) :
    ∃ τ1 i op r τ2, τ = τ1 ++ (i, .finish op r) :: τ2 ∧ inside τ1 i = true ∧ ¬ EndedInside τ1 := by
  suffices key : ∀ n (τ : Trace O V), τ.length ≤ n → EndedInside τ →
      ∃ τ1 i op r τ2, τ = τ1 ++ (i, .finish op r) :: τ2 ∧ inside τ1 i = true ∧ ¬ EndedInside τ1 from key _ τ (Nat.le_refl _) h
  intro n
  induction n with
  | zero =>
    intro τ hn ⟨τ1, i, op, r, τ2, e, _⟩
    rw [e, List.length_append, List.length_cons] at hn
    omega
  | succ n ih =>
    intro τ hn ⟨τ1, i, op, r, τ2, e, hi⟩
    by_cases h1 : EndedInside τ1
    · obtain ⟨a, j, op', r', b, e', h'⟩ := ih τ1 (by rw [e, List.length_append, List.length_cons] at hn; omega) h1
      exact ⟨a, j, op', r', b ++ (i, .finish op r) :: τ2, by rw [e, e', List.append_assoc, List.cons_append], h'⟩
    · exact ⟨τ1, i, op, r, τ2, e, hi, h1⟩

theorem mem_finished {τ : Trace O V} {i : Nat} {op : O} {r : Res V} (h : (op, r) ∈ finished i τ) : (i, .finish op r) ∈ τ := by
  induction τ with
  | nil => exact nomatch h
  | cons x τ ih =>
    obtain ⟨j, a⟩ := x
    cases a <;> unfold finished at h
    case finish o r' =>
      split at h
      · rename_i hj
        rcases List.mem_cons.mp h with h | h
        · cases h; subst hj; exact List.mem_cons_self
        · exact List.mem_cons_of_mem _ (ih h)
      · exact List.mem_cons_of_mem _ (ih h)
    all_goals exact List.mem_cons_of_mem _ (ih h)

end Crunch

namespace Crunch.V2
open V3 (St WF Val demo demo_wf)

/-- C93, the full statement: whatever calls run at once, those whose range is inside the buffer return. -/
def C93_full : Prop :=
  ∀ (s : St), WF s → ∀ (τ1 τ2 : Trace Op2 Val) (c : Conf Op2 Val) (i : Nat) (op : Op2) (r : Res Val),
    Exec exec anyOp (rest _ _ s) (τ1 ++ (i, .finish op r) :: τ2) c → InRange s.b.buf.len op → ∃ v, r = .ok v

/-- One goroutine has passed the check of `WriteByte`; another one resets the buffer. -/
def demoReset : List (Nat × Option Op2) :=
  (0, some (.writeByte (some 0) 7)) :: steps 0 1 ++ (1, some .reset) :: steps 1 9 ++ steps 0 3

/-- C93 is false because of `Reset`: a write that has passed its check finds an empty buffer in its section, fails with a run-time
panic there and leaves the mutex locked. -/
theorem C93_in_range_false : ¬ C93_full ∧ ∃ τ c, Exec exec anyOp (rest _ _ demo) τ c ∧ started 0 τ = [.writeByte (some 0) 7] ∧
    started 1 τ = [.reset] ∧ finished 0 τ = [(.writeByte (some 0) 7, .panic .index)] ∧ c.sh.locked = true := by
  have w : ∃ τ c, Exec exec anyOp (rest _ _ demo) τ c ∧ started 0 τ = [.writeByte (some 0) 7] ∧
      started 1 τ = [.reset] ∧ finished 0 τ = [(.writeByte (some 0) 7, .panic .index)] ∧ c.sh.locked = true := by
    obtain ⟨τ, c, e, h⟩ := sched_ex (allowed := anyOp) (ex := exec) (c0 := rest _ _ demo) demoReset
      (fun τ c => (started 0 τ matches [.writeByte (some 0) 7]) && (started 1 τ matches [.reset]) &&
        (finished 0 τ matches [(.writeByte (some 0) 7, .panic .index)]) && c.sh.locked)
      (fun _ _ _ _ => trivial) (by decide +kernel)
    simp only [Bool.and_eq_true] at h
    obtain ⟨⟨⟨h1, h2⟩, h3⟩, h4⟩ := h
    refine ⟨τ, c, e, ?_, ?_, ?_, h4⟩
    · split at h1
      · assumption
      · exact nomatch h1
    · split at h2
      · assumption
      · exact nomatch h2
    · split at h3
      · assumption
      · exact nomatch h3
  refine ⟨fun hf => ?_, w⟩
  obtain ⟨τ, c, e, _, _, h, _⟩ := w
  obtain ⟨τ1, τ2, rfl⟩ := List.append_of_mem (mem_finished (i := 0) (op := Op2.writeByte (some 0) 7) (r := .panic .index) (by rw [h]; simp))
  obtain ⟨v, hv⟩ := hf demo demo_wf τ1 τ2 c 0 _ _ e ⟨by decide, by decide⟩
  exact nomatch hv

section
variable {c0 c : Conf Op2 Val} {τ1 τ2 : Trace Op2 Val} {i : Nat} {op : Op2} {r : Res Val}

/-- C93 without `Reset`: whatever other calls run at once, those whose range is inside the content the buffer started with return. -/
theorem C93_in_range_partial (q : Quiet c0) (h0 : WF c0.sh.st)
    (e : Exec exec (fun op => op ≠ .reset) c0 (τ1 ++ (i, .finish op r) :: τ2) c) (h : InRange c0.sh.st.b.buf.len op) :
    ∃ v, r = .ok v := by
  have hL := Nat.le_trans h0.ok.len_le h0.ok.cap_le
  obtain ⟨l, _, h1 | ⟨p, _, h2, _⟩⟩ := (exec_safe (fun op _ => exec_brk op) (fun op ho => exec_fails op hL ho) q (held0_wf h0) e).2 _ _ _ _ _ rfl
  · exact h1.1
  · exact absurd h (h2 (h.decent hL)).2.1

/-- C93 without `Reset`: decent calls return or fail with an error of the library, never with a run-time panic. -/
theorem C93_errors_partial (q : Quiet c0) (h0 : WF c0.sh.st)
    (e : Exec exec (fun op => op ≠ .reset) c0 (τ1 ++ (i, .finish op r) :: τ2) c) (h : Decent c0.sh.st.b.buf.len op) :
    (∃ v, r = .ok v) ∨ ∃ x, r = .panic (.err x) := by
  have hL := Nat.le_trans h0.ok.len_le h0.ok.cap_le
  obtain ⟨l, _, h1 | ⟨p, rfl, h2, _⟩⟩ := (exec_safe (fun op _ => exec_brk op) (fun op ho => exec_fails op hL ho) q (held0_wf h0) e).2 _ _ _ _ _ rfl
  · exact .inl h1.1
  · obtain ⟨⟨x, rfl⟩, _⟩ := h2 h
    exact .inr ⟨x, rfl⟩

/-- C93 without `Reset`: the first call that ends inside its section, leaving the mutex locked, is a write or `Grow` and not decent. -/
theorem C93_leak_partial (q : Quiet c0) (h0 : WF c0.sh.st)
    (e : Exec exec (fun op => op ≠ .reset) c0 (τ1 ++ (i, .finish op r) :: τ2) c) (hi : inside τ1 i = true) (hn : ¬ EndedInside τ1) :
    leaks op = true ∧ ¬ Decent c0.sh.st.b.buf.len op := by
  have hL := Nat.le_trans h0.ok.len_le h0.ok.cap_le
  obtain ⟨l, hl, h⟩ := (exec_safe (fun op _ => exec_brk op) (fun op ho => exec_fails op hL ho) q (held0_wf h0) e).2 _ _ _ _ _ rfl
  have hl : l = true := by cases l with
    | true => rfl
    | false => exact absurd (hl hi rfl) hn
  subst hl
  rcases h with h | ⟨p, _, h1, h2⟩
  · exact nomatch h.2
  · refine ⟨?_, fun h => nomatch (h1 h).2.2⟩
    cases ho : leaks op with
    | true => rfl
    | false => exact nomatch h2 ho

/-- C93 without `Reset`: if all writes are decent and nobody grows the buffer, no call ends inside its section, and the calls in
progress can always be finished. -/
theorem C93_finish_partial {τ : Trace Op2 Val} (q : Quiet c0) (h0 : WF c0.sh.st)
    (e : Exec exec (fun op => op ≠ .reset ∧ (leaks op = true → Decent c0.sh.st.b.buf.len op)) c0 τ c) :
    ¬ EndedInside τ ∧ ∃ τ' c', Exec exec noCall c τ' c' ∧ ∀ i, c'.thr i = .idle := by
  have key : ∀ {τ c}, Exec exec (fun op => op ≠ .reset ∧ (leaks op = true → Decent c0.sh.st.b.buf.len op)) c0 τ c → ¬ EndedInside τ := by
    intro τ c e h
    obtain ⟨τ1, i, op, r, τ2, rfl, h1, h2⟩ := first_ended h
    have hL := Nat.le_trans h0.ok.len_le h0.ok.cap_le
    obtain ⟨l, hl, h⟩ := (exec_safe (Ee := fun _ _ l => l = false) (fun op _ => exec_brk op) (fun op ho => wp_weaken (fun q l h => by
      cases hl : leaks op with
      | true => exact (h.1 (ho.2 hl)).2.2
      | false => exact h.2 hl) (exec_fails op hL ho.1)) q (held0_wf h0) e).2 _ _ _ _ _ rfl
    exact h2 (hl h1 (h.elim (·.2) fun ⟨_, _, h⟩ => h))
  refine ⟨key e, ?_⟩
  obtain ⟨τ', c', e', h | h⟩ := shared_finish (fun op _ => exec_brk op) q e
  · exact ⟨τ', c', e', h⟩
  · exact absurd h (key (e.trans (e'.mono fun _ h => h.elim)))
end

/-- One goroutine has passed the check of a write to the last byte; another one grows the buffer, which moves the content. -/
def demoMove : List (Nat × Option Op2) :=
  (0, some (.writeByte (some 11) 7)) :: steps 0 1 ++ (1, some (.grow 4)) :: steps 1 12 ++ steps 0 5

/-- The write is in range and returns. -/
example : ∃ τ1 τ2 c v, Exec exec (fun op => op ≠ .reset) (rest _ _ demo) (τ1 ++ (0, .finish (.writeByte (some 11) 7) (.ok v)) :: τ2) c ∧
    InRange demo.b.buf.len (.writeByte (some 11) 7) ∧ c.sh.st.b.buf.len = 16 := by
  obtain ⟨τ, c, e, h⟩ := sched_ex (allowed := fun op => op ≠ .reset) (ex := exec) (c0 := rest _ _ demo) demoMove
    (fun τ c => (finished 0 τ matches [(.writeByte (some 11) 7, .ok _)]) && c.sh.st.b.buf.len == 16)
    (allowed_of fun op ho => by
      rcases (by simpa [demoMove, steps, List.filterMap_cons, List.filterMap_append, List.filterMap_replicate_of_none] using ho :
        op = _ ∨ op = _) with rfl | rfl <;> exact nofun) (by decide +kernel)
  simp only [Bool.and_eq_true, beq_iff_eq] at h
  obtain ⟨h1, h2⟩ := h
  split at h1
  · rename_i v h
    obtain ⟨τ1, τ2, rfl⟩ := List.append_of_mem (mem_finished (i := 0) (op := Op2.writeByte (some 11) 7) (r := .ok v) (by rw [h]; exact List.mem_singleton.mpr rfl))
    exact ⟨τ1, τ2, c, v, e, ⟨by decide, by decide⟩, h2⟩
  · exact nomatch h1

/-- A write that is decent but not in range fails with an error of the library. -/
example : Decent demo.b.buf.len (.writeByte (some 12) 7) ∧ ¬ InRange demo.b.buf.len (.writeByte (some 12) 7) ∧
    (match ((exec (.writeByte (some 12) 7)).run ⟨demo, false⟩).1 with | .panic (.err x) => decide (x = BufferOverwriteError) | _ => false) = true :=
  ⟨fun _ => by decide, fun h => absurd h.2 (by decide), by decide +kernel⟩

/-- One that is not decent fails with a run-time panic and leaves the mutex locked. -/
example : ¬ Decent demo.b.buf.len (.writeByte (some Int64.maxValue) 7) ∧
    ((exec (.writeByte (some Int64.maxValue) 7)).run ⟨demo, false⟩).2.locked = true :=
  ⟨fun h => absurd (h (by decide)) (by decide), by decide +kernel⟩

end Crunch.V2

namespace Crunch.V1
open V3 (St WF demo demo_wf)

section
variable {c0 c : Conf Op1 Val1} {τ1 τ2 : Trace Op1 Val1} {i : Nat} {op : Op1} {r : Res Val1}

/-- C93 for v1, which has no `Reset`: whatever calls run at once, those whose range is inside the content the buffer started with
return. -/
theorem C93_v1_in_range (q : Quiet c0) (h0 : WF c0.sh.st) (e : Exec exec1 anyOp1 c0 (τ1 ++ (i, .finish op r) :: τ2) c)
    (h : InRange c0.sh.st.b.buf.len op) : ∃ v, r = .ok v := by
  have hL := Nat.le_trans h0.ok.len_le h0.ok.cap_le
  obtain ⟨l, _, h1 | ⟨p, _, h2, _⟩⟩ := (exec_safe (fun op _ => exec1_brk op) (fun op _ => exec1_fails op hL) q (held0_wf h0) e).2 _ _ _ _ _ rfl
  · exact h1.1
  · exact absurd h (h2 (.inr h)).2.1

/-- C93 for v1: decent calls return or fail with an error of the library, never with a run-time panic. -/
theorem C93_v1_errors (q : Quiet c0) (h0 : WF c0.sh.st) (e : Exec exec1 anyOp1 c0 (τ1 ++ (i, .finish op r) :: τ2) c)
    (h : Decent c0.sh.st.b.buf.len op) : (∃ v, r = .ok v) ∨ ∃ x, r = .panic (.err x) := by
  have hL := Nat.le_trans h0.ok.len_le h0.ok.cap_le
  obtain ⟨l, _, h1 | ⟨p, rfl, h2, _⟩⟩ := (exec_safe (fun op _ => exec1_brk op) (fun op _ => exec1_fails op hL) q (held0_wf h0) e).2 _ _ _ _ _ rfl
  · exact .inl h1.1
  · obtain ⟨⟨x, rfl⟩, _⟩ := h2 (.inl h)
    exact .inr ⟨x, rfl⟩

/-- C93 for v1: the first call that ends inside its section, leaving the mutex locked, is a write or `Grow` and not decent. -/
theorem C93_v1_leak (q : Quiet c0) (h0 : WF c0.sh.st) (e : Exec exec1 anyOp1 c0 (τ1 ++ (i, .finish op r) :: τ2) c)
    (hi : inside τ1 i = true) (hn : ¬ EndedInside τ1) : leaks1 op = true ∧ ¬ Decent c0.sh.st.b.buf.len op := by
  have hL := Nat.le_trans h0.ok.len_le h0.ok.cap_le
  obtain ⟨l, hl, h⟩ := (exec_safe (fun op _ => exec1_brk op) (fun op _ => exec1_fails op hL) q (held0_wf h0) e).2 _ _ _ _ _ rfl
  have hl : l = true := by cases l with
    | true => rfl
    | false => exact absurd (hl hi rfl) hn
  subst hl
  rcases h with h | ⟨p, _, h1, h2⟩
  · exact nomatch h.2
  · refine ⟨?_, fun h => nomatch (h1 (.inl h)).2.2⟩
    cases ho : leaks1 op with
    | true => rfl
    | false => exact nomatch h2 ho

/-- C93 for v1: if all writes are decent and nobody grows the buffer, no call ends inside its section, and the calls in progress can
always be finished. -/
theorem C93_v1_finish {τ : Trace Op1 Val1} (q : Quiet c0) (h0 : WF c0.sh.st)
    (e : Exec exec1 (fun op => leaks1 op = true → Decent c0.sh.st.b.buf.len op) c0 τ c) :
    ¬ EndedInside τ ∧ ∃ τ' c', Exec exec1 noCall c τ' c' ∧ ∀ i, c'.thr i = .idle := by
  have key : ∀ {τ c}, Exec exec1 (fun op => leaks1 op = true → Decent c0.sh.st.b.buf.len op) c0 τ c → ¬ EndedInside τ := by
    intro τ c e h
    obtain ⟨τ1, i, op, r, τ2, rfl, h1, h2⟩ := first_ended h
    have hL := Nat.le_trans h0.ok.len_le h0.ok.cap_le
    obtain ⟨l, hl, h⟩ := (exec_safe (Ee := fun _ _ l => l = false) (fun op _ => exec1_brk op) (fun op ho => wp_weaken (fun q l h => by
      cases hl : leaks1 op with
      | true => exact (h.1 (.inl (ho hl))).2.2
      | false => exact h.2 hl) (exec1_fails op hL)) q (held0_wf h0) e).2 _ _ _ _ _ rfl
    exact h2 (hl h1 (h.elim (·.2) fun ⟨_, _, h⟩ => h))
  refine ⟨key e, ?_⟩
  obtain ⟨τ', c', e', h | h⟩ := shared_finish (fun op _ => exec1_brk op) q e
  · exact ⟨τ', c', e', h⟩
  · exact absurd h (key (e.trans (e'.mono fun _ h => h.elim)))
end

/-- `ReadComplex` of six integers of two bytes is in range in the demonstration buffer of twelve bytes, of seven it is not, though the
check lets it pass. -/
example : InRange demo.b.buf.len (.readComplex (some 0) 6 Unsigned16 (some .be)) ∧
    ¬ InRange demo.b.buf.len (.readComplex (some 0) 7 Unsigned16 (some .be)) := by
  refine ⟨⟨2, rfl, by decide, by decide, by decide⟩, fun ⟨z, h1, _, h2⟩ => ?_⟩
  cases (show some 2 = some z from h1)
  exact absurd h2.2 (by decide)

/-- Two goroutines write and read at once. -/
def demoBoth : List (Nat × Option Op1) :=
  (0, some (.writeComplex (some 0) (.u16 [0xAABB]) Unsigned16 (some .be))) ::
    (1, some (.readComplex (some 0) 1 Unsigned16 (some .be))) :: steps 1 5 ++ steps 0 4

example : ∃ τ c, Exec exec1 (fun op => leaks1 op = true → Decent demo.b.buf.len op) (rest _ _ demo) τ c ∧
    c.thr 0 ≠ .idle ∧ c.thr 1 ≠ .idle := by
  obtain ⟨τ, c, e, h⟩ := sched_ex (allowed := fun op => leaks1 op = true → Decent demo.b.buf.len op) (ex := exec1)
    (c0 := rest _ _ demo) demoBoth (fun τ c => !(c.thr 0).isIdle && !(c.thr 1).isIdle)
    (allowed_of fun op ho => by
      rcases (by simpa [demoBoth, steps, List.filterMap_cons, List.filterMap_append, List.filterMap_replicate_of_none] using ho :
        op = _ ∨ op = _) with rfl | rfl
      · exact fun _ => ⟨1, 2, rfl, by decide, by decide, fun _ => by decide⟩
      · exact nofun) (by decide +kernel)
  simp only [Bool.and_eq_true, Bool.not_eq_true'] at h
  refine ⟨τ, c, e, fun hi => ?_, fun hi => ?_⟩
  · rw [hi] at h; exact nomatch h.1
  · rw [hi] at h; exact nomatch h.2

end Crunch.V1
