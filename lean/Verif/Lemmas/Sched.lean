import Verif.Lemmas.Lin

/-! Executions given by explicit schedules, for examples. -/

namespace Crunch

/-- Goroutine `i` takes its next step, or starts `op`. -/
def schedStep (ex : O → Prog V) (c : Conf O V) (i : Nat) (o : Option O) : Option (Act O V × Conf O V) :=
  match c.thr i, o with
  | .idle, some op => some (.start op, c.set i (.busy op (ex op)) c.sh)
  | .busy op p, none =>
    match p.step c.sh with
    | some (e, p', sh) => some (.did e p', c.set i (.busy op p') sh)
    | none =>
      match p.result with
      | some r => some (.finish op r, c.set i .idle c.sh)
      | none => none
  | _, _ => none

/-- A whole schedule; the trace is `τ` followed by what happens. -/
def sched (ex : O → Prog V) (τ : Trace O V) (c : Conf O V) : List (Nat × Option O) → Option (Trace O V × Conf O V)
  | [] => some (τ, c)
  | (i, o) :: l =>
    match schedStep ex c i o with
    | some (a, c') => sched ex (τ ++ [(i, a)]) c' l
    | none => none

theorem schedStep_sound {ex : O → Prog V} {allowed : O → Prop} {c : Conf O V} {i : Nat} {o : Option O} {a : Act O V} {c' : Conf O V}
    (ho : ∀ op, o = some op → allowed op) (h : schedStep ex c i o = some (a, c')) : Step ex allowed c i a c' := by
  unfold schedStep at h
  split at h
  · rename_i op hi
    cases h
    exact .start op hi (ho _ rfl)
  · rename_i op p hi
    split at h
    · rename_i e p' sh hs
      cases h
      exact .did hi hs
    · split at h
      · rename_i r hr
        cases h
        exact .finish hi hr
      · exact nomatch h
  · exact nomatch h

theorem sched_sound {ex : O → Prog V} {allowed : O → Prop} {c0 : Conf O V} {l : List (Nat × Option O)} {τ : Trace O V} {c : Conf O V}
    {τ' : Trace O V} {c' : Conf O V} (hl : ∀ x ∈ l, ∀ op, x.2 = some op → allowed op) (e : Exec ex allowed c0 τ c)
    (h : sched ex τ c l = some (τ', c')) : Exec ex allowed c0 τ' c' := by
  induction l generalizing τ c with
  | nil => cases h; exact e
  | cons x l ih =>
    obtain ⟨i, o⟩ := x
    unfold sched at h
    split at h
    · rename_i a c1 hs
      exact ih (fun y hy => hl y (List.mem_cons_of_mem _ hy)) (e.snoc (schedStep_sound (hl _ (List.mem_cons_self ..)) hs)) h
    · exact nomatch h

/-- A schedule after which `P` holds. -/
theorem sched_ex {ex : O → Prog V} {allowed : O → Prop} {c0 : Conf O V} (l : List (Nat × Option O)) (P : Trace O V → Conf O V → Bool)
    (hl : ∀ x ∈ l, ∀ op, x.2 = some op → allowed op) (h : ((sched ex [] c0 l).any fun x => P x.1 x.2) = true) :
    ∃ τ c, Exec ex allowed c0 τ c ∧ P τ c = true := by
  cases e : sched ex [] c0 l with
  | none => rw [e] at h; exact nomatch h
  | some x => rw [e] at h; exact ⟨x.1, x.2, sched_sound hl .nil e, h⟩

theorem sched_other {ex : O → Prog V} {l : List (Nat × Option O)} {τ τ' : Trace O V} {c c' : Conf O V} {i : Nat}
    (hl : ∀ x ∈ l, x.1 ≠ i) (h : sched ex τ c l = some (τ', c')) : c'.thr i = c.thr i := by
  induction l generalizing τ c with
  | nil => cases h; rfl
  | cons x l ih =>
    obtain ⟨j, o⟩ := x
    unfold sched at h
    split at h
    · rename_i a c1 hs
      have hj : i ≠ j := fun e => hl _ (List.mem_cons_self ..) e.symm
      rw [ih (fun y hy => hl y (List.mem_cons_of_mem _ hy)) h]
      have key : ∀ t sh, (c.set j t sh).thr i = c.thr i := fun t sh => if_neg hj
      unfold schedStep at hs
      split at hs
      · cases hs; exact key _ _
      · split at hs
        · cases hs; exact key _ _
        · split at hs
          · cases hs; exact key _ _
          · exact nomatch hs
      · exact nomatch hs
    · exact nomatch h

/-- Between calls? -/
def Thr.isIdle : Thr O V → Bool
  | .idle => true
  | .busy .. => false

theorem Thr.isIdle_iff {t : Thr O V} : t.isIdle = true ↔ t = .idle := by cases t <;> simp [Thr.isIdle]

/-- A schedule for goroutines below `n` after which all calls are over and `P` holds. -/
theorem sched_ex_done {ex : O → Prog V} {allowed : O → Prop} {c0 : Conf O V} (q : Quiet c0) (n : Nat) (l : List (Nat × Option O))
    (P : Trace O V → Conf O V → Bool) (hl : ∀ x ∈ l, ∀ op, x.2 = some op → allowed op) (hn : (l.all fun x => x.1 < n) = true)
    (h : ((sched ex [] c0 l).any fun x => P x.1 x.2 && (List.range n).all fun i => (x.2.thr i).isIdle) = true) :
    ∃ τ c, Exec ex allowed c0 τ c ∧ (∀ i, c.thr i = .idle) ∧ P τ c = true := by
  cases e : sched ex [] c0 l with
  | none => rw [e] at h; exact nomatch h
  | some x =>
    rw [e] at h
    have h : (P x.1 x.2 && (List.range n).all fun i => (x.2.thr i).isIdle) = true := h
    rw [Bool.and_eq_true, List.all_eq_true] at h
    refine ⟨x.1, x.2, sched_sound hl .nil e, fun i => ?_, h.1⟩
    by_cases hi : i < n
    · exact Thr.isIdle_iff.mp (h.2 i (List.mem_range.mpr hi))
    · rw [sched_other (fun y hy ey => ?_) e, q.idle]
      have := List.all_eq_true.mp hn y hy
      simp at this
      omega

theorem sched_nothing {ex : O → Prog V} {l : List (Nat × Option O)} {τ τ' : Trace O V} {c c' : Conf O V} {i : Nat}
    (hl : ∀ x ∈ l, x.1 ≠ i) (h : sched ex τ c l = some (τ', c')) : started i τ' = started i τ ∧ finished i τ' = finished i τ := by
  induction l generalizing τ c with
  | nil => cases h; exact ⟨rfl, rfl⟩
  | cons x l ih =>
    obtain ⟨j, o⟩ := x
    unfold sched at h
    split at h
    · rename_i a c1 hs
      have hj : j ≠ i := hl _ (List.mem_cons_self ..)
      obtain ⟨h1, h2⟩ := ih (fun y hy => hl y (List.mem_cons_of_mem _ hy)) h
      rw [h1, h2, started_snoc, finished_snoc]
      have e1 : started i [(j, a)] = [] := by
        cases a <;> first | rfl | exact if_neg hj
      have e2 : finished i [(j, a)] = [] := by
        cases a <;> first | rfl | exact if_neg hj
      rw [e1, e2, List.append_nil, List.append_nil]
      exact ⟨rfl, rfl⟩
    · exact nomatch h

/-- A schedule for goroutines below `n` after which all calls are over and `P` holds; the others make no calls. -/
theorem sched_ex_only {ex : O → Prog V} {allowed : O → Prop} {c0 : Conf O V} (q : Quiet c0) (n : Nat) (l : List (Nat × Option O))
    (P : Trace O V → Conf O V → Bool) (hl : ∀ x ∈ l, ∀ op, x.2 = some op → allowed op) (hn : (l.all fun x => x.1 < n) = true)
    (h : ((sched ex [] c0 l).any fun x => P x.1 x.2 && (List.range n).all fun i => (x.2.thr i).isIdle) = true) :
    ∃ τ c, Exec ex allowed c0 τ c ∧ (∀ i, c.thr i = .idle) ∧ (∀ i, n ≤ i → started i τ = [] ∧ finished i τ = []) ∧ P τ c = true := by
  cases e : sched ex [] c0 l with
  | none => rw [e] at h; exact nomatch h
  | some x =>
    rw [e] at h
    have h : (P x.1 x.2 && (List.range n).all fun i => (x.2.thr i).isIdle) = true := h
    rw [Bool.and_eq_true, List.all_eq_true] at h
    have hne : ∀ i, n ≤ i → ∀ y ∈ l, y.1 ≠ i := fun i hi y hy ey => by
      have := List.all_eq_true.mp hn y hy
      simp at this
      omega
    refine ⟨x.1, x.2, sched_sound hl .nil e, fun i => ?_, fun i hi => sched_nothing (hne i hi) e, h.1⟩
    by_cases hi : i < n
    · exact Thr.isIdle_iff.mp (h.2 i (List.mem_range.mpr hi))
    · rw [sched_other (hne i (Nat.le_of_not_lt hi)) e, q.idle]

/-- The goroutines of a schedule all make allowed calls. -/
theorem allowed_of {allowed : O → Prop} {l : List (Nat × Option O)} (h : ∀ op ∈ l.filterMap (·.2), allowed op) :
    ∀ x ∈ l, ∀ op, x.2 = some op → allowed op := fun x hx op ho => h op (List.mem_filterMap.mpr ⟨x, hx, ho⟩)

/-- Everybody between calls, the mutex free. -/
def rest (O V : Type) (st : V3.St) : Conf O V := { thr := fun _ => .idle, sh := { st, locked := false } }

theorem rest_quiet (st : V3.St) : Quiet (rest O V st) := ⟨fun _ => rfl, rfl⟩

/-- The same goroutine takes `n` steps. -/
def steps (i n : Nat) : List (Nat × Option O) := List.replicate n (i, none)

end Crunch
