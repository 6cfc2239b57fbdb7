import Verif.Happens
import Verif.Lemmas.Race
import Verif.Lemmas.Progress
import Verif.Lemmas.Lin

/-! Accesses inside sections are ordered by happens-before. -/

namespace Crunch

variable {O V : Type} {ex : O → Prog V} {allowed : O → Prop} {c0 c : Conf O V} {τ : Trace O V}

theorem Exec.take (e : Exec ex allowed c0 τ c) (n : Nat) : ∃ c', Exec ex allowed c0 (τ.take n) c' := by
  induction e with
  | nil => exact ⟨c0, by rw [List.take_nil]; exact .nil⟩
  | @snoc τ c c' i a e st ih =>
    by_cases h : n ≤ τ.length
    · rw [List.take_append_of_le_length h]; exact ih
    · rw [List.take_of_length_le (by rw [List.length_append, List.length_singleton]; omega)]
      exact ⟨c', e.snoc st⟩

theorem inside_take {n : Nat} {x : Nat × Act O V} (h : τ[n]? = some x) (i : Nat) : inside (τ.take (n + 1)) i = enter (inside (τ.take n) i) i x := by
  rw [List.take_add_one, h, ← inside_snoc]
  rfl

theorem inside_over {n : Nat} (h : τ[n]? = none) (i : Nat) : inside (τ.take (n + 1)) i = inside (τ.take n) i := by
  rw [List.take_add_one, h]
  simp

/-- Who is inside has locked, and has stayed inside since. -/
theorem last_lock {n j : Nat} (h : inside (τ.take n) j = true) :
    ∃ k p, k < n ∧ τ[k]? = some (j, .did .lock p) ∧ ∀ m, k < m → m ≤ n → inside (τ.take m) j = true := by
  induction n with
  | zero => exact nomatch h
  | succ n ih =>
    have go : inside (τ.take n) j = true → ∃ k p, k < n + 1 ∧ τ[k]? = some (j, .did .lock p) ∧ ∀ m, k < m → m ≤ n + 1 → inside (τ.take m) j = true := by
      intro h'
      obtain ⟨k, p, h1, h2, h3⟩ := ih h'
      refine ⟨k, p, by omega, h2, fun m hm hn => ?_⟩
      by_cases e : m = n + 1
      · rw [e]; exact h
      · exact h3 m hm (by omega)
    cases hx : τ[n]? with
    | none => rw [inside_over hx] at h; exact go h
    | some x =>
      obtain ⟨i, a⟩ := x
      have h' := h
      rw [inside_take hx] at h'
      simp only [enter] at h'
      split at h'
      · rename_i hij
        subst hij
        split at h'
        · rename_i p
          exact ⟨n, p, by omega, hx, fun m hm hn => by rw [show m = n + 1 by omega]; exact h⟩
        · exact nomatch h'
        · exact go h'
      · exact go h'

/-- Who is inside and later is not has unlocked in between. -/
theorem next_unlock {m k i : Nat} (hm : inside (τ.take m) i = true) (hk : inside (τ.take k) i = false) (h : m ≤ k) :
    ∃ u p, m ≤ u ∧ u < k ∧ τ[u]? = some (i, .did .unlock p) := by
  induction k with
  | zero => rw [Nat.le_zero.mp h] at hm; rw [hm] at hk; exact nomatch hk
  | succ k ih =>
    by_cases e : m = k + 1
    · rw [← e, hm] at hk; exact nomatch hk
    · have go : inside (τ.take k) i = false → ∃ u p, m ≤ u ∧ u < k + 1 ∧ τ[u]? = some (i, .did .unlock p) := by
        intro h'
        obtain ⟨u, p, h1, h2, h3⟩ := ih h' (by omega)
        exact ⟨u, p, h1, by omega, h3⟩
      cases hx : τ[k]? with
      | none => rw [inside_over hx] at hk; exact go hk
      | some x =>
        obtain ⟨j, a⟩ := x
        rw [inside_take hx] at hk
        simp only [enter] at hk
        split at hk
        · rename_i hij
          subst hij
          split at hk
          · exact nomatch hk
          · rename_i p
            exact ⟨k, p, by omega, by omega, hx⟩
          · exact go hk
        · exact go hk

theorem Exec.last {i : Nat} {a : Act O V} (e : Exec ex allowed c0 (τ ++ [(i, a)]) c) : ∃ c', Exec ex allowed c0 τ c' ∧ Step ex allowed c' i a c := by
  generalize h : τ ++ [(i, a)] = σ at e
  cases e with
  | nil => exact absurd h (by simp)
  | snoc e st =>
    obtain ⟨h1, h2⟩ := List.append_inj' h rfl
    cases h2
    subst h1
    exact ⟨_, e, st⟩

theorem hold_one (hex : ∀ op, allowed op → Brk false false (ex op)) (q : Quiet c0) (e : Exec ex allowed c0 τ c) {i j : Nat} (hi : inside τ i = true)
    (hj : inside τ j = true) : i = j := by
  obtain ⟨k, a, v⟩ := exec_inv hex q e
  rw [v.hold, decide_eq_true_eq] at hi hj
  exact Option.some.inj (hi.symm.trans hj)

/-- When a lock is acquired nobody is inside. -/
theorem lock_free (hex : ∀ op, allowed op → Brk false false (ex op)) (q : Quiet c0) (e : Exec ex allowed c0 τ c) {k j : Nat} {p : Prog V}
    (h : τ[k]? = some (j, .did .lock p)) (i : Nat) : inside (τ.take k) i = false := by
  obtain ⟨c1, e1⟩ := e.take (k + 1)
  rw [List.take_add_one, h] at e1
  obtain ⟨c2, e2, st⟩ := e1.last
  obtain ⟨o, a, v⟩ := exec_inv hex q e2
  cases st with
  | did hi hs =>
    rename_i op r sh
    have hl : c2.sh.locked = false := by
      cases r with
      | lock k =>
        change (if c2.sh.locked = true then none else some (Event.lock, k, (⟨c2.sh.st, true⟩ : Sh))) = _ at hs
        split at hs
        · exact nomatch hs
        · rename_i h; simpa using h
      | ret a => exact nomatch hs
      | panic a => exact nomatch hs
      | _ => cases hs
    rw [v.locked] at hl
    rw [v.hold]
    cases o with
    | none => rfl
    | some _ => exact nomatch hl

/-- Steps made inside sections of different goroutines are ordered. -/
theorem hb_inside (hex : ∀ op, allowed op → Brk false false (ex op)) (q : Quiet c0) (e : Exec ex allowed c0 τ c) {m n i j : Nat} {a b : Act O V}
    (hne : i ≠ j) (hmn : m < n) (hm : τ[m]? = some (i, a)) (hn : τ[n]? = some (j, b)) (ha : ∀ p, a ≠ .did .unlock p) (hi : inside (τ.take m) i = true)
    (hj : inside (τ.take n) j = true) : HB τ m n := by
  obtain ⟨k, p, hk, hl, hs⟩ := last_lock hj
  have hkm : m < k := by
    apply Classical.byContradiction
    intro h
    by_cases e' : k = m
    · rw [e', hm] at hl; cases hl; exact hne rfl
    · obtain ⟨c1, e1⟩ := e.take m
      exact hne (hold_one hex q e1 hi (hs m (by omega) (by omega)))
  obtain ⟨u, r, h1, h2, h3⟩ := next_unlock hi (lock_free hex q e hl i) (by omega)
  have hum : m < u := by
    apply Nat.lt_of_le_of_ne h1
    rintro rfl
    rw [hm] at h3
    cases h3
    exact ha _ rfl
  exact .trans (.order hum hm h3) (.trans (.sync h2 h3 hl) (.order hk hl hn))

theorem access_event {p p' : Prog V} {s s' : Sh} {e : Event} {l : Loc} (h : p.reads s l ∨ p.writes s l) (hs : p.step s = some (e, p', s')) : e ≠ .unlock := by
  rintro rfl
  cases p with
  | unlock k => rcases h with h | h <;> exact h
  | lock k =>
    change (if s.locked = true then none else some (Event.lock, k, (⟨s.st, true⟩ : Sh))) = _ at hs
    split at hs
    · exact nomatch hs
    · cases hs
  | ret a => exact nomatch hs
  | panic a => exact nomatch hs
  | _ => cases hs

theorem ReadsAt.step {n i : Nat} {op : O} {l : Loc} (h : ReadsAt ex allowed c0 τ n i op l) : ∃ a, τ[n]? = some (i, a) ∧ ∀ p, a ≠ .did .unlock p := by
  obtain ⟨c, c', p, ev, p', _, h2, h3, st, h4⟩ := h
  refine ⟨_, h4, fun r hr => ?_⟩
  cases hr
  cases st with
  | did hi hs => rw [h2] at hi; cases hi; exact access_event (.inl h3) hs rfl

theorem WritesAt.step {n i : Nat} {op : O} {l : Loc} (h : WritesAt ex allowed c0 τ n i op l) : ∃ a, τ[n]? = some (i, a) ∧ ∀ p, a ≠ .did .unlock p := by
  obtain ⟨c, c', p, ev, p', _, h2, h3, st, h4⟩ := h
  refine ⟨_, h4, fun r hr => ?_⟩
  cases hr
  cases st with
  | did hi hs => rw [h2] at hi; cases hi; exact access_event (.inr h3) hs rfl

theorem WritesAt.inside (hex : ∀ op, allowed op → Brk false false (ex op)) (q : Quiet c0) {n i : Nat} {op : O} {l : Loc}
    (h : WritesAt ex allowed c0 τ n i op l) : inside (τ.take n) i = true := by
  obtain ⟨c, c', p, ev, p', e, h2, h3, _⟩ := h
  exact shared_writer_inside hex q e ⟨op, p, h2, h3⟩

/-- An access inside its section and a change are ordered. -/
theorem hb_of_inside (hex : ∀ op, allowed op → Brk false false (ex op)) (q : Quiet c0) (e : Exec ex allowed c0 τ c) {m n i j : Nat} {op op' : O}
    {l l' : Loc} (hne : i ≠ j) (hw : WritesAt ex allowed c0 τ m i op l)
    (ha : ReadsAt ex allowed c0 τ n j op' l' ∨ WritesAt ex allowed c0 τ n j op' l') (hj : inside (τ.take n) j = true) : HB τ m n ∨ HB τ n m := by
  obtain ⟨a, h1, h2⟩ := hw.step
  obtain ⟨b, h3, h4⟩ : ∃ a, τ[n]? = some (j, a) ∧ ∀ p, a ≠ .did .unlock p := ha.elim (·.step) (·.step)
  rcases Nat.lt_trichotomy m n with h | rfl | h
  · exact .inl (hb_inside hex q e hne h h1 h3 h2 (hw.inside hex q) hj)
  · rw [h1] at h3; cases h3; exact absurd rfl hne
  · exact .inr (hb_inside hex q e hne.symm h h3 h1 h4 hj (hw.inside hex q))

/-- In a data race one side reads outside its section. -/
theorem race_outside (hex : ∀ op, allowed op → Brk false false (ex op)) (q : Quiet c0) (e : Exec ex allowed c0 τ c) {i j : Nat} {op op' : O} {l : Loc}
    (h : DataRace ex allowed c0 τ i j op op' l) : ∃ m n, WritesAt ex allowed c0 τ m i op l ∧ ReadsAt ex allowed c0 τ n j op' l ∧
      inside (τ.take m) i = true ∧ inside (τ.take n) j = false := by
  obtain ⟨hne, m, n, hw, ha, h1, h2⟩ := h
  have hj : inside (τ.take n) j = false := by
    cases hj : inside (τ.take n) j with
    | false => rfl
    | true => rcases hb_of_inside hex q e hne hw ha hj with h | h
              · exact absurd h h1
              · exact absurd h h2
  rcases ha with ha | ha
  · exact ⟨m, n, hw, ha, hw.inside hex q, hj⟩
  · rw [ha.inside hex q] at hj; exact nomatch hj

theorem started_append (i : Nat) (τ σ : Trace O V) : started i (τ ++ σ) = started i τ ++ started i σ := by
  induction τ with
  | nil => rfl
  | cons x τ ih =>
    obtain ⟨j, a⟩ := x
    cases a with
    | start o =>
      simp only [List.cons_append, started]
      split
      · rw [ih]; rfl
      · exact ih
    | did ev p => exact ih
    | finish o r => exact ih

theorem HB.lt {m n : Nat} (h : HB τ m n) : m < n := by
  induction h with
  | order h => exact h
  | sync h => exact h
  | trans _ _ h1 h2 => omega

/-- Steps one right after the other are ordered only if they are steps of one goroutine, or an unlock and a lock. -/
theorem HB.next {m : Nat} (h : HB τ m (m + 1)) : (∃ i a b, τ[m]? = some (i, a) ∧ τ[m + 1]? = some (i, b)) ∨ ∃ i p, τ[m]? = some (i, .did .unlock p) := by
  cases h with
  | order _ h1 h2 => exact .inl ⟨_, _, _, h1, h2⟩
  | sync _ h1 h2 => exact .inr ⟨_, _, h1⟩
  | trans h1 h2 => have := h1.lt; have := h2.lt; omega

theorem reads_steps {p : Prog V} {s : Sh} {l : Loc} (h : p.reads s l ∨ p.writes s l) : ∃ e p' s', p.step s = some (e, p', s') ∧ e ≠ .lock := by
  cases p with
  | ret a => rcases h with h | h <;> exact h.elim
  | panic a => rcases h with h | h <;> exact h.elim
  | lock k => rcases h with h | h <;> exact h.elim
  | unlock k => rcases h with h | h <;> exact h.elim
  | _ => exact ⟨_, _, _, rfl, nofun⟩

theorem reads_any {p : Prog V} {s s' : Sh} {l : Loc} : (p.reads s l ↔ p.reads s' l) ∧ (p.writes s l ↔ p.writes s' l) := by
  cases p <;> exact ⟨Iff.rfl, Iff.rfl⟩

/-- Two goroutines that are about to race do, in the execution in which they go on. -/
theorem race_happens (e : Exec ex allowed c0 τ c) {l : Loc} {i j : Nat} {op op' : O} {p r : Prog V} (hne : i ≠ j) (hi : c.thr i = .busy op p)
    (hw : p.writes c.sh l) (hj : c.thr j = .busy op' r) (ha : r.reads c.sh l ∨ r.writes c.sh l) : ∃ τ' c', Exec ex allowed c0 (τ ++ τ') c' ∧
    (∀ k, started k (τ ++ τ') = started k τ) ∧ DataRace ex allowed c0 (τ ++ τ') i j op op' l := by
  obtain ⟨e1, p', s1, h1, _⟩ := reads_steps (.inr hw)
  have ha' : r.reads s1 l ∨ r.writes s1 l := ha.imp reads_any.1.1 reads_any.2.1
  obtain ⟨e2, r', s2, h2, _⟩ := reads_steps ha'
  have st1 : Step ex allowed c i (.did e1 p') (c.set i (.busy op p') s1) := .did hi h1
  have hj' : (c.set i (.busy op p') s1).thr j = .busy op' r := by rw [set_thr, if_neg (Ne.symm hne)]; exact hj
  have st2 : Step ex allowed (c.set i (.busy op p') s1) j (.did e2 r') ((c.set i (.busy op p') s1).set j (.busy op' r') s2) := .did hj' h2
  have E1 := e.snoc st1
  have E2 := E1.snoc st2
  rw [List.append_assoc] at E2
  have g0 : (τ ++ [(i, Act.did e1 p'), (j, Act.did e2 r')])[τ.length]? = some (i, .did e1 p') := by simp
  have g1 : (τ ++ [(i, Act.did e1 p'), (j, Act.did e2 r')])[τ.length + 1]? = some (j, .did e2 r') := by simp
  have t0 : (τ ++ [(i, Act.did e1 p'), (j, Act.did e2 r')]).take τ.length = τ := by simp
  have t1 : (τ ++ [(i, Act.did e1 p'), (j, Act.did e2 r')]).take (τ.length + 1) = τ ++ [(i, Act.did e1 p')] := by
    rw [List.take_append, List.take_of_length_le (by omega), Nat.add_sub_cancel_left]; rfl
  refine ⟨[(i, .did e1 p'), (j, .did e2 r')], _, E2, fun k => ?_, hne, τ.length, τ.length + 1, ?_, ?_, fun h => ?_, fun h => ?_⟩
  · rw [show τ ++ [(i, Act.did e1 p'), (j, Act.did e2 r')] = τ ++ [(i, Act.did e1 p')] ++ [(j, Act.did e2 r')] by simp, started_snoc, started_snoc]
    exact (List.append_nil _).trans (List.append_nil _)
  · exact ⟨c, _, p, e1, p', by rw [t0]; exact e, hi, hw, st1, g0⟩
  · rcases ha' with h | h
    · exact .inl ⟨_, _, r, e2, r', by rw [t1]; exact E1, hj', h, st2, g1⟩
    · exact .inr ⟨_, _, r, e2, r', by rw [t1]; exact E1, hj', h, st2, g1⟩
  · rcases h.next with ⟨k, a, b, h1, h2⟩ | ⟨k, a, h'⟩
    · rw [g0] at h1; rw [g1] at h2; cases h1; cases h2; exact hne rfl
    · rw [g0] at h'; cases h'; exact access_event (.inr hw) h1 rfl
  · have := h.lt; omega

end Crunch
