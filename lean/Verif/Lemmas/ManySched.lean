import Verif.Many
import Verif.Lemmas.Sched
import Verif.Lemmas.ConcMap

/-! Schedules for goroutines that share several buffers, for the concrete cases. -/

namespace Crunch

/-- One step of goroutine `i`: it makes the call `o`, or takes a step of the call it is in. -/
def schedsStep (ex : O → Prog V) (c : Confs O V) (i : Nat) (o : Option (Nat × O)) : Option (Act (Nat × O) V × Confs O V) :=
  match c.thr i, o with
  | .idle, some (k, op) => some (.start (k, op), c.set i (.busy (k, op) (ex op)) c.sh)
  | .busy (k, op) p, none =>
    match p.step (c.sh.at k) with
    | some (e, p', sh) => some (.did e p', c.set i (.busy (k, op) p') (c.sh.put k sh))
    | none =>
      match p.result with
      | some r => some (.finish (k, op) r, c.set i .idle c.sh)
      | none => none
  | _, _ => none

/-- A whole schedule; the trace is `τ` followed by what happens. -/
def scheds (ex : O → Prog V) (τ : Trace (Nat × O) V) (c : Confs O V) : List (Nat × Option (Nat × O)) → Option (Trace (Nat × O) V × Confs O V)
  | [] => some (τ, c)
  | (i, o) :: l =>
    match schedsStep ex c i o with
    | some (a, c') => scheds ex (τ ++ [(i, a)]) c' l
    | none => none

theorem schedsStep_sound {ex : O → Prog V} {allowed : Nat → O → Prop} {c c' : Confs O V} {i : Nat} {o : Option (Nat × O)} {a : Act (Nat × O) V}
    (ho : ∀ y, o = some y → allowed y.1 y.2) (h : schedsStep ex c i o = some (a, c')) :
    Steps ex allowed c i a c' ∧ (∀ j, j ≠ i → c'.thr j = c.thr j) ∧ ∀ j, ∀ y ∈ started j [(i, a)], j = i ∧ o = some y := by
  have key : ∀ t sh j, j ≠ i → (c.set i t sh).thr j = c.thr j := fun t sh j hj => if_neg hj
  unfold schedsStep at h
  split at h
  · rename_i k op hi
    cases h
    refine ⟨.start k op hi (ho _ rfl), key _ _, fun j y hy => ?_⟩
    unfold started at hy
    split at hy
    · rename_i e
      rcases List.mem_cons.mp hy with rfl | hy
      · exact ⟨e.symm, rfl⟩
      · exact nomatch hy
    · exact nomatch hy
  · rename_i k op p hi
    split at h
    · rename_i e p' sh hs
      cases h
      exact ⟨.did hi hs, key _ _, fun j y hy => nomatch hy⟩
    · split at h
      · rename_i r hr
        cases h
        exact ⟨.finish hi hr, key _ _, fun j y hy => nomatch hy⟩
      · exact nomatch h
  · exact nomatch h

theorem scheds_sound {ex : O → Prog V} {allowed : Nat → O → Prop} {Q : Nat → Nat × O → Prop} {c0 c c' : Confs O V} {l : List (Nat × Option (Nat × O))}
    {τ τ' : Trace (Nat × O) V} (hl : ∀ x ∈ l, ∀ y, x.2 = some y → allowed y.1 y.2 ∧ Q x.1 y) (e : Execs ex allowed c0 τ c)
    (hq : ∀ i, ∀ y ∈ started i τ, Q i y) (h : scheds ex τ c l = some (τ', c')) :
    Execs ex allowed c0 τ' c' ∧ (∀ i, (∀ x ∈ l, x.1 ≠ i) → c'.thr i = c.thr i) ∧ ∀ i, ∀ y ∈ started i τ', Q i y := by
  induction l generalizing τ c with
  | nil => cases h; exact ⟨e, fun _ _ => rfl, hq⟩
  | cons x l ih =>
    obtain ⟨i, o⟩ := x
    unfold scheds at h
    split at h
    · rename_i a c1 hs
      obtain ⟨s1, s2, s3⟩ := schedsStep_sound (fun y hy => (hl _ (List.mem_cons_self ..) y hy).1) hs
      obtain ⟨h1, h2, h3⟩ := ih (fun y hy => hl y (List.mem_cons_of_mem _ hy)) (e.snoc s1) (fun j y hy => by
        rw [started_snoc] at hy
        rcases List.mem_append.mp hy with hy | hy
        · exact hq j y hy
        · obtain ⟨rfl, ho⟩ := s3 j y hy; exact (hl _ (List.mem_cons_self ..) y ho).2) h
      exact ⟨h1, fun j hj => (h2 j fun x hx => hj x (List.mem_cons_of_mem _ hx)).trans (s2 j fun e => hj _ (List.mem_cons_self ..) e.symm), h3⟩
    · exact nomatch h

/-- A schedule for goroutines below `n` after which all calls are over and `P` holds. -/
theorem scheds_ex {ex : O → Prog V} {allowed : Nat → O → Prop} {Q : Nat → Nat × O → Prop} {c0 : Confs O V} (idle : ∀ i, c0.thr i = .idle) (n : Nat)
    (l : List (Nat × Option (Nat × O))) (P : Trace (Nat × O) V → Confs O V → Bool)
    (hl : ∀ x ∈ l.filterMap (fun x => x.2.map fun y => (x.1, y)), allowed x.2.1 x.2.2 ∧ Q x.1 x.2) (hn : (l.all fun x => x.1 < n) = true)
    (h : ((scheds ex [] c0 l).any fun x => P x.1 x.2 && (List.range n).all fun i => (x.2.thr i).isIdle) = true) :
    ∃ τ c, Execs ex allowed c0 τ c ∧ (∀ i, c.thr i = .idle) ∧ (∀ i, ∀ y ∈ started i τ, Q i y) ∧ P τ c = true := by
  cases e : scheds ex [] c0 l with
  | none => rw [e] at h; exact nomatch h
  | some x =>
    rw [e] at h
    have h : (P x.1 x.2 && (List.range n).all fun i => (x.2.thr i).isIdle) = true := h
    rw [Bool.and_eq_true, List.all_eq_true] at h
    obtain ⟨h1, h2, h3⟩ := scheds_sound (fun x hx y hy => hl (x.1, y) (List.mem_filterMap.mpr ⟨x, hx, by rw [hy]; rfl⟩)) .nil
      (fun _ _ hy => nomatch hy) e
    refine ⟨x.1, x.2, h1, fun i => ?_, h3, h.1⟩
    by_cases hi : i < n
    · exact Thr.isIdle_iff.mp (h.2 i (List.mem_range.mpr hi))
    · rw [h2 i fun y hy ey => ?_, idle]
      have := List.all_eq_true.mp hn y hy
      simp at this
      omega

/-- All goroutines with another form of the results. -/
def Confs.map (g : V → W) (c : Confs O V) : Confs O W := ⟨fun i => (c.thr i).map g, c.sh⟩

theorem Confs.map_set (g : V → W) (c : Confs O V) (i : Nat) (t : Thr (Nat × O) V) (sh : Shs) :
    (c.set i t sh).map g = (c.map g).set i (t.map g) sh := by
  unfold Confs.set Confs.map
  simp only [Confs.mk.injEq, and_true]
  funext j
  split <;> rfl

theorem Steps.map {ex : O → Prog V} {ex' : O → Prog W} {allowed : Nat → O → Prop} {g : V → W}
    (hx : ∀ k op, allowed k op → ex' op = (ex op).map g) {c c' : Confs O V} {i : Nat} {a : Act (Nat × O) V}
    (h : Steps ex allowed c i a c') : Steps ex' allowed (c.map g) i (a.map g) (c'.map g) := by
  cases h with
  | start k op hi ha =>
    rw [Confs.map_set]
    show Steps ex' allowed (c.map g) i (.start (k, op)) ((c.map g).set i (.busy (k, op) ((ex op).map g)) (c.map g).sh)
    rw [← hx k op ha]
    exact .start k op (by show (c.thr i).map g = _; rw [hi]; rfl) ha
  | did hb hs =>
    rw [Confs.map_set]
    refine .did (c := c.map g) (by show (c.thr i).map g = _; rw [hb]; rfl) ?_
    rw [Prog.step_map]
    show Option.map _ (Prog.step _ (c.sh.at _)) = _
    rw [hs]; rfl
  | finish hb hr =>
    rw [Confs.map_set]
    refine .finish (by show (c.thr i).map g = _; rw [hb]; rfl) ?_
    rw [Prog.result_map, hr]; rfl

theorem Execs.map {ex : O → Prog V} {ex' : O → Prog W} {allowed : Nat → O → Prop} {g : V → W}
    (hx : ∀ k op, allowed k op → ex' op = (ex op).map g) {c0 c : Confs O V} {τ : Trace (Nat × O) V} (h : Execs ex allowed c0 τ c) :
    Execs ex' allowed (c0.map g) (Trace.map g τ) (c.map g) := by
  induction h with
  | nil => exact .nil
  | snoc _ st ih =>
    unfold Trace.map at ih ⊢
    rw [List.map_append]
    exact .snoc ih (st.map hx)

end Crunch
