import Verif.Lemmas.Reading
import Verif.Lemmas.Happens
import Verif.Lemmas.Sched
import Verif.Lemmas.SecInv

/-! Programs that must access a place: what they do depends on it, or they change it. -/

namespace Crunch

/-- After some steps alone, the program has `q` left to do in the state `t`. -/
inductive Prog.Reach (p : Prog α) (s : Sh) : Prog α → Sh → Prop
  | refl : Prog.Reach p s p s
  | step {q q' : Prog α} {t t' : Sh} {e : Event} : Prog.Reach p s q t → q.step t = some (e, q', t') → Prog.Reach p s q' t'

/-- Alone, the program comes to a step that reads or changes `l`. -/
def Prog.Hits (p : Prog α) (s : Sh) (l : Loc) : Prop := ∃ q t, p.Reach s q t ∧ (q.reads t l ∨ q.writes t l)

variable {R W R' W' : Loc → Prop} {p q : Prog α} {s t : Sh}

theorem Prog.Reach.head {p' : Prog α} {s' : Sh} {e : Event} (h : p.step s = some (e, p', s')) (r : p'.Reach s' q t) : p.Reach s q t := by
  induction r with
  | refl => exact .step .refl h
  | step _ h2 ih => exact .step ih h2

/-- What it accesses is what the steps it comes to access. -/
theorem Prog.Uses.tight {p : Prog α} {s : Sh} (u : p.Uses R W s)
    (h : ∀ q t, p.Reach s q t → ∀ l, (q.reads t l → R' l) ∧ (q.writes t l → W' l)) : p.Uses R' W' s := by
  induction p generalizing s with
  | ret a => trivial
  | panic q => trivial
  | getI f k ih => exact ⟨(h _ _ .refl _).1 rfl, ih _ u.2 fun q t r => h q t (.head rfl r)⟩
  | setI f v k ih => exact ⟨(h _ _ .refl _).2 rfl, ih u.2 fun q t r => h q t (.head rfl r)⟩
  | getBuf k ih => exact ⟨(h _ _ .refl _).1 rfl, ih _ u.2 fun q t r => h q t (.head rfl r)⟩
  | setBuf v k ih => exact ⟨(h _ _ .refl _).2 rfl, ih u.2 fun q t r => h q t (.head rfl r)⟩
  | load v i k ih => exact ⟨(h _ _ .refl _).1 rfl, ih _ u.2 fun q t r => h q t (.head rfl r)⟩
  | store v i w k ih => exact ⟨(h _ _ .refl _).2 rfl, ih u.2 fun q t r => h q t (.head rfl r)⟩
  | append v x k ih =>
    exact ⟨⟨u.1.1, fun w hw i hi => (h _ _ .refl _).1 (.inl ⟨w, hw, i, hi, rfl⟩), fun i hi => (h _ _ .refl _).2 ⟨u.1.1, i, hi, rfl⟩⟩,
      ih _ u.2 fun q t r => h q t (.head rfl r)⟩
  | alloc a n k ih => exact u.elim
  | lock k ih =>
    refine fun hl => ih (u hl) fun q t r => h q t (.head (e := .lock) ?_ r)
    show (if s.locked = true then none else some _) = _
    rw [hl]; rfl
  | unlock k ih => exact ⟨u.1, ih u.2 fun q t r => h q t (.head rfl r)⟩

/-- The arrays have the same lengths. -/
def SameLengths (s t : V3.St) : Prop := ∀ a, (s.mem.array a).length = (t.mem.array a).length

theorem Prog.Uses.lengths {p p' : Prog α} {e : Event} {s s' : Sh} (u : p.Uses R W s) (h : p.step s = some (e, p', s')) : SameLengths s'.st s.st := by
  cases p with
  | ret a => exact nomatch h
  | panic q => exact nomatch h
  | store t i v k => cases h; exact fun b => length_array_set ..
  | append t x k => cases h; intro b; rw [append_room u.1.1]; exact length_array_blit ..
  | alloc a n k => exact u.elim
  | lock k =>
    change (if s.locked = true then none else some (Event.lock, k, (⟨s.st, true⟩ : Sh))) = _ at h
    split at h
    · exact nomatch h
    · cases h; exact fun _ => rfl
  | _ => cases h; exact fun _ => rfl

/-- Some steps later the rest still keeps to the places, and the other places are as before. -/
theorem Prog.Reach.uses (r : p.Reach s q t) (u : p.Uses R W s) : q.Uses R W t ∧ (∀ l, ¬ W l → l.same t.st s.st) ∧ SameLengths t.st s.st := by
  induction r with
  | refl => exact ⟨u, fun l _ => l.same_refl _, fun _ => rfl⟩
  | step _ h ih =>
    obtain ⟨u1, h1, h2⟩ := ih
    obtain ⟨t', h3, h4, _⟩ := u1.follow h (fun l _ => l.same_refl _) fun e => (step_mutex h).2 e
    cases h.symm.trans h3
    exact ⟨h4, fun l hl => Loc.same_trans (u1.elsewhere h hl) (h1 l hl), fun a => (u1.lengths h a).trans (h2 a)⟩

/-- A program that changes a place comes to a step that does. -/
theorem Prog.Uses.writes_of_changed (u : p.Uses R W s) {l : Loc} (h : ¬ l.same (p.run s).2.st s.st) : ∃ q t, p.Reach s q t ∧ q.writes t l := by
  refine Classical.byContradiction fun hn => h (Loc.same.of_run (W := fun x => W x ∧ x ≠ l) (u.tight (R' := R) fun q t r _ => ?_) fun h => h.2 rfl)
  exact ⟨fun hx => (r.uses u).1.reads hx, fun hx => ⟨(r.uses u).1.writes hx, fun e => hn ⟨q, t, r, e ▸ hx⟩⟩⟩

theorem Prog.Uses.without (u : p.Uses R W s) {l : Loc} (h : ¬ p.Hits s l) : p.Uses (fun x => R x ∧ x ≠ l) (fun x => W x ∧ x ≠ l) s :=
  u.tight fun q t r _ => ⟨fun hx => ⟨(r.uses u).1.reads hx, fun e => h ⟨q, t, r, .inl (e ▸ hx)⟩⟩,
    fun hx => ⟨(r.uses u).1.writes hx, fun e => h ⟨q, t, r, .inr (e ▸ hx)⟩⟩⟩

/-- A program whose outcome depends on a place comes to a step that accesses it. -/
theorem Prog.Uses.hits_of_depends (u : p.Uses R W s) {l : Loc} (hs : ∀ x, x ≠ l → x.same t.st s.st) (hl : t.locked = s.locked) (h : (p.run t).1 ≠ (p.run s).1) :
    p.Hits s l :=
  Classical.byContradiction fun hn => h ((u.without hn).agree (fun x hx => hs x hx.2) hl).1

/-- What is at the place does not matter for that. -/
theorem Prog.Uses.hits_any (u : p.Uses R W s) {l : Loc} (hs : ∀ x, x ≠ l → x.same t.st s.st) (hl : t.locked = s.locked) (h : p.Hits t l) : p.Hits s l := by
  refine Classical.byContradiction fun hn => ?_
  have u' := u.without hn
  obtain ⟨q, t1, r, h⟩ := h
  have key : ∃ s1, q.Uses (fun x => R x ∧ x ≠ l) (fun x => W x ∧ x ≠ l) s1 ∧ (∀ x, x ≠ l → x.same t1.st s1.st) ∧ t1.locked = s1.locked := by
    clear h
    induction r with
    | refl => exact ⟨s, u', hs, hl⟩
    | step _ h ih =>
      obtain ⟨s1, v, h1, h2⟩ := ih
      obtain ⟨s2, h3, h4, h5, _⟩ := v.follow h (fun x hx => h1 x hx.2) fun e => h2 ▸ (step_mutex h).2 e
      exact ⟨s2, h4, fun x hx => h5 x (h1 x hx), by rw [(step_mutex h).1, (step_mutex h3).1, h2]⟩
  obtain ⟨s1, v, _⟩ := key
  rcases h with h | h
  · exact (v.reads h).2 rfl
  · exact (v.writes h).2 rfl

variable {ex : O → Prog V} {allowed : O → Prop} {c0 c : Conf O V} {τ : Trace O V}

theorem Exec.reach (e : Exec ex allowed c0 τ c) {i : Nat} {op : O} {p q : Prog V} {t : Sh} (hi : c.thr i = .busy op p) (r : p.Reach c.sh q t) :
    ∃ τ' c', Exec ex allowed c0 (τ ++ τ') c' ∧ (∀ k, started k (τ ++ τ') = started k τ) ∧ c'.sh = t ∧ c'.thr i = .busy op q ∧ ∀ j, j ≠ i → c'.thr j = c.thr j := by
  induction r with
  | refl => exact ⟨[], c, by simpa using e, fun k => by simp, rfl, hi, fun _ _ => rfl⟩
  | step _ h ih =>
    obtain ⟨τ', c', e', h0, rfl, h1, h2⟩ := ih
    have e2 := e'.snoc (.did h1 h)
    rw [List.append_assoc] at e2
    refine ⟨_, _, e2, fun k => ?_, rfl, by rw [set_thr, if_pos rfl], fun j hj => by rw [set_thr, if_neg hj]; exact h2 j hj⟩
    rw [← List.append_assoc, started_snoc, h0]
    exact List.append_nil _

/-- Two calls, the first of which comes to a step that changes `l`, and the second one from there to a step that accesses `l`. -/
theorem race_between {s : V3.St} {i j : Nat} (hij : i ≠ j) {op op' : O} (ho : allowed op) (ho' : allowed op') {l : Loc} {q : Prog V} {t : Sh}
    (r : (ex op).Reach ⟨s, false⟩ q t) (hw : q.writes t l) (h : (ex op').Hits t l) :
    ∃ τ c, Exec ex allowed (rest O V s) τ c ∧ started i τ = [op] ∧ started j τ = [op'] ∧ (∀ k, k ≠ i → k ≠ j → started k τ = []) ∧
      DataRace ex allowed (rest O V s) τ i j op op' l := by
  have e1 := (Exec.nil (ex := ex) (allowed := allowed) (c0 := rest O V s)).snoc (.start (i := i) op rfl ho)
  obtain ⟨τ1, c1, E1, g1, rfl, h1, h2⟩ := e1.reach (by rw [set_thr, if_pos rfl]) r
  have e2 := E1.snoc (.start (i := j) op' (by rw [h2 j hij.symm, set_thr, if_neg hij.symm]; rfl) ho')
  obtain ⟨q', t', r', ha⟩ := h
  obtain ⟨τ2, c2, E2, g2, rfl, h3, h4⟩ := e2.reach (by rw [set_thr, if_pos rfl]) r'
  obtain ⟨τ3, c3, E3, g3, d⟩ := race_happens E2 hij ((h4 i hij).trans (by rw [set_thr, if_neg hij]; exact h1)) (reads_any.2.1 hw) h3 ha
  have g : ∀ k, started k (([] ++ [(i, Act.start op)] ++ τ1 ++ [(j, Act.start op')] ++ τ2) ++ τ3) = (if i = k then [op] else []) ++ (if j = k then [op'] else []) := by
    intro k
    rw [g3, g2, started_snoc, g1]
    rfl
  refine ⟨_, _, E3, ?_, ?_, fun k k1 k2 => ?_, d⟩
  · rw [g, if_pos rfl, if_neg hij.symm]; rfl
  · rw [g, if_pos rfl, if_neg hij]; rfl
  · rw [g, if_neg k1.symm, if_neg k2.symm]; rfl

end Crunch
