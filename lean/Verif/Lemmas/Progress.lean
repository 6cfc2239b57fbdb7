import Verif.Lemmas.Conc

/-! Calls in progress can go on unless the mutex was left locked; schedules without new calls are finite. -/

namespace Crunch

variable {O V : Type} {ex : O → Prog V} {allowed : O → Prop} {c0 c c' : Conf O V} {τ τ' : Trace O V}

/-- No calls. -/
def noCall (_ : O) : Prop := False

theorem Exec.trans (e : Exec ex allowed c0 τ c) (e' : Exec ex allowed c τ' c') : Exec ex allowed c0 (τ ++ τ') c' := by
  induction e' with
  | nil => rw [List.append_nil]; exact e
  | snoc _ st ih => rw [← List.append_assoc]; exact ih.snoc st

/-- A program has ended, can take a step, or waits for the mutex. -/
theorem Prog.stuck (p : Prog α) (s : Sh) :
    (∃ r, p.result = some r) ∨ (∃ x, p.step s = some x) ∨ ∃ k, p = .lock k ∧ s.locked = true := by
  cases p with
  | ret a => exact .inl ⟨_, rfl⟩
  | panic q => exact .inl ⟨_, rfl⟩
  | lock k =>
    cases h : s.locked with
    | true => exact .inr (.inr ⟨k, rfl, rfl⟩)
    | false => exact .inr (.inl ⟨_, by simp only [Prog.step, h]; rfl⟩)
  | _ => exact .inr (.inl ⟨_, rfl⟩)

theorem shared_no_deadlock (hex : ∀ op, allowed op → Brk false false (ex op)) (q : Quiet c0) (e : Exec ex allowed c0 τ c)
    (hn : ¬ EndedInside τ) : (∀ i, c.thr i = .idle) ∨ ∃ i a c', Step ex noCall c i a c' := by
  obtain ⟨h, a, v⟩ := exec_inv hex q e
  by_cases hi : ∀ i, c.thr i = .idle
  · exact .inl hi
  right
  have go : ∀ i op p, c.thr i = .busy op p → (∀ k, p = .lock k → c.sh.locked = false) → ∃ i a c', Step ex noCall c i a c' := by
    intro i op p hb hl
    rcases p.stuck c.sh with ⟨r, hr⟩ | ⟨⟨x, p', sh⟩, hs⟩ | ⟨k, hk, hc⟩
    · exact ⟨i, _, _, .finish hb hr⟩
    · exact ⟨i, _, _, .did hb hs⟩
    · rw [hl k hk] at hc; exact nomatch hc
  cases h with
  | none =>
    have hl : c.sh.locked = false := v.locked
    obtain ⟨i, hi⟩ := Classical.not_forall.mp hi
    cases hb : c.thr i with
    | idle => exact absurd hb hi
    | busy op p => exact go i op p hb fun _ _ => hl
  | some j =>
    cases a with
    | false => exact absurd (v.ended.mpr ⟨rfl, rfl⟩) hn
    | true =>
      obtain ⟨i, op, p, _, hb, hp, _⟩ := v.active rfl
      exact go i op p hb fun k hk => by subst hk; exact nomatch hp.1

/-! ## finiteness -/

/-- `p'` is what is left of `p` after one step. -/
def Sub (p' p : Prog α) : Prop := ∃ e s s', p.step s = some (e, p', s')

theorem Sub.acc (p : Prog α) : Acc Sub p := by
  induction p with
  | ret a => exact ⟨_, fun _ ⟨_, _, _, h⟩ => nomatch h⟩
  | panic q => exact ⟨_, fun _ ⟨_, _, _, h⟩ => nomatch h⟩
  | getI x k ih => exact ⟨_, fun _ ⟨_, _, _, h⟩ => by cases h; exact ih _⟩
  | setI x v k ih => exact ⟨_, fun _ ⟨_, _, _, h⟩ => by cases h; exact ih⟩
  | getBuf k ih => exact ⟨_, fun _ ⟨_, _, _, h⟩ => by cases h; exact ih _⟩
  | setBuf t k ih => exact ⟨_, fun _ ⟨_, _, _, h⟩ => by cases h; exact ih⟩
  | load t i k ih => exact ⟨_, fun _ ⟨_, _, _, h⟩ => by cases h; exact ih _⟩
  | store t i v k ih => exact ⟨_, fun _ ⟨_, _, _, h⟩ => by cases h; exact ih⟩
  | append t x k ih => exact ⟨_, fun _ ⟨_, _, _, h⟩ => by cases h; exact ih _⟩
  | alloc a n k ih => exact ⟨_, fun _ ⟨_, _, _, h⟩ => by cases h; exact ih _⟩
  | lock k ih =>
    refine ⟨_, fun p' ⟨e, s, s', h⟩ => ?_⟩
    change (if s.locked = true then none else some (Event.lock, k, (⟨s.st, true⟩ : Sh))) = _ at h
    split at h
    · exact nomatch h
    · cases h; exact ih
  | unlock k ih => exact ⟨_, fun _ ⟨_, _, _, h⟩ => by cases h; exact ih⟩

/-- A goroutine after a step of its call, or the end of it. -/
inductive Thr.Less : Thr O V → Thr O V → Prop
  | did {op : O} {p p' : Prog V} : Sub p' p → Thr.Less (.busy op p') (.busy op p)
  | finish {op : O} {p : Prog V} : Thr.Less .idle (.busy op p)

theorem Thr.Less.acc (t : Thr O V) : Acc Thr.Less t := by
  have hi : Acc Thr.Less (.idle : Thr O V) := ⟨_, fun _ h => nomatch h⟩
  cases t with
  | idle => exact hi
  | busy op p =>
    induction Sub.acc p with
    | intro p _ ih =>
      refine ⟨_, fun t' h => ?_⟩
      cases h with
      | did hs => exact ih _ hs
      | finish => exact hi

/-- One goroutine has moved on, the others are where they were. -/
def Fewer (t' t : Nat → Thr O V) : Prop := ∃ i, (t' i).Less (t i) ∧ ∀ j, j ≠ i → t' j = t j

theorem Fewer.acc (n : Nat) (t : Nat → Thr O V) (h : ∀ i, n ≤ i → t i = .idle) : Acc Fewer t := by
  induction n generalizing t with
  | zero => exact ⟨_, fun t' ⟨i, hi, _⟩ => by rw [h i (Nat.zero_le _)] at hi; generalize t' i = x at hi; cases hi⟩
  | succ n ih =>
    -- goroutine `n` beside the others
    have key : ∀ (x : Thr O V) (_ : Acc Thr.Less x) (u : Nat → Thr O V) (_ : Acc Fewer u), u n = .idle →
        Acc Fewer fun j => if j = n then x else u j := by
      intro x hx
      induction hx with
      | intro x _ ihx =>
        intro u hu
        induction hu with
        | intro u hu' ihu =>
          intro hn
          refine ⟨_, fun t' ⟨i, hi, hj⟩ => ?_⟩
          by_cases e : i = n
          · subst e
            simp only [if_pos] at hi
            have : t' = fun j => if j = i then t' i else u j := by
              funext j
              by_cases e : j = i
              · rw [e]; simp
              · rw [hj j e]; simp [e]
            rw [this]
            exact ihx _ hi u ⟨_, hu'⟩ hn
          · simp only [if_neg e] at hi
            have hf : Fewer (fun j => if j = n then .idle else t' j) u := by
              refine ⟨i, by simpa [e] using hi, fun j hne => ?_⟩
              by_cases e' : j = n
              · rw [e', hn]; simp
              · simp only [if_neg e']; rw [hj j hne]; exact if_neg e'
            have : t' = fun j => if j = n then x else (fun j => if j = n then .idle else t' j) j := by
              funext j
              by_cases e' : j = n
              · rw [e', hj n (Ne.symm e)]; simp
              · simp [e']
            rw [this]
            exact ihu _ hf (by simp)
    have : t = fun j => if j = n then t n else (fun j => if j = n then .idle else t j) j := by
      funext j
      by_cases e : j = n
      · rw [e]; simp
      · simp [e]
    rw [this]
    refine key _ (Thr.Less.acc _) _ (ih _ fun i hi => ?_) (by simp)
    by_cases e : i = n
    · simp [e]
    · simp only [if_neg e]; exact h i (by omega)

theorem step_fewer {i : Nat} {a : Act O V} (st : Step ex noCall c i a c') : Fewer c'.thr c.thr := by
  cases st with
  | start op hi ho => exact ho.elim
  | did hi hs =>
    refine ⟨i, ?_, fun j hj => by rw [set_thr, if_neg hj]⟩
    rw [set_thr, if_pos rfl, hi]
    exact .did ⟨_, _, _, hs⟩
  | finish hi hr =>
    refine ⟨i, ?_, fun j hj => by rw [set_thr, if_neg hj]⟩
    rw [set_thr, if_pos rfl, hi]
    exact .finish

theorem exec_busy (q : Quiet c0) (e : Exec ex allowed c0 τ c) : ∃ n, ∀ i, n ≤ i → c.thr i = .idle := by
  induction e with
  | nil => exact ⟨0, fun i _ => q.idle i⟩
  | @snoc τ c c' i a _ st ih =>
    obtain ⟨n, hn⟩ := ih
    refine ⟨max n (i + 1), fun j hj => ?_⟩
    have h1 : j ≠ i := by omega
    have h2 := hn j (by omega)
    cases st with
    | start => rw [set_thr, if_neg h1]; exact h2
    | did => rw [set_thr, if_neg h1]; exact h2
    | finish => rw [set_thr, if_neg h1]; exact h2

theorem exec_acc (q : Quiet c0) (e : Exec ex allowed c0 τ c) : Acc Fewer c.thr := by
  obtain ⟨n, hn⟩ := exec_busy q e
  exact Fewer.acc n _ hn

theorem shared_finite (q : Quiet c0) (e : Exec ex allowed c0 τ c) (f : Nat → Conf O V) (i : Nat → Nat) (a : Nat → Act O V)
    (h0 : f 0 = c) (h : ∀ n, Step ex noCall (f n) (i n) (a n) (f (n + 1))) : False := by
  have : ∀ t, Acc Fewer t → ∀ n, (f n).thr = t → False := by
    intro t ht
    induction ht with
    | intro t _ ih => intro n hn; exact ih _ (hn ▸ step_fewer (h n)) (n + 1) rfl
  exact this _ (exec_acc q e) 0 (by rw [h0])

theorem shared_finish (hex : ∀ op, allowed op → Brk false false (ex op)) (q : Quiet c0) (e : Exec ex allowed c0 τ c) :
    ∃ τ' c', Exec ex noCall c τ' c' ∧ ((∀ i, c'.thr i = .idle) ∨ EndedInside (τ ++ τ')) := by
  suffices key : ∀ t, Acc Fewer t → ∀ {τ1 : Trace O V} {c1 : Conf O V}, Exec ex noCall c τ1 c1 → c1.thr = t →
      ∃ τ' c', Exec ex noCall c τ' c' ∧ ((∀ i, c'.thr i = .idle) ∨ EndedInside (τ ++ τ')) from
    key _ (exec_acc q e) .nil rfl
  intro t ht
  induction ht with
  | intro t _ ih =>
    intro τ1 c1 e1 hc
    by_cases hn : EndedInside (τ ++ τ1)
    · exact ⟨τ1, c1, e1, .inr hn⟩
    · rcases shared_no_deadlock hex q (e.trans (e1.mono fun _ h => h.elim)) hn with hi | ⟨i, a, c2, st⟩
      · exact ⟨τ1, c1, e1, .inl hi⟩
      · exact ih _ (hc ▸ step_fewer st) (e1.snoc st) rfl

/-! ## after a call that ended inside its section -/

theorem EndedInside.more (h : EndedInside τ) (τ' : Trace O V) : EndedInside (τ ++ τ') := by
  obtain ⟨τ1, i, op, r, τ2, rfl, hi⟩ := h
  exact ⟨τ1, i, op, r, τ2 ++ τ', by simp, hi⟩

theorem shared_stuck (hex : ∀ op, allowed op → Brk false false (ex op)) (q : Quiet c0) (e : Exec ex allowed c0 τ c)
    (h : EndedInside τ) (e' : Exec ex allowed c τ' c') :
    c'.sh.locked = true ∧ c'.sh.st = c.sh.st ∧ sections (τ ++ τ') = sections τ := by
  have lk : ∀ {τ' c'}, Exec ex allowed c τ' c' → c'.sh.locked = true ∧ c'.sh.st = after (τ ++ τ') c0.sh.st := by
    intro τ' c' e'
    obtain ⟨k, a, v⟩ := exec_inv hex q (e.trans e')
    obtain ⟨ha, hs⟩ := v.ended.mp (h.more τ')
    exact ⟨v.locked.trans hs, v.done ha⟩
  have sec : sections (τ ++ τ') = sections τ := by
    induction e' with
    | nil => rw [List.append_nil]
    | @snoc τ1 c1 c2 i a e1 st ih =>
      rw [← List.append_assoc, sections_snoc, ih]
      cases st with
      | start => exact List.append_nil _
      | finish => exact List.append_nil _
      | @did op p p' ev sh hi hs =>
        cases p with
        | lock k =>
          simp only [Prog.step, (lk e1).1] at hs
          exact nomatch hs
        | ret => exact nomatch hs
        | panic => exact nomatch hs
        | _ => cases hs; exact List.append_nil _
  refine ⟨(lk e').1, ?_, sec⟩
  rw [(lk e').2, (lk .nil).2, List.append_nil]
  unfold after
  rw [sec]

/-! ## calls that never end inside -/

/-- Like `Brk`, without the demand that changes happen under the lock, and with the demand that no panic does. -/
def Tidy : Bool → Bool → Prog α → Prop
  | b, e, .ret _ => b = e
  | b, _, .panic _ => b = false
  | b, e, .getI _ k => ∀ v, Tidy b e (k v)
  | b, e, .setI _ _ k => Tidy b e k
  | b, e, .getBuf k => ∀ s, Tidy b e (k s)
  | b, e, .setBuf _ k => Tidy b e k
  | b, e, .load _ _ k => ∀ v, Tidy b e (k v)
  | b, e, .store _ _ _ k => Tidy b e k
  | b, e, .append _ _ k => ∀ s, Tidy b e (k s)
  | b, e, .alloc _ _ k => ∀ s, Tidy b e (k s)
  | _, e, .lock k => Tidy true e k
  | _, e, .unlock k => Tidy false e k

theorem Tidy.bind {p : Prog α} {f : α → Prog β} {b m e : Bool} (hp : Tidy b m p) (hf : ∀ a, Tidy m e (f a)) : Tidy b e (p.bind f) := by
  induction p generalizing b with
  | ret a => cases hp; exact hf a
  | panic q => exact hp
  | getI x k ih => exact fun v => ih v (hp v)
  | setI x v k ih => exact ih hp
  | getBuf k ih => exact fun v => ih v (hp v)
  | setBuf t k ih => exact ih hp
  | load t i k ih => exact fun v => ih v (hp v)
  | store t i v k ih => exact ih hp
  | append t x k ih => exact fun v => ih v (hp v)
  | alloc a n k ih => exact fun v => ih v (hp v)
  | lock k ih => exact ih hp
  | unlock k ih => exact ih hp

theorem Tidy.deferUnlock {p : Prog α} (h : p.NoLock) (b : Bool) : Tidy b false p.deferUnlock := by
  induction p with
  | ret a => exact rfl
  | panic q => exact rfl
  | getI x k ih => exact fun v => ih v (h v)
  | setI x v k ih => exact ih h
  | getBuf k ih => exact fun v => ih v (h v)
  | setBuf t k ih => exact ih h
  | load t i k ih => exact fun v => ih v (h v)
  | store t i v k ih => exact ih h
  | append t x k ih => exact fun v => ih v (h v)
  | alloc a n k ih => exact fun v => ih v (h v)
  | lock k ih => exact h.elim
  | unlock k ih => exact h.elim

theorem Tidy.locked {p : Prog α} (h : p.NoLock) : Tidy false false (Prog.locked p) := Tidy.deferUnlock h true
theorem Tidy.field (f : Field) : Tidy false false (Prog.field f) := fun _ => rfl
theorem Tidy.panicIf (c : Prop) [Decidable c] (p : Panic) : Tidy false false (Prog.panicIf c p) := by
  unfold Prog.panicIf; split <;> rfl
theorem Tidy.ret (a : α) : Tidy false false (.ret a) := rfl

theorem Tidy.doLoop {body : Int64 → α → Prog α} (h : ∀ i a, Tidy false false (body i a)) (n i : Int64) (a : α) :
    Tidy false false (Prog.doLoop body n i a) := by
  fun_induction Prog.doLoop body n i a with
  | case1 i a ih =>
    refine (h i a).bind fun a' => ?_
    split
    · rename_i hh
      exact ih a' hh
    · rfl

theorem Tidy.forLoop {body : Int64 → α → Prog α} (h : ∀ i a, Tidy false false (body i a)) (n i : Int64) (a : α) :
    Tidy false false (Prog.forLoop body n i a) := by
  fun_induction Prog.forLoop body n i a with
  | case1 i a hi ih => exact (h i a).bind ih
  | case2 i a hi => rfl

/-- What is left of a call agrees with where the goroutine is. -/
theorem exec_tidy_thr (hex : ∀ op, allowed op → Tidy false false (ex op)) (q : Quiet c0) (e : Exec ex allowed c0 τ c) :
    ¬ EndedInside τ ∧ ∀ i, match c.thr i with
      | .idle => inside τ i = false
      | .busy _ p => Tidy (inside τ i) false p := by
  induction e with
  | nil =>
    refine ⟨fun ⟨τ1, _, _, _, _, h, _⟩ => (by cases τ1 <;> exact nomatch h), fun i => ?_⟩
    rw [q.idle i]
    rfl
  | @snoc τ c c' i a _ st ih =>
    obtain ⟨hn, ih⟩ := ih
    cases st with
    | start op hi ho =>
      refine ⟨fun h => hn ((ended_keep nofun).mp h), fun j => ?_⟩
      have hj := ih j
      rw [inside_snoc]
      simp only [enter, ite_self, set_thr]
      by_cases e : j = i
      · subst e
        rw [hi] at hj
        rw [if_pos rfl, hj]
        exact hex op ho
      · rw [if_neg e]; exact hj
    | @finish op p r hi hr =>
      have hp := ih i
      rw [hi] at hp
      have hin : inside τ i = false := by
        cases p with
        | ret a => exact hp
        | panic q => exact hp
        | _ => exact nomatch hr
      refine ⟨fun h => ?_, fun j => ?_⟩
      · rcases (ended_snoc _ _ _).mp h with h | ⟨_, h⟩
        · exact hn h
        · rw [hin] at h; exact nomatch h
      · have hj := ih j
        rw [inside_snoc]
        simp only [enter, ite_self, set_thr]
        by_cases e : j = i
        · subst e; rw [if_pos rfl]; exact hin
        · rw [if_neg e]; exact hj
    | @did op p p' ev sh hi hs =>
      refine ⟨fun h => hn ((ended_keep nofun).mp h), fun j => ?_⟩
      have hj := ih j
      rw [inside_snoc]
      by_cases e : j = i
      · subst e
        rw [hi] at hj
        simp only [enter, if_pos, set_thr]
        cases p with
        | ret a => exact nomatch hs
        | panic q => exact nomatch hs
        | getI x k => cases hs; exact hj _
        | setI x v k => cases hs; exact hj
        | getBuf k => cases hs; exact hj _
        | setBuf t k => cases hs; exact hj
        | load t i k => cases hs; exact hj _
        | store t i v k => cases hs; exact hj
        | append t x k => cases hs; exact hj _
        | alloc a n k => cases hs; exact hj _
        | lock k =>
          change (if c.sh.locked = true then none else some (Event.lock, k, (⟨c.sh.st, true⟩ : Sh))) = _ at hs
          split at hs
          · exact nomatch hs
          · cases hs; exact hj
        | unlock k => cases hs; exact hj
      · simp only [enter, if_neg (Ne.symm e), set_thr, if_neg e]
        exact hj

theorem shared_tidy (hex : ∀ op, allowed op → Brk false false (ex op) ∧ Tidy false false (ex op)) (q : Quiet c0)
    (e : Exec ex allowed c0 τ c) : ∃ τ' c', Exec ex noCall c τ' c' ∧ ∀ i, c'.thr i = .idle := by
  obtain ⟨τ', c', e', h⟩ := shared_finish (fun op h => (hex op h).1) q e
  refine ⟨τ', c', e', h.resolve_right ?_⟩
  exact (exec_tidy_thr (fun op h => (hex op h).2) q (e.trans (e'.mono fun _ h => h.elim))).1

end Crunch
