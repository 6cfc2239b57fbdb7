import Verif.Lemmas.Foot
import Verif.Lemmas.Shared
import Verif.Lemmas.Sched
import Verif.Lemmas.ConcMap

/-! A call during which no other goroutine changes what it reads. -/

namespace Crunch
open V3 (St)

variable {O V : Type} {exe : O → Prog V} {allowed : O → Prop} {R W P : Loc → Prop} {c0 c1 c c' : Conf O V} {τ0 τ : Trace O V} {i : Nat} {op : O}

theorem Calm.exec (d : Calm exe allowed i P c1 τ c) (e0 : Exec exe allowed c0 τ0 c1) : Exec exe allowed c0 (τ0 ++ τ) c := by
  induction d with
  | nil => rw [List.append_nil]; exact e0
  | own _ hs ih => rw [← List.append_assoc]; exact .snoc ih hs
  | other _ _ hs _ ih => rw [← List.append_assoc]; exact .snoc ih hs

theorem set_thr_other {c : Conf O V} {j : Nat} (h : j ≠ i) (t : Thr O V) (s : Sh) : (c.set j t s).thr i = c.thr i := by
  rw [set_thr, if_neg fun e => h e.symm]

theorem Step.thr_other {j : Nat} {a : Act O V} (h : j ≠ i) (s : Step exe allowed c j a c') : c'.thr i = c.thr i := by
  cases s <;> exact set_thr_other h _ _

theorem Calm.busy (d : Calm exe allowed i P c1 τ c) (h : ∃ p, c1.thr i = .busy op p) : ∃ p, c.thr i = .busy op p := by
  induction d with
  | nil => exact h
  | own _ hs ih =>
    obtain ⟨p, ih⟩ := ih
    cases hs with
    | did hi _ => cases ih.symm.trans hi; exact ⟨_, by rw [set_thr, if_pos rfl]⟩
  | other _ hj hs _ ih => obtain ⟨p, ih⟩ := ih; exact ⟨p, (hs.thr_other hj).trans ih⟩

/-- The call as it would go on alone: what is left of it, and where it would be. -/
structure CalmInv (exe : O → Prog V) (op : O) (R W P : Loc → Prop) (i : Nat) (s : Sh) (τ : Trace O V) (c : Conf O V) (p : Prog V) (t : Sh) : Prop where
  thr : c.thr i = .busy op p
  run : (exe op).run s = p.run t
  uses : p.Uses R W t
  same : ∀ l, P l → l.same c.sh.st t.st
  mine : t.locked = true → inside τ i = true

theorem calm_inv (hex : ∀ op, allowed op → Brk false false (exe op)) (q : Quiet c0) (e0 : Exec exe allowed c0 τ0 c1) (hP : ∀ l, R l → P l)
    (h1 : c1.thr i = .busy op (exe op)) (u : (exe op).Uses R W ⟨c1.sh.st, false⟩) (d : Calm exe allowed i P c1 τ c) :
    ∃ p t, CalmInv exe op R W P i ⟨c1.sh.st, false⟩ (τ0 ++ τ) c p t := by
  induction d with
  | nil => exact ⟨exe op, ⟨c1.sh.st, false⟩, h1, rfl, u, fun l _ => l.same_refl _, fun h => nomatch h⟩
  | @own τ c c' e p' d hs ih =>
    obtain ⟨p, t, v⟩ := ih
    have ex := shared_exclusion hex q (d.exec e0)
    generalize hc : c'.thr i = x
    cases hs with
    | @did op' p0 _ _ sh hi hs =>
      have := v.thr.symm.trans hi
      cases this
      have hm := step_mutex hs
      obtain ⟨t', g1, g2, g3, g4⟩ := v.uses.follow hs (fun l hl => v.same l (hP l hl)) (fun hl => by
        cases h : t.locked with
        | false => rfl
        | true => have := ex.2.2 ⟨i, v.mine h⟩; rw [hm.2 hl] at this; exact nomatch this)
      have hm' := step_mutex g1
      refine ⟨p', t', by rw [set_thr, if_pos rfl], v.run.trans (step_run g1), g2, fun l hl => g3 l (v.same l hl), fun hl => ?_⟩
      rw [← List.append_assoc, inside_snoc]
      rw [hm'.1] at hl
      cases e with
      | look | change => simp only [enter, if_true]; exact v.mine hl
      | lock => simp only [enter, if_true]
      | unlock => exact nomatch hl
  | @other τ c c' j a d hj hs hn ih =>
    obtain ⟨p, t, v⟩ := ih
    refine ⟨p, t, (hs.thr_other hj).trans v.thr, v.run, v.uses, fun l hl => Loc.same_trans (hn l hl) (v.same l hl), fun hl => ?_⟩
    rw [← List.append_assoc, inside_snoc]
    unfold enter
    rw [if_neg hj]
    exact v.mine hl

/-- The outcome is that of a call made alone at its start, and the places in `P` are left as by that call. -/
theorem calm {c3 : Conf O V} {r : Res V} (hex : ∀ op, allowed op → Brk false false (exe op)) (q : Quiet c0) (e0 : Exec exe allowed c0 τ0 c1)
    (u : (exe op).Uses R W ⟨c1.sh.st, false⟩) (hP : ∀ l, R l → P l) (d : CalmCall exe allowed i P c1 op τ r c3) :
    r = ((exe op).run ⟨c1.sh.st, false⟩).1 ∧ ∀ l, P l → l.same c3.sh.st ((exe op).run ⟨c1.sh.st, false⟩).2.st := by
  obtain ⟨c1', τ1, c2, s1, d, s3, _⟩ := d
  have e1 := e0.snoc s1
  cases s1 with
  | start _ h1 ha =>
    obtain ⟨p, t, v⟩ := calm_inv hex q e1 hP (by rw [set_thr, if_pos rfl]) u d
    cases s3 with
    | finish hi hr =>
      cases v.thr.symm.trans hi
      have := v.run.trans (result_run hr _)
      change (exe op).run ⟨c1.sh.st, false⟩ = _ at this
      rw [this]
      exact ⟨rfl, v.same⟩

/-! ## calls that end with one look at the content -/

/-- Run alone from `s`, the program changes nothing and reads only places in `F`, except that its last step may be one load. -/
def Prog.Late (F : Loc → Prop) : Prog α → Sh → Prop
  | .ret _, _ => True
  | .panic _, _ => True
  | .getI f k, s => F (.field f) ∧ (k (f.get s.st.b)).Late F s
  | .getBuf k, s => F .header ∧ (k s.st.b.buf).Late F s
  | .load _ _ k, _ => ∀ v, ∃ r, (k v).result = some r
  | .lock k, s => s.locked = false → k.Late F { s with locked := true }
  | .unlock k, s => s.locked = true ∧ k.Late F { s with locked := false }
  | _, _ => False

theorem Prog.Late.map {F : Loc → Prop} {p : Prog α} {s : Sh} (g : α → β) (u : p.Late F s) : (p.map g).Late F s := by
  induction p generalizing s with
  | ret a => exact True.intro
  | panic q => exact True.intro
  | getI f k ih => exact ⟨u.1, ih _ u.2⟩
  | getBuf k ih => exact ⟨u.1, ih _ u.2⟩
  | load t i k ih =>
    intro v
    obtain ⟨r, hr⟩ := u v
    change ∃ r, ((k v).map g).result = some r
    cases hk : k v <;> rw [hk] at hr <;> first | exact ⟨_, rfl⟩ | exact nomatch hr
  | lock k ih => exact fun h => ih (u h)
  | unlock k ih => exact ⟨u.1, ih u.2⟩
  | _ => exact u.elim

/-- Before the last look: what is left of the call does the same from every state that is the same in `F`. -/
structure LateInv (exe : O → Prog V) (op : O) (F : Loc → Prop) (i : Nat) (c1 : Conf O V) (τ : Trace O V) (c : Conf O V) (p : Prog V) (lk : Bool) : Prop where
  thr : c.thr i = .busy op p
  late : p.Late F ⟨c1.sh.st, lk⟩
  same : ∀ l, F l → l.same c.sh.st c1.sh.st
  run : ∀ s : St, (∀ l, F l → l.same s c1.sh.st) → (exe op).run ⟨s, false⟩ = p.run ⟨s, lk⟩
  mine : lk = true → inside τ i = true

theorem late_inv {F : Loc → Prop} (hex : ∀ op, allowed op → Brk false false (exe op)) (q : Quiet c0) (e0 : Exec exe allowed c0 τ0 c1)
    (h1 : c1.thr i = .busy op (exe op)) (u : (exe op).Late F ⟨c1.sh.st, false⟩) (d : Calm exe allowed i F c1 τ c) :
    (∃ p lk, LateInv exe op F i c1 (τ0 ++ τ) c p lk) ∨
    ∃ p r m τ1 τ2, c.thr i = .busy op p ∧ p.result = some r ∧ Calm exe allowed i F c1 τ1 m ∧ τ = τ1 ++ τ2 ∧ r = ((exe op).run ⟨m.sh.st, false⟩).1 := by
  induction d with
  | nil => exact .inl ⟨exe op, false, h1, u, fun l _ => l.same_refl _, fun s _ => rfl, fun h => nomatch h⟩
  | @own τ c c' e p' d hs ih =>
    have ex := shared_exclusion hex q (d.exec e0)
    cases hs with
    | @did op' p0 _ _ sh hi hs =>
      rcases ih with ⟨p, lk, v⟩ | ⟨p, r, m, τ1, τ2, h2, h3, _⟩
      · cases v.thr.symm.trans hi
        have keep : ∀ {b : Bool}, (e ≠ .lock) → (e ≠ .unlock) → b = true → inside (τ0 ++ τ) i = true →
            inside (τ0 ++ (τ ++ [(i, .did e p')])) i = true := fun {b} h1 h2 hl h => by
          rw [← List.append_assoc, inside_snoc]
          cases e <;> first | exact absurd rfl h1 | exact absurd rfl h2 | (simp only [enter, if_true]; exact h)
        cases p0 with
        | ret a => exact nomatch hs
        | panic q => exact nomatch hs
        | setI f v k => exact v.late.elim
        | setBuf t k => exact v.late.elim
        | store t j x k => exact v.late.elim
        | append t x k => exact v.late.elim
        | alloc a n k => exact v.late.elim
        | getI f k =>
          cases hs
          have hf : f.get c.sh.st.b = f.get c1.sh.st.b := v.same (.field f) v.late.1
          refine .inl ⟨_, lk, by rw [set_thr, if_pos rfl], ?_, v.same, fun s h => (v.run s h).trans ?_, fun hl => keep nofun nofun hl (v.mine hl)⟩
          · rw [hf]; exact v.late.2
          · show (k (f.get s.b)).run _ = _
            rw [show f.get s.b = f.get c1.sh.st.b from h (.field f) v.late.1, hf]
        | getBuf k =>
          cases hs
          have hf : c.sh.st.b.buf = c1.sh.st.b.buf := v.same .header v.late.1
          refine .inl ⟨_, lk, by rw [set_thr, if_pos rfl], ?_, v.same, fun s h => (v.run s h).trans ?_, fun hl => keep nofun nofun hl (v.mine hl)⟩
          · rw [hf]; exact v.late.2
          · show (k s.b.buf).run _ = _
            rw [show s.b.buf = c1.sh.st.b.buf from h .header v.late.1, hf]
        | load t j k =>
          cases hs
          obtain ⟨r, hr⟩ := v.late ((c.sh.st.mem.array t.arr).getD (t.off + j) 0)
          refine .inr ⟨_, r, c, τ, [(i, .did .look _)], by rw [set_thr, if_pos rfl], hr, d, rfl, ?_⟩
          rw [v.run c.sh.st v.same]
          show r = ((k _).run _).1
          rw [result_run hr]
        | lock k =>
          change (if c.sh.locked = true then none else some (Event.lock, k, (⟨c.sh.st, true⟩ : Sh))) = _ at hs
          split at hs
          · exact nomatch hs
          · rename_i hn
            cases hs
            have hlk : lk = false := by
              cases lk with
              | false => rfl
              | true => exact absurd (ex.2.2 ⟨i, v.mine rfl⟩) hn
            subst hlk
            refine .inl ⟨_, true, by rw [set_thr, if_pos rfl], v.late rfl, v.same, fun s h => (v.run s h).trans rfl, fun _ => ?_⟩
            rw [← List.append_assoc, inside_snoc]
            simp only [enter, if_true]
        | unlock k =>
          cases hs
          exact .inl ⟨_, false, by rw [set_thr, if_pos rfl], v.late.2, v.same, fun s h => (v.run s h).trans rfl, nofun⟩
      · cases h2.symm.trans hi
        cases p0 <;> first | (cases h3; cases hs; done) | (cases h3; done)
  | @other τ c c' j a d hj hs hn ih =>
    rcases ih with ⟨p, lk, v⟩ | ⟨p, r, m, τ1, τ2, h2, h3, h4, h5, h6⟩
    · refine .inl ⟨p, lk, (hs.thr_other hj).trans v.thr, v.late, fun l hl => Loc.same_trans (hn l hl) (v.same l hl), v.run, fun hl => ?_⟩
      rw [← List.append_assoc, inside_snoc]
      unfold enter
      rw [if_neg hj]
      exact v.mine hl
    · exact .inr ⟨p, r, m, τ1, τ2 ++ [(j, a)], (hs.thr_other hj).trans h2, h3, h4, by rw [h5, List.append_assoc], h6⟩

/-- The outcome is that of a call made alone at some moment during the call. -/
theorem late {F : Loc → Prop} {c3 : Conf O V} {r : Res V} (hex : ∀ op, allowed op → Brk false false (exe op)) (q : Quiet c0)
    (e0 : Exec exe allowed c0 τ0 c1) (u : (exe op).Late F ⟨c1.sh.st, false⟩) (d : CalmCall exe allowed i F c1 op τ r c3) :
    ∃ m, DuringCall exe allowed i F c1 op τ r m ∧ r = ((exe op).run ⟨m.sh.st, false⟩).1 := by
  obtain ⟨c1', τ1, c2, s1, d, s3, rfl⟩ := d
  have e1 := e0.snoc s1
  have s1' := s1
  cases s1 with
  | start _ h1 ha =>
    cases s3 with
    | finish hi hr =>
      rcases late_inv hex q e1 (by rw [set_thr, if_pos rfl]) u d with ⟨p, lk, v⟩ | ⟨p, r', m, τ2, τ3, h2, h3, h4, h5, h6⟩
      · cases v.thr.symm.trans hi
        refine ⟨c2, ⟨_, τ1, [], s1', d, by rw [List.append_nil]⟩, ?_⟩
        rw [v.run c2.sh.st v.same, result_run hr]
      · cases h2.symm.trans hi
        cases h3.symm.trans hr
        exact ⟨m, ⟨_, τ2, τ3, s1', h4, by rw [h5]; rfl⟩, h6⟩

/-! ## explicit calm schedules, for examples -/

instance (l : Loc) (s t : St) : Decidable (l.same s t) := by cases l <;> (unfold Loc.same; infer_instance)

/-- `sched`, which gives up when a step of another goroutine changes one of the places or goroutine `i` starts or ends a call. -/
def calmSched (ex : O → Prog V) (i : Nat) (P : List Loc) (τ : Trace O V) (c : Conf O V) : List (Nat × Option O) → Option (Trace O V × Conf O V)
  | [] => some (τ, c)
  | (j, o) :: l =>
    match schedStep ex c j o with
    | some (a, c') =>
      if j = i then
        match a with
        | .did _ _ => calmSched ex i P (τ ++ [(j, a)]) c' l
        | _ => none
      else if P.all fun l => decide (l.same c'.sh.st c.sh.st) then calmSched ex i P (τ ++ [(j, a)]) c' l
      else none
    | none => none

theorem calmSched_sound {ps : List Loc} {l : List (Nat × Option O)} {τ' : Trace O V}
    (hl : ∀ x ∈ l, ∀ op, x.2 = some op → allowed op) (e : Calm exe allowed i (· ∈ ps) c0 τ c)
    (h : calmSched exe i ps τ c l = some (τ', c')) : Calm exe allowed i (· ∈ ps) c0 τ' c' := by
  induction l generalizing τ c with
  | nil => cases h; exact e
  | cons x l ih =>
    obtain ⟨j, o⟩ := x
    unfold calmSched at h
    split at h
    · rename_i a c1 hs
      have st := schedStep_sound (hl _ (List.mem_cons_self ..)) hs
      have ih := fun {τ} {c} => @ih c τ (fun y hy => hl y (List.mem_cons_of_mem _ hy))
      split at h
      · rename_i hj
        subst hj
        split at h
        · exact ih (.own e st) h
        · exact nomatch h
      · rename_i hj
        split at h
        · rename_i hp
          exact ih (.other e hj st fun l hl => of_decide_eq_true (List.all_eq_true.mp hp l hl)) h
        · exact nomatch h
    · exact nomatch h

/-- A whole calm call. -/
def calmCall (ex : O → Prog V) (i : Nat) (P : List Loc) (c : Conf O V) (op : O) (l : List (Nat × Option O)) :
    Option (Trace O V × Conf O V × Conf O V × Res V × Conf O V) :=
  match schedStep ex c i (some op) with
  | some (.start _, c1) =>
    match calmSched ex i P [] c1 l with
    | some (τ, c2) =>
      match schedStep ex c2 i none with
      | some (.finish _ r, c3) => some (τ, c1, c2, r, c3)
      | _ => none
    | none => none
  | _ => none

theorem calmCall_sound {ps : List Loc} {l : List (Nat × Option O)} (Q : Res V → Conf O V → Bool) (ha : allowed op)
    (hl : ∀ x ∈ l, ∀ op, x.2 = some op → allowed op)
    (h : ((calmCall exe i ps c op l).any fun x => Q x.2.2.2.1 x.2.2.2.2) = true) :
    ∃ τ r c', CalmCall exe allowed i (· ∈ ps) c op τ r c' ∧ Q r c' = true := by
  cases e : calmCall exe i ps c op l with
  | none => rw [e] at h; exact nomatch h
  | some x =>
    rw [e] at h
    obtain ⟨τ1, c1, c2, r, c3⟩ := x
    change Q r c3 = true at h
    unfold calmCall at e
    split at e
    · rename_i op0 c1' h1
      have st1 := schedStep_sound (allowed := allowed) (fun _ h => by cases h; exact ha) h1
      split at e
      · rename_i τ1' c2' h2
        split at e
        · rename_i op2 r' c3' h3
          cases e
          have st3 := schedStep_sound (allowed := allowed) (o := none) (fun _ h => nomatch h) h3
          have e0 : op0 = op ∧ c1.thr i = .busy op (exe op) := by
            unfold schedStep at h1
            split at h1
            · rename_i he; cases he; cases h1; exact ⟨rfl, by rw [set_thr, if_pos rfl]⟩
            · rename_i he; exact nomatch he
            · exact nomatch h1
          obtain ⟨rfl, hb⟩ := e0
          have d := calmSched_sound hl .nil h2
          obtain ⟨p, hp⟩ := d.busy ⟨_, hb⟩
          have e2 : op2 = op0 := by cases st3 with | finish hi _ => cases hp.symm.trans hi; rfl
          subst e2
          exact ⟨_, _, _, ⟨_, _, _, st1, d, st3, rfl⟩, h⟩
        · exact nomatch e
      · exact nomatch e
    · exact nomatch e

/-! ## another form of the results -/

theorem Calm.map {W : Type} {ex' : O → Prog W} {g : V → W} (hx : ∀ op, allowed op → ex' op = (exe op).map g) (d : Calm exe allowed i P c1 τ c) :
    Calm ex' allowed i P (c1.map g) (Trace.map g τ) (c.map g) := by
  induction d with
  | nil => exact .nil
  | own _ hs ih =>
    unfold Trace.map at ih ⊢
    rw [List.map_append]
    exact .own ih (hs.map hx)
  | other _ hj hs hn ih =>
    unfold Trace.map at ih ⊢
    rw [List.map_append]
    exact .other ih hj (hs.map hx) hn

theorem CalmCall.map {W : Type} {ex' : O → Prog W} {g : V → W} (hx : ∀ op, allowed op → ex' op = (exe op).map g) {r : Res V}
    (d : CalmCall exe allowed i P c op τ r c') : CalmCall ex' allowed i P (c.map g) op (Trace.map g τ) (r.map g) (c'.map g) := by
  obtain ⟨c1, τ1, c2, s1, d, s3, rfl⟩ := d
  refine ⟨c1.map g, Trace.map g τ1, c2.map g, s1.map hx, d.map hx, s3.map hx, ?_⟩
  unfold Trace.map
  simp [List.map_append]
  exact ⟨rfl, rfl⟩

end Crunch
