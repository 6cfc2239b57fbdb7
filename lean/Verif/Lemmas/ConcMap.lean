import Verif.Conc

/-!
Programs with the same steps and results that correspond have executions that correspond.
-/

namespace Crunch

/-- Another form of the result. -/
def Res.map (g : α → β) : Res α → Res β
  | .ok a => .ok (g a)
  | .panic p => .panic p

/-- The same steps, with another form of the result. -/
def Prog.map (g : α → β) (p : Prog α) : Prog β := p.bind fun a => .ret (g a)

/-- The goroutine with another form of the results. -/
def Thr.map (g : V → W) : Thr O V → Thr O W
  | .idle => .idle
  | .busy op p => .busy op (p.map g)

/-- All goroutines with another form of the results. -/
def Conf.map (g : V → W) (c : Conf O V) : Conf O W := ⟨fun i => (c.thr i).map g, c.sh⟩

/-- The action with another form of the results. -/
def Act.map (g : V → W) : Act O V → Act O W
  | .start op => .start op
  | .did e p => .did e (p.map g)
  | .finish op r => .finish op (r.map g)

/-- The trace with another form of the results. -/
def Trace.map (g : V → W) (τ : Trace O V) : Trace O W := List.map (fun x => (x.1, x.2.map g)) τ

theorem Prog.step_map (g : α → β) (p : Prog α) (s : Sh) :
    (p.map g).step s = (p.step s).map fun x => (x.1, x.2.1.map g, x.2.2) := by
  cases p <;> simp only [Prog.map, Prog.bind, Prog.step, Option.map_some, Option.map_none]
  all_goals try (split <;> rfl)
  all_goals rfl

theorem Prog.result_map (g : α → β) (p : Prog α) : (p.map g).result = p.result.map (·.map g) := by
  cases p <;> rfl

theorem Prog.run_map (g : α → β) (p : Prog α) (s : Sh) : (p.map g).run s = ((p.run s).1.map g, (p.run s).2) := by
  induction p generalizing s with
  | lock k ih =>
    simp only [Prog.map, Prog.bind, Prog.run] at ih ⊢
    split
    · rfl
    · exact ih _
  | ret a => rfl
  | panic e => rfl
  | _ => simp_all only [Prog.map, Prog.bind, Prog.run]

theorem Conf.map_set (g : V → W) (c : Conf O V) (i : Nat) (t : Thr O V) (sh : Sh) :
    (c.set i t sh).map g = (c.map g).set i (t.map g) sh := by
  unfold Conf.set Conf.map
  simp only [Conf.mk.injEq, and_true]
  funext j
  split <;> rfl

theorem Thr.map_idle {g : V → W} {t : Thr O V} (h : t.map g = .idle) : t = .idle := by
  cases t with
  | idle => rfl
  | busy op p => cases h

theorem Thr.map_busy {g : V → W} {t : Thr O V} {op : O} {p : Prog W} (h : t.map g = .busy op p) :
    ∃ q, t = .busy op q ∧ p = q.map g := by
  cases t with
  | idle => cases h
  | busy op' q => cases h; exact ⟨q, rfl, rfl⟩

variable {O V W : Type} {ex : O → Prog V} {ex' : O → Prog W} {allowed : O → Prop} {g : V → W}

theorem Step.map (hx : ∀ op, allowed op → ex' op = (ex op).map g) {c c' : Conf O V} {i : Nat} {a : Act O V}
    (h : Step ex allowed c i a c') : Step ex' allowed (c.map g) i (a.map g) (c'.map g) := by
  cases h with
  | start op hi ha =>
    rw [Conf.map_set]
    show Step ex' allowed (c.map g) i (.start op) ((c.map g).set i (.busy op ((ex op).map g)) (c.map g).sh)
    rw [← hx op ha]
    exact .start op (by show (c.thr i).map g = _; rw [hi]; rfl) ha
  | did hb hs =>
    rw [Conf.map_set]
    refine .did (by show (c.thr i).map g = _; rw [hb]; rfl) ?_
    rw [Prog.step_map]
    show Option.map _ (Prog.step _ c.sh) = _
    rw [hs]; rfl
  | finish hb hr =>
    rw [Conf.map_set]
    refine .finish (by show (c.thr i).map g = _; rw [hb]; rfl) ?_
    rw [Prog.result_map, hr]; rfl

theorem Step.of_map (hx : ∀ op, allowed op → ex' op = (ex op).map g) {c : Conf O V} {c' : Conf O W} {i : Nat} {a : Act O W}
    (h : Step ex' allowed (c.map g) i a c') : ∃ b d, Step ex allowed c i b d ∧ a = b.map g ∧ c' = d.map g := by
  cases h with
  | start op hi ha =>
    refine ⟨.start op, _, .start op (Thr.map_idle hi) ha, rfl, ?_⟩
    rw [Conf.map_set, hx op ha]; rfl
  | did hb hs =>
    obtain ⟨q, hq, rfl⟩ := Thr.map_busy hb
    rw [Prog.step_map, Option.map_eq_some_iff] at hs
    obtain ⟨⟨e, q', sh⟩, hs, he⟩ := hs
    cases he
    exact ⟨_, _, .did hq hs, rfl, by rw [Conf.map_set]; rfl⟩
  | finish hb hr =>
    obtain ⟨q, hq, rfl⟩ := Thr.map_busy hb
    rw [Prog.result_map, Option.map_eq_some_iff] at hr
    obtain ⟨r, hr, rfl⟩ := hr
    exact ⟨_, _, .finish hq hr, rfl, by rw [Conf.map_set]; rfl⟩

theorem Exec.map (hx : ∀ op, allowed op → ex' op = (ex op).map g) {c0 c : Conf O V} {τ : Trace O V} (h : Exec ex allowed c0 τ c) :
    Exec ex' allowed (c0.map g) (Trace.map g τ) (c.map g) := by
  induction h with
  | nil => exact .nil
  | snoc _ st ih =>
    unfold Trace.map at ih ⊢
    rw [List.map_append]
    exact .snoc ih (st.map hx)

theorem Exec.of_map (hx : ∀ op, allowed op → ex' op = (ex op).map g) {c0 : Conf O V} {c' : Conf O W} {τ' : Trace O W}
    (h : Exec ex' allowed (c0.map g) τ' c') : ∃ τ c, Exec ex allowed c0 τ c ∧ τ' = Trace.map g τ ∧ c' = c.map g := by
  induction h with
  | nil => exact ⟨[], c0, .nil, rfl, rfl⟩
  | snoc _ st ih =>
    obtain ⟨τ, c, e, rfl, rfl⟩ := ih
    obtain ⟨b, d, sb, rfl, rfl⟩ := st.of_map hx
    exact ⟨_, _, .snoc e sb, by unfold Trace.map; rw [List.map_append]; rfl, rfl⟩

theorem started_map (g : V → W) (i : Nat) (τ : Trace O V) : started i (Trace.map g τ) = started i τ := by
  induction τ with
  | nil => rfl
  | cons x τ ih =>
    obtain ⟨j, a⟩ := x
    cases a with
    | start op => exact congrArg (fun l => if j = i then op :: l else l) ih
    | _ => exact ih

theorem finished_map (g : V → W) (i : Nat) (τ : Trace O V) :
    finished i (Trace.map g τ) = (finished i τ).map fun x => (x.1, x.2.map g) := by
  induction τ with
  | nil => rfl
  | cons x τ ih =>
    obtain ⟨j, a⟩ := x
    cases a with
    | finish op r =>
      refine (congrArg (fun l => if j = i then (op, r.map g) :: l else l) ih).trans ?_
      simp only [finished]
      split <;> rfl
    | _ => exact ih

end Crunch
