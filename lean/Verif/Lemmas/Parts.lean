import Verif.Parts
import Verif.Lemmas.Look
import Verif.Lemmas.Src

/-! An execution of calls made of other calls is an execution of these. -/

namespace Crunch

theorem Exec.congr {ex ex' : O → Prog V} {allowed : O → Prop} {c0 c : Conf O V} {τ : Trace O V} (h : ∀ op, allowed op → ex op = ex' op)
    (x : Exec ex allowed c0 τ c) : Exec ex' allowed c0 τ c := by
  induction x with
  | nil => exact .nil
  | snoc _ st ih =>
    refine ih.snoc ?_
    cases st with
    | start op hi ho => rw [h op ho]; exact .start op hi ho
    | did hi hs => exact .did hi hs
    | finish hi hr => exact .finish hi hr

theorem step_bind {p : Prog α} {f : α → Prog β} {s : Sh} {ev : Event} {p' : Prog β} {s' : Sh} (h : p.result = none)
    (st : (p.bind f).step s = some (ev, p', s')) : ∃ q, p.step s = some (ev, q, s') ∧ p' = q.bind f := by
  cases p with
  | ret a => exact nomatch h
  | panic e => exact nomatch h
  | lock k =>
    change (if s.locked = true then none else some (Event.lock, k.bind f, (⟨s.st, true⟩ : Sh))) = _ at st
    split at st
    · exact nomatch st
    · rename_i hl
      cases st
      exact ⟨k, if_neg hl, rfl⟩
  | _ => cases st; exact ⟨_, rfl, rfl⟩

theorem result_ok {p : Prog α} {a : α} (h : p.result = some (.ok a)) : p = .ret a := by
  cases p with
  | ret b => cases h; rfl
  | panic e => exact nomatch h
  | _ => exact nomatch h

theorem result_panic {p : Prog α} {e : Panic} (h : p.result = some (.panic e)) : p = .panic e := by
  cases p with
  | ret b => exact nomatch h
  | panic e => cases h; rfl
  | _ => exact nomatch h

variable {O V E W : Type}

/-- An execution that goes on with steps of goroutine `i` that do not touch the shared state. -/
structure Later (ex : E → Prog W) (allowed : E → Prop) (c0 : Conf E W) (i : Nat) (τ : Trace E W) (c : Conf E W) (τ' : Trace E W)
    (c' : Conf E W) : Prop where
  pre : ∃ σ, τ' = τ ++ σ
  exec : Exec ex allowed c0 τ' c'
  sh : c'.sh = c.sh
  thr : ∀ j, j ≠ i → c'.thr j = c.thr j
  fin : ∀ j, j ≠ i → finished j τ' = finished j τ
  start : ∀ j, j ≠ i → started j τ' = started j τ

theorem Later.trans {ex : E → Prog W} {allowed : E → Prop} {c0 c c' c'' : Conf E W} {i : Nat} {τ τ' τ'' : Trace E W}
    (h : Later ex allowed c0 i τ c τ' c') (h' : Later ex allowed c0 i τ' c' τ'' c'') : Later ex allowed c0 i τ c τ'' c'' where
  pre := by
    obtain ⟨a, ha⟩ := h.pre
    obtain ⟨b, hb⟩ := h'.pre
    exact ⟨a ++ b, by rw [hb, ha, List.append_assoc]⟩
  exec := h'.exec
  sh := h'.sh.trans h.sh
  thr j hj := (h'.thr j hj).trans (h.thr j hj)
  fin j hj := (h'.fin j hj).trans (h.fin j hj)
  start j hj := (h'.start j hj).trans (h.start j hj)

theorem Later.start_call {ex : E → Prog W} {allowed : E → Prop} {c0 c : Conf E W} {i : Nat} {τ : Trace E W} (x : Exec ex allowed c0 τ c)
    (hi : c.thr i = .idle) {e : E} (he : allowed e) :
    Later ex allowed c0 i τ c (τ ++ [(i, .start e)]) (c.set i (.busy e (ex e)) c.sh) where
  pre := ⟨_, rfl⟩
  exec := x.snoc (.start e hi he)
  sh := rfl
  thr j hj := by rw [set_thr, if_neg hj]
  fin j hj := by rw [finished_snoc]; exact List.append_nil _
  start j hj := by
    rw [started_snoc]
    show _ ++ (if i = j then _ else _) = _
    rw [if_neg fun h => hj h.symm]; exact List.append_nil _

theorem Later.finish_call {ex : E → Prog W} {allowed : E → Prop} {c0 c : Conf E W} {i : Nat} {τ : Trace E W} (x : Exec ex allowed c0 τ c)
    {e : E} {q : Prog W} (hi : c.thr i = .busy e q) {r : Res W} (hr : q.result = some r) :
    Later ex allowed c0 i τ c (τ ++ [(i, .finish e r)]) (c.set i .idle c.sh) where
  pre := ⟨_, rfl⟩
  exec := x.snoc (.finish hi hr)
  sh := rfl
  thr j hj := by rw [set_thr, if_neg hj]
  start j hj := by rw [started_snoc]; exact List.append_nil _
  fin j hj := by
    rw [finished_snoc]
    show _ ++ (if i = j then _ else _) = _
    rw [if_neg fun h => hj h.symm]; exact List.append_nil _

theorem finished_start (i : Nat) (τ : Trace E W) (e : E) : finished i (τ ++ [(i, .start e)]) = finished i τ := by
  rw [finished_snoc]; exact List.append_nil _
theorem finished_finish (i : Nat) (τ : Trace E W) (e : E) (r : Res W) : finished i (τ ++ [(i, .finish e r)]) = finished i τ ++ [(e, r)] := by
  rw [finished_snoc]
  show _ ++ (if i = i then _ else _) = _
  rw [if_pos rfl]; rfl
theorem started_start (i : Nat) (τ : Trace E W) (e : E) : started i (τ ++ [(i, .start e)]) = started i τ ++ [e] := by
  rw [started_snoc]
  show _ ++ (if i = i then _ else _) = _
  rw [if_pos rfl]; rfl
theorem started_finish (i : Nat) (τ : Trace E W) (e : E) (r : Res W) : started i (τ ++ [(i, .finish e r)]) = started i τ := by
  rw [started_snoc]; exact List.append_nil _

/-- From between two parts to the next part that has a step to make. -/
theorem go_step {ex : E → Prog W} {allowed : E → Prop} {c0 : Conf E W} {i : Nat} {all : Script E W V} (hall : ∀ e, all.Uses e → allowed e)
    {l : Script E W V} (hl : ∀ e, l.Uses e → all.Uses e) {τ : Trace E W} {c : Conf E W} (x : Exec ex allowed c0 τ c) (hi : c.thr i = .idle)
    (hr : (Prog.script ex l).result = none) :
    ∃ τ' c' es e k q, Later ex allowed c0 i τ c τ' c' ∧ finished i τ' = finished i τ ++ es ∧
      (∀ a ∈ started i τ', a ∈ started i τ ∨ all.Uses a) ∧ (∀ a, (Script.call e k).Uses a → all.Uses a) ∧
      (∀ es' r, Piece (.call e k) es' r → Piece l (es ++ es') r) ∧ c'.thr i = .busy e q ∧ q.result = none ∧
      Prog.script ex l = q.bind fun w => Prog.script ex (k w) := by
  induction l generalizing τ c with
  | done v => exact nomatch hr
  | call e k ih =>
    have s1 := Later.start_call x hi (hall e (hl e .here))
    cases h : (ex e).result with
    | none =>
      refine ⟨_, _, [], e, k, ex e, s1, ?_, ?_, hl, fun _ _ h => h, ?_, h, rfl⟩
      · rw [finished_start, List.append_nil]
      · intro a ha
        rw [started_start] at ha
        rcases List.mem_append.mp ha with ha | ha
        · exact .inl ha
        · rw [List.mem_singleton.mp ha]; exact .inr (hl e .here)
      · rw [set_thr, if_pos rfl]
    | some r =>
      cases r with
      | panic p =>
        unfold Prog.script at hr
        rw [result_panic h] at hr
        exact nomatch hr
      | ok w =>
        have hp : Prog.script ex (.call e k) = Prog.script ex (k w) := by
          show (ex e).bind _ = _
          rw [result_ok h]; rfl
        have s2 := Later.finish_call (i := i) s1.exec (by rw [set_thr, if_pos rfl]) h
        rw [hp] at hr ⊢
        obtain ⟨τ', c', es, e', k', q, h1, h2, h3, h4, h5, h6, h7, h8⟩ :=
          ih w (fun a ha => hl a (.later ha)) s2.exec (by rw [set_thr, if_pos rfl]) hr
        refine ⟨τ', c', (e, .ok w) :: es, e', k', q, (s1.trans s2).trans h1, ?_, ?_, h4, fun es' r h => .more (h5 es' r h), h6, h7, h8⟩
        · rw [h2, finished_finish, finished_start, List.append_assoc]; rfl
        · intro a ha
          rcases h3 a ha with ha | ha
          · rw [started_finish, started_start] at ha
            rcases List.mem_append.mp ha with ha | ha
            · exact .inl ha
            · rw [List.mem_singleton.mp ha]; exact .inr (hl e .here)
          · exact .inr ha

/-- From between two parts to the end, when nothing has a step to make any more. -/
theorem go_end {ex : E → Prog W} {allowed : E → Prop} {c0 : Conf E W} {i : Nat} {all : Script E W V} (hall : ∀ e, all.Uses e → allowed e)
    {l : Script E W V} (hl : ∀ e, l.Uses e → all.Uses e) {τ : Trace E W} {c : Conf E W} (x : Exec ex allowed c0 τ c) (hi : c.thr i = .idle)
    {r : Res V} (hr : (Prog.script ex l).result = some r) :
    ∃ τ' c' es, Later ex allowed c0 i τ c τ' c' ∧ finished i τ' = finished i τ ++ es ∧
      (∀ a ∈ started i τ', a ∈ started i τ ∨ all.Uses a) ∧ Piece l es r ∧ c'.thr i = .idle := by
  induction l generalizing τ c with
  | done v =>
    cases hr
    exact ⟨τ, c, [], ⟨⟨[], (List.append_nil _).symm⟩, x, rfl, fun _ _ => rfl, fun _ _ => rfl, fun _ _ => rfl⟩, (List.append_nil _).symm, fun _ h => .inl h, .done, hi⟩
  | call e k ih =>
    have s1 := Later.start_call x hi (hall e (hl e .here))
    have hs : ∀ r', ∀ a ∈ started i ((τ ++ [(i, .start e)]) ++ [(i, .finish e r')]), a ∈ started i τ ∨ all.Uses a := by
      intro r' a ha
      rw [started_finish, started_start] at ha
      rcases List.mem_append.mp ha with ha | ha
      · exact .inl ha
      · rw [List.mem_singleton.mp ha]; exact .inr (hl e .here)
    cases h : (ex e).result with
    | none =>
      exfalso
      unfold Prog.script at hr
      generalize ex e = p at h hr
      cases p with
      | ret a => exact nomatch h
      | panic e => exact nomatch h
      | _ => exact nomatch hr
    | some r' =>
      have s2 := Later.finish_call (i := i) s1.exec (by rw [set_thr, if_pos rfl]) h
      cases r' with
      | panic p =>
        unfold Prog.script at hr
        rw [result_panic h] at hr
        cases hr
        refine ⟨_, _, [(e, .panic p)], s1.trans s2, ?_, hs _, .fails, by rw [set_thr, if_pos rfl]⟩
        rw [finished_finish, finished_start]
      | ok w =>
        have hp : Prog.script ex (.call e k) = Prog.script ex (k w) := by
          show (ex e).bind _ = _
          rw [result_ok h]; rfl
        rw [hp] at hr
        obtain ⟨τ', c', es, h1, h2, h3, h4, h5⟩ := ih w (fun a ha => hl a (.later ha)) s2.exec (by rw [set_thr, if_pos rfl]) hr
        refine ⟨τ', c', (e, .ok w) :: es, (s1.trans s2).trans h1, ?_, ?_, .more h4, h5⟩
        · rw [h2, finished_finish, finished_start, List.append_assoc]; rfl
        · intro a ha
          rcases h3 a ha with ha | ha
          · exact hs _ a ha
          · exact .inr ha

/-- Where a goroutine is in the two executions. -/
inductive Both (ex : E → Prog W) (script : O → Script E W V) (st : List O) (fs : List (O × Res V)) (es : List (E × Res W)) :
    Thr O V → Thr E W → Prop
  | idle : Pieces script fs es → Both ex script st fs es .idle .idle
  | between {op : O} {p : Prog V} {l : Script E W V} {es0 es1 : List (E × Res W)} : op ∈ st → es = es0 ++ es1 → Pieces script fs es0 →
      (∀ e, l.Uses e → (script op).Uses e) → (∀ es' r, Piece l es' r → Piece (script op) (es1 ++ es') r) →
      p = Prog.script ex l → Both ex script st fs es (.busy op p) .idle
  | during {op : O} {p : Prog V} {e : E} {k : W → Script E W V} {es0 es1 : List (E × Res W)} {q : Prog W} : op ∈ st → es = es0 ++ es1 →
      Pieces script fs es0 → (∀ a, (Script.call e k).Uses a → (script op).Uses a) →
      (∀ es' r, Piece (.call e k) es' r → Piece (script op) (es1 ++ es') r) →
      p = (q.bind fun w => Prog.script ex (k w)) → Both ex script st fs es (.busy op p) (.busy e q)

theorem Both.mono {ex : E → Prog W} {script : O → Script E W V} {st st' : List O} {fs : List (O × Res V)} {es : List (E × Res W)}
    {t : Thr O V} {t' : Thr E W} (h : Both ex script st fs es t t') (hs : ∀ a ∈ st, a ∈ st') : Both ex script st' fs es t t' := by
  cases h with
  | idle h => exact .idle h
  | between h1 h2 h3 h4 h5 h6 => exact .between (hs _ h1) h2 h3 h4 h5 h6
  | during h1 h2 h3 h4 h5 h6 => exact .during (hs _ h1) h2 h3 h4 h5 h6

/-- The two executions at the same moment. -/
structure PInv (exE : E → Prog W) (allowed : O → Prop) (allowedE : E → Prop) (script : O → Script E W V) (s0 : Sh) (τ : Trace O V) (c : Conf O V)
    (τ' : Trace E W) (c' : Conf E W) : Prop where
  exec : Exec exE allowedE (⟨fun _ => .idle, s0⟩ : Conf E W) τ' c'
  sh : c'.sh = c.sh
  starts : ∀ i, ∀ e ∈ started i τ', ∃ op ∈ started i τ, (script op).Uses e
  allows : ∀ i, ∀ op ∈ started i τ, allowed op
  both : ∀ i, Both exE script (started i τ) (finished i τ) (finished i τ') (c.thr i) (c'.thr i)

theorem PInv.step {ex : O → Prog V} {allowed : O → Prop} {exE : E → Prog W} {allowedE : E → Prop} {script : O → Script E W V}
    (hex : ∀ op, allowed op → ex op = Prog.script exE (script op)) (hall : ∀ op, allowed op → ∀ e, (script op).Uses e → allowedE e)
    {s0 : Sh} {τ : Trace O V} {c cn : Conf O V} {τ' : Trace E W} {c' : Conf E W} (v : PInv exE allowed allowedE script s0 τ c τ' c')
    {i : Nat} {a : Act O V} (st : Step ex allowed c i a cn) :
    ∃ τ2 c2, (∃ σ, τ2 = τ' ++ σ) ∧ PInv exE allowed allowedE script s0 (τ ++ [(i, a)]) cn τ2 c2 := by
  obtain ⟨x', hsh, hst, hal, hb⟩ := v
  have b := hb i
  cases st with
  | start op hi hop =>
    rw [hi] at b
    generalize ht : c'.thr i = t' at b
    have sub : ∀ j, ∀ a ∈ started j τ, a ∈ started j (τ ++ [(i, .start op)]) := fun j a ha => by
      rw [started_snoc]; exact List.mem_append_left _ ha
    cases b with
    | idle hp =>
      refine ⟨τ', c', ⟨[], (List.append_nil _).symm⟩, x', hsh, ?_, ?_, fun j => ?_⟩
      · intro j e he
        obtain ⟨op', h1, h2⟩ := hst j e he
        exact ⟨op', sub j _ h1, h2⟩
      · intro j o ho
        rw [started_snoc] at ho
        rcases List.mem_append.mp ho with ho | ho
        · exact hal j o ho
        · change o ∈ (if i = j then [op] else []) at ho
          split at ho
          · rw [List.mem_singleton.mp ho]; exact hop
          · exact nomatch ho
      · by_cases hj : j = i
        · subst hj
          rw [set_thr, if_pos rfl, ht, finished_start, started_start]
          exact .between (es0 := finished j τ') (es1 := []) (List.mem_append_right _ List.mem_cons_self) (List.append_nil _).symm hp
            (fun _ h => h) (fun _ _ h => h) (hex op hop)
        · rw [set_thr, if_neg hj, finished_snoc]
          show Both _ _ _ (_ ++ []) _ _ _
          rw [List.append_nil]
          exact (hb j).mono (sub j)
  | @did op p p' ev sh hi hs =>
    rw [hi] at b
    have es : ∀ j, started j (τ ++ [(i, .did ev p')]) = started j τ := fun j => by rw [started_snoc]; exact List.append_nil _
    have ef : ∀ j, finished j (τ ++ [(i, .did ev p')]) = finished j τ := fun j => by rw [finished_snoc]; exact List.append_nil _
    have nr : p.result = none := by
      cases p with
      | ret a => exact nomatch hs
      | panic e => exact nomatch hs
      | _ => rfl
    -- inside a part that has a step to make
    have main : ∀ {τ1 : Trace E W} {c1 : Conf E W}, (∃ σ, τ1 = τ' ++ σ) → Exec exE allowedE (⟨fun _ => .idle, s0⟩ : Conf E W) τ1 c1 → c1.sh = c.sh →
        (∀ j, ∀ e ∈ started j τ1, ∃ op ∈ started j τ, (script op).Uses e) →
        (∀ j, j ≠ i → Both exE script (started j τ) (finished j τ) (finished j τ1) (c.thr j) (c1.thr j)) →
        ∀ {e : E} {k : W → Script E W V} {es0 es1 : List (E × Res W)} {q : Prog W}, c1.thr i = .busy e q → q.result = none →
        op ∈ started i τ → finished i τ1 = es0 ++ es1 → Pieces script (finished i τ) es0 → (∀ a, (Script.call e k).Uses a → (script op).Uses a) →
        (∀ es' r, Piece (.call e k) es' r → Piece (script op) (es1 ++ es') r) →
        p = (q.bind fun w => Prog.script exE (k w)) →
        ∃ τ2 c2, (∃ σ, τ2 = τ' ++ σ) ∧ PInv exE allowed allowedE script s0 (τ ++ [(i, .did ev p')]) (c.set i (.busy op p') sh) τ2 c2 := by
      intro τ1 c1 ⟨σ, hσ⟩ x1 h1 h2 h3 e k es0 es1 q h4 h5 h6 h7 h8 h9 h10 h11
      rw [h11] at hs
      obtain ⟨q', h12, h13⟩ := step_bind h5 hs
      refine ⟨τ1 ++ [(i, .did ev q')], c1.set i (.busy e q') sh, ⟨σ ++ [(i, .did ev q')], by rw [hσ, List.append_assoc]⟩,
        x1.snoc (.did h4 (by rw [h1]; exact h12)), rfl, ?_, ?_, ?_⟩
      · intro j e' he
        rw [started_snoc] at he
        rw [es]
        exact h2 j e' (by simpa [started] using he)
      · intro j o ho
        rw [es] at ho
        exact hal j o ho
      · intro j
        rw [es, ef, finished_snoc, set_thr, set_thr]
        show Both _ _ _ _ (_ ++ []) _ _
        rw [List.append_nil]
        by_cases hj : j = i
        · subst hj
          rw [if_pos rfl, if_pos rfl]
          exact .during h6 h7 h8 h9 h10 h13
        · rw [if_neg hj, if_neg hj]
          exact h3 j hj
    -- between two parts
    have mid : ∀ {τ1 : Trace E W} {c1 : Conf E W}, (∃ σ, τ1 = τ' ++ σ) → Exec exE allowedE (⟨fun _ => .idle, s0⟩ : Conf E W) τ1 c1 → c1.sh = c.sh →
        (∀ j, ∀ e ∈ started j τ1, ∃ op ∈ started j τ, (script op).Uses e) →
        (∀ j, j ≠ i → Both exE script (started j τ) (finished j τ) (finished j τ1) (c.thr j) (c1.thr j)) →
        ∀ {l : Script E W V} {es0 es1 : List (E × Res W)}, c1.thr i = .idle → op ∈ started i τ → finished i τ1 = es0 ++ es1 →
        Pieces script (finished i τ) es0 → (∀ e, l.Uses e → (script op).Uses e) →
        (∀ es' r, Piece l es' r → Piece (script op) (es1 ++ es') r) → p = Prog.script exE l →
        ∃ τ2 c2, (∃ σ, τ2 = τ' ++ σ) ∧ PInv exE allowed allowedE script s0 (τ ++ [(i, .did ev p')]) (c.set i (.busy op p') sh) τ2 c2 := by
      intro τ1 c1 ⟨σ, hσ⟩ x1 h1 h2 h3 l es0 es1 h4 h5 h6 h7 h8 h9 h10
      obtain ⟨τ2, c2, es2, e, k', q, k1, k2, k3, k4, k5, k6, k7, k8⟩ :=
        go_step (hall op (hal i op h5)) h8 x1 h4 (by rw [← h10]; exact nr)
      obtain ⟨σ2, hσ2⟩ := k1.pre
      refine main ⟨σ ++ σ2, by rw [hσ2, hσ, List.append_assoc]⟩ k1.exec (k1.sh.trans h1) ?_ ?_ k6 k7 h5 (es0 := es0) (es1 := es1 ++ es2)
        (by rw [k2, h6, List.append_assoc]) h7 k4 ?_ (h10.trans k8)
      · intro j e he
        by_cases hj : j = i
        · subst hj
          rcases k3 e he with he | he
          · exact h2 j e he
          · exact ⟨op, h5, he⟩
        · rw [k1.start j hj] at he
          exact h2 j e he
      · intro j hj
        rw [k1.fin j hj, k1.thr j hj]
        exact h3 j hj
      · intro es' r hp
        rw [List.append_assoc]
        exact h9 _ _ (k5 _ _ hp)
    generalize ht : c'.thr i = t' at b
    cases b with
    | between h1 h2 h3 h4 h5 h6 => exact mid ⟨[], (List.append_nil _).symm⟩ x' hsh hst (fun j _ => hb j) ht h1 h2 h3 h4 h5 h6
    | @during _ _ e k es0 es1 q h1 h2 h3 h4 h5 h6 =>
      cases hr : q.result with
      | none => exact main ⟨[], (List.append_nil _).symm⟩ x' hsh hst (fun j _ => hb j) ht hr h1 h2 h3 h4 h5 h6
      | some r =>
        cases r with
        | panic pe =>
          rw [result_panic hr] at h6
          rw [h6] at nr
          exact nomatch nr
        | ok w =>
          have s := Later.finish_call x' ht hr
          rw [result_ok hr] at h6
          refine mid s.pre s.exec (s.sh.trans hsh) ?_ ?_ (by rw [set_thr, if_pos rfl]) h1 (es0 := es0) (es1 := es1 ++ [(e, .ok w)]) ?_ h3
            (fun a ha => h4 a (.later ha)) ?_ h6
          · intro j e' he
            by_cases hj : j = i
            · subst hj
              rw [started_finish] at he
              exact hst j e' he
            · rw [s.start j hj] at he
              exact hst j e' he
          · intro j hj
            rw [s.fin j hj, s.thr j hj]
            exact hb j
          · rw [finished_finish, h2, List.append_assoc]
          · intro es' r hp
            rw [List.append_assoc]
            exact h5 _ _ (.more hp)
  | @finish op p r hi hr =>
    rw [hi] at b
    have es : ∀ j, started j (τ ++ [(i, .finish op r)]) = started j τ := fun j => by rw [started_snoc]; exact List.append_nil _
    have ef : ∀ j, j ≠ i → finished j (τ ++ [(i, .finish op r)]) = finished j τ := fun j hj => by
      rw [finished_snoc]
      show _ ++ (if i = j then _ else _) = _
      rw [if_neg fun h => hj h.symm]; exact List.append_nil _
    have close : ∀ {τ1 : Trace E W} {c1 : Conf E W}, (∃ σ, τ1 = τ' ++ σ) → Exec exE allowedE (⟨fun _ => .idle, s0⟩ : Conf E W) τ1 c1 → c1.sh = c.sh →
        (∀ j, ∀ e ∈ started j τ1, ∃ op ∈ started j τ, (script op).Uses e) →
        (∀ j, j ≠ i → Both exE script (started j τ) (finished j τ) (finished j τ1) (c.thr j) (c1.thr j)) → c1.thr i = .idle →
        ∀ {es0 es1 : List (E × Res W)}, finished i τ1 = es0 ++ es1 → Pieces script (finished i τ) es0 → Piece (script op) es1 r →
        ∃ τ2 c2, (∃ σ, τ2 = τ' ++ σ) ∧ PInv exE allowed allowedE script s0 (τ ++ [(i, .finish op r)]) (c.set i .idle c.sh) τ2 c2 := by
      intro τ1 c1 hσ x1 h1 h2 h3 h4 es0 es1 h5 h6 h7
      refine ⟨τ1, c1, hσ, x1, h1, fun j e he => ?_, fun j o ho => hal j o (by rw [es] at ho; exact ho), fun j => ?_⟩
      · rw [es]; exact h2 j e he
      · rw [es, set_thr]
        by_cases hj : j = i
        · subst hj
          rw [if_pos rfl, h4, finished_finish, h5]
          exact .idle (.snoc h6 h7)
        · rw [if_neg hj, ef j hj]
          exact h3 j hj
    have mid : ∀ {τ1 : Trace E W} {c1 : Conf E W}, (∃ σ, τ1 = τ' ++ σ) → Exec exE allowedE (⟨fun _ => .idle, s0⟩ : Conf E W) τ1 c1 → c1.sh = c.sh →
        (∀ j, ∀ e ∈ started j τ1, ∃ op ∈ started j τ, (script op).Uses e) →
        (∀ j, j ≠ i → Both exE script (started j τ) (finished j τ) (finished j τ1) (c.thr j) (c1.thr j)) →
        ∀ {l : Script E W V} {es0 es1 : List (E × Res W)}, c1.thr i = .idle → op ∈ started i τ → finished i τ1 = es0 ++ es1 →
        Pieces script (finished i τ) es0 → (∀ e, l.Uses e → (script op).Uses e) →
        (∀ es' r, Piece l es' r → Piece (script op) (es1 ++ es') r) → p = Prog.script exE l →
        ∃ τ2 c2, (∃ σ, τ2 = τ' ++ σ) ∧ PInv exE allowed allowedE script s0 (τ ++ [(i, .finish op r)]) (c.set i .idle c.sh) τ2 c2 := by
      intro τ1 c1 ⟨σ, hσ⟩ x1 h1 h2 h3 l es0 es1 h4 h5 h6 h7 h8 h9 h10
      obtain ⟨τ2, c2, es2, k1, k2, k3, k4, k5⟩ := go_end (hall op (hal i op h5)) h8 x1 h4 (r := r) (by rw [← h10]; exact hr)
      obtain ⟨σ2, hσ2⟩ := k1.pre
      refine close ⟨σ ++ σ2, by rw [hσ2, hσ, List.append_assoc]⟩ k1.exec (k1.sh.trans h1) ?_ ?_ k5 (es0 := es0) (es1 := es1 ++ es2)
        (by rw [k2, h6, List.append_assoc]) h7 (h9 _ _ k4)
      · intro j e he
        by_cases hj : j = i
        · subst hj
          rcases k3 e he with he | he
          · exact h2 j e he
          · exact ⟨op, h5, he⟩
        · rw [k1.start j hj] at he
          exact h2 j e he
      · intro j hj
        rw [k1.fin j hj, k1.thr j hj]
        exact h3 j hj
    generalize ht : c'.thr i = t' at b
    cases b with
    | between h1 h2 h3 h4 h5 h6 => exact mid ⟨[], (List.append_nil _).symm⟩ x' hsh hst (fun j _ => hb j) ht h1 h2 h3 h4 h5 h6
    | @during _ _ e k es0 es1 q h1 h2 h3 h4 h5 h6 =>
      cases hq : q.result with
      | none =>
        exfalso
        rw [h6] at hr
        cases q with
        | ret a => exact nomatch hq
        | panic e => exact nomatch hq
        | _ => exact nomatch hr
      | some r' =>
        have s := Later.finish_call x' ht hq
        have hst' : ∀ j, ∀ e' ∈ started j (τ' ++ [(i, .finish e r')]), ∃ op ∈ started j τ, (script op).Uses e' := by
          intro j e' he
          by_cases hj : j = i
          · subst hj
            rw [started_finish] at he
            exact hst j e' he
          · rw [s.start j hj] at he
            exact hst j e' he
        have hb' : ∀ j, j ≠ i → Both exE script (started j τ) (finished j τ) (finished j (τ' ++ [(i, .finish e r')])) (c.thr j)
            ((c'.set i .idle c'.sh).thr j) := by
          intro j hj
          rw [s.fin j hj, s.thr j hj]
          exact hb j
        cases r' with
        | panic pe =>
          rw [result_panic hq] at h6
          rw [h6] at hr
          cases hr
          exact close s.pre s.exec (s.sh.trans hsh) hst' hb' (by rw [set_thr, if_pos rfl]) (es0 := es0) (es1 := es1 ++ [(e, .panic pe)])
            (by rw [finished_finish, h2, List.append_assoc]) h3 (h5 _ _ .fails)
        | ok w =>
          rw [result_ok hq] at h6
          exact mid s.pre s.exec (s.sh.trans hsh) hst' hb' (by rw [set_thr, if_pos rfl]) h1 (es0 := es0) (es1 := es1 ++ [(e, .ok w)])
            (by rw [finished_finish, h2, List.append_assoc]) h3 (fun a ha => h4 a (.later ha))
            (fun es' r hp => by rw [List.append_assoc]; exact h5 _ _ (.more hp)) h6

/-- An execution of calls made of others is, step by step, an execution of the others. -/
theorem parts_exec {ex : O → Prog V} {allowed : O → Prop} {exE : E → Prog W} {allowedE : E → Prop} {script : O → Script E W V}
    (hex : ∀ op, allowed op → ex op = Prog.script exE (script op)) (hall : ∀ op, allowed op → ∀ e, (script op).Uses e → allowedE e)
    {c0 c : Conf O V} {τ : Trace O V} (q : Quiet c0) (x : Exec ex allowed c0 τ c) :
    ∃ τ' c', PInv exE allowed allowedE script c0.sh τ c τ' c' ∧
      ∀ τ1 τ2, τ = τ1 ++ τ2 → ∃ c1 τ1' τ2' c1', τ' = τ1' ++ τ2' ∧ PInv exE allowed allowedE script c0.sh τ1 c1 τ1' c1' := by
  induction x with
  | nil =>
    have v : PInv exE allowed allowedE script c0.sh [] c0 [] (⟨fun _ => .idle, c0.sh⟩ : Conf E W) :=
      ⟨.nil, rfl, fun _ _ h => (nomatch h), fun _ _ h => (nomatch h), fun i => by rw [q.idle i]; exact .idle .nil⟩
    refine ⟨[], _, v, fun τ1 τ2 h => ?_⟩
    rw [(List.append_eq_nil_iff.mp h.symm).1]
    exact ⟨_, [], [], _, rfl, v⟩
  | @snoc τ c c1 i a x st ih =>
    obtain ⟨τ', c', v, hp⟩ := ih
    obtain ⟨τ2', c2', ⟨σ, hσ⟩, v'⟩ := v.step hex hall st
    refine ⟨τ2', c2', v', fun τ1 τ2 h => ?_⟩
    rcases List.eq_nil_or_concat τ2 with rfl | ⟨τ3, y, rfl⟩
    · rw [List.append_nil] at h
      subst h
      exact ⟨_, τ2', [], _, (List.append_nil _).symm, v'⟩
    · rw [List.concat_eq_append, ← List.append_assoc] at h
      obtain ⟨d, t1, t2, d', h1, h2⟩ := hp τ1 τ3 (List.append_inj_left' h rfl)
      exact ⟨d, t1, t2 ++ σ, d', by rw [hσ, h1, List.append_assoc], h2⟩

theorem PInv.explains_of {allowed : O → Prop} {exE : E → Prog W} {allowedE : E → Prop} {script : O → Script E W V} {s0 : Sh} {τ : Trace O V}
    {c : Conf O V} {τ' : Trace E W} {c' : Conf E W} {L : List (Nat × E)} (v : PInv exE allowed allowedE script s0 τ c τ' c')
    (h1 : ∀ i, ∃ pending, ofThread i (seqRun exE L s0).1 = finished i τ' ++ pending)
    (h2 : ∀ i, ∃ waiting, started i τ' = ofThread i L ++ waiting) : Explains exE script s0 τ L := by
  refine ⟨fun i => ?_, fun i e he => ?_⟩
  · obtain ⟨pend, hp⟩ := h1 i
    have b := v.both i
    generalize c.thr i = t at b
    generalize c'.thr i = t' at b
    rw [hp]
    cases b with
    | idle h => exact ⟨_, _, rfl, h⟩
    | between _ he h3 _ _ _ => exact ⟨_, _, by rw [he, List.append_assoc], h3⟩
    | during _ he h3 _ _ _ => exact ⟨_, _, by rw [he, List.append_assoc], h3⟩
  · obtain ⟨w, hw⟩ := h2 i
    exact v.starts i e (by rw [hw]; exact List.mem_append_left _ he)

theorem PInv.allowed_of {allowed : O → Prop} {exE : E → Prog W} {allowedE : E → Prop} {script : O → Script E W V} {s0 : Sh} {τ : Trace O V}
    {c : Conf O V} {τ' : Trace E W} {c' : Conf E W} {L : List (Nat × E)} (v : PInv exE allowed allowedE script s0 τ c τ' c')
    (hall : ∀ op, allowed op → ∀ e, (script op).Uses e → allowedE e)
    (h2 : ∀ i, ∃ waiting, started i τ' = ofThread i L ++ waiting) : ∀ a ∈ L, allowedE a.2 := by
  rintro ⟨i, e⟩ ha
  have he : e ∈ ofThread i L := by
    unfold ofThread
    exact List.mem_map.mpr ⟨_, List.mem_filter.mpr ⟨ha, by simp⟩, rfl⟩
  obtain ⟨w, hw⟩ := h2 i
  obtain ⟨op, ho, hu⟩ := v.starts i e (by rw [hw]; exact List.mem_append_left _ he)
  exact hall op (v.allows i op ho) e hu

theorem PInv.idle {allowed : O → Prop} {exE : E → Prog W} {allowedE : E → Prop} {script : O → Script E W V} {s0 : Sh} {τ : Trace O V}
    {c : Conf O V} {τ' : Trace E W} {c' : Conf E W} (v : PInv exE allowed allowedE script s0 τ c τ' c') (i : Nat) (hi : c.thr i = .idle) :
    c'.thr i = .idle ∧ Pieces script (finished i τ) (finished i τ') := by
  have b := v.both i
  rw [hi] at b
  generalize c'.thr i = t' at b
  cases b with
  | idle h => exact ⟨rfl, h⟩

/-- Goroutines whose calls are made of calls with a single locked section: there is an order of these parts that explains every
moment of the execution, and the state at its end. -/
theorem parts_linearizable {ex : O → Prog V} {allowed : O → Prop} {exE : E → Prog W} {allowedE : E → Prop} {script : O → Script E W V}
    (hex : ∀ op, allowed op → ex op = Prog.script exE (script op)) (hall : ∀ op, allowed op → ∀ e, (script op).Uses e → allowedE e)
    (once : ∀ e, allowedE e → Once (exE e)) {c0 c : Conf O V} {τ : Trace O V} (q : Quiet c0) (x : Exec ex allowed c0 τ c) :
    ∃ L : List (Nat × E), (∀ a ∈ L, allowedE a.2) ∧ Explains exE script c0.sh τ L ∧
      (∀ τ1 τ2, τ = τ1 ++ τ2 → ∃ L1 L2, L = L1 ++ L2 ∧ Explains exE script c0.sh τ1 L1) ∧
      (∀ i, c.thr i = .idle → Pieces script (finished i τ) (ofThread i (seqRun exE L c0.sh).1)) ∧
      ((∀ i, c.thr i = .idle) → c.sh = (seqRun exE L c0.sh).2) := by
  obtain ⟨τ', c', v, hp⟩ := parts_exec hex hall q x
  have q' : Quiet (⟨fun _ => .idle, c0.sh⟩ : Conf E W) := ⟨fun _ => rfl, q.free⟩
  obtain ⟨h1, h2, h3⟩ := shared_linearizable once q' v.exec
  have h2' : ∀ i, ∃ waiting, started i τ' = ofThread i (points τ') ++ waiting := fun i => let ⟨w, h, _⟩ := h2 i; ⟨w, h⟩
  refine ⟨points τ', v.allowed_of hall h2', v.explains_of (fun i => let ⟨w, h, _⟩ := h1 i; ⟨w, h⟩) h2', ?_, ?_, ?_⟩
  · intro τ1 τ2 h
    obtain ⟨c1, τ1', τ2', c1', k1, k2⟩ := hp τ1 τ2 h
    obtain ⟨l, hl⟩ := points_prefix τ1' τ2'
    obtain ⟨h1, h2, _⟩ := shared_linearizable once q' k2.exec
    exact ⟨points τ1', l, by rw [k1, hl], k2.explains_of (fun i => let ⟨w, h, _⟩ := h1 i; ⟨w, h⟩) fun i => let ⟨w, h, _⟩ := h2 i; ⟨w, h⟩⟩
  · intro i hi
    obtain ⟨pend, hpend, _, hn⟩ := h1 i
    obtain ⟨k1, k2⟩ := v.idle i hi
    rw [hpend, hn k1, List.append_nil]
    exact k2
  · intro hi
    rw [← v.sh]
    exact h3 fun i => (v.idle i (hi i)).1

/-- The same when the parts may also be looks at an offset outside of a section. -/
theorem parts_look {ex : O → Prog V} {allowed : O → Prop} {exE : E → Prog W} {allowedE : E → Prop} {script : O → Script E W V}
    (hex : ∀ op, allowed op → ex op = Prog.script exE (script op)) (hall : ∀ op, allowed op → ∀ e, (script op).Uses e → allowedE e)
    (once : ∀ e, allowedE e → OnceP (exE e)) {c0 c : Conf O V} {τ : Trace O V} (q : Quiet c0) (x : Exec ex allowed c0 τ c) :
    ∃ L : List (Nat × E), (∀ a ∈ L, allowedE a.2) ∧ Explains exE script c0.sh τ L ∧
      (∀ τ1 τ2, τ = τ1 ++ τ2 → ∃ L1 L2, L = L1 ++ L2 ∧ Explains exE script c0.sh τ1 L1) ∧
      (∀ i, c.thr i = .idle → Pieces script (finished i τ) (ofThread i (seqRun exE L c0.sh).1)) ∧
      ((∀ i, c.thr i = .idle) → c.sh = (seqRun exE L c0.sh).2) := by
  obtain ⟨τ', c', v, hp⟩ := parts_exec hex hall q x
  have q' : Quiet (⟨fun _ => .idle, c0.sh⟩ : Conf E W) := ⟨fun _ => rfl, q.free⟩
  obtain ⟨L, h, j, jp⟩ := look_linearizable once q' v.exec
  have o := j.orders
  have h2' : ∀ i, ∃ waiting, started i τ' = ofThread i L ++ waiting := fun i => let ⟨w, h, _⟩ := o.starts i; ⟨w, h⟩
  refine ⟨L, v.allowed_of hall h2', v.explains_of (fun i => let ⟨w, h, _⟩ := o.results i; ⟨w, h⟩) h2', ?_, ?_, ?_⟩
  · intro τ1 τ2 h
    obtain ⟨c1, τ1', τ2', c1', k1, k2⟩ := hp τ1 τ2 h
    obtain ⟨L1, L2, d, _, e, j1⟩ := jp τ1' τ2' k1
    have o := j1.orders
    exact ⟨L1, L2, e, k2.explains_of (fun i => let ⟨w, h, _⟩ := o.results i; ⟨w, h⟩) fun i => let ⟨w, h, _⟩ := o.starts i; ⟨w, h⟩⟩
  · intro i hi
    obtain ⟨pend, hpend, _, hn⟩ := o.results i
    obtain ⟨k1, k2⟩ := v.idle i hi
    rw [hpend, hn k1, List.append_nil]
    exact k2
  · intro hi
    rw [← v.sh]
    exact j.final fun i => (v.idle i (hi i)).1

theorem script_andThen (ex : E → Prog W) (s : Script E W V) (f : V → Script E W V') :
    Prog.script ex (s.andThen f) = (Prog.script ex s).bind fun v => Prog.script ex (f v) := by
  induction s with
  | done v => rfl
  | call e k ih =>
    show (ex e).bind _ = ((ex e).bind _).bind _
    rw [Prog.bind_assoc']
    congr 1
    funext w
    exact ih w

theorem uses_andThen {s : Script E W V} {f : V → Script E W V'} {e : E} (h : (s.andThen f).Uses e) : s.Uses e ∨ ∃ v, (f v).Uses e := by
  induction s with
  | done v => exact .inr ⟨v, h⟩
  | call e' k ih =>
    cases h with
    | here => exact .inl .here
    | later h =>
      rcases ih _ h with h | h
      · exact .inl (.later h)
      · exact .inr h

end Crunch
