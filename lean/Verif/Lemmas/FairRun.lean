import Verif.Fair

/-! In a fair run every call comes to its end, unless some call ends inside its locked section. -/

namespace Crunch

variable {O V : Type} {ex : O → Prog V} {allowed : O → Prop} {c0 : Conf O V}

theorem Run.exec (r : Run ex allowed c0) (n : Nat) : Exec ex allowed c0 (r.trace n) (r.conf n) := by
  induction n with
  | zero => rw [r.init]; exact .nil
  | succ n ih =>
    unfold Run.trace
    cases h : r.sched n with
    | none => rw [r.rest n h]; simpa using ih
    | some x => obtain ⟨i, a⟩ := x; exact ih.snoc (r.step n i a h)

theorem Run.keeps (r : Run ex allowed c0) {i n : Nat} (h : ¬ r.Moves i n) : (r.conf (n + 1)).thr i = (r.conf n).thr i := by
  cases hs : r.sched n with
  | none => rw [r.rest n hs]
  | some x =>
    obtain ⟨j, a⟩ := x
    have hj : i ≠ j := fun e => h ⟨a, by rw [hs, e]⟩
    have st := r.step n j a hs
    generalize r.conf (n + 1) = c' at st ⊢
    cases st <;> rw [set_thr, if_neg hj]

theorem Run.keeps_to (r : Run ex allowed c0) {i m k : Nat} (hk : m ≤ k) (h : ∀ j, m ≤ j → j < k → ¬ r.Moves i j) :
    (r.conf k).thr i = (r.conf m).thr i := by
  induction hk with
  | refl => rfl
  | @step k hk ih => rw [r.keeps (h k hk (Nat.lt_succ_self k)), ih fun j h1 h2 => h j h1 (Nat.lt_succ_of_lt h2)]

theorem first_from {p : Nat → Prop} {m k : Nat} (hk : m ≤ k) (h : p k) : ∃ k, m ≤ k ∧ p k ∧ ∀ j, m ≤ j → j < k → ¬ p j := by
  induction k using Nat.strongRecOn with
  | ind k ih =>
    by_cases hx : ∃ j, m ≤ j ∧ j < k ∧ p j
    · obtain ⟨j, h1, h2, h3⟩ := hx
      exact ih j h2 h1 h3
    · exact ⟨k, hk, h, fun j h1 h2 h3 => hx ⟨j, h1, h2, h3⟩⟩

/-- A goroutine that stays in a call takes no more steps from some moment on. -/
theorem Run.stops (r : Run ex allowed c0) {i n : Nat} (hb : ∀ m, n ≤ m → (r.conf m).thr i ≠ .idle) :
    ∃ N, n ≤ N ∧ ∀ m, N ≤ m → ¬ r.Moves i m := by
  suffices key : ∀ t, Acc Thr.Less t → ∀ m, n ≤ m → (r.conf m).thr i = t → ∃ N, n ≤ N ∧ ∀ m, N ≤ m → ¬ r.Moves i m from
    key _ (Thr.Less.acc _) n (Nat.le_refl n) rfl
  intro t ht
  induction ht with
  | intro t _ ih =>
    intro m hm hc
    by_cases hx : ∃ k, m ≤ k ∧ r.Moves i k
    · obtain ⟨k, h1, h2⟩ := hx
      obtain ⟨k, h1, ⟨a, h2⟩, h3⟩ := first_from (p := r.Moves i) h1 h2
      have hk := (r.keeps_to h1 h3).trans hc
      have st := r.step k i a h2
      have hn := hb (k + 1) (by omega)
      refine ih ((r.conf (k + 1)).thr i) ?_ (k + 1) (by omega) rfl
      generalize r.conf (k + 1) = c' at st hn ⊢
      cases st with
      | start op hi _ => exact absurd hi (hb k (by omega))
      | did hi hs =>
        rw [← hk, hi, set_thr, if_pos rfl]
        exact .did ⟨_, _, _, hs⟩
      | finish => exact absurd (by rw [set_thr, if_pos rfl]) hn
    · exact ⟨m, hm, fun k hk hv => hx ⟨k, hk, hv⟩⟩

/-- It is ready only finitely often. -/
theorem Run.Fair.unready {r : Run ex allowed c0} (hf : r.Fair) {i n : Nat} (hb : ∀ m, n ≤ m → (r.conf m).thr i ≠ .idle) :
    ∃ N, n ≤ N ∧ ∀ m, N ≤ m → ¬ r.Ready i m ∧ (r.conf m).thr i = (r.conf N).thr i := by
  obtain ⟨N, hN, h⟩ := r.stops hb
  by_cases hx : ∀ k, ∃ m, k ≤ m ∧ r.Ready i m
  · obtain ⟨m, h1, h2⟩ := hf i hx N
    exact absurd h2 (h m h1)
  · obtain ⟨k, hk⟩ := Classical.not_forall.mp hx
    refine ⟨max N k, by omega, fun m hm => ⟨fun hr => hk ⟨m, by omega, hr⟩, ?_⟩⟩
    have e : ∀ m, N ≤ m → (r.conf m).thr i = (r.conf N).thr i := fun m hm => r.keeps_to hm fun j h1 _ => h j h1
    exact (e m (by omega)).trans (e _ (by omega)).symm

/-- A goroutine in a call that cannot go on waits for the mutex. -/
theorem Run.waits (r : Run ex allowed c0) {i n : Nat} {op : O} {p : Prog V} (hb : (r.conf n).thr i = .busy op p) (h : ¬ r.Ready i n) :
    (∃ k, p = .lock k) ∧ (r.conf n).sh.locked = true := by
  rcases p.stuck (r.conf n).sh with ⟨x, hr⟩ | ⟨⟨x, p', sh⟩, hs⟩ | ⟨k, hk, hc⟩
  · exact absurd ⟨_, _, .finish hb hr⟩ h
  · exact absurd ⟨_, _, .did hb hs⟩ h
  · exact ⟨⟨k, hk⟩, hc⟩

theorem unlock_free {p p' : Prog α} {s s' : Sh} (h : p.step s = some (.unlock, p', s')) : s'.locked = false := by
  cases p with
  | unlock k => cases h; rfl
  | lock k =>
    change (if s.locked = true then none else some (Event.lock, k, (⟨s.st, true⟩ : Sh))) = _ at h
    split at h
    · exact nomatch h
    · exact nomatch h
  | ret => exact nomatch h
  | panic => exact nomatch h
  | _ => exact nomatch (congrArg (fun x => x.map Prod.fst) h)

theorem fair_finish (hex : ∀ op, allowed op → Brk false false (ex op)) (q : Quiet c0) (r : Run ex allowed c0) (hf : r.Fair)
    (hn : ∀ n, ¬ EndedInside (r.trace n)) {n i : Nat} {op : O} {p : Prog V} (hb : (r.conf n).thr i = .busy op p) :
    ∃ m x, n ≤ m ∧ r.sched m = some (i, .finish op x) := by
  apply Classical.byContradiction
  intro hx
  -- it stays in the call
  have busy : ∀ m, n ≤ m → ∃ p, (r.conf m).thr i = .busy op p := by
    intro m hm
    induction hm with
    | refl => exact ⟨p, hb⟩
    | @step m hm ih =>
      obtain ⟨p, hp⟩ := ih
      by_cases hv : r.Moves i m
      · obtain ⟨a, ha⟩ := hv
        have st := r.step m i a ha
        show ∃ p, (r.conf (m + 1)).thr i = _
        generalize r.conf (m + 1) = c' at st ⊢
        cases st with
        | start op' hi _ => rw [hp] at hi; exact nomatch hi
        | did hi hs => rw [hp] at hi; cases hi; exact ⟨_, by rw [set_thr, if_pos rfl]⟩
        | finish hi hr => rw [hp] at hi; cases hi; exact absurd ⟨m, _, hm, ha⟩ hx
      · exact ⟨p, (r.keeps hv).trans hp⟩
  obtain ⟨N, hN, h⟩ := hf.unready fun m hm hi => by
    obtain ⟨p, hp⟩ := busy m hm
    rw [hp] at hi; exact nomatch hi
  -- so the mutex is locked from some moment on
  have lk : ∀ m, N ≤ m → (r.conf m).sh.locked = true := fun m hm => by
    obtain ⟨p, hp⟩ := busy m (by omega)
    exact (r.waits hp (h m hm).1).2
  -- always by the same goroutine
  have holder : ∀ m, N ≤ m → ∃ j op p, inside (r.trace m) j = true ∧ (r.conf m).thr j = .busy op p ∧ Brk true false p := fun m hm => by
    obtain ⟨k, a, v⟩ := exec_inv hex q (r.exec m)
    have hk : k.isSome = true := v.locked.symm.trans (lk m hm)
    cases a with
    | false => exact absurd (v.ended.mpr ⟨rfl, hk⟩) (hn m)
    | true =>
      obtain ⟨j, op, p, h1, h2, h3, _⟩ := v.active rfl
      exact ⟨j, op, p, by rw [v.hold j, h1]; simp, h2, h3⟩
  obtain ⟨j, _, _, hj, _⟩ := holder N (Nat.le_refl N)
  have stays : ∀ m, N ≤ m → inside (r.trace m) j = true := by
    intro m hm
    induction hm with
    | refl => exact hj
    | @step m hm ih =>
      show inside (r.trace m ++ (r.sched m).toList) j = true
      cases hs : r.sched m with
      | none => simpa using ih
      | some x =>
        obtain ⟨i', a⟩ := x
        show inside (r.trace m ++ [(i', a)]) j = true
        rw [inside_snoc, ih]
        have st := r.step m i' a hs
        have hl := lk (m + 1) (Nat.le_succ_of_le hm)
        generalize r.conf (m + 1) = c' at st hl
        unfold enter
        by_cases e : i' = j
        · rw [if_pos e]
          cases st with
          | @did op p p' ev sh hi hp =>
            cases ev with
            | unlock => exact nomatch hl.symm.trans (unlock_free hp)
            | _ => rfl
          | _ => rfl
        · rw [if_neg e]
  have active : ∀ m, N ≤ m → ∃ op p, (r.conf m).thr j = .busy op p ∧ Brk true false p := fun m hm => by
    obtain ⟨j', op, p, h1, h2, h3⟩ := holder m hm
    obtain ⟨k, a, v⟩ := exec_inv hex q (r.exec m)
    have e1 := (v.hold j').symm.trans h1
    have e2 := (v.hold j).symm.trans (stays m hm)
    have e : j' = j := by
      have e1 := of_decide_eq_true e1
      have e2 := of_decide_eq_true e2
      rw [e1] at e2
      exact Option.some.inj e2
    exact ⟨op, p, e ▸ h2, h3⟩
  -- who could go on
  obtain ⟨M, hM, h'⟩ := hf.unready (i := j) (n := N) fun m hm hi => by
    obtain ⟨op, p, hp, _⟩ := active m hm
    rw [hp] at hi; exact nomatch hi
  obtain ⟨op, p, hp, hk⟩ := active M hM
  obtain ⟨⟨k, rfl⟩, _⟩ := r.waits hp (h' M (Nat.le_refl M)).1
  exact nomatch hk.1

/-- An execution that ends with nobody in a call, followed by nothing, is a fair run. -/
theorem exists_run {c : Conf O V} {τ : Trace O V} (e : Exec ex allowed c0 τ c) (hi : ∀ i, c.thr i = .idle) :
    ∃ r : Run ex allowed c0, r.Fair ∧ r.trace τ.length = τ ∧ ∀ n, τ.length ≤ n → r.conf n = c ∧ r.sched n = none := by
  have key : ∃ r : Run ex allowed c0, r.trace τ.length = τ ∧ ∀ n, τ.length ≤ n → r.conf n = c ∧ r.sched n = none := by
    clear hi
    induction e with
    | nil => exact ⟨⟨fun _ => c0, fun _ => none, rfl, fun _ _ => rfl, nofun⟩, rfl, fun _ _ => ⟨rfl, rfl⟩⟩
    | @snoc τ c c' i a _ st ih =>
      obtain ⟨r, ht, hr⟩ := ih
      refine ⟨⟨fun n => if n ≤ τ.length then r.conf n else c', fun n => if n = τ.length then some (i, a) else r.sched n, ?_, ?_, ?_⟩, ?_, ?_⟩
      · rw [if_pos (Nat.zero_le _)]; exact r.init
      · intro n hs
        by_cases hl : n = τ.length
        · rw [if_pos hl] at hs; exact nomatch hs
        · rw [if_neg hl] at hs
          by_cases hl' : n ≤ τ.length
          · rw [if_pos hl', if_pos (by omega)]; exact r.rest n hs
          · rw [if_neg hl', if_neg (by omega)]
      · intro n j b hs
        by_cases hl : n = τ.length
        · rw [if_pos hl] at hs
          cases hs
          rw [if_pos (by omega), if_neg (by omega), (hr n (by omega)).1]
          exact st
        · rw [if_neg hl] at hs
          by_cases hl' : n ≤ τ.length
          · rw [if_pos hl', if_pos (by omega)]; exact r.step n j b hs
          · rw [(hr n (by omega)).2] at hs; exact nomatch hs
      · rw [show (τ ++ [(i, a)]).length = τ.length + 1 by simp]
        have pre : ∀ (r' : Run ex allowed c0), (∀ n, n < τ.length → r'.sched n = r.sched n) → ∀ n, n ≤ τ.length → r'.trace n = r.trace n := by
          intro r' h n
          induction n with
          | zero => intro _; rfl
          | succ n ih => intro hn; unfold Run.trace; rw [ih (by omega), h n (by omega)]
        show Run.trace _ τ.length ++ _ = _
        rw [pre _ (fun n hn => if_neg (by omega)) _ (Nat.le_refl _), ht]
        congr 1
        show Option.toList (if _ then _ else _) = _
        rw [if_pos rfl]; rfl
      · intro n hn
        have hn : τ.length < n := by rw [show (τ ++ [(i, a)]).length = τ.length + 1 by simp] at hn; exact hn
        exact ⟨if_neg (by omega), (if_neg (by omega)).trans (hr n (by omega)).2⟩
  obtain ⟨r, h1, h2⟩ := key
  refine ⟨r, fun i h n => ?_, h1, h2⟩
  obtain ⟨m, hm, a, c', st⟩ := h τ.length
  rw [(h2 m hm).1] at st
  cases st with
  | start op hi ho => exact ho.elim
  | did hb _ => rw [hi i] at hb; exact nomatch hb
  | finish hb _ => rw [hi i] at hb; exact nomatch hb

theorem Run.trace_length (r : Run ex allowed c0) : ∀ n, (r.trace n).length ≤ n
  | 0 => Nat.le_refl 0
  | n + 1 => by
    unfold Run.trace
    rw [List.length_append]
    have := r.trace_length n
    have : (r.sched n).toList.length ≤ 1 := by cases r.sched n <;> simp
    omega

/-- When somebody moves at every moment, moments number the trace. -/
theorem Run.sched_of_trace (r : Run ex allowed c0) {τ : Trace O V} (h : r.trace τ.length = τ) (n : Nat) (hn : n < τ.length) :
    r.sched n = τ[n]? := by
  generalize hN : τ.length = N at h hn
  induction N generalizing τ with
  | zero => omega
  | succ N ih =>
    unfold Run.trace at h
    have h1 := r.trace_length N
    cases hs : r.sched N with
    | none =>
      rw [hs] at h
      have := congrArg List.length h
      simp at this; omega
    | some x =>
      rw [hs] at h
      have h' : r.trace N ++ [x] = τ := h
      have hl : (r.trace N).length = N := by have := congrArg List.length h'; simp at this; omega
      rw [← h']
      by_cases e : n = N
      · subst e
        rw [hs]
        conv => rhs; arg 2; rw [← hl]
        rw [List.getElem?_concat_length]
      · rw [List.getElem?_append_left (by omega)]
        exact ih hl rfl (by omega)

/-- The configurations an execution goes through. -/
theorem exec_confs {c : Conf O V} {τ : Trace O V} (e : Exec ex allowed c0 τ c) :
    ∃ f : Nat → Conf O V, f 0 = c0 ∧ f τ.length = c ∧ ∀ n i a, τ[n]? = some (i, a) → Step ex allowed (f n) i a (f (n + 1)) := by
  induction e with
  | nil => exact ⟨fun _ => c0, rfl, rfl, nofun⟩
  | @snoc τ c c' i a _ st ih =>
    obtain ⟨f, h0, h1, h2⟩ := ih
    refine ⟨fun n => if n ≤ τ.length then f n else c', by simp [h0], by simp; omega, fun n j b hs => ?_⟩
    by_cases hn : n < τ.length
    · rw [List.getElem?_append_left hn] at hs
      simp only [if_pos (Nat.le_of_lt hn), if_pos (show n + 1 ≤ τ.length from hn)]
      exact h2 n j b hs
    · by_cases e : n = τ.length
      · subst e
        rw [List.getElem?_concat_length] at hs
        cases hs
        simp only [if_pos (Nat.le_refl _), if_neg (show ¬ τ.length + 1 ≤ τ.length by omega), h1]
        exact st
      · rw [List.getElem?_eq_none (by simp; omega)] at hs
        exact nomatch hs

/-- What leads back to where it began can go on for ever. -/
theorem exists_cycle {c : Conf O V} {τ : Trace O V} (e : Exec ex allowed c τ c) (h : τ ≠ []) :
    ∃ r : Run ex allowed c, ∀ n, r.sched n = τ[n % τ.length]? ∧ r.conf (n * τ.length) = c := by
  obtain ⟨f, h0, h1, h2⟩ := exec_confs e
  have hl : 0 < τ.length := List.length_pos_iff.mpr h
  refine ⟨⟨fun n => f (n % τ.length), fun n => τ[n % τ.length]?, by simp [h0], fun n hs => ?_, fun n i a hs => ?_⟩, fun n => ⟨rfl, ?_⟩⟩
  · have := List.getElem?_eq_none_iff.mp hs
    have := Nat.mod_lt n hl
    omega
  · have st := h2 _ i a hs
    by_cases hm : n % τ.length + 1 = τ.length
    · rw [hm, h1] at st
      show Step ex allowed _ i a (f ((n + 1) % τ.length))
      rw [Nat.add_mod, show (n % τ.length + 1 % τ.length) % τ.length = 0 by
        rw [← Nat.add_mod]
        have : n + 1 = τ.length * (n / τ.length) + τ.length := by have := Nat.div_add_mod n τ.length; omega
        rw [this, Nat.add_mod_right, Nat.mul_mod_right], h0]
      exact st
    · show Step ex allowed _ i a (f ((n + 1) % τ.length))
      have hlt := Nat.mod_lt n hl
      rw [show (n + 1) % τ.length = n % τ.length + 1 by
        have : n + 1 = n % τ.length + 1 + τ.length * (n / τ.length) := by have := Nat.div_add_mod n τ.length; omega
        rw [this, Nat.add_mul_mod_self_left, Nat.mod_eq_of_lt (by omega)]]
      exact st
  · show f (n * τ.length % τ.length) = c
    rw [Nat.mul_mod_left, h0]

/-- A step before a run. -/
def Run.after {c c1 : Conf O V} {i : Nat} {a : Act O V} (st : Step ex allowed c i a c1) (r : Run ex allowed c1) : Run ex allowed c where
  conf n := match n with
    | 0 => c
    | n + 1 => r.conf n
  sched n := match n with
    | 0 => some (i, a)
    | n + 1 => r.sched n
  init := rfl
  rest n := match n with
    | 0 => nofun
    | n + 1 => r.rest n
  step n := match n with
    | 0 => fun j b h => by
      cases h
      show Step ex allowed c i a (r.conf 0)
      rw [r.init]; exact st
    | n + 1 => r.step n

theorem lock_step {k : Prog α} {s : Sh} (h : s.locked = false) : Prog.step (.lock k) s = some (.lock, k, { s with locked := true }) := by
  show (if s.locked = true then none else _) = _
  rw [h]; rfl

/-- A call `op0` that begins by taking the mutex waits for ever while another goroutine repeats a call `op1` that sets the offset to
what it is: the mutex is free again and again, and each time taken by the other. -/
theorem starves {op0 op1 : O} {k0 : Prog V} {v : V} (h0 : ex op0 = .lock k0)
    (h1 : ex op1 = .lock (.getI .off fun o => .setI .off (o + 0) (.unlock (.ret v)))) (ha0 : allowed op0) (ha1 : allowed op1) (q : Quiet c0) :
    ∃ r : Run ex allowed c0, r.sched 0 = some (0, .start op0) ∧ (∀ m op x, r.sched m ≠ some (0, .finish op x)) ∧
      (∀ n, ∃ m, n ≤ m ∧ r.Ready 0 m) ∧ ∀ n, ∃ m, n ≤ m ∧ r.sched m = some (1, .finish op1 (.ok v)) := by
  let c : Conf O V := c0.set 0 (.busy op0 (ex op0)) c0.sh
  have t0 : c.thr 0 = .busy op0 (ex op0) := rfl
  have t1 : c.thr 1 = .idle := q.idle 1
  have fr : c.sh.locked = false := q.free
  obtain ⟨τ, hτ, e⟩ : ∃ τ, τ = [(1, .start op1), (1, .did .lock (.getI .off fun o => .setI .off (o + 0) (.unlock (.ret v)))),
      (1, .did .look (.setI .off (c.sh.st.b.off + 0) (.unlock (.ret v)))), (1, .did .change (.unlock (.ret v))), (1, .did .unlock (.ret v)),
      (1, .finish op1 (.ok v))] ∧ Exec ex allowed c τ c := by
    refine ⟨_, rfl, ?_⟩
    have s1 := Step.start (ex := ex) (allowed := allowed) (c := c) (i := 1) op1 t1 ha1
    have e1 := Exec.snoc .nil s1
    have e2 := Exec.snoc e1 (.did (i := 1) (by rw [set_thr, if_pos rfl, h1]) (lock_step fr))
    have e3 := Exec.snoc e2 (.did (i := 1) (by rw [set_thr, if_pos rfl]) rfl)
    have e4 := Exec.snoc e3 (.did (i := 1) (by rw [set_thr, if_pos rfl]) rfl)
    have e5 := Exec.snoc e4 (.did (i := 1) (by rw [set_thr, if_pos rfl]) rfl)
    have e6 := Exec.snoc e5 (.finish (i := 1) (by rw [set_thr, if_pos rfl]) rfl)
    have fin : ∀ (t : Trace O V) (d : Conf O V), d = c → Exec ex allowed c t d → Exec ex allowed c t c := fun t d hd e => hd ▸ e
    refine fin _ _ ?_ e6
    have hs : (⟨{ c.sh.st with b := Field.off.set c.sh.st.b (c.sh.st.b.off + 0) }, false⟩ : Sh) = c.sh := by
      rw [show c.sh.st.b.off + 0 = c.sh.st.b.off from Int64.add_zero _, ← fr]; rfl
    unfold Conf.set
    have ext : ∀ {t t' : Nat → Thr O V} {s s' : Sh}, t = t' → s = s' → (⟨t, s⟩ : Conf O V) = ⟨t', s'⟩ := fun h h' => by rw [h, h']
    refine ext (funext fun j => ?_) hs
    by_cases hj : j = 1
    · subst hj; rw [if_pos rfl]; exact t1.symm
    · simp only [if_neg hj]; rfl
  obtain ⟨r, hr⟩ := exists_cycle e (by rw [hτ]; exact nofun)
  have hl : τ.length = 6 := by rw [hτ]; rfl
  refine ⟨.after (.start op0 (q.idle 0) ha0) r, rfl, fun m op x hm => ?_, fun n => ⟨n * 6 + 1, by omega, ?_⟩, fun n => ⟨n * 6 + 5 + 1, by omega, ?_⟩⟩
  · cases m with
    | zero => exact nomatch hm
    | succ m =>
      have hm : r.sched m = some (0, .finish op x) := hm
      rw [(hr m).1] at hm
      have := List.mem_of_getElem? hm
      rw [hτ] at this
      simp at this
  · have := (hr n).2
    rw [hl] at this
    refine ⟨.did .lock k0, c.set 0 (.busy op0 k0) { c.sh with locked := true }, ?_⟩
    show Step ex noCall (r.conf (n * 6)) 0 _ _
    rw [this]
    exact .did (t0.trans (by rw [h0])) (lock_step fr)
  · show r.sched (n * 6 + 5) = _
    rw [(hr _).1, hl, show (n * 6 + 5) % 6 = 5 by omega, hτ]; rfl

end Crunch
