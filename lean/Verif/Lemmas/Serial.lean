import Verif.Lemmas.Lin

/-! Calls that do not overlap in time are executed one after another. -/

namespace Crunch

/-- Goroutine `i` is inside a call after `τ`: it started one and has not finished it. -/
def busyAfter (i : Nat) (τ : Trace O V) : Bool :=
  τ.foldl (fun b x =>
    if x.1 = i then
      match x.2 with
      | .start _ => true
      | .finish _ _ => false
      | _ => b
    else b) false

/-- At no moment are two goroutines inside calls. -/
def NoOverlap (τ : Trace O V) : Prop :=
  ∀ π, π <+: τ → ∀ i j, busyAfter i π = true → busyAfter j π = true → i = j

/-- The calls of a trace in the order in which they started. -/
def calls : Trace O V → List (Nat × O)
  | [] => []
  | (i, .start op) :: τ => (i, op) :: calls τ
  | _ :: τ => calls τ

theorem calls_snoc (τ : Trace O V) (x : Nat × Act O V) : calls (τ ++ [x]) = calls τ ++ calls [x] := by
  induction τ with
  | nil => rfl
  | cons y τ ih =>
    obtain ⟨j, a⟩ := y
    cases a with
    | start op => show (j, op) :: calls (τ ++ [x]) = _; rw [ih]; rfl
    | did e p => exact ih
    | finish op r => exact ih

theorem busyAfter_snoc (i : Nat) (τ : Trace O V) (x : Nat × Act O V) : busyAfter i (τ ++ [x]) =
    if x.1 = i then (match x.2 with | .start _ => true | .finish _ _ => false | _ => busyAfter i τ) else busyAfter i τ := by
  unfold busyAfter
  rw [List.foldl_append]
  rfl

theorem busyAfter_iff {ex : O → Prog V} {allowed : O → Prop} {c0 c : Conf O V} {τ : Trace O V} (q : Quiet c0) (e : Exec ex allowed c0 τ c)
    (i : Nat) : busyAfter i τ = true ↔ c.thr i ≠ .idle := by
  induction e with
  | nil => rw [q.idle i]; exact ⟨(nomatch ·), fun h => absurd rfl h⟩
  | @snoc τ c c' j a _ st ih =>
    rw [busyAfter_snoc]
    by_cases h : j = i
    · subst h
      rw [if_pos rfl]
      cases st with
      | start op hi _ => exact ⟨fun _ => (by rw [set_thr, if_pos rfl]; exact (nomatch ·)), fun _ => rfl⟩
      | did hi hs =>
        rw [set_thr, if_pos rfl]
        exact ⟨fun _ => (nomatch ·), fun _ => ih.mpr (by rw [hi]; exact fun h => nomatch h)⟩
      | finish hi hr => rw [set_thr, if_pos rfl]; exact ⟨(nomatch ·), fun h => absurd rfl h⟩
    · rw [if_neg h]
      have : c'.thr i = c.thr i := by
        cases st <;> exact (set_thr ..).trans (if_neg fun e => h e.symm)
      rw [this]
      exact ih

theorem step_run {p p' : Prog α} {e : Event} {s s' : Sh} (h : p.step s = some (e, p', s')) : p.run s = p'.run s' := by
  cases p with
  | ret a => exact nomatch h
  | panic q => exact nomatch h
  | lock k =>
    change (if s.locked = true then none else some (Event.lock, k, (⟨s.st, true⟩ : Sh))) = _ at h
    split at h
    · exact nomatch h
    · rename_i hl
      cases h
      show (if s.locked = true then _ else _) = _
      rw [if_neg hl]
  | _ => cases h; rfl

/-- Where things stand: everything started is over, or everything but the last call, which is in progress. -/
inductive SInv (ex : O → Prog V) (s0 : Sh) (τ : Trace O V) (c : Conf O V) : Prop
  | quiet : (∀ i, c.thr i = .idle) → c.sh = (seqRun ex (calls τ) s0).2 →
      (∀ i, finished i τ = ofThread i (seqRun ex (calls τ) s0).1) → SInv ex s0 τ c
  | busy {i : Nat} {op : O} {p : Prog V} (L : List (Nat × O)) : c.thr i = .busy op p → (∀ j, j ≠ i → c.thr j = .idle) →
      calls τ = L ++ [(i, op)] → p.run c.sh = (ex op).run (seqRun ex L s0).2 →
      (∀ i, finished i τ = ofThread i (seqRun ex L s0).1) → SInv ex s0 τ c

theorem SInv.step {ex : O → Prog V} {allowed : O → Prop} {s0 : Sh} {τ : Trace O V} {c c' : Conf O V} (v : SInv ex s0 τ c) {i : Nat}
    {a : Act O V} (st : Step ex allowed c i a c') (one : ∀ i j, c'.thr i ≠ .idle → c'.thr j ≠ .idle → i = j) :
    SInv ex s0 (τ ++ [(i, a)]) c' := by
  cases st with
  | start op hi hop =>
    have hc : calls (τ ++ [(i, .start op)]) = calls τ ++ [(i, op)] := calls_snoc ..
    have hf : ∀ j, finished j (τ ++ [(i, Act.start op)]) = finished j τ := fun j => by
      rw [finished_snoc]; exact List.append_nil _
    cases v with
    | quiet hq hs hr =>
      refine .busy (calls τ) (i := i) (op := op) (p := ex op) (by rw [set_thr, if_pos rfl]) ?_ hc (by rw [← hs]; rfl) (fun j => (hf j).trans (hr j))
      intro j hj
      rw [set_thr, if_neg hj]; exact hq j
    | @busy k op' p L hk _ _ _ _ =>
      exfalso
      have hki : k ≠ i := by rintro rfl; rw [hi] at hk; exact nomatch hk
      refine hki (one k i ?_ ?_)
      · rw [set_thr, if_neg hki, hk]; exact fun h => nomatch h
      · rw [set_thr, if_pos rfl]; exact fun h => nomatch h
  | @did op p p' e sh hi hs =>
    cases v with
    | quiet hq _ _ => rw [hq i] at hi; exact nomatch hi
    | @busy k op' q L hk ho hc hr hf =>
      have hki : i = k := Classical.byContradiction fun h => by rw [ho i h] at hi; exact nomatch hi
      subst hki
      rw [hi] at hk
      cases hk
      refine .busy L (i := i) (op := op) (p := p') (by rw [set_thr, if_pos rfl]) ?_ ?_ ?_ (fun j => ?_)
      · intro j hj
        rw [set_thr, if_neg hj]; exact ho j hj
      · rw [calls_snoc]; exact (List.append_nil _).trans hc
      · exact (step_run hs).symm.trans hr
      · rw [finished_snoc]; exact (List.append_nil _).trans (hf j)
  | @finish op p r hi hr =>
    cases v with
    | quiet hq _ _ => rw [hq i] at hi; exact nomatch hi
    | @busy k op' q L hk ho hc hrun hf =>
      have hki : i = k := Classical.byContradiction fun h => by rw [ho i h] at hi; exact nomatch hi
      subst hki
      rw [hi] at hk
      cases hk
      rw [run_result hr] at hrun
      have hc' : calls (τ ++ [(i, Act.finish op r)]) = L ++ [(i, op)] := by
        rw [calls_snoc]; exact (List.append_nil _).trans hc
      refine .quiet ?_ ?_ ?_
      · intro j
        rw [set_thr]
        split
        · rfl
        · rename_i h; exact ho j h
      · rw [hc', seqRun_snoc, ← hrun]; rfl
      · intro j
        rw [hc', seqRun_snoc, ← hrun, ofThread_snoc, finished_snoc, hf j]
        show _ ++ (if i = j then [(op, r)] else []) = _
        split
        · rfl
        · exact List.append_nil _

theorem exec_serial {ex : O → Prog V} {allowed : O → Prop} {c0 c : Conf O V} {τ : Trace O V} (q : Quiet c0) (e : Exec ex allowed c0 τ c)
    (no : NoOverlap τ) : SInv ex c0.sh τ c := by
  induction e with
  | nil => exact .quiet q.idle rfl fun _ => rfl
  | @snoc τ c c' i a e' st ih =>
    refine (ih fun π hπ => no π (hπ.trans (List.prefix_append ..))).step st fun j k hj hk => ?_
    have e2 := e'.snoc st
    exact no _ (List.prefix_refl _) j k ((busyAfter_iff q e2 j).mpr hj) ((busyAfter_iff q e2 k).mpr hk)

theorem busyAfter_none {τ : Trace O V} {i : Nat} (h : ∀ x ∈ τ, x.1 ≠ i) : busyAfter i τ = false := by
  unfold busyAfter
  suffices ∀ b, τ.foldl _ b = b from this false
  induction τ with
  | nil => exact fun _ => rfl
  | cons x τ ih =>
    intro b
    rw [List.foldl_cons, if_neg (h x (List.mem_cons_self ..))]
    exact ih (fun y hy => h y (List.mem_cons_of_mem _ hy)) b

/-- `NoOverlap`, checked on the goroutines below `n`. -/
def noOverlapB (n : Nat) (τ : Trace O V) : Bool :=
  (τ.all fun x => x.1 < n) && (List.range (τ.length + 1)).all fun k => (List.range n).all fun i => (List.range n).all fun j =>
    !(busyAfter i (τ.take k) && busyAfter j (τ.take k)) || i == j

theorem noOverlap_of {n : Nat} {τ : Trace O V} (h : noOverlapB n τ = true) : NoOverlap τ := by
  intro π hπ i j hi hj
  unfold noOverlapB at h
  simp only [Bool.and_eq_true, List.all_eq_true, decide_eq_true_eq, List.mem_range] at h
  have lt : ∀ k, busyAfter k π = true → k < n := by
    intro k hk
    refine Classical.byContradiction fun hn => ?_
    rw [busyAfter_none (i := k) (fun x hx e => hn (by have := h.1 x (hπ.subset hx); omega))] at hk
    exact nomatch hk
  have := h.2 π.length (Nat.lt_succ_of_le hπ.length_le) i (lt i hi) j (lt j hj)
  rw [← List.prefix_iff_eq_take.mp hπ, hi, hj] at this
  simpa using this

end Crunch
