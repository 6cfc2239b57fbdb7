import Verif.Lemmas.Lin

/-! What follows for any methods whose locked sections are bracketed, or that have a single one. -/

namespace Crunch

variable {O V : Type} {ex : O → Prog V} {allowed : O → Prop} {c0 c c' : Conf O V} {τ : Trace O V}

theorem shared_exclusion (hex : ∀ op, allowed op → Brk false false (ex op)) (q : Quiet c0) (e : Exec ex allowed c0 τ c) :
    (∀ i j, inside τ i = true → inside τ j = true → i = j) ∧ (c.sh.locked = true ↔ ∃ i, inside τ i = true) := by
  obtain ⟨h, a, v⟩ := exec_inv hex q e
  constructor
  · intro i j hi hj
    rw [v.hold, decide_eq_true_eq] at hi hj
    exact Option.some.inj (hi.symm.trans hj)
  · rw [v.locked]
    constructor
    · intro hs
      obtain ⟨i, hi⟩ := Option.isSome_iff_exists.mp hs
      exact ⟨i, by rw [v.hold, hi]; simp⟩
    · rintro ⟨i, hi⟩
      rw [v.hold, decide_eq_true_eq] at hi
      rw [hi]; rfl

theorem shared_changes (hex : ∀ op, allowed op → Brk false false (ex op)) (q : Quiet c0) (e : Exec ex allowed c0 τ c)
    {i : Nat} {a : Act O V} (st : Step ex allowed c i a c') (h : c'.sh.st ≠ c.sh.st) : inside τ i = true := by
  obtain ⟨_, _, v⟩ := exec_inv hex q e
  exact (v.step hex st).2.resolve_left h

theorem shared_serial (hex : ∀ op, allowed op → Brk false false (ex op)) (q : Quiet c0) (e : Exec ex allowed c0 τ c) :
    (∃ i op p, inside τ i = true ∧ c.thr i = .busy op p ∧ secRun p c.sh.st = (sections τ).foldl (fun s p => secRun p s) c0.sh.st) ∨
      c.sh.st = (sections τ).foldl (fun s p => secRun p s) c0.sh.st := by
  obtain ⟨h, a, v⟩ := exec_inv hex q e
  cases a with
  | false => exact .inr (v.done rfl)
  | true =>
    obtain ⟨i, op, p, hi, h1, _, h2⟩ := v.active rfl
    exact .inl ⟨i, op, p, by rw [v.hold, hi]; simp, h1, h2⟩

theorem shared_serial_free (hex : ∀ op, allowed op → Brk false false (ex op)) (q : Quiet c0) (e : Exec ex allowed c0 τ c)
    (hf : c.sh.locked = false) : c.sh.st = (sections τ).foldl (fun s p => secRun p s) c0.sh.st := by
  obtain ⟨h, a, v⟩ := exec_inv hex q e
  cases a with
  | false => exact v.done rfl
  | true =>
    obtain ⟨i, _, _, hi, _⟩ := v.active rfl
    have := v.locked
    rw [hf, hi] at this
    exact nomatch this

theorem shared_linearizable (hex : ∀ op, allowed op → Once (ex op)) (q : Quiet c0) (e : Exec ex allowed c0 τ c) :
    (∀ i, ∃ pending, ofThread i (seqRun ex (points τ) c0.sh).1 = finished i τ ++ pending ∧ pending.length ≤ 1 ∧
      (c.thr i = .idle → pending = [])) ∧
    (∀ i, ∃ waiting, started i τ = ofThread i (points τ) ++ waiting ∧ waiting.length ≤ 1 ∧ (c.thr i = .idle → waiting = [])) ∧
    ((∀ i, c.thr i = .idle) → c.sh = (seqRun ex (points τ) c0.sh).2) := by
  obtain ⟨h, v⟩ := exec_lin hex q e
  refine ⟨fun i => ?_, fun i => ?_, fun hi => ?_⟩
  · have w := v.place i
    generalize hc : c.thr i = t at w ⊢
    generalize (track τ).cur i = cu at w
    cases w with
    | idle e _ => exact ⟨[], by rw [e, List.append_nil], Nat.zero_le _, fun _ => rfl⟩
    | before e _ _ _ => exact ⟨[], by rw [e, List.append_nil], Nat.zero_le _, fun _ => rfl⟩
    | within e _ _ _ _ => exact ⟨_, e, Nat.le_refl _, fun h => nomatch h⟩
    | past e _ _ => exact ⟨_, e, Nat.le_refl _, fun h => nomatch h⟩
  · refine ⟨_, v.starts i, ?_, ?_⟩
    · cases (track τ).cur i <;> simp
    · intro hi
      have w := v.place i
      rw [hi] at w
      generalize (track τ).cur i = cu at w ⊢
      cases w
      rfl
  · cases h with
    | none => exact v.free rfl
    | some j =>
      have w := v.place j
      rw [hi j] at w
      generalize (track τ).cur j = cu at w
      cases w with
      | idle _ n => exact absurd rfl n

end Crunch
