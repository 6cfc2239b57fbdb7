import Verif.Lemmas.UnlockedOps
import Verif.Lemmas.Reading
import Verif.Lemmas.V2Own
import Verif.Lemmas.Guards

/-! Executions of calls whose steps are of known kinds. -/

namespace Crunch
open Src (Action)

theorem Prog.Only.step {A : Action → Bool} {p p' : Prog α} {e : Event} {s s' : Sh} (h : p.Only A) (hs : p.step s = some (e, p', s')) : p'.Only A := by
  cases p with
  | ret a => exact nomatch hs
  | panic q => exact nomatch hs
  | getI f k => cases hs; exact h.2 _
  | setI f v k => cases hs; exact h.2
  | getBuf k => cases hs; exact h.2 _
  | setBuf t k => cases hs; exact h.2
  | load t i k => cases hs; exact h.2 _
  | store t i v k => cases hs; exact h.2
  | append t x k => cases hs; exact h.2 _
  | alloc a n k => cases hs; exact h.2 _
  | lock k => exact h.elim
  | unlock k => exact h.elim

variable {acc chg : Part → Bool} {cp : Bool}

theorem Prog.Only.reads_part {p : Prog α} (h : p.Only (Action.of acc chg cp)) {s : Sh} {l : Loc} (hr : p.reads s l) : acc l.part = true := by
  cases p with
  | getI f k => cases hr; exact h.1
  | getBuf k => cases hr; exact h.1
  | load t i k => cases hr; exact h.1
  | append t x k =>
    have : acc .bytes = true := by
      have h1 := h.1
      cases x <;> exact (Bool.and_eq_true _ _ ▸ (Bool.and_eq_true _ _ ▸ h1 : _ ∧ _).1 : _ ∧ _).1
    rcases hr with ⟨_, _, i, _, rfl⟩ | ⟨_, i, _, rfl⟩ <;> exact this
  | _ => exact hr.elim

theorem Prog.Only.writes_part {p : Prog α} (h : p.Only (Action.of acc chg cp)) {s : Sh} {l : Loc} (hw : p.writes s l) : chg l.part = true := by
  cases p with
  | setI f v k => cases hw; exact h.1
  | setBuf t k => cases hw; exact h.1
  | store t i v k => cases hw; exact h.1
  | append t x k =>
    obtain ⟨_, i, _, rfl⟩ := hw
    have h1 := h.1
    cases x <;> exact (Bool.and_eq_true _ _ ▸ (Bool.and_eq_true _ _ ▸ h1 : _ ∧ _).1 : _ ∧ _).2
  | _ => exact hw.elim

/-- A program that changes nothing. -/
theorem Prog.Only.looks {p : Prog α} (h : p.Only (Action.of acc chg cp)) (hc : ∀ k, chg k = false) (s : Sh) : p.Uses (fun _ => True) (fun _ => False) s := by
  induction p generalizing s with
  | ret a => trivial
  | panic q => trivial
  | getI f k ih => exact ⟨trivial, ih _ (h.2 _) s⟩
  | setI f v k ih => exact nomatch (hc _).symm.trans h.1
  | getBuf k ih => exact ⟨trivial, ih _ (h.2 _) s⟩
  | setBuf t k ih => exact nomatch (hc _).symm.trans h.1
  | load t i k ih => exact ⟨trivial, ih _ (h.2 _) s⟩
  | store t i v k ih => exact nomatch (hc _).symm.trans h.1
  | append t x k ih =>
    have h1 := h.1
    have : chg .bytes = true := by cases x <;> exact (Bool.and_eq_true _ _ ▸ (Bool.and_eq_true _ _ ▸ h1 : _ ∧ _).1 : _ ∧ _).2
    exact nomatch (hc _).symm.trans this
  | alloc a n k ih =>
    have h1 : (chg .header || chg .bytes) = true := (Bool.and_eq_true _ _ ▸ h.1 : _ ∧ _).1
    rw [hc, hc] at h1
    exact nomatch h1
  | lock k ih => exact h.elim
  | unlock k ih => exact h.elim

/-- A program without copies and new arrays accesses and changes only places in its parts. -/
theorem Prog.Only.uses {p : Prog α} (h : p.Only (Action.of acc chg false)) {R W : Loc → Prop} (hR : ∀ l, acc l.part = true → R l)
    (hW : ∀ l, chg l.part = true → W l) (s : Sh) : p.Uses R W s := by
  induction p generalizing s with
  | ret a => trivial
  | panic q => trivial
  | getI f k ih => exact ⟨hR _ h.1, ih _ (h.2 _) s⟩
  | setI f v k ih => exact ⟨hW _ h.1, ih h.2 _⟩
  | getBuf k ih => exact ⟨hR _ h.1, ih _ (h.2 _) s⟩
  | setBuf t k ih => exact ⟨hW _ h.1, ih h.2 _⟩
  | load t i k ih => exact ⟨hR _ h.1, ih _ (h.2 _) s⟩
  | store t i v k ih => exact ⟨hW _ h.1, ih h.2 _⟩
  | append t x k ih =>
    have h1 := h.1
    cases x <;> exact nomatch (Bool.and_eq_true _ _ ▸ h1 : _ ∧ _).2
  | alloc a n k ih => exact nomatch (Bool.and_eq_true _ _ ▸ h.1 : _ ∧ _).2
  | lock k ih => exact h.elim
  | unlock k ih => exact h.elim

variable {ex : O → Prog V} {allowed : O → Prop} {c0 c : Conf O V} {τ : Trace O V}

/-- What is left of a call has steps of the kinds of the call. -/
theorem exec_only_thr {A : O → Action → Bool} (hex : ∀ op, allowed op → (ex op).Only (A op)) (q : Quiet c0) (e : Exec ex allowed c0 τ c) {i : Nat} {op : O}
    {p : Prog V} (hi : c.thr i = .busy op p) : op ∈ started i τ ∧ p.Only (A op) := by
  induction e generalizing i op p with
  | nil => rw [q.idle i] at hi; exact nomatch hi
  | @snoc τ c c' j a e0 st ih =>
    rw [started_snoc]
    cases st with
    | start op' hj ho =>
      rw [set_thr] at hi
      split at hi
      · rename_i e'; subst e'
        cases hi
        exact ⟨List.mem_append_right _ (by simp [started]), hex _ ho⟩
      · exact ⟨List.mem_append_left _ (ih hi).1, (ih hi).2⟩
    | finish hj hr =>
      rw [set_thr] at hi
      split at hi
      · exact nomatch hi
      · exact ⟨List.mem_append_left _ (ih hi).1, (ih hi).2⟩
    | @did op' p0 p' ev sh hj hs =>
      rw [set_thr] at hi
      split at hi
      · rename_i e'; subst e'
        cases hi
        exact ⟨List.mem_append_left _ (ih hj).1, (ih hj).2.step hs⟩
      · exact ⟨List.mem_append_left _ (ih hi).1, (ih hi).2⟩

/-- Calls in progress and finished calls are allowed. -/
theorem exec_allowed (q : Quiet c0) (e : Exec ex allowed c0 τ c) :
    (∀ i op p, c.thr i = .busy op p → allowed op) ∧ ∀ i, ∀ x ∈ finished i τ, allowed x.1 := by
  induction e with
  | nil => exact ⟨fun i op p h => (by rw [q.idle i] at h; exact nomatch h), fun i x hx => (nomatch hx)⟩
  | @snoc τ c c' j a e0 st ih =>
    cases st with
    | start op' hj ho =>
      refine ⟨fun i op p h => ?_, fun i x hx => ih.2 i x (by rw [finished_snoc] at hx; simpa [finished] using hx)⟩
      rw [set_thr] at h
      split at h
      · cases h; exact ho
      · exact ih.1 i op p h
    | finish hj hr =>
      refine ⟨fun i op p h => ?_, fun i x hx => ?_⟩
      · rw [set_thr] at h
        split at h
        · exact nomatch h
        · exact ih.1 i op p h
      · rw [finished_snoc] at hx
        rcases List.mem_append.mp hx with hx | hx
        · exact ih.2 i x hx
        · simp only [finished] at hx
          split at hx
          · rw [List.mem_singleton.mp hx]; exact ih.1 j _ _ hj
          · exact nomatch hx
    | @did op' p0 p' ev sh hj hs =>
      refine ⟨fun i op p h => ?_, fun i x hx => ih.2 i x (by rw [finished_snoc] at hx; simpa [finished] using hx)⟩
      rw [set_thr] at h
      split at h
      · cases h; exact ih.1 j _ _ hj
      · exact ih.1 i op p h

variable {accs chgs : O → Part → Bool} {cps : O → Bool}

/-- A data race is about a part that the one call changes and the other one accesses. -/
theorem open_race (hex : ∀ op, allowed op → (ex op).Only (Action.of (accs op) (chgs op) (cps op))) (q : Quiet c0) {i j : Nat} {op op' : O} {l : Loc}
    (h : DataRace ex allowed c0 τ i j op op' l) :
    op ∈ started i τ ∧ op' ∈ started j τ ∧ chgs op l.part = true ∧ (accs op' l.part = true ∨ chgs op' l.part = true) := by
  obtain ⟨_, m, n, ⟨c1, _, p, _, _, e1, h1, hw, _⟩, h2, _⟩ := h
  obtain ⟨s1, o1⟩ := exec_only_thr hex q e1 h1
  refine ⟨mem_started_take s1, ?_⟩
  rcases h2 with ⟨c2, _, r, _, _, e2, h2, ha, _⟩ | ⟨c2, _, r, _, _, e2, h2, ha, _⟩
  · obtain ⟨s2, o2⟩ := exec_only_thr hex q e2 h2
    exact ⟨mem_started_take s2, o1.writes_part hw, .inl (o2.reads_part ha)⟩
  · obtain ⟨s2, o2⟩ := exec_only_thr hex q e2 h2
    exact ⟨mem_started_take s2, o1.writes_part hw, .inr (o2.writes_part ha)⟩

end Crunch
