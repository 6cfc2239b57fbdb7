import Verif.Race
import Verif.Lemmas.Lin

/-! Races between calls with bracketed sections, and between calls with a single section. -/

namespace Crunch

variable {O V : Type} {ex : O → Prog V} {allowed : O → Prop} {c0 c : Conf O V} {τ : Trace O V}

theorem Brk.no_writes {p : Prog α} {e : Bool} (h : Brk false e p) (s : Sh) (l : Loc) : ¬ p.writes s l := by
  cases p with
  | setI f v k => exact nomatch h.1
  | setBuf t k => exact nomatch h.1
  | store t i v k => exact nomatch h.1
  | append t x k => exact nomatch h.1
  | _ => exact id

/-- Whoever is about to change something is inside. -/
theorem shared_writer_inside (hex : ∀ op, allowed op → Brk false false (ex op)) (q : Quiet c0) (e : Exec ex allowed c0 τ c)
    {i : Nat} {l : Loc} (h : c.aboutToWrite i l) : inside τ i = true := by
  obtain ⟨k, a, v⟩ := exec_inv hex q e
  obtain ⟨op, p, hi, hw⟩ := h
  rw [v.hold, decide_eq_true_eq]
  apply Classical.byContradiction
  intro hn
  exact (v.others i op p hi fun x => hn x.2).no_writes _ _ hw

theorem shared_no_two_writers (hex : ∀ op, allowed op → Brk false false (ex op)) (q : Quiet c0) (e : Exec ex allowed c0 τ c)
    {i j : Nat} {l l' : Loc} (hi : c.aboutToWrite i l) (hj : c.aboutToWrite j l') : i = j := by
  obtain ⟨k, a, v⟩ := exec_inv hex q e
  have h1 := shared_writer_inside hex q e hi
  have h2 := shared_writer_inside hex q e hj
  rw [v.hold, decide_eq_true_eq] at h1 h2
  exact Option.some.inj (h1.symm.trans h2)

/-- The places calls with a single section look at before it: the capacities and the slice header. -/
def Loc.steady : Loc → Bool
  | .field f => !f.isOff
  | .header => true
  | .byte _ _ => false

theorem Once.reads_steady {p : Prog α} (h : Once p) {s : Sh} {l : Loc} (hr : p.reads s l) : l.steady = true := by
  cases p with
  | getI f k => cases hr; show (!f.isOff) = true; rw [h.1]; rfl
  | getBuf k => cases hr; rfl
  | load t i k => exact h.elim
  | append t x k => exact h.elim
  | _ => exact hr.elim

theorem Once.no_writes {p : Prog α} (h : Once p) (s : Sh) (l : Loc) : ¬ p.writes s l := by
  cases p with
  | setI f v k => exact h.elim
  | setBuf t k => exact h.elim
  | store t i v k => exact h.elim
  | append t x k => exact h.elim
  | _ => exact id

theorem Sec.writes_moving {p : Prog α} (h : Sec p) {s : Sh} {l : Loc} (hw : p.writes s l) : l.steady = false := by
  cases p with
  | setI f v k => cases hw; show (!f.isOff) = false; rw [h.1]; rfl
  | store t i v k => cases hw; rfl
  | setBuf t k => exact h.elim
  | append t x k => exact h.elim
  | _ => exact hw.elim

theorem result_no_access {p : Prog α} {r : Res α} (h : p.result = some r) (s : Sh) (l : Loc) : ¬ p.writes s l ∧ ¬ p.reads s l := by
  cases p with
  | ret a => exact ⟨id, id⟩
  | panic q => exact ⟨id, id⟩
  | _ => exact nomatch h

theorem shared_once_race_free (hex : ∀ op, allowed op → Once (ex op)) (q : Quiet c0) (e : Exec ex allowed c0 τ c) (l : Loc) :
    ¬ c.Race l := by
  rintro ⟨i, j, hne, ⟨op, p, hi, hw⟩, hj⟩
  obtain ⟨h, v⟩ := exec_lin hex q e
  have wi := v.place i
  rw [hi] at wi
  generalize (track τ).cur i = cu at wi
  -- the writer is inside
  have hin : h = some i ∧ Sec p := by
    cases wi with
    | before _ o _ _ => exact absurd hw (o.no_writes _ _)
    | within _ o n _ _ => exact ⟨n, o⟩
    | past _ r _ => exact absurd hw (result_no_access r _ _).1
  have hmove := hin.2.writes_moving hw
  have other : ∀ op' p', c.thr j = .busy op' p' → p'.writes c.sh l ∨ p'.reads c.sh l → False := by
    intro op' p' hp' ha
    have wj := v.place j
    rw [hp'] at wj
    generalize (track τ).cur j = cu at wj
    cases wj with
    | before _ o _ _ =>
      rcases ha with ha | ha
      · exact o.no_writes _ _ ha
      · rw [o.reads_steady ha] at hmove; exact nomatch hmove
    | within _ _ n _ _ => rw [hin.1] at n; exact hne (Option.some.inj n)
    | past _ r _ =>
      have := result_no_access r c.sh l
      rcases ha with ha | ha
      · exact this.1 ha
      · exact this.2 ha
  rcases hj with ⟨op', p', hp', ha⟩ | ⟨op', p', hp', ha⟩
  · exact other op' p' hp' (.inl ha)
  · exact other op' p' hp' (.inr ha)

end Crunch
