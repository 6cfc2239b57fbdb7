import Verif.Lemmas.Foot
import Verif.Lemmas.FootOps

/-! Goroutines that change nothing, and calls whose footprints do not depend on what calls change. -/

namespace Crunch
open V3 (Buf)

variable {R W : Loc → Prop}

theorem Loc.same.of_run {p : Prog α} {s : Sh} (u : p.Uses R W s) {l : Loc} (hl : ¬ W l) : l.same (p.run s).2.st s.st := by
  induction p generalizing s with
  | ret a => exact l.same_refl _
  | panic q => exact l.same_refl _
  | getI f k ih => exact ih _ u.2
  | setI f v k ih => exact Loc.same_trans (ih u.2) (u.elsewhere rfl hl)
  | getBuf k ih => exact ih _ u.2
  | setBuf t k ih => exact Loc.same_trans (ih u.2) (u.elsewhere rfl hl)
  | load t i k ih => exact ih _ u.2
  | store t i v k ih => exact Loc.same_trans (ih u.2) (u.elsewhere rfl hl)
  | append t x k ih => exact Loc.same_trans (ih _ u.2) (u.elsewhere rfl hl)
  | alloc a n k ih => exact u.elim
  | lock k ih =>
    show l.same (if s.locked = true then _ else _ : Res α × Sh).2.st s.st
    split
    · exact l.same_refl _
    · rename_i h; exact ih (s := ⟨s.st, true⟩) (u (by simpa using h))
  | unlock k ih => exact ih (s := ⟨s.st, false⟩) u.2

theorem Prog.Uses.mono {R' W' : Loc → Prop} {p : Prog α} {s : Sh} (u : p.Uses R W s) (hR : ∀ l, R l → R' l) (hW : ∀ l, W l → W' l) : p.Uses R' W' s := by
  induction p generalizing s with
  | ret a => exact True.intro
  | panic q => exact True.intro
  | getI f k ih => exact ⟨hR _ u.1, ih _ u.2⟩
  | setI f v k ih => exact ⟨hW _ u.1, ih u.2⟩
  | getBuf k ih => exact ⟨hR _ u.1, ih _ u.2⟩
  | setBuf t k ih => exact ⟨hW _ u.1, ih u.2⟩
  | load t i k ih => exact ⟨hR _ u.1, ih _ u.2⟩
  | store t i v k ih => exact ⟨hW _ u.1, ih u.2⟩
  | append t x k ih => exact ⟨⟨u.1.1, fun w hw i hi => hR _ (u.1.2.1 w hw i hi), fun i hi => hW _ (u.1.2.2 i hi)⟩, ih _ u.2⟩
  | alloc a n k ih => exact u.elim
  | lock k ih => exact fun h => ih (u h)
  | unlock k ih => exact ⟨u.1, ih u.2⟩

/-- The fields that say what the content is. -/
theorem Sized.of_same {s t : V3.St} (h : Sized s.b) (h1 : Loc.header.same t s) (h2 : (Loc.field .cap).same t s) (h3 : (Loc.field .bcap).same t s) :
    Sized t.b := by
  have e1 : t.b.buf = s.b.buf := h1
  have e2 : t.b.cap = s.b.cap := h2
  have e3 : t.b.bcap = s.b.bcap := h3
  exact ⟨by rw [e1, e2]; exact h.cap, by rw [e1, e3]; exact h.bcap, by rw [e1]; exact h.small⟩

variable {O V : Type} {exe : O → Prog V} {allowed : O → Prop} {c0 c : Conf O V} {τ : Trace O V}

/-- What each goroutine of an execution without changes gets. -/
structure Reading (exe : O → Prog V) (c0 : Conf O V) (τ : Trace O V) (c : Conf O V) : Prop where
  /-- nothing is changed -/
  state : c.sh.st = c0.sh.st
  /-- every call has the outcome it has as the only one -/
  outcomes : ∀ i, ∀ x ∈ finished i τ, x.2 = ((exe x.1).run c0.sh).1
  /-- the mutex is taken at the end only if some call, as the only one, leaves it taken -/
  mutex : (∀ i, c.thr i = .idle) → (c.sh.locked = true ↔ ∃ i, ∃ x ∈ finished i τ, ((exe x.1).run c0.sh).2.locked = true)
  /-- nobody races -/
  races : ∀ l, ¬ c.Race l

/-- `none`: the mutex is free; `some none`: a finished call has left it taken; `some (some i)`: the call of `i` has it. -/
structure ReadInv (exe : O → Prog V) (c0 : Conf O V) (R : Loc → Prop) (τ : Trace O V) (c : Conf O V) (own : Option (Option Nat)) : Prop where
  state : c.sh = ⟨c0.sh.st, own.isSome⟩
  busy : ∀ i op p, c.thr i = .busy op p → (exe op).run c0.sh = p.run ⟨c0.sh.st, own == some (some i)⟩ ∧
    p.Uses R (fun _ => False) ⟨c0.sh.st, own == some (some i)⟩
  idle : ∀ i, c.thr i = .idle → own ≠ some (some i)
  done : ∀ i, ∀ x ∈ finished i τ, x.2 = ((exe x.1).run c0.sh).1
  left : own = some none ↔ ∃ i, ∃ x ∈ finished i τ, ((exe x.1).run c0.sh).2.locked = true

theorem read_inv (q : Quiet c0) (e : Exec exe allowed c0 τ c) (kp : ∀ i, ∀ op ∈ started i τ, (exe op).Uses R (fun _ => False) c0.sh) :
    ∃ own, ReadInv exe c0 R τ c own := by
  induction e with
  | nil =>
    refine ⟨none, ?_, fun i op p h => ?_, fun i _ => nofun, fun i x hx => (nomatch hx), ⟨nofun, fun ⟨i, x, hx, _⟩ => (nomatch hx)⟩⟩
    · rw [show (none : Option (Option Nat)).isSome = c0.sh.locked from q.free.symm]
    · rw [q.idle i] at h; exact nomatch h
  | @snoc τ c c' i a e st ih =>
    obtain ⟨own, v⟩ := ih fun j op ho => kp j op (by rw [started_snoc]; exact List.mem_append_left _ ho)
    have h0 : c0.sh = ⟨c0.sh.st, false⟩ := by rw [← q.free]
    cases st with
    | start op hi ha =>
      refine ⟨own, v.state, fun j op' p h => ?_, fun j h => ?_, ?_, ?_⟩
      · rw [set_thr] at h
        split at h
        · rename_i hj
          subst hj
          cases h
          have hf : (own == some (some j)) = false := by simpa using v.idle j hi
          rw [hf, ← h0]
          exact ⟨rfl, kp j op (by rw [started_snoc]; simp [started])⟩
        · exact v.busy j op' p h
      · rw [set_thr] at h
        split at h
        · exact nomatch h
        · exact v.idle j h
      · intro j x hx
        rw [finished_snoc] at hx
        exact v.done j x (by simpa [finished] using hx)
      · rw [v.left]
        simp [finished_snoc, finished]
    | @did op p p' ev sh hi hs =>
      obtain ⟨h1, h2⟩ := v.busy i op p hi
      rw [v.state] at hs
      have fin : ∀ j, finished j (τ ++ [(i, Act.did ev p')]) = finished j τ := fun j => by rw [finished_snoc]; simp [finished]
      have others : ∀ (own' : Option (Option Nat)), sh = ⟨c0.sh.st, own'.isSome⟩ →
          (∀ j, j ≠ i → (own' == some (some j)) = (own == some (some j))) → (own' = some none ↔ own = some none) →
          (p.run ⟨c0.sh.st, own == some (some i)⟩ = p'.run ⟨c0.sh.st, own' == some (some i)⟩ ∧
            p'.Uses R (fun _ => False) ⟨c0.sh.st, own' == some (some i)⟩) →
          ReadInv exe c0 R (τ ++ [(i, Act.did ev p')]) (c.set i (.busy op p') sh) own' := by
        intro own' hst hj hl hp
        refine ⟨hst, fun j op' r h => ?_, fun j h => ?_, fun j x hx => v.done j x (fin j ▸ hx), ?_⟩
        · rw [set_thr] at h
          split at h
          · rename_i hji
            subst hji
            cases h
            exact ⟨h1.trans hp.1, hp.2⟩
          · rename_i hji
            rw [hj j hji]; exact v.busy j op' r h
        · rw [set_thr] at h
          split at h
          · exact nomatch h
          · rename_i hji
            have := hj j hji
            have h' := v.idle j h
            intro hx
            rw [hx] at this
            exact h' (by simpa using this.symm)
        · rw [hl, v.left]; simp only [fin]
      cases p with
      | ret a => exact nomatch hs
      | panic q => exact nomatch hs
      | getI f k => cases hs; exact ⟨own, others own rfl (fun _ _ => rfl) Iff.rfl ⟨rfl, h2.2⟩⟩
      | getBuf k => cases hs; exact ⟨own, others own rfl (fun _ _ => rfl) Iff.rfl ⟨rfl, h2.2⟩⟩
      | load t n k => cases hs; exact ⟨own, others own rfl (fun _ _ => rfl) Iff.rfl ⟨rfl, h2.2⟩⟩
      | setI f x k => exact h2.1.elim
      | setBuf t k => exact h2.1.elim
      | store t n x k => exact h2.1.elim
      | append t x k =>
        have h0 : x.len = 0 := Nat.eq_zero_of_not_pos fun h => h2.1.2.2 0 h
        have e0 : (appendMem t x c0.sh.st.mem).2 = c0.sh.st.mem := by
          have hv := view_le x c0.sh.st.mem
          have hn : x.view c0.sh.st.mem = [] := List.eq_nil_of_length_eq_zero (by omega)
          rw [append_room h2.1.1, hn, blit_nil]
        have e1 : (⟨⟨(appendMem t x c0.sh.st.mem).2, c0.sh.st.b⟩, own == some (some i)⟩ : Sh) = ⟨c0.sh.st, own == some (some i)⟩ := by rw [e0]
        cases hs
        refine ⟨own, others own ?_ (fun _ _ => rfl) Iff.rfl ⟨congrArg _ e1, e1 ▸ h2.2⟩⟩
        show (⟨⟨(appendMem t x c0.sh.st.mem).2, c0.sh.st.b⟩, _⟩ : Sh) = _
        rw [e0]
      | alloc a n k => exact h2.elim
      | lock k =>
        change (if own.isSome = true then none else some (Event.lock, k, (⟨c0.sh.st, true⟩ : Sh))) = _ at hs
        split at hs
        · exact nomatch hs
        · rename_i hn
          have hn : own = none := by simpa using hn
          subst hn
          cases hs
          refine ⟨some (some i), others _ rfl (fun j hj => ?_) (by simp) ?_⟩
          · simp [Ne.symm hj]
          · have : (some (some i) == some (some i)) = true := by simp
            rw [this]
            exact ⟨rfl, h2 rfl⟩
      | unlock k =>
        cases hs
        have ho : own = some (some i) := by simpa using h2.1
        subst ho
        refine ⟨none, others _ rfl (fun j hj => ?_) (by simp) ⟨rfl, h2.2⟩⟩
        simp [Ne.symm hj]
    | @finish op p r hi hr =>
      obtain ⟨h1, h2⟩ := v.busy i op p hi
      rw [result_run hr] at h1
      have fin : ∀ j x, x ∈ finished j (τ ++ [(i, Act.finish op r)]) ↔ x ∈ finished j τ ∨ (j = i ∧ x = (op, r)) := fun j x => by
        rw [finished_snoc]
        by_cases h : i = j
        · subst h; simp [finished]
        · simp [finished, h, Ne.symm h]
      have done : ∀ j x, x ∈ finished j (τ ++ [(i, Act.finish op r)]) → x.2 = ((exe x.1).run c0.sh).1 := fun j x hx => by
        rcases (fin j x).1 hx with hx | ⟨_, rfl⟩
        · exact v.done j x hx
        · rw [h1]
      have bz : ∀ j op' p', (c.set i .idle c.sh).thr j = .busy op' p' → j ≠ i ∧ c.thr j = .busy op' p' := fun j op' p' h => by
        rw [set_thr] at h
        split at h
        · exact nomatch h
        · rename_i hj; exact ⟨hj, h⟩
      by_cases ho : own = some (some i)
      · refine ⟨some none, ?_, fun j op' p' h => ?_, fun j _ => by simp, done, ⟨fun _ => ⟨i, (op, r), (fin _ _).2 (.inr ⟨rfl, rfl⟩), ?_⟩, fun _ => rfl⟩⟩
        · have := v.state; rw [ho] at this; exact this
        · obtain ⟨hj, h⟩ := bz j op' p' h
          have e : (some none == some (some j)) = (own == some (some j)) := by rw [ho]; simp [Ne.symm hj]
          rw [e]; exact v.busy j op' p' h
        · rw [h1, ho]; simp
      · refine ⟨own, v.state, fun j op' p' h => v.busy j op' p' (bz j op' p' h).2, fun j h => ?_, done, ?_⟩
        · rw [set_thr] at h
          split at h
          · rename_i hj; subst hj; exact ho
          · exact v.idle j h
        · rw [v.left]
          constructor
          · rintro ⟨j, x, hx, hl⟩; exact ⟨j, x, (fin j x).2 (.inl hx), hl⟩
          · rintro ⟨j, x, hx, hl⟩
            rcases (fin j x).1 hx with hx | ⟨_, rfl⟩
            · exact ⟨j, x, hx, hl⟩
            · rw [h1] at hl
              exact absurd (by simpa using hl) ho

theorem reading (q : Quiet c0) (e : Exec exe allowed c0 τ c) (kp : ∀ i, ∀ op ∈ started i τ, (exe op).Uses R (fun _ => False) c0.sh) :
    Reading exe c0 τ c := by
  obtain ⟨own, v⟩ := read_inv q e kp
  refine ⟨by rw [v.state], v.done, fun hi => ?_, ?_⟩
  · rw [← v.left, v.state]
    cases own with
    | none => simp
    | some o =>
      cases o with
      | none => simp
      | some j => exact absurd rfl (v.idle j (hi j))
  · rintro l ⟨i, j, hne, ⟨op, p, hi, hw⟩, hj⟩
    exact (v.busy i op p hi).2.writes hw

variable {rd wr : Buf → O → Loc → Prop} {ok : O → Bool}

/-- Calls that keep to their footprints, whatever `Inv` says of the buffer at their starts, and keep `Inv`. -/
theorem Stays.keeping' {A : O → Prop} {Inv : Buf → Prop}
    (use : ∀ op, A op → ok op = true → ∀ s : Sh, Inv s.st.b → (exe op).Uses (rd s.st.b op) (wr s.st.b op) s)
    (inv : ∀ op, A op → ok op = true → ∀ s : Sh, Inv s.st.b → Inv ((exe op).run s).2.st.b) {R W : Loc → Prop} {l : List O} {s : Sh} (ha : ∀ op ∈ l, A op)
    (hi : Inv s.st.b) (h : Stays exe rd wr ok R W l s) : Keeping exe R W l s := by
  induction l generalizing s with
  | nil => trivial
  | cons op l ih =>
    obtain ⟨⟨h1, h2, h3⟩, h4⟩ := h
    have a := ha op List.mem_cons_self
    exact ⟨(use op a h1 s hi).mono h2 h3, ih (fun o ho => ha o (List.mem_cons_of_mem _ ho)) (inv op a h1 s hi) h4⟩

theorem Stays.keeping {Inv : Buf → Prop} (use : ∀ op, ok op = true → ∀ s : Sh, Inv s.st.b → (exe op).Uses (rd s.st.b op) (wr s.st.b op) s)
    (inv : ∀ op, ok op = true → ∀ s : Sh, Inv s.st.b → Inv ((exe op).run s).2.st.b) {R W : Loc → Prop} {l : List O} {s : Sh} (hi : Inv s.st.b)
    (h : Stays exe rd wr ok R W l s) : Keeping exe R W l s :=
  h.keeping' (A := fun _ => True) (fun op _ => use op) (fun op _ => inv op) (fun _ _ => trivial) hi

/-- Footprints that depend on the slice header only, which nobody changes. -/
theorem Stays.fixed {Inv : Buf → Prop} (use : ∀ op, ok op = true → ∀ s : Sh, Inv s.st.b → (exe op).Uses (rd s.st.b op) (wr s.st.b op) s)
    (inv : ∀ op, ok op = true → ∀ s : Sh, Inv s.st.b → Inv ((exe op).run s).2.st.b) (hh : ∀ b op, ¬ wr b op .header) {pl : O → Bool}
    (hpl : ∀ op, pl op = true → ok op = true) (same : ∀ op, pl op = true → ∀ b b' : Buf, b.buf = b'.buf → rd b op = rd b' op ∧ wr b op = wr b' op)
    {R W : Loc → Prop} {l : List O} {b0 : Buf} {s : Sh} (hb : s.st.b.buf = b0.buf) (hi : Inv s.st.b) (h : ∀ op ∈ l, pl op = true)
    (hR : ∀ op ∈ l, ∀ x, rd b0 op x → R x) (hW : ∀ op ∈ l, ∀ x, wr b0 op x → W x) : Stays exe rd wr ok R W l s := by
  induction l generalizing s with
  | nil => trivial
  | cons op l ih =>
    have hp := h op List.mem_cons_self
    obtain ⟨e1, e2⟩ := same op hp s.st.b b0 hb
    have u := use op (hpl op hp) s hi
    refine ⟨⟨hpl op hp, fun x hx => hR op List.mem_cons_self x (e1 ▸ hx), fun x hx => hW op List.mem_cons_self x (e2 ▸ hx)⟩, ?_⟩
    refine ih ?_ (inv op (hpl op hp) s hi) (fun o ho => h o (List.mem_cons_of_mem _ ho)) (fun o ho => hR o (List.mem_cons_of_mem _ ho))
      fun o ho => hW o (List.mem_cons_of_mem _ ho)
    exact (show Loc.header.same _ _ from Loc.same.of_run u (hh _ _)).trans hb

/-- Where two states are the same for a program, it does the same. -/
def Agree (p : Prog α) (s t : Sh) : Prop :=
  (p.run s).1 = (p.run t).1 ∧ (p.run s).2.locked = (p.run t).2.locked ∧ ∀ l : Loc, l.same s.st t.st → l.same (p.run s).2.st (p.run t).2.st

theorem Prog.Uses.agree {p : Prog α} {s t : Sh} (u : p.Uses R W t) (hR : ∀ l, R l → l.same s.st t.st) (hl : s.locked = t.locked) : Agree p s t := by
  have next : ∀ {q q' : Prog α} {e : Event} {s s' t : Sh}, q.Uses R W t → q.step s = some (e, q', s') → (∀ l, R l → l.same s.st t.st) → s.locked = t.locked →
      (∀ t', q'.Uses R W t' → (∀ l, R l → l.same s'.st t'.st) → s'.locked = t'.locked → Agree q' s' t') → Agree q s t := by
    intro q q' e s s' t u h1 hR hl ih
    obtain ⟨t', h2, h4, h3, _⟩ := u.follow h1 hR fun he => hl ▸ (step_mutex h1).2 he
    obtain ⟨a, b, c⟩ := ih t' h4 (fun l h => h3 l (hR l h)) (by rw [(step_mutex h1).1, (step_mutex h2).1, hl])
    unfold Agree
    rw [step_run h1, step_run h2]
    exact ⟨a, b, fun l h => c l (h3 l h)⟩
  induction p generalizing s t with
  | ret a => exact ⟨rfl, hl, fun _ h => h⟩
  | panic q => exact ⟨rfl, hl, fun _ h => h⟩
  | append v x k ih => exact next u rfl hR hl fun t' => ih _
  | alloc a n k ih => exact u.elim
  | lock k ih =>
    cases h : s.locked with
    | true =>
      have h' : t.locked = true := hl ▸ h
      have e : ∀ x : Sh, x.locked = true → (Prog.lock k).run x = (.panic .blocked, x) := fun x hx => by
        show (if x.locked = true then _ else _) = _
        rw [hx]; rfl
      unfold Agree
      rw [e s h, e t h']
      exact ⟨rfl, hl, fun _ h => h⟩
    | false =>
      refine next (q' := k) (e := .lock) (s' := ⟨s.st, true⟩) u ?_ hR hl fun t' => ih
      show (if s.locked = true then none else some _) = _
      rw [h]; rfl
  | unlock k ih => exact next u rfl hR hl fun t' => ih
  | setI f v k ih => exact next u rfl hR hl fun t' => ih
  | setBuf v k ih => exact next u rfl hR hl fun t' => ih
  | store v i w k ih => exact next u rfl hR hl fun t' => ih
  | getI f k ih => exact next u rfl hR hl fun t' => ih _
  | getBuf k ih => exact next u rfl hR hl fun t' => ih _
  | load v i k ih => exact next u rfl hR hl fun t' => ih _

end Crunch
