import Verif.Lemmas.CapInv

/-!
What a call can rely on while others run, as long as nobody calls `Reset`: the content never gets shorter, and the cached
capacities never exceed it, at any moment.
-/

namespace Crunch
open V3 (St)

/-- True at every moment: the content and the capacities never fall below those of `L` bytes. -/
structure Held0 (L : Nat) (s : St) : Prop where
  len_le : s.b.buf.len ≤ s.b.buf.cap
  cap_le : s.b.buf.cap ≤ maxAlloc
  cap0 : L ≤ s.b.cap.toInt
  cap : s.b.cap.toInt ≤ s.b.buf.len
  bcap0 : 8 * L ≤ s.b.bcap.toInt
  bcap : s.b.bcap.toInt ≤ 8 * s.b.buf.len

/-- `p` can be run among others, in a buffer that never has less than `L` bytes: knowing that the content has at least `m` bytes (exactly `m`, if `x`) and whether it holds the
mutex (`l`), it panics only as `E` allows, ends as `Q` says, and never makes the content shorter or a capacity too large. -/
def wp (L : Nat) (E : Panic → Bool → Prop) (Q : Bool → Nat → Bool → α → Prop) : Bool → Nat → Bool → Prog α → Prop
  | l, m, x, .ret a => Q l m x a
  | l, _, _, .panic q => E q l
  | l, m, x, .getI f k =>
    match f with
    | .cap => ∀ v : Int64, L ≤ v.toInt → v.toInt ≤ maxAlloc → wp L E Q l (max m v.toInt.toNat) x (k v)
    | .bcap => ∀ v : Int64, 8 * L ≤ v.toInt → v.toInt ≤ 8 * maxAlloc → wp L E Q l (max m ((v.toInt.toNat + 7) / 8)) x (k v)
    | _ => ∀ v, wp L E Q l m x (k v)
  | l, m, x, .setI f v k =>
    match f with
    | .cap => L ≤ v.toInt ∧ v.toInt ≤ m ∧ wp L E Q l m x k
    | .bcap => 8 * L ≤ v.toInt ∧ v.toInt ≤ 8 * m ∧ wp L E Q l m x k
    | _ => wp L E Q l m x k
  | l, m, _, .getBuf k => ∀ s : Slice, L ≤ s.len → m ≤ s.len → s.len ≤ s.cap → s.cap ≤ maxAlloc → wp L E Q l s.len l (k s)
  | l, m, x, .setBuf t k => x = true ∧ m ≤ t.len ∧ t.len ≤ t.cap ∧ t.cap ≤ maxAlloc ∧ wp L E Q l t.len true k
  | l, m, x, .load _ _ k => ∀ v, wp L E Q l m x (k v)
  | l, m, x, .store _ _ _ k => wp L E Q l m x k
  | l, m, x, .append t y k =>
    match y with
    | .lit bs => t.cap ≤ maxAlloc ∧ (t.len + bs.length ≤ t.cap ∨ t.len + bs.length ≤ maxAlloc) ∧
        ∀ r : Slice, r.len = t.len + bs.length → r.len ≤ r.cap → r.cap ≤ maxAlloc → wp L E Q l m x (k r)
    | .mem _ => False
  | _, _, _, .alloc _ _ _ => False
  | l, m, _, .lock k => l = false ∧ wp L E Q true m false k
  | l, m, _, .unlock k => l = true ∧ wp L E Q false m false k

variable {E : Panic → Bool → Prop} {L : Nat}

theorem wp_bind {p : Prog α} {f : α → Prog β} {Q : Bool → Nat → Bool → β → Prop} {l : Bool} {m : Nat} {x : Bool}
    (h : wp L E (fun l m x a => wp L E Q l m x (f a)) l m x p) : wp L E Q l m x (p.bind f) := by
  induction p generalizing l m x with
  | ret a => exact h
  | panic q => exact h
  | getI g k ih => cases g <;> first | exact fun v => ih v (h v) | exact fun v h1 h2 => ih v (h v h1 h2)
  | setI g v k ih => cases g <;> first | exact ih h | exact ⟨h.1, h.2.1, ih h.2.2⟩
  | getBuf k ih => exact fun s h0 h1 h2 h3 => ih s (h s h0 h1 h2 h3)
  | setBuf t k ih => exact ⟨h.1, h.2.1, h.2.2.1, h.2.2.2.1, ih h.2.2.2.2⟩
  | load t i k ih => exact fun v => ih v (h v)
  | store t i v k ih => exact ih h
  | append t y k ih =>
    cases y with
    | lit bs => exact ⟨h.1, h.2.1, fun r h1 h2 h3 => ih r (h.2.2 r h1 h2 h3)⟩
    | mem s => exact h.elim
  | alloc a n k ih => exact h.elim
  | lock k ih => exact ⟨h.1, ih h.2⟩
  | unlock k ih => exact ⟨h.1, ih h.2⟩

theorem wp_mono {p : Prog α} {Q Q' : Bool → Nat → Bool → α → Prop} {l : Bool} {m : Nat} {x : Bool}
    (hQ : ∀ l m x a, Q l m x a → Q' l m x a) (h : wp L E Q l m x p) : wp L E Q' l m x p := by
  induction p generalizing l m x with
  | ret a => exact hQ _ _ _ _ h
  | panic q => exact h
  | getI g k ih => cases g <;> first | exact fun v => ih v (h v) | exact fun v h1 h2 => ih v (h v h1 h2)
  | setI g v k ih => cases g <;> first | exact ih h | exact ⟨h.1, h.2.1, ih h.2.2⟩
  | getBuf k ih => exact fun s h0 h1 h2 h3 => ih s (h s h0 h1 h2 h3)
  | setBuf t k ih => exact ⟨h.1, h.2.1, h.2.2.1, h.2.2.2.1, ih h.2.2.2.2⟩
  | load t i k ih => exact fun v => ih v (h v)
  | store t i v k ih => exact ih h
  | append t y k ih =>
    cases y with
    | lit bs => exact ⟨h.1, h.2.1, fun r h1 h2 h3 => ih r (h.2.2 r h1 h2 h3)⟩
    | mem s => exact h.elim
  | alloc a n k ih => exact h.elim
  | lock k ih => exact ⟨h.1, ih h.2⟩
  | unlock k ih => exact ⟨h.1, ih h.2⟩

/-! ## under all interleavings -/

theorem appendMem_slice (t : Slice) (bs : List UInt8) (h : Heap) (hc : t.cap ≤ maxAlloc)
    (hs : t.len + bs.length ≤ t.cap ∨ t.len + bs.length ≤ maxAlloc) :
    (appendMem t (.lit bs) h).1.len = t.len + bs.length ∧ (appendMem t (.lit bs) h).1.len ≤ (appendMem t (.lit bs) h).1.cap ∧
      (appendMem t (.lit bs) h).1.cap ≤ maxAlloc := by
  refine ⟨appendMem_len t bs h, ?_⟩
  rw [appendMem_lit]
  by_cases hn : t.len + bs.length ≤ t.cap
  · rw [if_pos hn]; exact ⟨hn, hc⟩
  · rw [if_neg hn]
    constructor
    · show t.len + bs.length ≤ min _ _
      omega
    · exact Nat.min_le_right _ _

variable {O V : Type} {ex : O → Prog V} {allowed : O → Prop} {Ee : O → Panic → Bool → Prop} {c0 c : Conf O V} {τ : Trace O V}

/-- The mutex is not held at the end. -/
def Fin : Bool → Nat → Bool → V → Prop := fun l _ _ _ => l = false

/-- What the state and each goroutine satisfy after `τ`. -/
structure SafeInv (Ee : O → Panic → Bool → Prop) (L : Nat) (τ : Trace O V) (c : Conf O V) : Prop where
  held : Held0 L c.sh.st
  thr : ∀ i op p, c.thr i = .busy op p → ∃ l m x, (l = true ↔ inside τ i = true ∧ ¬ EndedInside τ) ∧ m ≤ c.sh.st.b.buf.len ∧
    (x = true → l = true ∧ m = c.sh.st.b.buf.len) ∧ wp L (Ee op) Fin l m x p

theorem SafeInv.step (hex : ∀ op, allowed op → Brk false false (ex op))
    (hs : ∀ op, allowed op → wp L (Ee op) Fin false 0 false (ex op)) (q : Quiet c0) (e : Exec ex allowed c0 τ c) (w : SafeInv Ee L τ c)
    {c' : Conf O V} {i : Nat} {a : Act O V} (st : Step ex allowed c i a c') : SafeInv Ee L (τ ++ [(i, a)]) c' := by
  obtain ⟨h, act, v⟩ := exec_inv hex q e
  -- the other goroutines
  have other : ∀ j op p, j ≠ i → c.thr j = .busy op p → c.sh.st.b.buf.len ≤ c'.sh.st.b.buf.len →
      (c'.sh.st.b.buf.len = c.sh.st.b.buf.len ∨ inside τ i = true) →
      ∃ l m x, (l = true ↔ inside (τ ++ [(i, a)]) j = true ∧ ¬ EndedInside (τ ++ [(i, a)])) ∧ m ≤ c'.sh.st.b.buf.len ∧
        (x = true → l = true ∧ m = c'.sh.st.b.buf.len) ∧ wp L (Ee op) Fin l m x p := by
    intro j op p hj ht hl hc
    obtain ⟨l, m, x, h1, h2, h3, h4⟩ := w.thr j op p ht
    have hin : inside (τ ++ [(i, a)]) j = inside τ j := by
      rw [inside_snoc]; exact if_neg (Ne.symm hj)
    have excl : ¬ (inside τ i = true ∧ inside τ j = true) := by
      rintro ⟨ha, hb⟩
      rw [v.hold, decide_eq_true_eq] at ha hb
      rw [ha] at hb
      exact hj (Option.some.inj hb).symm
    refine ⟨l, m, x, ?_, by omega, ?_, h4⟩
    · rw [h1, hin, ended_snoc]
      constructor
      · rintro ⟨ha, hb⟩
        exact ⟨ha, fun hx => hx.elim hb fun hx => excl ⟨hx.2, ha⟩⟩
      · rintro ⟨ha, hb⟩
        exact ⟨ha, fun hx => hb (.inl hx)⟩
    · intro hx
      refine ⟨(h3 hx).1, ?_⟩
      rcases hc with hc | hc
      · rw [hc]; exact (h3 hx).2
      · exact absurd ⟨hc, (h1.mp (h3 hx).1).1⟩ excl
  cases st with
  | start op hi ho =>
    refine ⟨w.held, fun j op' p hj => ?_⟩
    rw [set_thr] at hj
    split at hj
    · rename_i e'; subst e'
      cases hj
      refine ⟨false, 0, false, ?_, Nat.zero_le _, nofun, hs op ho⟩
      refine ⟨nofun, fun ⟨h1, h2⟩ => ?_⟩
      rw [inside_snoc] at h1
      simp only [enter, ite_self] at h1
      rw [ended_keep nofun, v.ended] at h2
      rw [v.hold, decide_eq_true_eq] at h1
      cases act with
      | false => exact absurd ⟨rfl, by rw [h1]; rfl⟩ h2
      | true =>
        obtain ⟨k, _, _, hk, hb, _⟩ := v.active rfl
        rw [h1] at hk
        cases hk
        rw [hi] at hb; exact nomatch hb
    · rename_i e'
      exact other j op' p e' hj (Nat.le_refl _) (.inl rfl)
  | @finish op p r hi hr =>
    refine ⟨w.held, fun j op' p' hj => ?_⟩
    rw [set_thr] at hj
    split at hj
    · exact nomatch hj
    · rename_i e'
      exact other j op' p' e' hj (Nat.le_refl _) (.inl rfl)
  | @did op p p' ev sh hi hst =>
    obtain ⟨l, m, x, h1, h2, h3, h4⟩ := w.thr i op p hi
    -- steps that are neither lock nor unlock
    have keep : ∀ m' x', ev ≠ .lock → ev ≠ .unlock → Held0 L sh.st → c.sh.st.b.buf.len ≤ sh.st.b.buf.len →
        (sh.st.b.buf.len = c.sh.st.b.buf.len ∨ inside τ i = true) → m' ≤ sh.st.b.buf.len →
        (x' = true → l = true ∧ m' = sh.st.b.buf.len) → wp L (Ee op) Fin l m' x' p' →
        SafeInv Ee L (τ ++ [(i, .did ev p')]) (c.set i (.busy op p') sh) := by
      intro m' x' e1 e2 hh hle hc hm hx hw
      refine ⟨hh, fun j op' p'' hj => ?_⟩
      rw [set_thr] at hj
      split at hj
      · rename_i e'; subst e'
        cases hj
        refine ⟨l, m', x', ?_, hm, hx, hw⟩
        rw [h1, ended_keep nofun, inside_snoc]
        cases ev <;> first | exact absurd rfl e1 | exact absurd rfl e2 | simp only [enter, ite_self]
      · rename_i e'
        exact other j op' p'' e' hj hle hc
    have gi := w.held
    cases p with
    | ret a => exact nomatch hst
    | panic q => exact nomatch hst
    | getI f k =>
      cases hst
      have hc0 := gi.cap0; have hc1 := gi.cap; have hl := gi.len_le; have hca := gi.cap_le
      have hb0 := gi.bcap0; have hb1 := gi.bcap
      cases f with
      | cap =>
        refine keep _ x nofun nofun gi (Nat.le_refl _) (.inl rfl) ?_ ?_ (h4 _ hc0 ?_)
        · simp only [Field.get]; omega
        · intro hx; have := h3 hx; simp only [Field.get]; refine ⟨this.1, ?_⟩; omega
        · simp only [Field.get]; omega
      | bcap =>
        refine keep _ x nofun nofun gi (Nat.le_refl _) (.inl rfl) ?_ ?_ (h4 _ hb0 ?_)
        · simp only [Field.get]; omega
        · intro hx; have := h3 hx; simp only [Field.get]; refine ⟨this.1, ?_⟩; omega
        · simp only [Field.get]; omega
      | off => exact keep _ x nofun nofun gi (Nat.le_refl _) (.inl rfl) h2 h3 (h4 _)
      | boff => exact keep _ x nofun nofun gi (Nat.le_refl _) (.inl rfl) h2 h3 (h4 _)
    | setI f v k =>
      cases hst
      cases f with
      | cap =>
        exact keep _ x nofun nofun ⟨gi.len_le, gi.cap_le, h4.1, (by have := h4.2.1; simp only [Field.set]; omega), gi.bcap0, gi.bcap⟩
          (Nat.le_refl _) (.inl rfl) h2 h3 h4.2.2
      | bcap =>
        exact keep _ x nofun nofun ⟨gi.len_le, gi.cap_le, gi.cap0, gi.cap, h4.1, (by have := h4.2.1; simp only [Field.set]; omega)⟩
          (Nat.le_refl _) (.inl rfl) h2 h3 h4.2.2
      | off =>
        exact keep _ x nofun nofun ⟨gi.len_le, gi.cap_le, gi.cap0, gi.cap, gi.bcap0, gi.bcap⟩ (Nat.le_refl _) (.inl rfl) h2 h3 h4
      | boff =>
        exact keep _ x nofun nofun ⟨gi.len_le, gi.cap_le, gi.cap0, gi.cap, gi.bcap0, gi.bcap⟩ (Nat.le_refl _) (.inl rfl) h2 h3 h4
    | getBuf k =>
      cases hst
      exact keep _ l nofun nofun gi (Nat.le_refl _) (.inl rfl) (Nat.le_refl _) (fun hx => ⟨hx, rfl⟩) (h4 _ (by have := gi.cap0; have := gi.cap; omega) h2 gi.len_le gi.cap_le)
    | setBuf t k =>
      cases hst
      obtain ⟨hx, hm, ht1, ht2, hw⟩ := h4
      obtain ⟨hl, hme⟩ := h3 hx
      have hc1 := gi.cap; have hb1 := gi.bcap
      refine keep t.len true nofun nofun ⟨ht1, ht2, gi.cap0, ?_, gi.bcap0, ?_⟩ ?_ (.inr (h1.mp hl).1) (Nat.le_refl _)
        (fun _ => ⟨hl, rfl⟩) hw
      · show c.sh.st.b.cap.toInt ≤ (t.len : Int); omega
      · show c.sh.st.b.bcap.toInt ≤ 8 * (t.len : Int); omega
      · show _ ≤ t.len; omega
    | load t n k => cases hst; exact keep _ x nofun nofun gi (Nat.le_refl _) (.inl rfl) h2 h3 (h4 _)
    | store t n b k =>
      cases hst
      exact keep _ x nofun nofun ⟨gi.len_le, gi.cap_le, gi.cap0, gi.cap, gi.bcap0, gi.bcap⟩ (Nat.le_refl _) (.inl rfl) h2 h3 h4
    | append t y k =>
      cases hst
      cases y with
      | mem s => exact h4.elim
      | lit bs =>
        obtain ⟨g1, g2, g3⟩ := appendMem_slice t bs c.sh.st.mem h4.1 h4.2.1
        exact keep _ x nofun nofun ⟨gi.len_le, gi.cap_le, gi.cap0, gi.cap, gi.bcap0, gi.bcap⟩ (Nat.le_refl _) (.inl rfl) h2 h3
          (h4.2.2 _ g1 g2 g3)
    | alloc a n k => exact h4.elim
    | lock k =>
      change (if c.sh.locked = true then none else some (Event.lock, k, (⟨c.sh.st, true⟩ : Sh))) = _ at hst
      split at hst
      · exact nomatch hst
      · rename_i hf
        cases hst
        refine ⟨gi, fun j op' p'' hj => ?_⟩
        rw [set_thr] at hj
        split at hj
        · rename_i e'; subst e'
          cases hj
          refine ⟨true, m, false, ?_, h2, nofun, h4.2⟩
          rw [ended_keep nofun, v.ended, inside_snoc]
          refine ⟨fun _ => ⟨by simp [enter], fun hx => hf ?_⟩, fun _ => rfl⟩
          rw [v.locked]; exact hx.2
        · rename_i e'
          exact other j op' p'' e' hj (Nat.le_refl _) (.inl rfl)
    | unlock k =>
      cases hst
      refine ⟨gi, fun j op' p'' hj => ?_⟩
      rw [set_thr] at hj
      split at hj
      · rename_i e'; subst e'
        cases hj
        refine ⟨false, m, false, ?_, h2, nofun, h4.2⟩
        rw [inside_snoc]
        simp [enter]
      · rename_i e'
        exact other j op' p'' e' hj (Nat.le_refl _) (.inl rfl)

/-- How calls end: they return, or panic as `Ee` allows; those that end inside their section do so by a panic `Ee` allows there. -/
theorem exec_safe (hex : ∀ op, allowed op → Brk false false (ex op))
    (hs : ∀ op, allowed op → wp L (Ee op) Fin false 0 false (ex op)) (q : Quiet c0) (g0 : Held0 L c0.sh.st) (e : Exec ex allowed c0 τ c) :
    SafeInv Ee L τ c ∧ ∀ τ1 i op r τ2, τ = τ1 ++ (i, .finish op r) :: τ2 →
      ∃ l : Bool, (inside τ1 i = true → l = false → EndedInside τ1) ∧
        ((∃ v, r = .ok v) ∧ l = false ∨ ∃ p, r = .panic p ∧ Ee op p l) := by
  induction e with
  | nil =>
    refine ⟨⟨g0, fun i op p hi => ?_⟩, fun τ1 _ _ _ _ h => ?_⟩
    · rw [q.idle i] at hi; exact nomatch hi
    · cases τ1 <;> exact nomatch h
  | @snoc τ c c' i a e0 st ih =>
    refine ⟨SafeInv.step hex hs q e0 ih.1 st, fun τ1 j op r τ2 h => ?_⟩
    rcases List.eq_nil_or_concat τ2 with rfl | ⟨τ2, y, rfl⟩
    · obtain ⟨h1, h2⟩ := List.append_inj' h rfl
      subst h1
      cases h2
      cases st with
      | @finish _ p _ hi hr =>
        obtain ⟨l, m, x, g1, _, _, g4⟩ := ih.1.thr i op p hi
        refine ⟨l, fun hin hl => Classical.byContradiction fun hn => ?_, ?_⟩
        · have := g1.mpr ⟨hin, hn⟩
          rw [hl] at this; exact nomatch this
        · cases p with
          | ret a => cases hr; exact .inl ⟨⟨a, rfl⟩, g4⟩
          | panic p => cases hr; exact .inr ⟨p, rfl, g4⟩
          | _ => exact nomatch hr
    · rw [List.concat_eq_append, ← List.cons_append, ← List.append_assoc] at h
      obtain ⟨h1, _⟩ := List.append_inj' h rfl
      exact ih.2 τ1 j op r τ2 h1

end Crunch
