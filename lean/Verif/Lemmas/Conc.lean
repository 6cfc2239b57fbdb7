import Verif.Conc
import Verif.Lemmas.ProgRun

/-! Locked sections under arbitrary interleavings. -/

namespace Crunch
open V3 (St)

/-- Every change happens while holding the lock, and every unlock releases a lock that is held: `Brk b e p` for a program started
with the lock held (by this goroutine) iff `b`, and returning with it held iff `e`.  Nothing is said about a panic. -/
def Brk : Bool → Bool → Prog α → Prop
  | b, e, .ret _ => b = e
  | _, _, .panic _ => True
  | b, e, .getI _ k => ∀ v, Brk b e (k v)
  | b, e, .setI _ _ k => b = true ∧ Brk b e k
  | b, e, .getBuf k => ∀ s, Brk b e (k s)
  | b, e, .setBuf _ k => b = true ∧ Brk b e k
  | b, e, .load _ _ k => ∀ v, Brk b e (k v)
  | b, e, .store _ _ _ k => b = true ∧ Brk b e k
  | b, e, .append _ _ k => b = true ∧ ∀ s, Brk b e (k s)
  | b, e, .alloc _ _ k => b = true ∧ ∀ s, Brk b e (k s)
  | b, e, .lock k => b = false ∧ Brk true e k
  | b, e, .unlock k => b = true ∧ Brk false e k

theorem Brk.bind {p : Prog α} {f : α → Prog β} {b m e : Bool} (hp : Brk b m p) (hf : ∀ a, Brk m e (f a)) : Brk b e (p.bind f) := by
  induction p generalizing b with
  | ret a => cases hp; exact hf a
  | panic q => trivial
  | getI x k ih => exact fun v => ih v (hp v)
  | setI x v k ih => exact ⟨hp.1, ih hp.2⟩
  | getBuf k ih => exact fun v => ih v (hp v)
  | setBuf t k ih => exact ⟨hp.1, ih hp.2⟩
  | load t i k ih => exact fun v => ih v (hp v)
  | store t i v k ih => exact ⟨hp.1, ih hp.2⟩
  | append t x k ih => exact ⟨hp.1, fun v => ih v (hp.2 v)⟩
  | alloc a n k ih => exact ⟨hp.1, fun v => ih v (hp.2 v)⟩
  | lock k ih => exact ⟨hp.1, ih hp.2⟩
  | unlock k ih => exact ⟨hp.1, ih hp.2⟩

theorem Brk.of_noLock {p : Prog α} (h : p.NoLock) : Brk true true p := by
  induction p with
  | ret a => rfl
  | panic q => trivial
  | getI x k ih => exact fun v => ih v (h v)
  | setI x v k ih => exact ⟨rfl, ih h⟩
  | getBuf k ih => exact fun v => ih v (h v)
  | setBuf t k ih => exact ⟨rfl, ih h⟩
  | load t i k ih => exact fun v => ih v (h v)
  | store t i v k ih => exact ⟨rfl, ih h⟩
  | append t x k ih => exact ⟨rfl, fun v => ih v (h v)⟩
  | alloc a n k ih => exact ⟨rfl, fun v => ih v (h v)⟩
  | lock k ih => exact h.elim
  | unlock k ih => exact h.elim

theorem Brk.deferUnlock {p : Prog α} (h : p.NoLock) : Brk true false p.deferUnlock := by
  induction p with
  | ret a => exact ⟨rfl, rfl⟩
  | panic q => exact ⟨rfl, trivial⟩
  | getI x k ih => exact fun v => ih v (h v)
  | setI x v k ih => exact ⟨rfl, ih h⟩
  | getBuf k ih => exact fun v => ih v (h v)
  | setBuf t k ih => exact ⟨rfl, ih h⟩
  | load t i k ih => exact fun v => ih v (h v)
  | store t i v k ih => exact ⟨rfl, ih h⟩
  | append t x k ih => exact ⟨rfl, fun v => ih v (h v)⟩
  | alloc a n k ih => exact ⟨rfl, fun v => ih v (h v)⟩
  | lock k ih => exact h.elim
  | unlock k ih => exact h.elim

/-- `b.Lock(); defer b.Unlock(); body` -/
theorem Brk.locked {p : Prog α} (h : p.NoLock) : Brk false false (Prog.locked p) := ⟨rfl, Brk.deferUnlock h⟩

/-- `b.Lock(); body; b.Unlock()` -/
theorem Brk.crit {p : Prog α} (h : p.NoLock) : Brk false false (Prog.Lock.bind fun _ => p.bind fun _ => Prog.Unlock) :=
  ⟨rfl, (Brk.of_noLock h).bind fun _ => ⟨rfl, rfl⟩⟩

theorem Brk.field (f : Field) (b : Bool) : Brk b b (Prog.field f) := fun _ => rfl
theorem Brk.panicIf (c : Prop) [Decidable c] (p : Panic) (b : Bool) : Brk b b (Prog.panicIf c p) := by
  unfold Prog.panicIf; split
  · trivial
  · rfl
theorem Brk.ret (a : α) (b : Bool) : Brk b b (.ret a) := rfl

theorem Brk.doLoop {body : Int64 → α → Prog α} {b : Bool} (h : ∀ i a, Brk b b (body i a)) (n i : Int64) (a : α) :
    Brk b b (Prog.doLoop body n i a) := by
  fun_induction Prog.doLoop body n i a with
  | case1 i a ih =>
    refine (h i a).bind fun a' => ?_
    split
    · rename_i hh
      exact ih a' hh
    · rfl

/-! ## traces -/

/-- How one step changes whether `i` is inside. -/
def enter (b : Bool) (i : Nat) (x : Nat × Act O V) : Bool :=
  if x.1 = i then
    match x.2 with
    | .did .lock _ => true
    | .did .unlock _ => false
    | _ => b
  else b

theorem inside_snoc (τ : Trace O V) (x : Nat × Act O V) (i : Nat) : inside (τ ++ [x]) i = enter (inside τ i) i x := by
  unfold inside
  rw [List.foldl_append]
  rfl

theorem sections_snoc (τ : Trace O V) (x : Nat × Act O V) : sections (τ ++ [x]) = sections τ ++ sections [x] := by
  induction τ with
  | nil => rfl
  | cons y τ ih =>
    obtain ⟨j, a⟩ := y
    cases a with
    | start op => exact ih
    | finish op r => exact ih
    | did e p =>
      cases e with
      | lock => show p :: sections (τ ++ [x]) = _; rw [ih]; rfl
      | unlock => exact ih
      | look => exact ih
      | change => exact ih

/-- Memory and fields after the sections of `τ`, one after another. -/
def after (τ : Trace O V) (s : St) : St := (sections τ).foldl (fun s p => secRun p s) s

theorem after_snoc (τ : Trace O V) (x : Nat × Act O V) (s : St) :
    after (τ ++ [x]) s = (sections [x]).foldl (fun s p => secRun p s) (after τ s) := by
  unfold after
  rw [sections_snoc, List.foldl_append]

theorem ended_snoc (τ : Trace O V) (i : Nat) (x : Act O V) :
    EndedInside (τ ++ [(i, x)]) ↔ EndedInside τ ∨ (∃ op r, x = .finish op r) ∧ inside τ i = true := by
  constructor
  · rintro ⟨τ1, j, op, r, τ2, h, hi⟩
    rcases List.eq_nil_or_concat τ2 with rfl | ⟨τ2, y, rfl⟩
    · obtain ⟨h1, h2⟩ := List.append_inj' h rfl
      subst h1
      cases h2
      exact .inr ⟨⟨op, r, rfl⟩, hi⟩
    · refine .inl ⟨τ1, j, op, r, τ2, ?_, hi⟩
      rw [List.concat_eq_append, ← List.cons_append, ← List.append_assoc] at h
      exact (List.append_inj' h rfl).1
  · rintro (⟨τ1, j, op, r, τ2, rfl, hi⟩ | ⟨⟨op, r, rfl⟩, hi⟩)
    · exact ⟨τ1, j, op, r, τ2 ++ [(i, x)], by simp, hi⟩
    · exact ⟨τ, i, op, r, [], rfl, hi⟩

theorem ended_keep {τ : Trace O V} {i : Nat} {x : Act O V} (h : ∀ op r, x ≠ .finish op r) :
    EndedInside (τ ++ [(i, x)]) ↔ EndedInside τ := by
  rw [ended_snoc]
  constructor
  · rintro (h' | ⟨⟨op, r, e⟩, _⟩)
    · exact h'
    · exact absurd e (h op r)
  · exact .inl

/-! ## the invariant -/

/-- What is true after `τ`: `h` is the holder of the mutex, `a` says whether it is still running its section. -/
structure Inv (s0 : St) (τ : Trace O V) (c : Conf O V) (h : Option Nat) (a : Bool) : Prop where
  hold : ∀ i, inside τ i = decide (h = some i)
  locked : c.sh.locked = h.isSome
  active : a = true → ∃ i op p, h = some i ∧ c.thr i = .busy op p ∧ Brk true false p ∧ secRun p c.sh.st = after τ s0
  done : a = false → c.sh.st = after τ s0
  others : ∀ i op p, c.thr i = .busy op p → ¬ (a = true ∧ h = some i) → Brk false false p
  ended : EndedInside τ ↔ a = false ∧ h.isSome = true

theorem set_thr (c : Conf O V) (i : Nat) (t : Thr O V) (sh : Sh) (j : Nat) :
    (c.set i t sh).thr j = if j = i then t else c.thr j := rfl

theorem Inv.step {ex : O → Prog V} {allowed : O → Prop} (hex : ∀ op, allowed op → Brk false false (ex op)) {s0 : St} {τ : Trace O V}
    {c c' : Conf O V} {h : Option Nat} {a : Bool} (v : Inv s0 τ c h a) {i : Nat} {x : Act O V}
    (st : Step ex allowed c i x c') :
    (∃ h' a', Inv s0 (τ ++ [(i, x)]) c' h' a') ∧ (c'.sh.st = c.sh.st ∨ inside τ i = true) := by
  cases st with
  | start op hi hop =>
    refine ⟨⟨h, a, ?_, v.locked, ?_, ?_, ?_, (ended_keep nofun).trans v.ended⟩, .inl rfl⟩
    · intro j
      rw [inside_snoc, ← v.hold j]
      simp only [enter, ite_self]
    · intro ha
      obtain ⟨j, op', p, h1, h2, h3⟩ := v.active ha
      refine ⟨j, op', p, h1, ?_, h3.1, ?_⟩
      · rw [set_thr, if_neg]
        · exact h2
        · rintro rfl; rw [hi] at h2; exact nomatch h2
      · rw [after_snoc]; exact h3.2
    · intro ha; rw [after_snoc]; exact v.done ha
    · intro j op' p hj hn
      rw [set_thr] at hj
      split at hj
      · cases hj; exact hex op hop
      · exact v.others j op' p hj hn
  | @finish op p r hi hr =>
    by_cases hact : a = true ∧ h = some i
    · obtain ⟨ha, hh⟩ := hact
      obtain ⟨j, op', p', h1, h2, h3, h4⟩ := v.active ha
      rw [hh] at h1; cases h1
      rw [hi] at h2; cases h2
      refine ⟨⟨h, false, ?_, v.locked, fun e => (nomatch e), ?_, ?_, ?_⟩, .inl rfl⟩
      · intro j
        rw [inside_snoc, ← v.hold j]
        simp only [enter, ite_self]
      · intro _
        rw [after_snoc]
        cases p with
        | ret b => exact nomatch h3
        | panic q => exact h4
        | _ => exact nomatch hr
      · intro j op' p'' hj _
        rw [set_thr] at hj
        split at hj
        · exact nomatch hj
        · rename_i hne
          exact v.others j op' p'' hj fun hx => hne (by rw [hh] at hx; exact (Option.some.inj hx.2).symm)
      · rw [ended_snoc]
        exact ⟨fun _ => ⟨rfl, by rw [hh]; rfl⟩, fun _ => .inr ⟨⟨_, _, rfl⟩, by rw [v.hold, hh]; simp⟩⟩
    · refine ⟨⟨h, a, ?_, v.locked, ?_, ?_, ?_, ?_⟩, .inl rfl⟩
      · intro j
        rw [inside_snoc, ← v.hold j]
        simp only [enter, ite_self]
      · intro ha
        obtain ⟨j, op', p', h1, h2, h3⟩ := v.active ha
        refine ⟨j, op', p', h1, ?_, h3.1, ?_⟩
        · rw [set_thr, if_neg]
          · exact h2
          · rintro rfl; exact hact ⟨ha, h1⟩
        · rw [after_snoc]; exact h3.2
      · intro ha; rw [after_snoc]; exact v.done ha
      · intro j op' p' hj hn
        rw [set_thr] at hj
        split at hj
        · exact nomatch hj
        · exact v.others j op' p' hj hn
      · rw [ended_snoc, v.ended]
        constructor
        · rintro (h1 | ⟨_, h1⟩)
          · exact h1
          · rw [v.hold, decide_eq_true_eq] at h1
            refine ⟨?_, by rw [h1]; rfl⟩
            cases a with
            | false => rfl
            | true => exact absurd ⟨rfl, h1⟩ hact
        · exact .inl
  | @did op p p' e sh hi hs =>
    by_cases hact : a = true ∧ h = some i
    · -- the holder goes on in its section
      obtain ⟨ha, hh⟩ := hact
      have hin : inside τ i = true := by rw [v.hold i, hh]; simp
      refine ⟨?_, .inr hin⟩
      obtain ⟨j, op', q, h1, h2, h3, h4⟩ := v.active ha
      rw [hh] at h1; cases h1
      rw [hi] at h2; cases h2
      -- everything but an unlock
      have keep : ∀ e p' sh, e ≠ .lock → e ≠ .unlock → sh.locked = c.sh.locked → Brk true false p' →
          secRun p' sh.st = after τ s0 → ∃ h' a', Inv s0 (τ ++ [(i, .did e p')]) (c.set i (.busy op p') sh) h' a' := by
        intro e p' sh e1 e2 hl hb hs
        refine ⟨h, a, ?_, hl.trans v.locked, ?_, fun e => absurd e (by rw [ha]; decide), ?_, (ended_keep nofun).trans v.ended⟩
        · intro j
          rw [inside_snoc, ← v.hold j]
          cases e <;> first | exact absurd rfl e1 | exact absurd rfl e2 | simp only [enter, ite_self]
        · intro _
          refine ⟨i, op, p', hh, by rw [set_thr, if_pos rfl], hb, ?_⟩
          rw [after_snoc]
          cases e <;> first | exact absurd rfl e1 | exact hs
        · intro j op' p'' hj hn
          rw [set_thr] at hj
          split at hj
          · rename_i hj'; subst hj'; exact (hn ⟨ha, hh⟩).elim
          · exact v.others j op' p'' hj hn
      cases p with
      | ret b => exact nomatch hs
      | panic q => exact nomatch hs
      | getI f k => cases hs; exact keep _ _ _ (by decide) (by decide) rfl (h3 _) h4
      | setI f w k => cases hs; exact keep _ _ _ (by decide) (by decide) rfl h3.2 h4
      | getBuf k => cases hs; exact keep _ _ _ (by decide) (by decide) rfl (h3 _) h4
      | setBuf t k => cases hs; exact keep _ _ _ (by decide) (by decide) rfl h3.2 h4
      | load t n k => cases hs; exact keep _ _ _ (by decide) (by decide) rfl (h3 _) h4
      | store t n w k => cases hs; exact keep _ _ _ (by decide) (by decide) rfl h3.2 h4
      | append t y k => cases hs; exact keep _ _ _ (by decide) (by decide) rfl (h3.2 _) h4
      | alloc a n k => cases hs; exact keep _ _ _ (by decide) (by decide) rfl (h3.2 _) h4
      | lock k => exact nomatch h3.1
      | unlock k =>
        cases hs
        refine ⟨none, false, ?_, rfl, fun e => (nomatch e), ?_, ?_, ?_⟩
        · intro j
          rw [inside_snoc]
          simp only [enter]
          by_cases hj : i = j
          · rw [if_pos hj]; rfl
          · rw [if_neg hj, v.hold j, hh]
            simp [hj]
        · intro _
          rw [after_snoc]
          exact h4
        · intro j op' p'' hj hn
          rw [set_thr] at hj
          split at hj
          · cases hj; exact h3.2
          · rename_i hne
            exact v.others j op' p'' hj fun hx => hne (by rw [hh] at hx; exact (Option.some.inj hx.2).symm)
        · rw [ended_keep nofun, v.ended, ha]
          exact ⟨fun h => (nomatch h.1), fun h => (nomatch h.2)⟩
    · -- anybody else can only look, or take the lock
      have hb := v.others i op p hi hact
      have keep : ∀ e p' sh, e = .look → sh = c.sh → Brk false false p' →
          (∃ h' a', Inv s0 (τ ++ [(i, .did e p')]) (c.set i (.busy op p') sh) h' a') ∧
            ((c.set i (.busy op p') sh).sh.st = c.sh.st ∨ inside τ i = true) := by
        intro e p' sh he hsh hb'
        subst he hsh
        refine ⟨⟨h, a, ?_, v.locked, ?_, ?_, ?_, (ended_keep nofun).trans v.ended⟩, .inl rfl⟩
        · intro j
          rw [inside_snoc, ← v.hold j]
          simp only [enter, ite_self]
        · intro ha
          obtain ⟨j, op', p'', h1, h2, h3⟩ := v.active ha
          refine ⟨j, op', p'', h1, ?_, h3.1, ?_⟩
          · rw [set_thr, if_neg]
            · exact h2
            · rintro rfl; exact hact ⟨ha, h1⟩
          · rw [after_snoc]; exact h3.2
        · intro ha; rw [after_snoc]; exact v.done ha
        · intro j op' p'' hj hn
          rw [set_thr] at hj
          split at hj
          · cases hj; exact hb'
          · exact v.others j op' p'' hj hn
      cases p with
      | ret b => exact nomatch hs
      | panic q => exact nomatch hs
      | getI f k => cases hs; exact keep _ _ _ rfl rfl (hb _)
      | setI f w k => exact nomatch hb.1
      | getBuf k => cases hs; exact keep _ _ _ rfl rfl (hb _)
      | setBuf t k => exact nomatch hb.1
      | load t n k => cases hs; exact keep _ _ _ rfl rfl (hb _)
      | store t n w k => exact nomatch hb.1
      | append t y k => exact nomatch hb.1
      | alloc a n k => exact nomatch hb.1
      | unlock k => exact nomatch hb.1
      | lock k =>
        change (if c.sh.locked = true then none else some (Event.lock, k, (⟨c.sh.st, true⟩ : Sh))) = _ at hs
        split at hs
        · exact nomatch hs
        · rename_i hl
          cases hs
          have hnone : h = none := by
            have := v.locked
            cases h with
            | none => rfl
            | some j => rw [this] at hl; exact absurd rfl hl
          subst hnone
          have ha : a = false := by
            cases a with
            | false => rfl
            | true => obtain ⟨_, _, _, h1, _⟩ := v.active rfl; exact nomatch h1
          have hst := v.done ha
          refine ⟨⟨some i, true, ?_, rfl, ?_, fun e => (nomatch e), ?_, ?_⟩, .inl rfl⟩
          · intro j
            rw [inside_snoc, v.hold j]
            simp only [enter]
            by_cases hj : i = j
            · rw [if_pos hj]; simp [hj]
            · rw [if_neg hj]; simp [hj]
          · intro _
            refine ⟨i, op, p', rfl, by rw [set_thr, if_pos rfl], hb.2, ?_⟩
            rw [after_snoc]
            show secRun p' c.sh.st = secRun p' (after τ s0)
            rw [hst]
          · intro j op' p'' hj hn
            rw [set_thr] at hj
            split at hj
            · rename_i hj'; subst hj'; exact (hn ⟨rfl, rfl⟩).elim
            · exact v.others j op' p'' hj fun hx => nomatch hx.2
          · rw [ended_keep nofun, v.ended]
            exact ⟨fun h => (nomatch h.2), fun h => (nomatch h.1)⟩

theorem Inv.init {c : Conf O V} (q : Quiet c) : Inv c.sh.st [] c none false :=
  ⟨fun _ => rfl, q.free, fun e => (nomatch e), fun _ => rfl, fun i op p hi _ => (by rw [q.idle i] at hi; exact nomatch hi),
    ⟨fun ⟨τ1, _, _, _, _, h, _⟩ => (by cases τ1 <;> exact nomatch h), fun h => (nomatch h.2)⟩⟩

theorem exec_inv {ex : O → Prog V} {allowed : O → Prop} (hex : ∀ op, allowed op → Brk false false (ex op)) {c0 c : Conf O V} {τ : Trace O V}
    (q : Quiet c0) (e : Exec ex allowed c0 τ c) : ∃ h a, Inv c0.sh.st τ c h a := by
  induction e with
  | nil => exact ⟨none, false, Inv.init q⟩
  | snoc _ st ih =>
    obtain ⟨h, a, v⟩ := ih
    exact (v.step hex st).1

theorem Exec.mono {ex : O → Prog V} {P Q : O → Prop} {c0 c : Conf O V} {τ : Trace O V} (e : Exec ex P c0 τ c)
    (h : ∀ op, P op → Q op) : Exec ex Q c0 τ c := by
  induction e with
  | nil => exact .nil
  | snoc _ st ih =>
    refine ih.snoc ?_
    cases st with
    | start op hi ho => exact .start op hi (h op ho)
    | did hi hs => exact .did hi hs
    | finish hi hr => exact .finish hi hr

end Crunch
