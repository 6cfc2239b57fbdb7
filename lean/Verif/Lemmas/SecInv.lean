import Verif.Lemmas.HeldOps

/-!
What all locked sections keep true, and what a section may break when the same call mends it in its next section
(`Grow` appends, then refreshes the capacities).
-/

namespace Crunch
open V3 (St)

/-- Every path releases the lock or panics before it returns. -/
def Closed : Prog α → Prop
  | .ret _ => False
  | .panic _ => True
  | .getI _ k => ∀ v, Closed (k v)
  | .setI _ _ k => Closed k
  | .getBuf k => ∀ s, Closed (k s)
  | .setBuf _ k => Closed k
  | .load _ _ k => ∀ v, Closed (k v)
  | .store _ _ _ k => Closed k
  | .append _ _ k => ∀ s, Closed (k s)
  | .alloc _ _ k => ∀ s, Closed (k s)
  | .lock _ => False
  | .unlock _ => True

theorem Closed.bind {p : Prog α} (h : Closed p) (f : α → Prog β) : Closed (p.bind f) ∧ ∀ s, secRun (p.bind f) s = secRun p s := by
  induction p with
  | ret a => exact h.elim
  | panic q => exact ⟨trivial, fun _ => rfl⟩
  | getI x k ih => exact ⟨fun v => (ih v (h v)).1, fun s => (ih _ (h _)).2 s⟩
  | setI x v k ih => exact ⟨(ih h).1, fun s => (ih h).2 _⟩
  | getBuf k ih => exact ⟨fun v => (ih v (h v)).1, fun s => (ih _ (h _)).2 s⟩
  | setBuf t k ih => exact ⟨(ih h).1, fun s => (ih h).2 _⟩
  | load t i k ih => exact ⟨fun v => (ih v (h v)).1, fun s => (ih _ (h _)).2 s⟩
  | store t i v k ih => exact ⟨(ih h).1, fun s => (ih h).2 _⟩
  | append t x k ih => exact ⟨fun v => (ih v (h v)).1, fun s => (ih _ (h _)).2 _⟩
  | alloc a n k ih => exact ⟨fun v => (ih v (h v)).1, fun s => (ih _ (h _)).2 _⟩
  | lock k ih => exact h.elim
  | unlock k ih => exact ⟨trivial, fun _ => rfl⟩

/-- The next thing it does is enter a section after which `I` holds, whatever was before. -/
def Owe (I : St → Prop) : Prog α → Prop
  | .lock k => Closed k ∧ ∀ s, I (secRun k s)
  | _ => False

theorem Owe.bind {I : St → Prop} {p : Prog α} (h : Owe I p) (f : α → Prog β) : Owe I (p.bind f) := by
  cases p with
  | lock k =>
    refine ⟨(h.1.bind f).1, fun s => ?_⟩
    rw [(h.1.bind f).2]
    exact h.2 s
  | _ => exact h.elim

/-- Run from `s` up to the release of the lock, it goes on with something that owes `I`. -/
def OweAt (I : St → Prop) : Prog α → St → Prop
  | .ret _, _ => False
  | .panic _, _ => False
  | .getI f k, s => OweAt I (k (f.get s.b)) s
  | .setI f v k, s => OweAt I k { s with b := f.set s.b v }
  | .getBuf k, s => OweAt I (k s.b.buf) s
  | .setBuf t k, s => OweAt I k { s with b := { s.b with buf := t } }
  | .load t i k, s => OweAt I (k ((s.mem.array t.arr).getD (t.off + i) 0)) s
  | .store t i v k, s => OweAt I k { s with mem := s.mem.set t.arr (t.off + i) v }
  | .append t x k, s => OweAt I (k (appendMem t x s.mem).1) { s with mem := (appendMem t x s.mem).2 }
  | .alloc a n k, s => OweAt I (k ⟨s.mem.arrays.length, 0, n, a.length⟩) { s with mem := s.mem.alloc a }
  | .lock _, _ => False
  | .unlock k, _ => Owe I k

theorem OweAt.bind {I : St → Prop} {p : Prog α} {s : St} (h : OweAt I p s) (f : α → Prog β) : OweAt I (p.bind f) s := by
  induction p generalizing s with
  | ret a => exact h.elim
  | panic q => exact h.elim
  | getI x k ih => exact ih _ h
  | setI x v k ih => exact ih h
  | getBuf k ih => exact ih _ h
  | setBuf t k ih => exact ih h
  | load t i k ih => exact ih _ h
  | store t i v k ih => exact ih h
  | append t x k ih => exact ih _ h
  | alloc a n k ih => exact ih _ h
  | lock k ih => exact h.elim
  | unlock k ih => exact Owe.bind h f

/-- Every section keeps `I`, or (if `g`) is followed by one that owes it. -/
def Keeps (I : St → Prop) (g : Bool) : Prog α → Prop
  | .ret _ => True
  | .panic _ => True
  | .getI _ k => ∀ v, Keeps I g (k v)
  | .setI _ _ k => Keeps I g k
  | .getBuf k => ∀ s, Keeps I g (k s)
  | .setBuf _ k => Keeps I g k
  | .load _ _ k => ∀ v, Keeps I g (k v)
  | .store _ _ _ k => Keeps I g k
  | .append _ _ k => ∀ s, Keeps I g (k s)
  | .alloc _ _ k => ∀ s, Keeps I g (k s)
  | .lock k => Closed k ∧ (∀ s, I s → I (secRun k s) ∨ g = true ∧ OweAt I k s) ∧ Keeps I g k
  | .unlock k => Keeps I g k

theorem Keeps.bind {I : St → Prop} {g : Bool} {p : Prog α} {f : α → Prog β} (hp : Keeps I g p) (hf : ∀ a, Keeps I g (f a)) :
    Keeps I g (p.bind f) := by
  induction p with
  | ret a => exact hf a
  | panic q => trivial
  | getI x k ih => exact fun v => ih v (hp v)
  | setI x v k ih => exact ih hp
  | getBuf k ih => exact fun v => ih v (hp v)
  | setBuf t k ih => exact ih hp
  | load t i k ih => exact fun v => ih v (hp v)
  | store t i v k ih => exact ih hp
  | append t x k ih => exact fun v => ih v (hp v)
  | alloc a n k ih => exact fun v => ih v (hp v)
  | lock k ih =>
    refine ⟨(hp.1.bind f).1, fun s hs => ?_, ih hp.2.2⟩
    rw [(hp.1.bind f).2]
    exact (hp.2.1 s hs).imp id fun h => ⟨h.1, h.2.bind f⟩
  | unlock k ih => exact ih hp

theorem Keeps.ret (I : St → Prop) (g : Bool) (a : α) : Keeps I g (.ret a) := trivial
theorem Keeps.field (I : St → Prop) (g : Bool) (f : Field) : Keeps I g (Prog.field f) := fun _ => trivial

theorem Keeps.doLoop {I : St → Prop} {g : Bool} {body : Int64 → α → Prog α} (h : ∀ i a, Keeps I g (body i a)) (n i : Int64) (a : α) :
    Keeps I g (Prog.doLoop body n i a) := by
  fun_induction Prog.doLoop body n i a with
  | case1 i a ih =>
    refine (h i a).bind fun a' => ?_
    split
    · rename_i hh
      exact ih a' hh
    · trivial

theorem Keeps.forLoop {I : St → Prop} {g : Bool} {body : Int64 → α → Prog α} (h : ∀ i a, Keeps I g (body i a)) (n i : Int64) (a : α) :
    Keeps I g (Prog.forLoop body n i a) := by
  fun_induction Prog.forLoop body n i a with
  | case1 i a hi ih => exact (h i a).bind ih
  | case2 i a hi => trivial

theorem Looks.keeps {I : St → Prop} {g : Bool} {p : Prog α} (hp : Looks p) : Keeps I g p := by
  induction p with
  | ret a => trivial
  | panic q => trivial
  | getI x k ih => exact fun v => ih v (hp v)
  | getBuf k ih => exact fun v => ih v (hp v)
  | load t i k ih => exact fun v => ih v (hp v)
  | _ => exact hp.elim

/-- The same slice header, capacities and sizes of arrays. -/
def SameFrame (s s' : St) : Prop := frame s'.b = frame s.b ∧ ∀ a, (s'.mem.array a).length = (s.mem.array a).length

theorem SameFrame.refl (s : St) : SameFrame s s := ⟨rfl, fun _ => rfl⟩

theorem SameFrame.trans {s s' s'' : St} (h : SameFrame s s') (h' : SameFrame s' s'') : SameFrame s s'' :=
  ⟨h'.1.trans h.1, fun a => (h'.2 a).trans (h.2 a)⟩

theorem length_array_set (h : Heap) (a i : Nat) (v : UInt8) (b : Nat) : ((h.set a i v).array b).length = (h.array b).length := by
  unfold Heap.set Heap.array
  simp only [List.getD_eq_getElem?_getD, List.getElem?_modify]
  cases h.arrays[b]? with
  | none => rfl
  | some l => by_cases e : a = b <;> simp [e]

theorem Sec.closed {p : Prog α} (h : Sec p) : Closed p ∧ ∀ s, SameFrame s (secRun p s) := by
  induction p with
  | ret a => exact h.elim
  | panic q => exact ⟨trivial, SameFrame.refl⟩
  | getI x k ih => exact ⟨fun v => (ih v (h v)).1, fun s => (ih _ (h _)).2 s⟩
  | setI x v k ih => exact ⟨(ih h.2).1, fun s => SameFrame.trans (s' := { s with b := x.set s.b v }) ⟨frame_set h.1 _ _, fun _ => rfl⟩ ((ih h.2).2 _)⟩
  | getBuf k ih => exact ⟨fun v => (ih v (h v)).1, fun s => (ih _ (h _)).2 s⟩
  | load t i k ih => exact ⟨fun v => (ih v (h v)).1, fun s => (ih _ (h _)).2 s⟩
  | store t i v k ih => exact ⟨(ih h).1, fun s => SameFrame.trans (s' := { s with mem := s.mem.set t.arr (t.off + i) v })
      ⟨rfl, fun a => length_array_set _ _ _ _ a⟩ ((ih h).2 _)⟩
  | unlock k ih => exact ⟨trivial, SameFrame.refl⟩
  | _ => exact h.elim

theorem Sec.keeps {I : St → Prop} {g : Bool} {p : Prog α} (h : Sec p) : Keeps I g p := by
  induction p with
  | ret a => trivial
  | panic q => trivial
  | getI x k ih => exact fun v => ih v (h v)
  | setI x v k ih => exact ih h.2
  | getBuf k ih => exact fun v => ih v (h v)
  | load t i k ih => exact fun v => ih v (h v)
  | store t i v k ih => exact ih h
  | unlock k ih =>
    cases k with
    | ret a => trivial
    | panic q => trivial
    | _ => exact nomatch h
  | _ => exact h.elim

/-- A property of the slice header, the capacities and the sizes of arrays only. -/
def OnFrame (I : St → Prop) : Prop := ∀ s s' : St, SameFrame s s' → I s → I s'

theorem Once.keeps {I : St → Prop} (hI : OnFrame I) {g : Bool} {p : Prog α} (h : Once p) : Keeps I g p := by
  induction p with
  | ret a => trivial
  | panic q => trivial
  | getI x k ih => exact fun v => ih v (h.2 v)
  | getBuf k ih => exact fun v => ih v (h v)
  | lock k ih =>
    have hk : Sec k := h
    exact ⟨hk.closed.1, fun s hs => .inl (hI s _ (hk.closed.2 s) hs), hk.keeps⟩
  | _ => exact h.elim

/-! ## under all interleavings -/

variable {O V : Type} {ex : O → Prog V} {allowed : O → Prop} {g : O → Bool} {I : St → Prop} {c0 c : Conf O V} {τ : Trace O V}

theorem exec_keeps_thr (hk : ∀ op, allowed op → Keeps I (g op) (ex op)) (q : Quiet c0) (e : Exec ex allowed c0 τ c)
    {i : Nat} {op : O} {p : Prog V} (hi : c.thr i = .busy op p) : Keeps I (g op) p := by
  induction e generalizing i op p with
  | nil => rw [q.idle i] at hi; exact nomatch hi
  | @snoc τ c c' j a e0 st ih =>
    cases st with
    | start op' hj ho =>
      rw [set_thr] at hi
      split at hi
      · cases hi; exact hk _ ho
      · exact ih hi
    | finish hj hr =>
      rw [set_thr] at hi
      split at hi
      · exact nomatch hi
      · exact ih hi
    | @did op' p0 p' ev sh hj hs =>
      rw [set_thr] at hi
      split at hi
      · rename_i e'; subst e'
        cases hi
        have old := ih hj
        cases p0 with
        | ret a => exact nomatch hs
        | panic q => exact nomatch hs
        | getI x k => cases hs; exact old _
        | setI x v k => cases hs; exact old
        | getBuf k => cases hs; exact old _
        | setBuf t k => cases hs; exact old
        | load t i k => cases hs; exact old _
        | store t i v k => cases hs; exact old
        | append t x k => cases hs; exact old _
        | alloc a n k => cases hs; exact old _
        | lock k =>
          change (if c.sh.locked = true then none else some (Event.lock, k, (⟨c.sh.st, true⟩ : Sh))) = _ at hs
          split at hs
          · exact nomatch hs
          · cases hs; exact old.2.2
        | unlock k => cases hs; exact old
      · exact ih hi

theorem Inv.free_done {s0 : St} {h : Option Nat} {a : Bool} (v : Inv s0 τ c h a) (hf : c.sh.locked = false) : c.sh.st = after τ s0 := by
  cases a with
  | false => exact v.done rfl
  | true =>
    obtain ⟨i, _, _, hi, _⟩ := v.active rfl
    have := v.locked
    rw [hf, hi] at this
    exact nomatch this

/-- Goroutine `i` owes `I`. -/
def Debt (I : St → Prop) (g : O → Bool) (τ : Trace O V) (c : Conf O V) (i : Nat) : Prop :=
  ∃ op p, c.thr i = .busy op p ∧ g op = true ∧ (inside τ i = true ∧ OweAt I p c.sh.st ∨ inside τ i = false ∧ Owe I p)

/-- After the sections of `τ`, `I` holds or somebody owes it. -/
theorem exec_debt (hex : ∀ op, allowed op → Brk false false (ex op)) (hk : ∀ op, allowed op → Keeps I (g op) (ex op)) (q : Quiet c0)
    (h0 : I c0.sh.st) (e : Exec ex allowed c0 τ c) : I (after τ c0.sh.st) ∨ ∃ i, Debt I g τ c i := by
  induction e with
  | nil => exact .inl h0
  | @snoc τ c c' i a e0 st ih =>
    obtain ⟨h, act, v⟩ := exec_inv hex q e0
    -- a debt of somebody else stays
    have other : ∀ j, j ≠ i → Debt I g τ c j → (inside τ i = true ∨ c'.sh.st = c.sh.st) → Debt I g (τ ++ [(i, a)]) c' j := by
      rintro j hj ⟨op, p, h1, h2, h3⟩ hs
      refine ⟨op, p, ?_, h2, ?_⟩
      · cases st with
        | start => rw [set_thr, if_neg hj]; exact h1
        | did => rw [set_thr, if_neg hj]; exact h1
        | finish => rw [set_thr, if_neg hj]; exact h1
      · have hin : inside (τ ++ [(i, a)]) j = inside τ j := by
          rw [inside_snoc]; exact if_neg (Ne.symm hj)
        rw [hin]
        rcases h3 with ⟨ha, hb⟩ | hb
        · left
          refine ⟨ha, ?_⟩
          rcases hs with hs | hs
          · rw [v.hold, decide_eq_true_eq] at ha hs
            rw [ha] at hs
            exact absurd (Option.some.inj hs) hj
          · rw [hs]; exact hb
        · exact .inr hb
    have same : ∀ x : Act O V, sections [(i, x)] = [] → after (τ ++ [(i, x)]) c0.sh.st = after τ c0.sh.st := by
      intro x hx
      rw [after_snoc, hx]; rfl
    cases st with
    | start op hi ho =>
      rw [same _ rfl]
      refine ih.imp id fun ⟨j, hj⟩ => ⟨j, other j ?_ hj (.inr rfl)⟩
      rintro rfl
      obtain ⟨_, _, h1, _⟩ := hj
      rw [hi] at h1; exact nomatch h1
    | @finish op p r hi hr =>
      rw [same _ rfl]
      refine ih.imp id fun ⟨j, hj⟩ => ⟨j, other j ?_ hj (.inr rfl)⟩
      rintro rfl
      obtain ⟨_, _, h1, _, h3⟩ := hj
      rw [hi] at h1
      cases h1
      cases p with
      | ret a => rcases h3 with h3 | h3 <;> exact h3.2
      | panic q => rcases h3 with h3 | h3 <;> exact h3.2
      | _ => exact nomatch hr
    | @did op p p' ev sh hi hs =>
      by_cases hl : ev = .lock
      · -- a new section
        subst hl
        cases p with
        | lock k =>
          change (if c.sh.locked = true then none else some (Event.lock, k, (⟨c.sh.st, true⟩ : Sh))) = _ at hs
          split at hs
          · exact nomatch hs
          · rename_i hfree
            cases hs
            have hst : c.sh.st = after τ c0.sh.st := v.free_done (by simpa using hfree)
            have haft : after (τ ++ [(i, .did .lock p')]) c0.sh.st = secRun p' (after τ c0.sh.st) := by
              rw [after_snoc]; rfl
            have hin : inside (τ ++ [(i, .did .lock p')]) i = true := by
              rw [inside_snoc]; simp [enter]
            rw [haft]
            have hkeep := exec_keeps_thr hk q e0 hi
            rcases ih with hI | ⟨j, hj⟩
            · rcases hkeep.2.1 _ hI with h1 | ⟨h1, h2⟩
              · exact .inl h1
              · right
                refine ⟨i, op, p', by rw [set_thr, if_pos rfl], h1, .inl ⟨hin, ?_⟩⟩
                show OweAt I p' c.sh.st
                rw [hst]; exact h2
            · by_cases e : j = i
              · subst e
                obtain ⟨op', p'', h1, _, h3⟩ := hj
                rw [hi] at h1
                cases h1
                left
                rcases h3 with h3 | h3
                · exact h3.2.elim
                · exact h3.2.2 _
              · exact .inr ⟨j, other j e hj (.inr rfl)⟩
        | ret => exact nomatch hs
        | panic => exact nomatch hs
        | _ => cases hs
      · have hsec : sections [(i, (.did ev p' : Act O V))] = [] := by cases ev <;> first | rfl | exact absurd rfl hl
        rw [same _ hsec]
        refine ih.imp id fun ⟨j, hj⟩ => ?_
        by_cases e : j = i
        · subst e
          refine ⟨j, ?_⟩
          obtain ⟨op', p'', h1, h2, h3⟩ := hj
          rw [hi] at h1
          cases h1
          refine ⟨op, p', by rw [set_thr, if_pos rfl], h2, ?_⟩
          rw [inside_snoc]
          simp only [enter, if_pos]
          show _ ∧ OweAt I p' sh.st ∨ _
          rcases h3 with ⟨h3, h4⟩ | ⟨_, h4⟩
          · cases p with
            | ret a => exact h4.elim
            | panic q => exact h4.elim
            | getI x k => cases hs; exact .inl ⟨h3, h4⟩
            | setI x v k => cases hs; exact .inl ⟨h3, h4⟩
            | getBuf k => cases hs; exact .inl ⟨h3, h4⟩
            | setBuf t k => cases hs; exact .inl ⟨h3, h4⟩
            | load t i k => cases hs; exact .inl ⟨h3, h4⟩
            | store t i v k => cases hs; exact .inl ⟨h3, h4⟩
            | append t x k => cases hs; exact .inl ⟨h3, h4⟩
            | alloc a n k => cases hs; exact .inl ⟨h3, h4⟩
            | lock k => exact h4.elim
            | unlock k => cases hs; exact .inr ⟨rfl, h4⟩
          · cases p with
            | lock k =>
              change (if c.sh.locked = true then none else some (Event.lock, k, (⟨c.sh.st, true⟩ : Sh))) = _ at hs
              split at hs
              · exact nomatch hs
              · cases hs; exact absurd rfl hl
            | _ => exact h4.elim
        · refine ⟨j, other j e hj ?_⟩
          rcases (v.step hex (.did hi hs)).2 with h | h
          · exact .inr h
          · exact .inl h

end Crunch
