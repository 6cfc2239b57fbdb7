import Verif.Lemmas.Src

/-! Execution of a method with an out parameter when it is known what the variable behind the pointer holds. -/

namespace Crunch.Src
open V3.Mini (onB getOut putOut callOut)

/-- A program given the receiver, with what the out parameter then points to. -/
abbrev Tgt (β : Type) := V3.St → Res β × (V3.St × V)

/-- `m` when the out parameter points to `v` -/
def atOut (v : V) (m : GoM (V3.St × V) β) : Tgt β := fun s => m (s, v)

/-- `m` on the receiver, then `f`; the out parameter points to `v` -/
def ob (v : V) (m : GoM V3.St α) (f : α → Tgt β) : Tgt β := fun s =>
  match m s with
  | (.ok a, s') => f a s'
  | (.panic p, s') => (.panic p, (s', v))

/-- a panic while the out parameter points to `v` -/
def failAt (v : V) (p : Panic) : Tgt β := fun s => (.panic p, (s, v))

/-- `m` on the receiver and an out parameter of a known type, then `f` -/
def through (inj : O → V) (m : GoM (V3.St × O) α) (x : O) (f : α → O → Tgt β) : Tgt β := fun s =>
  match m (s, x) with
  | (.ok a, s') => f a s'.2 s'.1
  | (.panic p, s') => (.panic p, (s'.1, inj s'.2))

section
variable (v : V) (k : α → GoM (V3.St × V) β)

theorem at_onB (m : GoM V3.St α) : atOut v (onB m >>= k) = ob v m fun a => atOut v (k a) := by
  funext s
  simp only [atOut, ob, bind_run, onB]
  rcases m s with ⟨r | p, s'⟩ <;> rfl

theorem at_onB' (m : GoM V3.St β) : atOut v (onB m) = ob v m fun a => atOut v (pure a) := by
  rw [← at_onB, bind_pure]

theorem at_idx (l : List α) (i : Int64) : atOut v (idx l i >>= k) = ob v (idx l i) fun a => atOut v (k a) := by
  rw [← at_onB, onB_idx]

theorem at_setIdx (l : List α) (i : Int64) (y : α) (k : List α → GoM (V3.St × V) β) :
    atOut v (setIdx l i y >>= k) = ob v (setIdx l i y) fun a => atOut v (k a) := by
  rw [← at_onB, onB_setIdx]

theorem at_throwP (p : Panic) : atOut v (throwP p : GoM (V3.St × V) β) = failAt v p := rfl

theorem at_getOut (k : V → GoM (V3.St × V) β) : atOut v (getOut >>= k) = atOut v (k v) := rfl

theorem at_putOut (w : V) (k : Unit → GoM (V3.St × V) β) : atOut v (putOut w >>= k) = atOut w (k ()) := rfl

theorem at_ite (c : Prop) [Decidable c] (a b : GoM (V3.St × V) β) : atOut v (if c then a else b) = if c then atOut v a else atOut v b := by
  split <;> rfl

end

section
variable (inj : O → V) (x : O)

theorem thru_pure (a : α) (f : α → O → Tgt β) : through inj (pure a) x f = f a x := rfl

theorem thru_bind (m : GoM (V3.St × O) α) (g : α → GoM (V3.St × O) γ) (f : γ → O → Tgt β) :
    through inj (m >>= g) x f = through inj m x fun a x => through inj (g a) x f := by
  funext s
  simp only [through, bind_run]
  rcases m (s, x) with ⟨r | p, s'⟩ <;> rfl

theorem thru_onB (m : GoM V3.St α) (f : α → O → Tgt β) : through inj (onB m) x f = ob (inj x) m fun a => f a x := by
  funext s
  simp only [through, ob, onB]
  rcases m s with ⟨r | p, s'⟩ <;> rfl

theorem thru_idx (l : List α) (i : Int64) (f : α → O → Tgt β) : through inj (idx l i) x f = ob (inj x) (idx l i) fun a => f a x := by
  rw [← thru_onB, onB_idx]

theorem thru_setIdx (l : List α) (i : Int64) (y : α) (f : List α → O → Tgt β) :
    through inj (setIdx l i y) x f = ob (inj x) (setIdx l i y) fun a => f a x := by
  rw [← thru_onB, onB_setIdx]

theorem thru_throwP (p : Panic) (f : α → O → Tgt β) : through inj (throwP p) x f = failAt (inj x) p := rfl

theorem thru_getOut (f : O → O → Tgt β) : through inj getOut x f = f x x := rfl

theorem thru_putOut (y : O) (f : Unit → O → Tgt β) : through inj (putOut y) x f = f () y := rfl

theorem thru_ite (c : Prop) [Decidable c] (a b : GoM (V3.St × O) α) (f : α → O → Tgt β) :
    through inj (if c then a else b) x f = if c then through inj a x f else through inj b x f := by
  split <;> rfl

theorem ob_getB (v : V) (f : V3.Buf → Tgt β) (s : V3.St) : ob v V3.getB f s = f s.b s := rfl

theorem ob_congr (v : V) (m : GoM V3.St α) {f g : α → Tgt β} (h : ∀ a, f a = g a) : ob v m f = ob v m g := by
  rw [funext h]

theorem thru_congr (m : GoM (V3.St × O) α) {f g : α → O → Tgt β} (h : ∀ a x, f a x = g a x) :
    through inj m x f = through inj m x g := by
  rw [show f = g from funext fun a => funext (h a)]

/-- A block with `goto`, as a counted loop, in a method with an out parameter. -/
theorem loopGoto_out {l : Gen.Str} {step : Env → GoM (V3.St × V) (Out × Env)} {D : Int64 → A → GoM (V3.St × O) A} {n : Int64}
    {body : Int64 → A → GoM (V3.St × O) A}
    (hD : ∀ i a, D i a = body i a >>= fun a' => if i + 1 < n then D (i + 1) a' else pure a')
    (g : A → U → Int64 → Env)
    (hstep : ∀ i a u x (k : Out × Env → GoM (V3.St × V) B) (k' : A → O → Tgt B),
      (∀ a x u, (if i + 1 < n then atOut (inj x) (k (.goto l, g a u (i + 1))) else atOut (inj x) (k (.next, g a u (i + 1)))) = k' a x) →
      atOut (inj x) (step (g a u i) >>= k) = through inj (body i a) x k')
    {k : Out × Env → GoM (V3.St × V) B} {k' : A → O → Tgt B} (hk : ∀ a x u i, atOut (inj x) (k (.next, g a u i)) = k' a x)
    (fuel : Nat) (i : Int64) (a : A) (u : U) (hf : rounds n i ≤ fuel) :
    atOut (inj x) (loopGoto l step fuel (g a u i) >>= k) = through inj (D i a) x k' := by
  induction fuel generalizing i a u x with
  | zero => have := rounds_pos n i; omega
  | succ fuel ih =>
    rw [loopGoto, hD, thru_bind]
    simp only [bind_assoc]
    apply hstep
    intro a x u
    by_cases h : i + 1 < n
    · have hr := rounds_succ h
      simp only [h, if_true]
      exact ih _ _ _ _ (by omega)
    · simp only [h, if_false, pure_bind, thru_pure, hk]

/-- `for`, as a counted loop, in a method with an out parameter. -/
theorem loopFor_out {c : Env → GoM (V3.St × V) V} {step post : Env → GoM (V3.St × V) (Out × Env)} {D : Int64 → A → GoM (V3.St × O) A}
    {n : Int64} {body : Int64 → A → GoM (V3.St × O) A}
    (hD : ∀ i a, D i a = if i < n then body i a >>= fun a' => D (i + 1) a' else pure a)
    (g : A → U → Int64 → Env)
    (hc : ∀ i a u (k : V → GoM (V3.St × V) B), c (g a u i) >>= k = k (.bool (decide (i < n))))
    (hp : ∀ i a u (k : Out × Env → GoM (V3.St × V) B), post (g a u i) >>= k = k (.next, g a u (i + 1)))
    (hstep : ∀ i a u x (k : Out × Env → GoM (V3.St × V) B) (k' : A → O → Tgt B),
      (∀ a x u, atOut (inj x) (k (.next, g a u i)) = k' a x) →
      atOut (inj x) (step (g a u i) >>= k) = through inj (body i a) x k')
    {k : Out × Env → GoM (V3.St × V) B} {k' : A → O → Tgt B} (hk : ∀ a x u i, atOut (inj x) (k (.next, g a u i)) = k' a x)
    (fuel : Nat) (i : Int64) (a : A) (u : U) (hf : (n.toInt - i.toInt).toNat < fuel) :
    atOut (inj x) (loopFor c step post fuel (g a u i) >>= k) = through inj (D i a) x k' := by
  induction fuel generalizing i a u x with
  | zero => omega
  | succ fuel ih =>
    rw [loopFor, hD, bind_assoc, hc]
    by_cases h : i < n
    · have hl := left_succ h
      simp only [h, if_true, decide_true, bind_assoc, thru_bind]
      apply hstep
      intro a x u
      simp only [bind_assoc, hp]
      exact ih _ _ _ _ (by omega)
    · simp only [h, if_false, decide_false, pure_bind, thru_pure, hk]

/-- `f(&x)` for a variable of a known type -/
theorem withOut_of {c : GoM (V3.St × V) V} {m : GoM (V3.St × O) Unit}
    (h : ∀ k : V → GoM (V3.St × V) Unit, atOut (inj x) (c >>= k) = through inj m x fun _ x => atOut (inj x) (k .unit)) :
    (Sem.withOut (inj x) (c >>= fun _ => pure ()) : GoM (V3.St × V) V) = onB (callOut m x) >>= fun y => pure (inj y) := by
  funext s
  have h := congrFun (h fun _ => pure ()) s.1
  simp only [atOut, through] at h
  show (match (c >>= fun _ => (pure () : GoM (V3.St × V) Unit)) (s.1, inj x) with
    | (.ok _, s') => (Res.ok s'.2, (s'.1, s.2))
    | (.panic p, s') => (.panic p, (s'.1, s.2))) = _
  rw [h]
  simp only [bind_run, onB, callOut]
  rcases m (s.1, x) with ⟨r | p, s'⟩ <;> rfl

end

end Crunch.Src
