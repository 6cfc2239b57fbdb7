import Verif.Go

/-! Lemmas about the Go primitives: the monad, `int64` arithmetic, loops. -/

namespace Crunch

/-! ## monad -/

@[simp] theorem pure_run (a : α) (s : σ) : (pure a : GoM σ α) s = (.ok a, s) := rfl

theorem bind_run (m : GoM σ α) (f : α → GoM σ β) (s : σ) :
    (m >>= f) s = match m s with
      | (.ok a, s') => f a s'
      | (.panic p, s') => (.panic p, s') := rfl

theorem bind_ok {m : GoM σ α} {f : α → GoM σ β} {s s' : σ} {a : α} (h : m s = (.ok a, s')) :
    (m >>= f) s = f a s' := by rw [bind_run, h]

theorem bind_panic {m : GoM σ α} {f : α → GoM σ β} {s s' : σ} {p : Panic}
    (h : m s = (.panic p, s')) : (m >>= f) s = (.panic p, s') := by rw [bind_run, h]

@[simp] theorem throwP_run (p : Panic) (s : σ) : (throwP p : GoM σ α) s = (.panic p, s) := rfl

@[simp] theorem pure_bind' (a : α) (f : α → GoM σ β) : (pure a >>= f) = f a := rfl

theorem bind_assoc' (m : GoM σ α) (f : α → GoM σ β) (g : β → GoM σ γ) :
    ((m >>= f) >>= g) = (m >>= fun a => f a >>= g) := by
  funext s
  simp only [bind_run]
  rcases m s with ⟨_ | _, _⟩ <;> rfl

@[simp] theorem bind_pure' (m : GoM σ α) : (m >>= pure) = m := by
  funext s
  simp only [bind_run]
  rcases m s with ⟨_ | _, _⟩ <;> rfl

@[simp] theorem throwP_bind (p : Panic) (f : α → GoM σ β) : (throwP p >>= f) = throwP p := rfl

theorem panicIf_bind (c : Prop) [Decidable c] (p : Panic) (f : Unit → GoM σ β) (s : σ) :
    (panicIf c p >>= f) s = if c then (.panic p, s) else f () s := by
  unfold panicIf; split <;> rfl

instance : LawfulMonad (GoM σ) := LawfulMonad.mk'
  (id_map := fun x => by
    funext s; show (x >>= fun a => pure (id a)) s = _; rw [show (fun a => pure (id a)) = (pure : _ → GoM σ _) from rfl, bind_pure'])
  (pure_bind := fun _ _ => rfl)
  (bind_assoc := fun x f g => bind_assoc' x f g)

/-! ## int64 arithmetic -/

theorem toInt_add (a b : Int64) :
    (a + b).toInt = (a.toInt + b.toInt + 2 ^ 63) % 2 ^ 64 - 2 ^ 63 := by
  rw [Int64.toInt_add]; unfold Int.bmod; simp; omega

theorem toInt_sub (a b : Int64) :
    (a - b).toInt = (a.toInt - b.toInt + 2 ^ 63) % 2 ^ 64 - 2 ^ 63 := by
  rw [Int64.toInt_sub]; unfold Int.bmod; simp; omega

theorem toInt_mul (a b : Int64) :
    (a * b).toInt = (a.toInt * b.toInt + 2 ^ 63) % 2 ^ 64 - 2 ^ 63 := by
  rw [Int64.toInt_mul]; unfold Int.bmod; simp; omega

theorem toInt_ofNat {n : Nat} (h : n < 2 ^ 63) : (Int64.ofNat n).toInt = n :=
  Int64.toInt_ofNat_of_lt h

theorem toInt_lt' (a : Int64) : a.toInt < 2 ^ 63 := a.toInt_lt
theorem le_toInt' (a : Int64) : -2 ^ 63 ≤ a.toInt := a.le_toInt

theorem tdiv8 (x : Int) : x.tdiv 8 = if 0 ≤ x then x / 8 else -((-x) / 8) := by
  split
  · rw [Int.tdiv_eq_ediv_of_nonneg ‹_›]
  · have : x = -(-x) := by omega
    rw [this, Int.neg_tdiv, Int.tdiv_eq_ediv_of_nonneg (by omega)]; simp

theorem tmod8 (x : Int) : x.tmod 8 = if 0 ≤ x then x % 8 else -((-x) % 8) := by
  have := Int.mul_tdiv_add_tmod x 8
  have h := tdiv8 x
  split at h <;> rename_i hh <;> simp only [hh, if_true, if_false] <;> omega

theorem toInt_div8 (a : Int64) :
    (a / 8).toInt = if 0 ≤ a.toInt then a.toInt / 8 else -((-a.toInt) / 8) := by
  have h := toInt_lt' a; have h' := le_toInt' a
  rw [Int64.toInt_div]
  show ((a.toInt).tdiv 8).bmod _ = _
  rw [tdiv8]; unfold Int.bmod; simp; split <;> omega

theorem toInt_mod8 (a : Int64) :
    (a % 8).toInt = if 0 ≤ a.toInt then a.toInt % 8 else -((-a.toInt) % 8) := by
  rw [Int64.toInt_mod]
  show (a.toInt).tmod 8 = _
  rw [tmod8]

@[simp] theorem toInt_zero' : (0 : Int64).toInt = 0 := rfl
@[simp] theorem toInt_one' : (1 : Int64).toInt = 1 := rfl

theorem eq_ofNat (a : Int64) (h : 0 ≤ a.toInt) : a = Int64.ofNat a.toInt.toNat := by
  apply Int64.toInt_inj.mp
  rw [toInt_ofNat (by have := toInt_lt' a; omega)]; omega

/-- `off + j` as an index of something of moderate size is in range exactly when
the mathematical sum is: an overflow never lands in range. -/
theorem addr {off : Int64} {j L : Nat} (hj : j < 2 ^ 62) (hL : L < 2 ^ 62) :
    (0 ≤ (off + Int64.ofNat j).toInt ∧ (off + Int64.ofNat j).toInt < L) ↔
      (0 ≤ off.toInt + j ∧ off.toInt + j < L) := by
  have h := toInt_lt' off; have h' := le_toInt' off
  rw [toInt_add, toInt_ofNat (by omega)]; omega

theorem addr_val {off : Int64} {j : Nat} (hj : j < 2 ^ 62)
    (h : off.toInt + j < 2 ^ 62) : (off + Int64.ofNat j).toInt = off.toInt + j := by
  have h := toInt_lt' off; have h' := le_toInt' off
  rw [toInt_add, toInt_ofNat (by omega)]; omega

theorem ofNat_add (a b : Nat) : Int64.ofNat (a + b) = Int64.ofNat a + Int64.ofNat b :=
  Int64.ofNat_add a b
theorem ofNat_mul (a b : Nat) : Int64.ofNat (a * b) = Int64.ofNat a * Int64.ofNat b :=
  Int64.ofNat_mul a b

/-! ## loops -/

/-- Run `f start, f (start+1), …` `count` times, threading a value. -/
def iter (f : Nat → α → GoM σ α) : Nat → Nat → α → GoM σ α
  | 0, _, a => pure a
  | c + 1, m, a => f m a >>= fun a' => iter f c (m + 1) a'

theorem doLoop_iter (body : Int64 → α → GoM σ α) (n : Nat) (hn : n < 2 ^ 63) :
    ∀ (c m : Nat) (a : α), m + c + 1 = n →
      doLoop body (Int64.ofNat n) (Int64.ofNat m) a = iter (fun k => body (Int64.ofNat k)) (c + 1) m a := by
  intro c
  induction c with
  | zero =>
    intro m a h
    rw [doLoop]
    simp only [iter]
    congr 1; funext a'
    rw [if_neg]
    rw [Int64.lt_iff_toInt_lt, toInt_add, toInt_ofNat (by omega), toInt_ofNat (by omega), toInt_one']
    omega
  | succ c ih =>
    intro m a h
    rw [doLoop, iter]
    congr 1; funext a'
    rw [if_pos]
    · rw [← ih (m + 1) a' (by omega), ofNat_add]; rfl
    · rw [Int64.lt_iff_toInt_lt, toInt_add, toInt_ofNat (by omega), toInt_ofNat (by omega), toInt_one']
      omega

/-- The do-while loop over a positive count runs the body for `0 .. n-1`. -/
theorem doLoop_pos (body : Int64 → α → GoM σ α) (n : Nat) (h0 : 0 < n) (hn : n < 2 ^ 63) (a : α) :
    doLoop body (Int64.ofNat n) 0 a = iter (fun k => body (Int64.ofNat k)) n 0 a := by
  obtain ⟨c, rfl⟩ : ∃ c, n = c + 1 := ⟨n - 1, by omega⟩
  exact doLoop_iter body (c + 1) hn c 0 a (by omega)

/-- With a count below 2 the body still runs exactly once. -/
theorem doLoop_le_one (body : Int64 → α → GoM σ α) (n : Int64) (h : n.toInt ≤ 1) (a : α) :
    doLoop body n 0 a = body 0 a := by
  rw [doLoop]
  conv => rhs; rw [← bind_pure' (body 0 a)]
  congr 1; funext a'
  rw [if_neg]
  rw [Int64.lt_iff_toInt_lt, toInt_add, toInt_zero', toInt_one']
  omega

theorem forLoop_iter (body : Int64 → α → GoM σ α) (n : Nat) (hn : n < 2 ^ 63) :
    ∀ (c m : Nat) (a : α), m + c = n →
      forLoop body (Int64.ofNat n) (Int64.ofNat m) a = iter (fun k => body (Int64.ofNat k)) c m a := by
  intro c
  induction c with
  | zero =>
    intro m a h
    rw [forLoop, if_neg, iter]
    rw [Int64.lt_iff_toInt_lt, toInt_ofNat (by omega), toInt_ofNat (by omega)]; omega
  | succ c ih =>
    intro m a h
    rw [forLoop, if_pos, iter]
    · congr 1; funext a'
      rw [← ih (m + 1) a' (by omega), ofNat_add]; rfl
    · rw [Int64.lt_iff_toInt_lt, toInt_ofNat (by omega), toInt_ofNat (by omega)]; omega

theorem forLoop_neg (body : Int64 → α → GoM σ α) (n : Int64) (h : n.toInt ≤ 0) (a : α) :
    forLoop body n 0 a = pure a := by
  rw [forLoop, if_neg]
  rw [Int64.lt_iff_toInt_lt, toInt_zero']; omega

/-- Changing the body on the indices actually visited. -/
theorem iter_congr {f g : Nat → α → GoM σ α} :
    ∀ (c m : Nat) (a : α), (∀ k a, m ≤ k → k < m + c → f k a = g k a) → iter f c m a = iter g c m a := by
  intro c
  induction c with
  | zero => intros; rfl
  | succ c ih =>
    intro m a h
    simp only [iter]
    rw [h m a (by omega) (by omega)]
    congr 1; funext a'
    exact ih (m + 1) a' fun k a h1 h2 => h k a (by omega) (by omega)

theorem iter_add (f : Nat → α → GoM σ α) :
    ∀ (c d m : Nat) (a : α), iter f (c + d) m a = iter f c m a >>= fun a' => iter f d (m + c) a' := by
  intro c
  induction c with
  | zero => intro d m a; simp [iter]
  | succ c ih =>
    intro d m a
    rw [show c + 1 + d = (c + d) + 1 by omega]
    simp only [iter, bind_assoc']
    congr 1; funext a'
    rw [ih]; congr 1; funext a''; congr 1; omega

/-! ## typed slices -/

theorem idx_ofNat {l : List α} {m : Nat} (h : m < l.length) (hl : l.length < 2 ^ 63) :
    (idx l (Int64.ofNat m) : GoM σ α) = pure l[m] := by
  unfold idx
  rw [toInt_ofNat (by omega), if_pos (by omega)]
  simp [h]

theorem setIdx_ofNat {l : List α} {m : Nat} (h : m < l.length) (hl : l.length < 2 ^ 63) (v : α) :
    (setIdx l (Int64.ofNat m) v : GoM σ (List α)) = pure (l.set m v) := by
  unfold setIdx
  rw [toInt_ofNat (by omega), if_pos (by omega)]
  simp

theorem idx_nil (i : Int64) : (idx ([] : List α) i : GoM σ α) = throwP .index := by
  unfold idx; split <;> simp

theorem setIdx_nil (i : Int64) (v : α) : (setIdx [] i v : GoM σ (List α)) = throwP .index := by
  unfold setIdx; rw [if_neg]; simp

end Crunch
