import Verif.Props.Program

/-!
# Floating-point constants are the nearest numbers (C138)

The finite floating-point numbers with `m` bits of fraction and `e` bits of exponent are the multiples of `2 ^ -(bias + m - 1)` that
`units` gives, with `bias = 2 ^ (e - 1) - 1`.  So the distance of `p / q` to one of them can be measured in natural numbers.
-/

namespace Crunch.Src.Program

/-- How many times the smallest positive number the number with pattern `r` is (IEEE 754, sign bit clear): a subnormal number is its
fraction; a normal one has a leading one before its fraction, moved by the exponent. -/
def units (m r : Nat) : Nat :=
  if r / 2 ^ m = 0 then r % 2 ^ m else (2 ^ m + r % 2 ^ m) * 2 ^ (r / 2 ^ m - 1)

/-- How many of these are 1. -/
def unit (m e : Nat) : Nat := 2 ^ (2 ^ (e - 1) - 1 + m - 1)

/-- How far the number with pattern `r` is from `p / q`, times `q` and in units. -/
def distance (m e p q r : Nat) : Nat := ((p * unit m e : Nat) - (q * units m r : Nat) : Int).natAbs

theorem two_pow_pos' (n : Nat) : 0 < 2 ^ n := Nat.two_pow_pos n

/-- Patterns in the range of one exponent, the carry included. -/
theorem units_add (m t n : Nat) (h : n ≤ 2 ^ (m + 1)) (ht : t = 0 ∨ 2 ^ m ≤ n) : units m (t * 2 ^ m + n) = n * 2 ^ t := by
  have hm := two_pow_pos' m
  have h2 : 2 ^ (m + 1) = 2 ^ m + 2 ^ m := by rw [Nat.pow_succ]; omega
  unfold units
  rw [Nat.mul_comm t, Nat.mul_add_div hm, Nat.mul_add_mod]
  by_cases h0 : n < 2 ^ m
  · have : t = 0 := by omega
    subst this
    rw [Nat.div_eq_of_lt h0, Nat.mod_eq_of_lt h0]; simp
  by_cases h1 : n < 2 ^ m + 2 ^ m
  · have hd : n / 2 ^ m = 1 := by
      rw [Nat.div_eq_iff hm]; omega
    have hr : n % 2 ^ m = n - 2 ^ m := by rw [Nat.mod_eq_sub_mod (by omega), Nat.mod_eq_of_lt (by omega)]
    rw [hd, hr, if_neg (by omega), show 2 ^ m + (n - 2 ^ m) = n by omega, show t + 1 - 1 = t by omega]
  · have hn : n = 2 ^ m * 2 := by omega
    subst hn
    rw [Nat.mul_div_cancel_left _ hm, Nat.mul_mod_right, if_neg (by omega), show t + 2 - 1 = t + 1 by omega, Nat.pow_succ]
    simp only [Nat.add_zero]
    rw [Nat.mul_assoc, Nat.mul_comm (2 ^ t) 2]

theorem units_succ (m r : Nat) : units m r < units m (r + 1) := by
  have hm := two_pow_pos' m
  have e1 : r = 2 ^ m * (r / 2 ^ m) + r % 2 ^ m := (Nat.div_add_mod r _).symm
  have hl := Nat.mod_lt r hm
  have h2 : 2 ^ (m + 1) = 2 ^ m + 2 ^ m := by rw [Nat.pow_succ]; omega
  generalize r / 2 ^ m = E at e1
  generalize r % 2 ^ m = f at e1 hl
  subst e1
  rcases Nat.eq_zero_or_pos E with rfl | hE
  · have a := units_add m 0 f (by omega) (.inl rfl)
    have b := units_add m 0 (f + 1) (by omega) (.inl rfl)
    simp at a b ⊢; omega
  · obtain ⟨t, rfl⟩ : ∃ t, E = t + 1 := ⟨E - 1, by omega⟩
    have a := units_add m t (2 ^ m + f) (by omega) (.inr (by omega))
    have b := units_add m t (2 ^ m + f + 1) (by omega) (.inr (by omega))
    have c : 2 ^ m * (t + 1) = t * 2 ^ m + 2 ^ m := by rw [Nat.mul_succ, Nat.mul_comm]
    rw [c, show t * 2 ^ m + 2 ^ m + f = t * 2 ^ m + (2 ^ m + f) by omega, a,
      show t * 2 ^ m + (2 ^ m + f) + 1 = t * 2 ^ m + (2 ^ m + f + 1) by omega, b]
    exact Nat.mul_lt_mul_of_pos_right (by omega) (two_pow_pos' t)

theorem units_lt {m r s : Nat} (h : r < s) : units m r < units m s := by
  induction s with
  | zero => omega
  | succ s ih =>
    rcases Nat.lt_or_ge r s with h' | h'
    · exact Nat.lt_trans (ih h') (units_succ m s)
    · have : r = s := by omega
      subst this; exact units_succ m r

theorem units_le {m r s : Nat} (h : r ≤ s) : units m r ≤ units m s := by
  rcases Nat.lt_or_ge r s with h' | h'
  · exact Nat.le_of_lt (units_lt h')
  · have : r = s := by omega
    subst this; exact Nat.le_refl _

theorem units_inj {m r s : Nat} (h : units m r = units m s) : r = s := by
  rcases Nat.lt_trichotomy r s with h' | h' | h'
  · have := units_lt (m := m) h'; omega
  · exact h'
  · have := units_lt (m := m) h'; omega

/-- From the exponent of `r = t * 2 ^ m + n` on, the numbers are multiples of `2 ^ t`; before, they are small. -/
theorem units_cases (m t r : Nat) : (∃ n, units m r = n * 2 ^ t) ∨ (0 < t ∧ units m r < 2 ^ m * 2 ^ t) := by
  have hm := two_pow_pos' m
  have e1 : r = 2 ^ m * (r / 2 ^ m) + r % 2 ^ m := (Nat.div_add_mod r _).symm
  rcases Nat.eq_zero_or_pos t with rfl | ht
  · exact .inl ⟨units m r, by simp⟩
  by_cases h : t < r / 2 ^ m
  · refine .inl ⟨(2 ^ m + r % 2 ^ m) * 2 ^ (r / 2 ^ m - 1 - t), ?_⟩
    unfold units
    rw [if_neg (by omega), Nat.mul_assoc, ← Nat.pow_add, show r / 2 ^ m - 1 - t + t = r / 2 ^ m - 1 by omega]
  · refine .inr ⟨ht, ?_⟩
    have hr : r < t * 2 ^ m + 2 ^ m := by
      have := Nat.mod_lt r hm
      have : 2 ^ m * (r / 2 ^ m) ≤ 2 ^ m * t := Nat.mul_le_mul_left _ (by omega)
      rw [Nat.mul_comm t]; omega
    have := units_lt (m := m) hr
    rwa [units_add m t (2 ^ m) (by rw [Nat.pow_succ]; omega) (.inr (Nat.le_refl _))] at this

/-- Halves go to the even integer. -/
theorem nearest_even (p q : Nat) (hq : 0 < q) (h : 2 * p = 2 * (q * nearest p q) + q ∨ 2 * (q * nearest p q) = 2 * p + q) :
    nearest p q % 2 = 0 := by
  have e := Nat.div_add_mod p q
  have l := Nat.mod_lt p hq
  unfold nearest at h ⊢
  split <;> rename_i hc
  · rw [if_pos hc] at h; omega
  · rw [if_neg hc, Nat.mul_add] at h; omega

theorem nearest_scale (p q c : Nat) (hc : 0 < c) : nearest (p * c) (q * c) = nearest p q := by
  unfold nearest
  rw [Nat.mul_mod_mul_right, Nat.mul_div_mul_right _ _ hc]
  have a : 2 * (p % q * c) < q * c ↔ 2 * (p % q) < q := by
    rw [← Nat.mul_assoc]; exact Nat.mul_lt_mul_right hc
  have b : 2 * (p % q * c) = q * c ↔ 2 * (p % q) = q := by
    rw [← Nat.mul_assoc]; exact Nat.mul_left_inj (by omega)
  simp only [a, b]

/-- A power of two with an exponent that may be negative, on either side. -/
theorem shift (k : Int) (i j : Nat) (h : (i : Int) - j = k) : ∃ d, i = k.toNat + d ∧ j = (-k).toNat + d :=
  ⟨min i j, by omega, by omega⟩

theorem shift_le (k : Int) (i j x y : Nat) (h : (i : Int) - j = k) : 2 ^ k.toNat * x ≤ y * 2 ^ (-k).toNat ↔ 2 ^ i * x ≤ y * 2 ^ j := by
  obtain ⟨d, rfl, rfl⟩ := shift k i j h
  rw [Nat.pow_add, Nat.pow_add, Nat.mul_right_comm, ← Nat.mul_assoc y]
  exact (Nat.mul_le_mul_right_iff (two_pow_pos' d)).symm

/-- The exponent that `toFloat` finds is that of `p / q`. -/
theorem exponent (p q : Nat) (hp : 0 < p) (hq : 0 < q) (k0 k : Int) (h0 : k0 = (p.log2 : Int) - q.log2)
    (h : k = if 2 ^ k0.toNat * q ≤ p * 2 ^ (-k0).toNat then k0 else k0 - 1) (i j : Nat) :
    ((i : Int) - j = k → 2 ^ i * q ≤ p * 2 ^ j) ∧ ((i : Int) - j = k + 1 → p * 2 ^ j < 2 ^ i * q) := by
  have p1 := Nat.log2_self_le (n := p) (by omega)
  have p2 := Nat.lt_log2_self (n := p)
  have q1 := Nat.log2_self_le (n := q) (by omega)
  have q2 := Nat.lt_log2_self (n := q)
  by_cases hc : 2 ^ k0.toNat * q ≤ p * 2 ^ (-k0).toNat
  · rw [if_pos hc] at h
    subst h
    refine ⟨fun hk => (shift_le k i j q p hk).mp hc, fun hk => ?_⟩
    rw [← Nat.not_le, ← shift_le (k + 1) i j q p hk, shift_le (k + 1) (p.log2 + 1) q.log2 q p (by omega), Nat.not_le]
    calc p * 2 ^ q.log2 < 2 ^ (p.log2 + 1) * 2 ^ q.log2 := Nat.mul_lt_mul_of_pos_right p2 (two_pow_pos' _)
      _ ≤ _ := Nat.mul_le_mul_left _ q1
  · rw [if_neg hc] at h
    subst h
    refine ⟨fun hk => ?_, fun hk => ?_⟩
    · rw [← shift_le (k0 - 1) i j q p hk, shift_le (k0 - 1) p.log2 (q.log2 + 1) q p (by omega)]
      exact Nat.mul_le_mul p1 (Nat.le_of_lt q2)
    · rw [← Nat.not_le, ← shift_le k0 i j q p (by omega)]
      exact hc

/-- What `toFloat` computes: the pattern of the nearest number, were there no bound on the exponent. -/
theorem toFloat_eq (m e p q : Nat) (hm : 1 ≤ m) (he : 2 ≤ e) (hp : 0 < p) (hq : 0 < q) :
    ∃ t, (t = 0 ∨ 2 ^ m * (q * 2 ^ t) ≤ p * unit m e) ∧ p * unit m e < 2 ^ (m + 1) * (q * 2 ^ t) ∧
      toFloat m e p q =
        let r := t * 2 ^ m + nearest (p * unit m e) (q * 2 ^ t)
        if r < (2 ^ e - 1) * 2 ^ m then some r else none := by
  have hb : 1 ≤ 2 ^ (e - 1) - 1 := by
    have : 2 ^ 1 ≤ 2 ^ (e - 1) := Nat.pow_le_pow_right (by omega) (by omega)
    omega
  have hz : (2 : Int) ^ (e - 1) - 1 = (2 ^ (e - 1) - 1 : Nat) := by
    rw [Int.natCast_sub (two_pow_pos' _), Int.natCast_pow]; rfl
  unfold toFloat unit
  rw [if_neg (by omega)]
  simp only
  rw [hz]
  generalize 2 ^ (e - 1) - 1 = bias at hb ⊢
  generalize h0 : (p.log2 : Int) - q.log2 = k0
  generalize hk : (if 2 ^ k0.toNat * q ≤ p * 2 ^ (-k0).toNat then k0 else k0 - 1) = k
  have ex := exponent p q hp hq k0 k h0.symm hk.symm
  generalize hk' : max k (1 - (bias : Int)) = k'
  generalize ht : (k' + bias - 1).toNat = t
  refine ⟨t, ?_, ?_, ?_⟩
  · rcases Nat.eq_zero_or_pos t with h | h
    · exact .inl h
    · right
      have := (ex (m + t) (bias + m - 1)).1 (by omega)
      rwa [Nat.pow_add, Nat.mul_assoc, Nat.mul_comm _ q] at this
  · obtain ⟨i, hi⟩ : ∃ i : Nat, (i : Int) - (bias + m - 1 + (-(k + 1)).toNat : Nat) = k + 1 :=
      ⟨(k + 1 + (bias + m - 1 + (-(k + 1)).toNat : Nat)).toNat, by omega⟩
    have h1 := (ex i (bias + m - 1 + (-(k + 1)).toNat)).2 hi
    have h2 : 2 ^ i ≤ 2 ^ (m + 1 + t + (-(k + 1)).toNat) := Nat.pow_le_pow_right (by omega) (by omega)
    have h3 := Nat.lt_of_lt_of_le h1 (Nat.mul_le_mul_right q h2)
    generalize (-(k + 1)).toNat = d at h3
    rw [Nat.pow_add, Nat.pow_add 2 (m + 1 + t) d, ← Nat.mul_assoc, Nat.mul_right_comm (2 ^ (m + 1 + t))] at h3
    have h4 := Nat.lt_of_mul_lt_mul_right h3
    rwa [Nat.pow_add, Nat.mul_assoc, Nat.mul_comm _ q] at h4
  · obtain ⟨d, h1, h2⟩ := shift (k' - m) t (bias + m - 1) (by omega)
    rw [h1, h2, Nat.pow_add, Nat.pow_add, ← Nat.mul_assoc, ← Nat.mul_assoc, nearest_scale _ _ _ (two_pow_pos' d)]

theorem toFloat_nearest (m e p q : Nat) (hm : 1 ≤ m) (he : 2 ≤ e) (hq : 0 < q) :
    ∃ r, toFloat m e p q = (if r < (2 ^ e - 1) * 2 ^ m then some r else none) ∧ ∀ r', r' ≠ r →
      distance m e p q r < distance m e p q r' ∨ (distance m e p q r = distance m e p q r' ∧ r % 2 = 0) := by
  rcases Nat.eq_zero_or_pos p with rfl | hp
  · refine ⟨0, ?_, fun r' hr => .inl ?_⟩
    · have h1 : 2 ^ 2 ≤ 2 ^ e := Nat.pow_le_pow_right (by omega) he
      have h2 : 0 < (2 ^ e - 1) * 2 ^ m := Nat.mul_pos (by omega) (two_pow_pos' m)
      rw [if_pos h2]; simp [toFloat]
    · have h0 : units m 0 = 0 := by simp [units]
      have := units_lt (m := m) (show 0 < r' by omega)
      have := Nat.mul_pos hq (show 0 < units m r' by omega)
      unfold distance
      rw [h0]
      omega
  obtain ⟨t, h1, h2, h3⟩ := toFloat_eq m e p q hm he hp hq
  have hQ : 0 < q * 2 ^ t := Nat.mul_pos hq (two_pow_pos' t)
  have ns := nearest_spec (p * unit m e) (q * 2 ^ t) hQ
  have ne := nearest_even (p * unit m e) (q * 2 ^ t) hQ
  refine ⟨_, h3, ?_⟩
  generalize hn : nearest (p * unit m e) (q * 2 ^ t) = n at ns ne
  have hle : n ≤ 2 ^ (m + 1) := by
    apply Nat.le_of_not_lt
    intro h
    have : q * 2 ^ t * (2 ^ (m + 1) + 1) ≤ q * 2 ^ t * n := Nat.mul_le_mul_left _ h
    rw [Nat.mul_add, Nat.mul_comm _ (2 ^ (m + 1))] at this
    omega
  have hge : t = 0 ∨ 2 ^ m ≤ n := by
    rcases h1 with h1 | h1
    · exact .inl h1
    · right
      apply Nat.le_of_not_lt
      intro h
      have : q * 2 ^ t * (n + 1) ≤ q * 2 ^ t * 2 ^ m := Nat.mul_le_mul_left _ h
      rw [Nat.mul_add, Nat.mul_comm _ (2 ^ m)] at this
      omega
  have hu := units_add m t n hle hge
  have even : n % 2 = 0 → (t * 2 ^ m + n) % 2 = 0 := by
    obtain ⟨m', rfl⟩ : ∃ m', m = m' + 1 := ⟨m - 1, by omega⟩
    intro h
    rw [Nat.pow_succ, ← Nat.mul_assoc]; omega
  intro r' hr
  have hne : units m r' ≠ n * 2 ^ t := fun h => hr (units_inj (h.trans hu.symm))
  have en : q * (n * 2 ^ t) = q * 2 ^ t * n := by rw [Nat.mul_assoc, Nat.mul_comm n]
  unfold distance
  rw [hu, en]
  rcases units_cases m t r' with ⟨n', h'⟩ | ⟨ht, h'⟩
  · rw [h'] at hne ⊢
    have hnn : n' ≠ n := fun h => hne (by rw [h])
    rw [show q * (n' * 2 ^ t) = q * 2 ^ t * n' by rw [Nat.mul_assoc, Nat.mul_comm n']]
    rcases Nat.lt_or_ge n' n with h | h
    · have := Nat.mul_le_mul_left (q * 2 ^ t) (show n' + 1 ≤ n from h)
      rw [Nat.mul_add] at this
      generalize q * 2 ^ t * n = A at *
      generalize q * 2 ^ t * n' = A' at *
      by_cases hx : 2 * A = 2 * (p * unit m e) + q * 2 ^ t
      · have := even (ne (.inr hx)); omega
      · omega
    · have := Nat.mul_le_mul_left (q * 2 ^ t) (show n + 1 ≤ n' by omega)
      rw [Nat.mul_add] at this
      generalize q * 2 ^ t * n = A at *
      generalize q * 2 ^ t * n' = A' at *
      by_cases hx : 2 * (p * unit m e) = 2 * A + q * 2 ^ t
      · have := even (ne (.inl hx)); omega
      · omega
  · left
    have h1 : 2 ^ m * (q * 2 ^ t) ≤ p * unit m e := by rcases h1 with h | h <;> omega
    have h4 : q * units m r' < q * (2 ^ m * 2 ^ t) := Nat.mul_lt_mul_of_pos_left h' hq
    have e4 : q * (2 ^ m * 2 ^ t) = q * 2 ^ t * 2 ^ m := by rw [Nat.mul_assoc, Nat.mul_comm (2 ^ m)]
    have hge : 2 ^ m ≤ n := by omega
    have h5 := Nat.mul_le_mul_left (q * 2 ^ t) hge
    rw [Nat.mul_comm (2 ^ m)] at h1
    rw [e4] at h4
    rcases Nat.lt_or_ge (2 ^ m) n with h | h
    · have := Nat.mul_le_mul_left (q * 2 ^ t) (show 2 ^ m + 1 ≤ n from h)
      rw [Nat.mul_add] at this
      omega
    · have : n = 2 ^ m := by omega
      subst this
      omega

/-- C138: the pattern that a constant `p / q` gets is that of the nearest floating-point number with `m` bits of fraction and `e` bits of
exponent, and of two nearest ones the even one; a constant gets none exactly if it is at least half way from the largest finite number to
the next power of two. -/
theorem C138_nearest (m e p q : Nat) (hm : 1 ≤ m) (he : 2 ≤ e) (hq : 0 < q) :
    (∀ r, toFloat m e p q = some r → r < (2 ^ e - 1) * 2 ^ m ∧ ∀ r', r' < (2 ^ e - 1) * 2 ^ m → r' ≠ r →
      distance m e p q r < distance m e p q r' ∨ (distance m e p q r = distance m e p q r' ∧ r % 2 = 0)) ∧
    (toFloat m e p q = none ↔
      q * (units m ((2 ^ e - 1) * 2 ^ m - 1) + units m ((2 ^ e - 1) * 2 ^ m)) ≤ 2 * (p * unit m e)) := by
  obtain ⟨r0, h, hr⟩ := toFloat_nearest m e p q hm he hq
  have hI : 1 ≤ (2 ^ e - 1) * 2 ^ m ∧ (2 ^ e - 1) * 2 ^ m % 2 = 0 := by
    have h1 : 2 ^ 2 ≤ 2 ^ e := Nat.pow_le_pow_right (by omega) he
    refine ⟨Nat.mul_pos (by omega) (two_pow_pos' m), ?_⟩
    obtain ⟨m', rfl⟩ : ∃ m', m = m' + 1 := ⟨m - 1, by omega⟩
    rw [Nat.pow_succ, ← Nat.mul_assoc]; omega
  generalize (2 ^ e - 1) * 2 ^ m = I at h hI ⊢
  rw [h]
  have hs := units_succ m (I - 1)
  rw [show I - 1 + 1 = I by omega] at hs
  have hs' := Nat.mul_lt_mul_of_pos_left hs hq
  refine ⟨fun r e => ?_, ?_⟩
  · split at e
    · cases e
      exact ⟨by assumption, fun r' _ => hr r'⟩
    · cases e
  · rw [Nat.mul_add]
    split
    · next hlt =>
      simp only [reduceCtorEq, false_iff, Nat.not_le]
      have h1 := Nat.mul_le_mul_left q (units_le (m := m) (show r0 ≤ I - 1 by omega))
      have h2 := hr I (by omega)
      unfold distance at h2
      rcases h2 with h2 | ⟨h2, h3⟩
      · omega
      · rcases Nat.lt_or_ge r0 (I - 1) with h4 | h4
        · have := Nat.mul_lt_mul_of_pos_left (units_lt (m := m) h4) hq
          omega
        · omega
    · next hge =>
      simp only [true_iff]
      have h1 := Nat.mul_le_mul_left q (units_le (m := m) (show I ≤ r0 by omega))
      have h2 := hr (I - 1) (by omega)
      unfold distance at h2
      omega

/-- 42.42 is not a `float64`; this is the nearest one. -/
example : toFloat 52 11 4242 100 = some 0x404535C28F5C28F6 := by decide +kernel
example : distance 52 11 4242 100 0x404535C28F5C28F6 < distance 52 11 4242 100 0x404535C28F5C28F5 := by decide +kernel
/-- 2 ^ 53 + 3 is half way between two `float64`s, and the even one is taken. -/
example : toFloat 52 11 (2 ^ 53 + 3) 1 = some 0x4340000000000002 ∧
    distance 52 11 (2 ^ 53 + 3) 1 0x4340000000000002 = distance 52 11 (2 ^ 53 + 3) 1 0x4340000000000001 := by decide +kernel
/-- The largest finite `float32`, and the first number that is too large. -/
example : toFloat 23 8 ((2 ^ 24 - 1) * 2 ^ 104) 1 = some 0x7F7FFFFF ∧ toFloat 23 8 ((2 ^ 25 - 1) * 2 ^ 103 - 1) 1 = some 0x7F7FFFFF ∧
    toFloat 23 8 ((2 ^ 25 - 1) * 2 ^ 103) 1 = none := by decide +kernel
/-- Subnormal numbers: half of the smallest one is rounded to zero, a little more is not. -/
example : toFloat 52 11 1 (2 ^ 1075) = some 0 ∧ toFloat 52 11 (2 ^ 60 + 1) (2 ^ 1135) = some 1 := by decide +kernel

/-- The number a constant stands for, times `10 ^ scale`. -/
def Const.signed (c : Const) : Int := if c.neg then -(c.num : Int) else c.num

theorem Const.int_iff (c : Const) (lo hi n : Int) : c.int lo hi = some n ↔ lo ≤ n ∧ n ≤ hi ∧ n * (10 ^ c.scale : Nat) = c.signed := by
  have h10 : 0 < 10 ^ c.scale := Nat.pow_pos (by decide)
  have e := Nat.div_add_mod c.num (10 ^ c.scale)
  unfold Const.int Const.signed
  generalize 10 ^ c.scale = s at *
  rw [Nat.mul_comm] at e
  have key : ∀ n : Int, c.num % s = 0 → (n * s = (if c.neg then -(c.num : Int) else c.num) ↔
      n = if c.neg then -((c.num / s : Nat) : Int) else (c.num / s : Nat)) := by
    intro n h0
    have hs : (s : Int) ≠ 0 := by omega
    have e' : ((c.num / s : Nat) : Int) * s = c.num := by rw [← Int.natCast_mul]; omega
    split
    · rw [← e', ← Int.neg_mul]; exact Int.mul_eq_mul_right_iff hs
    · rw [← e']; exact Int.mul_eq_mul_right_iff hs
  by_cases h0 : c.num % s = 0
  · rw [if_pos h0, key n h0]
    simp only
    generalize (if c.neg = true then -((c.num / s : Nat) : Int) else (c.num / s : Nat)) = v
    split
    · simp only [Option.some.injEq]; constructor
      · rintro rfl; exact ⟨by omega, by omega, rfl⟩
      · rintro ⟨-, -, rfl⟩; rfl
    · simp only [reduceCtorEq, false_iff]
      rintro ⟨h1, h2, rfl⟩; omega
  · rw [if_neg h0]
    simp only [reduceCtorEq, false_iff]
    rintro ⟨-, -, h⟩
    apply h0
    have : (s : Int) ∣ c.num := by
      split at h
      · exact ⟨-n, by rw [Int.mul_neg, Int.mul_comm]; omega⟩
      · exact ⟨n, by rw [Int.mul_comm]; omega⟩
    exact Nat.mod_eq_zero_of_dvd (Int.natCast_dvd_natCast.mp this)

/-- C138: an integer constant has exactly its value, and no value if the type does not hold it. -/
theorem C138_integers (c : Const) :
    (∀ x, c.i16 = some x ↔ x.toInt * (10 ^ c.scale : Nat) = c.signed) ∧ (∀ x, c.i32 = some x ↔ x.toInt * (10 ^ c.scale : Nat) = c.signed) ∧
    (∀ x, c.i64 = some x ↔ x.toInt * (10 ^ c.scale : Nat) = c.signed) ∧ (∀ x, c.u8 = some x ↔ x.toNat * (10 ^ c.scale : Nat) = c.signed) ∧
    (∀ x, c.u16 = some x ↔ x.toNat * (10 ^ c.scale : Nat) = c.signed) ∧ (∀ x, c.u32 = some x ↔ x.toNat * (10 ^ c.scale : Nat) = c.signed) ∧
    (∀ x, c.u64 = some x ↔ x.toNat * (10 ^ c.scale : Nat) = c.signed) := by
  unfold Const.i16 Const.i32 Const.i64 Const.u8 Const.u16 Const.u32 Const.u64
  simp only [Option.map_eq_some_iff, Const.int_iff]
  refine ⟨fun x => ?_, fun x => ?_, fun x => ?_, fun x => ?_, fun x => ?_, fun x => ?_, fun x => ?_⟩ <;> constructor
  · rintro ⟨n, ⟨h1, h2, h3⟩, rfl⟩; rwa [Int16.toInt_ofInt_of_le (by omega) (by omega)]
  · exact fun h => ⟨x.toInt, ⟨x.le_toInt, by have := x.toInt_lt; omega, h⟩, Int16.ofInt_toInt x⟩
  · rintro ⟨n, ⟨h1, h2, h3⟩, rfl⟩; rwa [Int32.toInt_ofInt_of_le (by omega) (by omega)]
  · exact fun h => ⟨x.toInt, ⟨x.le_toInt, by have := x.toInt_lt; omega, h⟩, Int32.ofInt_toInt x⟩
  · rintro ⟨n, ⟨h1, h2, h3⟩, rfl⟩; rwa [Int64.toInt_ofInt_of_le (by omega) (by omega)]
  · exact fun h => ⟨x.toInt, ⟨x.le_toInt, by have := x.toInt_lt; omega, h⟩, Int64.ofInt_toInt x⟩
  · rintro ⟨n, ⟨h1, h2, h3⟩, rfl⟩
    rwa [UInt8.toNat_ofNat_of_lt' (show n.toNat < 2 ^ 8 by omega), Int.toNat_of_nonneg h1]
  · exact fun h => ⟨x.toNat, ⟨by omega, by have := x.toNat_lt; omega, h⟩, by simp⟩
  · rintro ⟨n, ⟨h1, h2, h3⟩, rfl⟩
    rwa [UInt16.toNat_ofNat_of_lt' (show n.toNat < 2 ^ 16 by omega), Int.toNat_of_nonneg h1]
  · exact fun h => ⟨x.toNat, ⟨by omega, by have := x.toNat_lt; omega, h⟩, by simp⟩
  · rintro ⟨n, ⟨h1, h2, h3⟩, rfl⟩
    rwa [UInt32.toNat_ofNat_of_lt' (show n.toNat < 2 ^ 32 by omega), Int.toNat_of_nonneg h1]
  · exact fun h => ⟨x.toNat, ⟨by omega, by have := x.toNat_lt; omega, h⟩, by simp⟩
  · rintro ⟨n, ⟨h1, h2, h3⟩, rfl⟩
    rwa [UInt64.toNat_ofNat_of_lt' (show n.toNat < 2 ^ 64 by omega), Int.toNat_of_nonneg h1]
  · exact fun h => ⟨x.toNat, ⟨by omega, by have := x.toNat_lt; omega, h⟩, by simp⟩

/-- -42.0 as an `int32`; 42.5 is no integer, and 300 no `uint8`. -/
example : (⟨true, 420, 1⟩ : Const).i32 = some (-42) ∧ (⟨false, 425, 1⟩ : Const).i32 = none ∧ (⟨false, 300, 0⟩ : Const).u8 = none := by
  decide +kernel

/-- What is a number with a sign bit in front. -/
theorem Const.float_some (c : Const) (m e r : Nat) (hm : 1 ≤ m) (he : 2 ≤ e) (h : c.float m e = some r) :
    ∃ a, toFloat m e c.num (10 ^ c.scale) = some a ∧ a < 2 ^ (m + e) ∧ r = (if c.signed < 0 then 2 ^ (m + e) else 0) + a := by
  unfold Const.float at h
  obtain ⟨a, h1, h2⟩ := Option.map_eq_some_iff.mp h
  have hf := ((C138_nearest m e c.num (10 ^ c.scale) hm he (Nat.pow_pos (by decide))).1 a h1).1
  refine ⟨a, h1, ?_, ?_⟩
  · rw [Nat.add_comm, Nat.pow_add]
    exact Nat.lt_of_lt_of_le hf (Nat.mul_le_mul_right _ (Nat.sub_le _ _))
  · subst h2
    have : c.signed < 0 ↔ c.neg = true ∧ c.num ≠ 0 := by
      unfold Const.signed; split <;> simp_all <;> omega
    simp only [this]
    split <;> omega

theorem scale_le (q B n U : Nat) (h : 0 < U) : q * (B * (2 * U)) ≤ 2 * (n * U) ↔ B * q ≤ n := by
  rw [show q * (B * (2 * U)) = B * q * (2 * U) by ac_rfl, show 2 * (n * U) = n * (2 * U) by ac_rfl]
  exact Nat.mul_le_mul_right_iff (by omega)

/-- C138: a `float64` constant has the sign of its value; the rest of the pattern is that of the nearest finite number (of two, the even one).  A
constant that has no `float64` is at least half way from the largest finite number to 2 ^ 1024. -/
theorem C138_float64 (c : Const) :
    (∀ x, c.f64 = some x → ∃ a, x.bits.toNat = (if c.signed < 0 then 2 ^ 63 else 0) + a ∧ a < (2 ^ 11 - 1) * 2 ^ 52 ∧
      ∀ a', a' < (2 ^ 11 - 1) * 2 ^ 52 → a' ≠ a → distance 52 11 c.num (10 ^ c.scale) a < distance 52 11 c.num (10 ^ c.scale) a' ∨
        (distance 52 11 c.num (10 ^ c.scale) a = distance 52 11 c.num (10 ^ c.scale) a' ∧ a % 2 = 0)) ∧
    (c.f64 = none ↔ (2 ^ 54 - 1) * 2 ^ 970 * 10 ^ c.scale ≤ c.num) := by
  have hq : 0 < 10 ^ c.scale := Nat.pow_pos (by decide)
  have hN := C138_nearest 52 11 c.num (10 ^ c.scale) (by decide) (by decide) hq
  constructor
  · intro x hx
    unfold Const.f64 at hx
    obtain ⟨r, h1, rfl⟩ := Option.map_eq_some_iff.mp hx
    obtain ⟨a, h2, h3, h4⟩ := c.float_some 52 11 r (by decide) (by decide) h1
    obtain ⟨h5, h6⟩ := hN.1 a h2
    refine ⟨a, ?_, h5, h6⟩
    simp only
    rw [UInt64.toNat_ofNat_of_lt' (show r < 2 ^ 64 by subst h4; split <;> omega), h4]
  · unfold Const.f64 Const.float
    rw [Option.map_eq_none_iff, Option.map_eq_none_iff, hN.2,
      show units 52 ((2 ^ 11 - 1) * 2 ^ 52 - 1) + units 52 ((2 ^ 11 - 1) * 2 ^ 52) = (2 ^ 54 - 1) * 2 ^ 970 * (2 * unit 52 11) by decide +kernel]
    exact scale_le _ _ _ _ (two_pow_pos' _)

/-- C138: the same for `float32`. -/
theorem C138_float32 (c : Const) :
    (∀ x, c.f32 = some x → ∃ a, x.bits.toNat = (if c.signed < 0 then 2 ^ 31 else 0) + a ∧ a < (2 ^ 8 - 1) * 2 ^ 23 ∧
      ∀ a', a' < (2 ^ 8 - 1) * 2 ^ 23 → a' ≠ a → distance 23 8 c.num (10 ^ c.scale) a < distance 23 8 c.num (10 ^ c.scale) a' ∨
        (distance 23 8 c.num (10 ^ c.scale) a = distance 23 8 c.num (10 ^ c.scale) a' ∧ a % 2 = 0)) ∧
    (c.f32 = none ↔ (2 ^ 25 - 1) * 2 ^ 103 * 10 ^ c.scale ≤ c.num) := by
  have hq : 0 < 10 ^ c.scale := Nat.pow_pos (by decide)
  have hN := C138_nearest 23 8 c.num (10 ^ c.scale) (by decide) (by decide) hq
  constructor
  · intro x hx
    unfold Const.f32 at hx
    obtain ⟨r, h1, rfl⟩ := Option.map_eq_some_iff.mp hx
    obtain ⟨a, h2, h3, h4⟩ := c.float_some 23 8 r (by decide) (by decide) h1
    obtain ⟨h5, h6⟩ := hN.1 a h2
    refine ⟨a, ?_, h5, h6⟩
    simp only
    rw [UInt32.toNat_ofNat_of_lt' (show r < 2 ^ 32 by subst h4; split <;> omega), h4]
  · unfold Const.f32 Const.float
    rw [Option.map_eq_none_iff, Option.map_eq_none_iff, hN.2,
      show units 23 ((2 ^ 8 - 1) * 2 ^ 23 - 1) + units 23 ((2 ^ 8 - 1) * 2 ^ 23) = (2 ^ 25 - 1) * 2 ^ 103 * (2 * unit 23 8) by decide +kernel]
    exact scale_le _ _ _ _ (two_pow_pos' _)

/-- -42.42, and 1 as a `float32`. -/
example : (⟨true, 4242, 2⟩ : Const).f64 = some ⟨0xC04535C28F5C28F6⟩ ∧ (⟨false, 10, 1⟩ : Const).f32 = some ⟨0x3F800000⟩ := by decide +kernel

end Crunch.Src.Program
