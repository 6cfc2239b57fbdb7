import Verif.Lemmas.Bits

/-! The bit loops: `ReadBits`, `SetBits`, and the whole-buffer operations. -/

namespace Crunch.V3
open Spec

/-! ## binary numbers -/

theorem binary_congr {f g : Nat → Bool} {n : Nat} (h : ∀ i, i < n → f i = g i) : binary f n = binary g n := by
  induction n with
  | zero => rfl
  | succ n ih =>
    simp only [binary]
    rw [ih (fun i hi => h i (by omega)), h n (by omega)]

theorem binary_succ_left (f : Nat → Bool) (n : Nat) :
    binary f (n + 1) = (f 0).toNat * 2 ^ n + binary (fun i => f (i + 1)) n := by
  induction n with
  | zero => simp [binary]
  | succ n ih =>
    rw [binary, ih, binary, Nat.pow_succ]
    simp only [Nat.mul_add, Nat.mul_comm, Nat.mul_left_comm]
    omega

theorem binary_lt (f : Nat → Bool) (n : Nat) : binary f n < 2 ^ n := by
  induction n with
  | zero => simp [binary]
  | succ n ih =>
    rw [binary, Nat.pow_succ]
    have : (f n).toNat ≤ 1 := by cases f n <;> simp
    omega

theorem testBit_binary (f : Nat → Bool) (n i : Nat) (h : i < n) : (binary f n).testBit (n - 1 - i) = f i := by
  induction n with
  | zero => omega
  | succ n ih =>
    rw [binary]
    by_cases hi : i = n
    · subst hi
      rw [show i + 1 - 1 - i = 0 by omega, Nat.testBit_zero]
      cases f i <;> simp <;> omega
    · rw [show n + 1 - 1 - i = (n - 1 - i) + 1 by omega, Nat.testBit_succ,
        show (2 * binary f n + (f n).toNat) / 2 = binary f n by cases f n <;> simp <;> omega]
      exact ih (by omega)

theorem binary_testBit (v n : Nat) : binary (fun i => v.testBit (n - 1 - i)) n = v % 2 ^ n := by
  apply Nat.eq_of_testBit_eq
  intro j
  rw [Nat.testBit_mod_two_pow]
  by_cases h : j < n
  · have := testBit_binary (fun i => v.testBit (n - 1 - i)) n (n - 1 - j) (by omega)
    rw [show n - 1 - (n - 1 - j) = j by omega] at this
    rw [this, decide_eq_true h]; simp
  · rw [decide_eq_false h, Bool.false_and]
    apply Nat.testBit_lt_two_pow
    exact Nat.lt_of_lt_of_le (binary_lt _ n) (Nat.pow_le_pow_right (by decide) (by omega))

theorem acc_step (out : UInt64) (b : Bool) :
    ((out <<< 1) ||| (bitByte b).toUInt64).toNat = (2 * out.toNat + b.toNat) % 2 ^ 64 := by
  rw [UInt64.toNat_or, UInt64.toNat_shiftLeft]
  apply Nat.eq_of_testBit_eq
  intro j
  rw [Nat.testBit_or]
  simp only [Nat.testBit_mod_two_pow, Nat.testBit_shiftLeft]
  cases j with
  | zero =>
    cases b <;> simp [bitByte, Nat.testBit_zero, Nat.add_mod]
  | succ j =>
    rw [Nat.testBit_succ (2 * out.toNat + b.toNat), show (2 * out.toNat + b.toNat) / 2 = out.toNat by cases b <;> simp; omega]
    have : ((bitByte b).toUInt64.toNat).testBit (j + 1) = false := by
      cases b <;> simp [bitByte, Nat.testBit_succ]
    rw [this]
    simp

theorem acc_pow (A b X c : Nat) :
    ((2 * A + b) % 2 ^ 64 * 2 ^ c + X) % 2 ^ 64 = (A * 2 ^ (c + 1) + (b * 2 ^ c + X)) % 2 ^ 64 := by
  rw [Nat.add_mod, Nat.mod_mul_mod, ← Nat.add_mod, Nat.add_mul, Nat.pow_succ 2 c, Nat.add_assoc,
    Nat.mul_comm 2 A, Nat.mul_assoc, Nat.mul_comm 2 (2 ^ c)]

theorem off_add {off : Int64} {k : Nat} (h1 : off.toInt + k < 2 ^ 63) (hk : k < 2 ^ 63) :
    (off + Int64.ofNat k).toInt = off.toInt + k := by
  have := le_toInt' off; have := toInt_lt' off
  rw [toInt_add, toInt_ofNat (by omega)]; omega

/-! ## ReadBits -/

/-- A loop of single-bit reads accumulating into `out`. -/
theorem readBits_iter {s : St} (op : Int64 → GoM St UInt8) (err : Int → Panic) (lo : Int) (L : Nat) (hL : L < 2 ^ 50)
    (hop : ∀ off : Int64, lo ≤ off.toInt → op off s =
      if 0 ≤ off.toInt ∧ off.toInt < 8 * L then (.ok (bitByte (bit s.bytes off.toInt.toNat)), s)
      else (.panic (err off.toInt), s))
    (off : Int64) (hlo : lo ≤ off.toInt) (herr : ∀ o : Int, 0 ≤ off.toInt → 8 * L ≤ o → err o = err (max off.toInt (8 * L))) :
    ∀ (c k : Nat) (acc : UInt64), 0 < c → off.toInt + k < 2 ^ 63 → (0 < k → 0 ≤ off.toInt) →
      iter (fun i (out : UInt64) => op (off + Int64.ofNat i) >>= fun x => pure ((out <<< 1) ||| x.toUInt64)) c k acc s =
        if 0 ≤ off.toInt + k ∧ off.toInt + k + c ≤ 8 * L then
          (.ok (UInt64.ofNat (acc.toNat * 2 ^ c + binary (fun i => bit s.bytes (off.toInt.toNat + k + i)) c)), s)
        else (.panic (err (if off.toInt + k < 0 then off.toInt + k else max off.toInt (8 * L))), s) := by
  intro c
  induction c with
  | zero => intros; omega
  | succ c ih =>
    intro k acc _ h1 h2
    have hk := off_add h1 (by omega)
    simp only [iter, bind_run, hop _ (show lo ≤ (off + Int64.ofNat k).toInt by omega), hk]
    by_cases h3 : 0 ≤ off.toInt + k ∧ off.toInt + k < 8 * L
    · rw [if_pos h3]
      simp only [pure_run]
      have hb := acc_step acc (bit s.bytes (off.toInt + k).toNat)
      by_cases hc : c = 0
      · subst hc
        rw [if_pos (by omega)]
        simp only [iter, pure_run, binary, Nat.pow_one, Nat.mul_zero, Nat.zero_add]
        congr 2
        apply UInt64.toNat_inj.mp
        rw [hb]
        rw [UInt64.toNat_ofNat']
        by_cases hk0 : k = 0
        · subst hk0; simp [Nat.mul_comm]
        · have := h2 (by omega)
          rw [show (off.toInt + k).toNat = off.toInt.toNat + k + 0 by omega, Nat.mul_comm]
      · rw [ih (k + 1) _ (by omega) (by omega) (by omega)]
        by_cases h4 : off.toInt + k + ((c + 1 : Nat) : Int) ≤ 8 * L
        · rw [if_pos (by omega), if_pos (by omega)]
          congr 2
          have h00 : 0 ≤ off.toInt := by
            by_cases hk0 : k = 0
            · subst hk0; omega
            · exact h2 (by omega)
          rw [binary_succ_left, hb]
          apply UInt64.toNat_inj.mp
          rw [UInt64.toNat_ofNat', UInt64.toNat_ofNat', show (off.toInt + k).toNat = off.toInt.toNat + k by omega]
          have e : (fun i => bit s.bytes (off.toInt.toNat + (k + 1) + i)) =
              (fun i => bit s.bytes (off.toInt.toNat + k + (i + 1))) := by
            funext i; congr 1; omega
          rw [e, acc_pow]; rfl
        · rw [if_neg (by omega), if_neg (by omega), if_neg (by omega), if_neg (by omega)]
    · rw [if_neg h3, if_neg (by omega)]
      by_cases h5 : off.toInt + k < 0
      · rw [if_pos h5]
      · rw [if_neg h5]
        simp only []
        have h00 : 0 ≤ off.toInt := by
          by_cases hk0 : k = 0
          · subst hk0; omega
          · exact h2 (by omega)
        rw [herr _ h00 (by omega)]

/-- The number of iterations of a `do … while (i < n)` loop from 0. -/
def loops (n : Int64) : Nat := max 1 n.toInt.toNat

theorem doLoop_loops (body : Int64 → α → GoM σ α) (n : Int64) (a : α) :
    doLoop body n 0 a = iter (fun k => body (Int64.ofNat k)) (loops n) 0 a := by
  have := toInt_lt' n
  by_cases h : n.toInt ≤ 1
  · rw [doLoop_le_one _ _ h, show loops n = 0 + 1 by unfold loops; omega]
    simp only [iter, bind_pure']
    rfl
  · have e : n = Int64.ofNat n.toInt.toNat := by
      apply Int64.toInt_inj.mp; rw [toInt_ofNat (by omega)]; omega
    rw [show loops n = n.toInt.toNat by unfold loops; omega]
    conv => lhs; rw [e]
    exact doLoop_pos _ _ (by omega) (by omega) _

theorem buffer_readBits_run {s : St} (h : WF s) (off n : Int64) :
    Buffer.ReadBits off n s =
      if 0 ≤ off.toInt ∧ off.toInt + loops n ≤ 8 * s.b.buf.len then
        (.ok (UInt64.ofNat (binary (fun i => bit s.bytes (off.toInt.toNat + i)) (loops n))), s)
      else (.panic (bitPanic BufferOverreadError BufferUnderreadError off.toInt), s) := by
  have := toInt_lt' off
  unfold Buffer.ReadBits
  rw [doLoop_loops]
  have := readBits_iter (s := s) Buffer.ReadBit (bitPanic BufferOverreadError BufferUnderreadError) (-2 ^ 63)
    s.b.buf.len h.len_lt (fun off _ => buffer_readBit_run h off) off (le_toInt' off)
    (by intro o h1 h2; unfold bitPanic; rw [if_neg (by omega), if_neg (by omega)])
    (loops n) 0 0 (by unfold loops; omega) (by omega) (by omega)
  simp only [Int.natCast_zero, Int.add_zero, Nat.add_zero] at this
  refine Eq.trans this ?_
  by_cases h1 : 0 ≤ off.toInt ∧ off.toInt + loops n ≤ 8 * s.b.buf.len
  · rw [if_pos h1, if_pos h1]; simp
  · rw [if_neg h1, if_neg h1]
    congr 2
    unfold bitPanic
    by_cases h2 : off.toInt < 0
    · rw [if_pos h2, if_pos h2]
    · rw [if_neg h2, if_neg h2, if_neg (by omega)]

/-! ## SetBits -/

/-- Store the `n` bits `f 0, f 1, …` from bit `off` on. -/
def putBits (l : List UInt8) (off : Nat) (f : Nat → Bool) : Nat → List UInt8
  | 0 => l
  | n + 1 => putBit (putBits l off f n) (off + n) (f n)

theorem length_putBits {l : List UInt8} {off : Nat} (f : Nat → Bool) (n : Nat) (h : off + n ≤ 8 * l.length) :
    (putBits l off f n).length = l.length := by
  induction n with
  | zero => rfl
  | succ n ih =>
    rw [putBits, length_putBit (by rw [ih (by omega)]; omega), ih (by omega)]

theorem bit_putBits {l : List UInt8} {off : Nat} (f : Nat → Bool) (n : Nat) (h : off + n ≤ 8 * l.length) (j : Nat) :
    bit (putBits l off f n) j = if off ≤ j ∧ j < off + n then f (j - off) else bit l j := by
  induction n with
  | zero => rw [if_neg (by omega)]; rfl
  | succ n ih =>
    rw [putBits, bit_putBit (by rw [length_putBits _ _ (by omega)]; omega), ih (by omega)]
    by_cases e : j = off + n
    · subst e; rw [if_pos rfl, if_pos (by omega)]; congr 1; omega
    · rw [if_neg e]
      by_cases h2 : off ≤ j ∧ j < off + n
      · rw [if_pos h2, if_pos (by omega)]
      · rw [if_neg h2, if_neg (by omega)]

theorem putBits_congr {l : List UInt8} {off : Nat} {f g : Nat → Bool} {n : Nat} (h : ∀ i, i < n → f i = g i) :
    putBits l off f n = putBits l off g n := by
  induction n with
  | zero => rfl
  | succ n ih => rw [putBits, putBits, ih (fun i hi => h i (by omega)), h n (by omega)]

/-- A loop of single-bit stores. -/
theorem setBits_iter (P : St → Prop) (hP : ∀ s, P s → s.OK) (hput : ∀ s l, P s → P (s.put l))
    (op : Bool → Int64 → GoM St Unit) (err : Int → Panic) (lo : Int) (L : Nat) (hL : L < 2 ^ 50)
    (hop : ∀ (s : St) (b : Bool) (off : Int64), P s → s.b.buf.len = L → lo ≤ off.toInt → op b off s =
      if 0 ≤ off.toInt ∧ off.toInt < 8 * L then (.ok (), s.put (putBit s.bytes off.toInt.toNat b))
      else (.panic (err off.toInt), s))
    (off : Int64) (hlo : lo ≤ off.toInt) (h0 : 0 ≤ off.toInt) (f : Nat → Bool)
    (s : St) (hs : P s) (hl : s.b.buf.len = L) :
    ∀ (c k : Nat), 0 < c → off.toInt + k ≤ 8 * L → 
      iter (fun i _ => op (f i) (off + Int64.ofNat i)) c k () (s.put (putBits s.bytes off.toInt.toNat f k)) =
        if off.toInt + k + c ≤ 8 * L then
          (.ok (), s.put (putBits s.bytes off.toInt.toNat f (k + c)))
        else (.panic (err (8 * L)), s.put (putBits s.bytes off.toInt.toNat f (8 * L - off.toInt.toNat))) := by
  have hb : s.bytes.length = L := by rw [length_bytes (hP _ hs), hl]
  intro c
  induction c with
  | zero => intros; omega
  | succ c ih =>
    intro k _ h1
    have hk := off_add (off := off) (k := k) (by omega) (by omega)
    have hlen : (putBits s.bytes off.toInt.toNat f k).length = L := by
      rw [length_putBits _ _ (by omega), hb]
    simp only [iter, bind_run]
    rw [hop _ _ _ (hput _ _ hs) (by simpa using hl) (by omega)]
    simp only [hk]
    by_cases h3 : off.toInt + k < 8 * L
    · rw [if_pos (by omega)]
      simp only []
      rw [bytes_put (hP _ hs) (by omega), show (off.toInt + k).toNat = off.toInt.toNat + k by omega,
        put_put (hP _ hs) (by omega) (by rw [length_putBit (by omega)]; omega)]
      change iter _ c (k + 1) () (s.put (putBits s.bytes off.toInt.toNat f (k + 1))) = _
      by_cases hc : c = 0
      · subst hc
        rw [if_pos (by omega)]
        rfl
      · rw [ih (k + 1) (by omega) (by omega), show k + 1 + c = k + (c + 1) by omega]
        by_cases h4 : off.toInt + k + ((c + 1 : Nat) : Int) ≤ 8 * L
        · rw [if_pos (by omega), if_pos h4]
        · rw [if_neg (by omega), if_neg h4]
    · rw [if_neg (by omega), if_neg (by omega)]
      simp only []
      rw [show k = 8 * L - off.toInt.toNat by omega]
      rw [show off.toInt + ((8 * L - off.toInt.toNat : Nat) : Int) = 8 * L by omega]

/-- The bits `SetBits` stores: the low `n` bits of `data`, most significant first (zero where
`data` has no such bit; and just a zero bit when `n ≤ 0`). -/
def fieldBit (data : UInt64) (n : Int64) (i : Nat) : Bool :=
  decide (1 ≤ n.toInt) && data.toNat.testBit (n.toInt.toNat - 1 - i)

theorem shr64_and_one (data c : UInt64) :
    ((shr64 data c &&& 1).toUInt8 = 0) ↔ data.toNat.testBit c.toNat = false := by
  rw [← UInt8.toNat_inj]
  unfold shr64
  by_cases hc : c < 64
  · have hc' : c.toNat < 64 := by simpa [UInt64.lt_iff_toNat_lt] using hc
    rw [if_pos hc]
    simp only [UInt64.toNat_toUInt8, UInt64.toNat_and, UInt64.toNat_shiftRight, UInt64.reduceToNat, Nat.and_one_is_mod]
    rw [Nat.mod_eq_of_lt hc', Nat.testBit, Nat.one_and_eq_mod_two]
    simp
    omega
  · have hc' : ¬ c.toNat < 64 := by simpa [UInt64.lt_iff_toNat_lt] using hc
    rw [if_neg hc]
    simp
    apply Nat.testBit_lt_two_pow
    exact Nat.lt_of_lt_of_le data.toNat_lt (Nat.pow_le_pow_right (by decide) (by omega))

theorem field_bit (data : UInt64) (n : Int64) (i : Nat) (hi : i < loops n) :
    ((shr64 data (n - Int64.ofNat i - 1).toUInt64 &&& 1).toUInt8 = 0) ↔ fieldBit data n i = false := by
  rw [shr64_and_one]
  have n1 := toInt_lt' n; have n2 := le_toInt' n
  unfold loops at hi
  unfold fieldBit
  have e : (n - Int64.ofNat i - 1).toInt = (n.toInt - i - 1 + 2 ^ 63) % 2 ^ 64 - 2 ^ 63 := by
    rw [toInt_sub, toInt_sub, toInt_ofNat (by omega), toInt_one']; omega
  have e2 : (n - Int64.ofNat i - 1).toUInt64.toNat = ((n.toInt - i - 1) % 2 ^ 64).toNat := by
    have h1 : ((n - Int64.ofNat i - 1).toUInt64.toNat : Int) = (n - Int64.ofNat i - 1).toInt % 2 ^ 64 := by
      rw [← Int64.toInt_toBitVec, BitVec.toInt_eq_toNat_bmod]
      have : (n - Int64.ofNat i - 1).toUInt64.toNat = (n - Int64.ofNat i - 1).toBitVec.toNat := rfl
      rw [this]
      have := (n - Int64.ofNat i - 1).toBitVec.isLt
      simp [Int.bmod]
      split <;> omega
    omega
  by_cases h : 1 ≤ n.toInt
  · have : ((n.toInt - (i : Int) - 1) % 2 ^ 64).toNat = n.toInt.toNat - 1 - i := by omega
    rw [decide_eq_true h, Bool.true_and, e2, this]
  · rw [decide_eq_false h, Bool.false_and]
    simp only [iff_true]
    apply Nat.testBit_lt_two_pow
    exact Nat.lt_of_lt_of_le data.toNat_lt (Nat.pow_le_pow_right (by decide) (by omega))

theorem setBits_fold (setb clr : Int64 → GoM St Unit) (off : Int64) (data : UInt64) (n : Int64) (s : St) :
    doLoop (fun i _ => if (shr64 data (n - i - 1).toUInt64 &&& 1).toUInt8 = 0 then clr (off + i)
      else setb (off + i)) n 0 () s =
    iter (fun i _ => (fun b o => if b = true then setb o else clr o) (fieldBit data n i) (off + Int64.ofNat i))
      (loops n) 0 () s := by
  rw [doLoop_loops]
  refine congrFun (iter_congr _ _ _ ?_) s
  intro k a _ hk
  have := field_bit data n k (by omega)
  by_cases hb : fieldBit data n k = true
  · simp only []
    rw [if_neg (by rw [this, hb]; decide), if_pos hb]
  · simp only []
    rw [if_pos (this.mpr (by simpa using hb)), if_neg hb]

theorem buffer_setBits_run {s : St} (h : WF s) (off : Int64) (data : UInt64) (n : Int64) :
    Buffer.SetBits off data n s =
      if 0 ≤ off.toInt ∧ off.toInt + loops n ≤ 8 * s.b.buf.len then
        (.ok (), s.put (putBits s.bytes off.toInt.toNat (fieldBit data n) (loops n)))
      else (.panic (bitPanic BufferOverwriteError BufferUnderwriteError off.toInt),
        if 0 ≤ off.toInt ∧ off.toInt < 8 * s.b.buf.len then
          s.put (putBits s.bytes off.toInt.toNat (fieldBit data n) (8 * s.b.buf.len - off.toInt.toNat))
        else s) := by
  have o1 := toInt_lt' off
  have hlp : 0 < loops n := by unfold loops; omega
  unfold Buffer.SetBits
  rw [setBits_fold]
  have hop : ∀ (s' : St) (b : Bool) (off : Int64), WF s' → s'.b.buf.len = s.b.buf.len → -2 ^ 63 ≤ off.toInt →
      (if b = true then Buffer.SetBit off else Buffer.ClearBit off) s' =
      if 0 ≤ off.toInt ∧ off.toInt < 8 * s.b.buf.len then (.ok (), s'.put (putBit s'.bytes off.toInt.toNat b))
      else (.panic (bitPanic BufferOverwriteError BufferUnderwriteError off.toInt), s') := by
    intro s' b off hw hl _
    cases b
    · rw [if_neg (by decide), buffer_clearBit_run hw, hl]
    · rw [if_pos rfl, buffer_setBit_run hw, hl]
  by_cases h1 : 0 ≤ off.toInt ∧ off.toInt < 8 * s.b.buf.len
  · have := setBits_iter WF (fun _ h => h.ok) (fun _ l h => h.put l)
      (fun b o => if b = true then Buffer.SetBit o else Buffer.ClearBit o)
      (bitPanic BufferOverwriteError BufferUnderwriteError) (-2 ^ 63) s.b.buf.len h.len_lt
      hop off (le_toInt' off) h1.1 (fieldBit data n) s h rfl (loops n) 0 hlp (by omega)
    simp only [putBits, put_self h.ok, Int.natCast_zero, Int.add_zero, Nat.zero_add] at this
    rw [this, if_pos h1]
    by_cases h2 : off.toInt + loops n ≤ 8 * s.b.buf.len
    · rw [if_pos h2, if_pos ⟨h1.1, h2⟩]
    · rw [if_neg h2, if_neg (by omega)]
      unfold bitPanic; rw [if_neg (by omega), if_neg (by omega)]
  · rw [if_neg h1, if_neg (by omega)]
    obtain ⟨c, hc⟩ : ∃ c, loops n = c + 1 := ⟨loops n - 1, by omega⟩
    rw [hc]
    simp only [iter]
    apply bind_panic
    rw [hop s _ _ h rfl (by have := le_toInt' (off + Int64.ofNat 0); omega)]
    rw [off_add (by omega) (by omega)]
    simp only [Int.natCast_zero, Int.add_zero]
    rw [if_neg h1]

/-- `MiniBuffer.SetBits` from a non-negative offset. -/
theorem mini_setBits_run {s : St} (h : s.OK) (off : Int64) (h0 : 0 ≤ off.toInt) (data : UInt64) (n : Int64) :
    Mini.SetBits off data n s =
      if off.toInt + loops n ≤ 8 * s.b.buf.len then
        (.ok (), s.put (putBits s.bytes off.toInt.toNat (fieldBit data n) (loops n)))
      else (.panic .index,
        if off.toInt < 8 * s.b.buf.len then
          s.put (putBits s.bytes off.toInt.toNat (fieldBit data n) (8 * s.b.buf.len - off.toInt.toNat))
        else s) := by
  have o1 := toInt_lt' off
  have hM := maxAlloc_lt
  have hlp : 0 < loops n := by unfold loops; omega
  unfold Mini.SetBits
  rw [setBits_fold]
  have hop : ∀ (s' : St) (b : Bool) (off : Int64), s'.OK → s'.b.buf.len = s.b.buf.len → 0 ≤ off.toInt →
      (if b = true then Mini.SetBit off else Mini.ClearBit off) s' =
      if 0 ≤ off.toInt ∧ off.toInt < 8 * s.b.buf.len then (.ok (), s'.put (putBit s'.bytes off.toInt.toNat b))
      else (.panic .index, s') := by
    intro s' b off hw hl h0
    cases b
    · rw [if_neg (by decide), mini_clearBit_run hw h0, hl]; simp only [h0, true_and]
    · rw [if_pos rfl, mini_setBit_run hw h0, hl]; simp only [h0, true_and]
  by_cases h1 : off.toInt < 8 * s.b.buf.len
  · have := setBits_iter St.OK (fun _ h => h) (fun _ l h => put_ok h l)
      (fun b o => if b = true then Mini.SetBit o else Mini.ClearBit o)
      (fun _ => .index) 0 s.b.buf.len (by have := h.len_le_max; omega)
      hop off h0 h0 (fieldBit data n) s h rfl (loops n) 0 hlp (by omega)
    simp only [putBits, put_self h, Int.natCast_zero, Int.add_zero, Nat.zero_add] at this
    rw [this, if_pos h1]
  · rw [if_neg h1, if_neg (by omega)]
    obtain ⟨c, hc⟩ : ∃ c, loops n = c + 1 := ⟨loops n - 1, by omega⟩
    rw [hc]
    simp only [iter]
    apply bind_panic
    have := off_add (off := off) (k := 0) (by omega) (by omega)
    rw [hop s _ _ h rfl (by omega), this]
    simp only [Int.natCast_zero, Int.add_zero]
    rw [if_neg (by omega)]

/-- `MiniBuffer.ReadBits` from a non-negative offset, inside the buffer: the bits are shifted
into whatever `*out` held. -/
theorem mini_readBits_iter {s : St} (h : s.OK) (off : Int64) (h0 : 0 ≤ off.toInt) :
    ∀ (c k : Nat) (bout : UInt8) (out : UInt64), off.toInt + k + c ≤ 8 * s.b.buf.len →
      (iter (fun i bout => do
        let bout ← Mini.onB (Mini.callOut (Mini.ReadBit (off + Int64.ofNat i)) bout)
        let (out : UInt64) ← Mini.getOut
        Mini.putOut ((out <<< 1) ||| bout.toUInt64)
        return bout) c k bout (s, out)).2 =
        (s, UInt64.ofNat (out.toNat * 2 ^ c + binary (fun i => bit s.bytes (off.toInt.toNat + k + i)) c)) ∧
      ∃ b, (iter (fun i bout => do
        let bout ← Mini.onB (Mini.callOut (Mini.ReadBit (off + Int64.ofNat i)) bout)
        let (out : UInt64) ← Mini.getOut
        Mini.putOut ((out <<< 1) ||| bout.toUInt64)
        return bout) c k bout (s, out)).1 = .ok b := by
  have hM := maxAlloc_lt
  have hl := h.len_le_max
  intro c
  induction c with
  | zero => intro k bout out _; simp [iter, binary]
  | succ c ih =>
    intro k bout out h1
    have hk := off_add (off := off) (k := k) (by omega) (by omega)
    have hr := mini_readBit_run h (off := off + Int64.ofNat k) (by omega) bout
    rw [hk, if_pos (by omega)] at hr
    have hb := acc_step out (bit s.bytes (off.toInt + k).toNat)
    simp only [iter, bind_run, Mini.onB, Mini.callOut, hr, Mini.getOut, Mini.putOut, pure_run]
    obtain ⟨i1, i2⟩ := ih (k + 1) (bitByte (bit s.bytes (off.toInt + k).toNat))
      ((out <<< 1) ||| (bitByte (bit s.bytes (off.toInt + k).toNat)).toUInt64) (by omega)
    refine ⟨?_, i2⟩
    refine Eq.trans i1 ?_
    congr 1
    rw [binary_succ_left, hb]
    apply UInt64.toNat_inj.mp
    rw [UInt64.toNat_ofNat', UInt64.toNat_ofNat', show (off.toInt + k).toNat = off.toInt.toNat + k by omega]
    have e : (fun i => bit s.bytes (off.toInt.toNat + (k + 1) + i)) =
        (fun i => bit s.bytes (off.toInt.toNat + k + (i + 1))) := by
      funext i; congr 1; omega
    rw [e, acc_pow]; rfl

theorem mini_readBits_run {s : St} (h : s.OK) (off : Int64) (h0 : 0 ≤ off.toInt) (n : Int64) (out : UInt64)
    (h1 : off.toInt + loops n ≤ 8 * s.b.buf.len) :
    Mini.ReadBits off n (s, out) =
      (.ok (), s, UInt64.ofNat (out.toNat * 2 ^ loops n +
        binary (fun i => bit s.bytes (off.toInt.toNat + i)) (loops n))) := by
  unfold Mini.ReadBits
  rw [doLoop_loops, bind_run]
  obtain ⟨i1, b, i2⟩ := mini_readBits_iter h off h0 (loops n) 0 0 out (by omega)
  revert i1 i2
  generalize iter _ (loops n) 0 (0 : UInt8) (s, out) = r
  intro i1 i2
  obtain ⟨r1, r2⟩ := r
  simp only at i1 i2
  subst i1; subst i2
  simp [pure_run]

/-! ## whole-buffer operations -/

/-- A loop that stores a function of each byte. -/
theorem all_iter (g : UInt8 → UInt8) (L : Nat) (s : St) (h : s.OK) (hl : s.b.buf.len = L) (body : Nat → Unit → GoM St Unit)
    (hbody : ∀ (t : St) (k : Nat) (_ : k < L), t.OK → t.b.buf.len = L →
      body k () t = (.ok (), t.put (patch t.bytes k [g (t.bytes.getD k 0)]))) :
    ∀ c k, k + c = L →
      iter body c k () (s.put ((s.bytes.take k).map g ++ s.bytes.drop k)) = (.ok (), s.put (s.bytes.map g)) := by
  have hb : s.bytes.length = L := by rw [length_bytes h, hl]
  intro c
  induction c with
  | zero =>
    intro k hk
    simp only [iter, pure_run]
    rw [List.take_of_length_le (by omega), List.drop_of_length_le (by omega), List.append_nil]
  | succ c ih =>
    intro k hk
    have hlen : ((s.bytes.take k).map g ++ s.bytes.drop k).length = L := by simp; omega
    simp only [iter, bind_run]
    rw [hbody _ k (by omega) (put_ok h _) hl]
    simp only []
    rw [bytes_put h (by omega), put_put h (by omega)
      (by rw [length_patch (by rw [List.length_singleton]; omega)]; omega)]
    rw [show patch ((s.bytes.take k).map g ++ s.bytes.drop k) k
        [g (((s.bytes.take k).map g ++ s.bytes.drop k).getD k 0)] =
        (s.bytes.take (k + 1)).map g ++ s.bytes.drop (k + 1) from ?_]
    · exact ih (k + 1) (by omega)
    · have e1 : ((s.bytes.take k).map g ++ s.bytes.drop k).getD k 0 = s.bytes[k]'(by omega) := by
        rw [List.getD, List.getElem?_append_right (by simp; omega)]
        simp [show k - min k s.bytes.length = 0 by omega, List.getElem?_drop,
          List.getElem?_eq_getElem (show k < s.bytes.length by omega)]
      rw [e1]
      unfold patch
      rw [List.take_left' (by simp; omega), List.take_succ_eq_append_getElem (by omega), List.map_append]
      congr 1
      simp only [List.length_singleton]
      rw [List.drop_append, List.drop_of_length_le (by simp; omega)]
      simp [List.drop_drop, show k + 1 - min k s.bytes.length = 1 by omega]

theorem all_run (g : UInt8 → UInt8) {s : St} (h : s.OK) (body : Int64 → Unit → GoM St Unit)
    (hbody : ∀ (t : St) (k : Nat) (_ : k < s.b.buf.len), t.OK → t.b.buf.len = s.b.buf.len →
      body (Int64.ofNat k) () t = (.ok (), t.put (patch t.bytes k [g (t.bytes.getD k 0)])))
    (h0 : 0 < s.b.buf.len) :
    doLoop body (Int64.ofNat s.b.buf.len) 0 () s = (.ok (), s.put (s.bytes.map g)) := by
  have hM := maxAlloc_lt; have := h.len_le_max
  rw [doLoop_pos _ _ h0 (by omega)]
  have := all_iter g s.b.buf.len s h rfl (fun k => body (Int64.ofNat k)) hbody s.b.buf.len 0 (by omega)
  simpa [put_self h] using this

theorem store_patch {t : St} (ht : t.OK) {k : Nat} (hk : k < t.b.buf.len) (v : UInt8) :
    bufStore (Int64.ofNat k) v t = (.ok (), t.put (patch t.bytes k [v])) := by
  have hM := maxAlloc_lt; have := ht.len_le_max
  have e : (Int64.ofNat k).toInt = k := toInt_ofNat (by omega)
  rw [bufStore_run ht, e, if_pos (by omega), write_eq_put ht (by rw [List.length_singleton]; omega), Int.toNat_natCast]

theorem load_get {t : St} (ht : t.OK) {k : Nat} (hk : k < t.b.buf.len) :
    bufLoad (Int64.ofNat k) t = (.ok (t.bytes.getD k 0), t) := by
  have hM := maxAlloc_lt; have := ht.len_le_max
  have e : (Int64.ofNat k).toInt = k := toInt_ofNat (by omega)
  rw [bufLoad_run ht, e, if_pos (by omega), Int.toNat_natCast]

theorem mini_clearAll {s : St} (h : s.OK) (h0 : 0 < s.b.buf.len) :
    Mini.ClearAllBits s = (.ok (), s.put (s.bytes.map fun _ => 0)) := by
  unfold Mini.ClearAllBits
  rw [getB_bind]
  exact all_run (fun _ => 0) h _ (fun t k hk ht hl => store_patch ht (by omega) 0) h0

theorem mini_setAll {s : St} (h : s.OK) (h0 : 0 < s.b.buf.len) :
    Mini.SetAllBits s = (.ok (), s.put (s.bytes.map fun _ => 0xFF)) := by
  unfold Mini.SetAllBits
  rw [getB_bind]
  exact all_run (fun _ => 0xFF) h _ (fun t k hk ht hl => store_patch ht (by omega) 0xFF) h0

theorem mini_flipAll {s : St} (h : s.OK) (h0 : 0 < s.b.buf.len) :
    Mini.FlipAllBits s = (.ok (), s.put (s.bytes.map fun x => ~~~x)) := by
  unfold Mini.FlipAllBits
  rw [getB_bind]
  refine all_run (fun x => ~~~x) h _ (fun t k hk ht hl => ?_) h0
  rw [bind_ok (load_get ht (by omega))]
  exact store_patch ht (by omega) _

theorem empty_loop {s : St} (h0 : s.b.buf.len = 0) (body : Int64 → Unit → GoM St Unit)
    (hb : body 0 () s = (.panic .index, s)) :
    doLoop body (Int64.ofNat s.b.buf.len) 0 () s = (.panic .index, s) := by
  rw [h0, doLoop_le_one _ _ (by decide), hb]

theorem load_empty {s : St} (h : s.OK) (h0 : s.b.buf.len = 0) (i : Int64) : bufLoad i s = (.panic .index, s) := by
  rw [bufLoad_run h, if_neg (by omega)]
theorem store_empty {s : St} (h : s.OK) (h0 : s.b.buf.len = 0) (i : Int64) (v : UInt8) :
    bufStore i v s = (.panic .index, s) := by
  rw [bufStore_run h, if_neg (by omega)]

theorem mini_clearAll_empty {s : St} (h : s.OK) (h0 : s.b.buf.len = 0) :
    Mini.ClearAllBits s = (.panic .index, s) :=
  empty_loop h0 _ (store_empty h h0 _ _)
theorem mini_setAll_empty {s : St} (h : s.OK) (h0 : s.b.buf.len = 0) :
    Mini.SetAllBits s = (.panic .index, s) :=
  empty_loop h0 _ (store_empty h h0 _ _)
theorem mini_flipAll_empty {s : St} (h : s.OK) (h0 : s.b.buf.len = 0) :
    Mini.FlipAllBits s = (.panic .index, s) :=
  empty_loop h0 _ (bind_panic (load_empty h h0 _))

/-- The whole-buffer methods of `Buffer` and `MiniBuffer` are the same code. -/
theorem buffer_clearAll : Buffer.ClearAllBits = Mini.ClearAllBits := rfl
theorem buffer_setAll : Buffer.SetAllBits = Mini.SetAllBits := rfl
theorem buffer_flipAll : Buffer.FlipAllBits = Mini.FlipAllBits := rfl

end Crunch.V3
