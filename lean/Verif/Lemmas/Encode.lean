import Verif.V3.Kinds

/-! The literal byte expressions of the accessors are the positional encodings. -/

namespace Crunch.V3
open Spec

theorem length_digits (w v : Nat) : (digits w v).length = w := by
  induction w generalizing v with
  | zero => rfl
  | succ w ih => simp [digits, ih]

theorem length_encode (e : Endian) (w v : Nat) : (encode e w v).length = w := by
  cases e <;> simp [encode, length_digits]

theorem value_digits (w v : Nat) (h : v < 256 ^ w) : value (digits w v) = v := by
  induction w generalizing v with
  | zero => simp at h; simp [digits, value, h]
  | succ w ih =>
    rw [Nat.pow_succ] at h
    simp only [digits, value]
    rw [ih (v / 256) (by omega)]
    simp; omega

theorem decode_encode (e : Endian) (w v : Nat) (h : v < 256 ^ w) : decode e (encode e w v) = v := by
  cases e <;> simp [encode, decode, value_digits w v h]

theorem value_lt (bs : List UInt8) : value bs < 256 ^ bs.length := by
  induction bs with
  | nil => simp [value]
  | cons b bs ih =>
    have := b.toNat_lt
    simp only [value, List.length_cons, Nat.pow_succ]; omega

theorem digits_value (bs : List UInt8) : digits bs.length (value bs) = bs := by
  induction bs with
  | nil => rfl
  | cons b bs ih =>
    have := b.toNat_lt
    simp only [value, List.length_cons, digits]
    rw [show (b.toNat + 256 * value bs) / 256 = value bs by omega,
      show (b.toNat + 256 * value bs) % 256 = b.toNat by omega, ih]
    simp

theorem decode_lt (e : Endian) (bs : List UInt8) : decode e bs < 256 ^ bs.length := by
  cases e
  · exact value_lt bs
  · have := value_lt bs.reverse; simpa [decode] using this

theorem encode_decode (e : Endian) (bs : List UInt8) : encode e bs.length (decode e bs) = bs := by
  cases e
  · exact digits_value bs
  · have := digits_value bs.reverse
    simp only [List.length_reverse] at this
    simp [encode, decode, this]

theorem pat_lt (k : Kind) (x : k.Ty) : k.pat x < 256 ^ k.size := by
  cases k <;> simp only [Kind.pat, Kind.size]
  · exact UInt16.toNat_lt x
  · exact UInt32.toNat_lt x
  · exact UInt64.toNat_lt x
  · omega
  · omega
  · omega
  · exact UInt32.toNat_lt x.bits
  · exact UInt64.toNat_lt x.bits

theorem pat_i16 (x : Int16) : (x.toInt % 2 ^ 16).toNat = x.toUInt16.toNat := by
  show _ = x.toBitVec.toNat
  rw [← x.toInt_toBitVec, BitVec.toInt_eq_toNat_cond]
  have := x.toBitVec.isLt
  split <;> omega
theorem pat_i32 (x : Int32) : (x.toInt % 2 ^ 32).toNat = x.toUInt32.toNat := by
  show _ = x.toBitVec.toNat
  rw [← x.toInt_toBitVec, BitVec.toInt_eq_toNat_cond]
  have := x.toBitVec.isLt
  split <;> omega
theorem pat_i64 (x : Int64) : (x.toInt % 2 ^ 64).toNat = x.toUInt64.toNat := by
  show _ = x.toBitVec.toNat
  rw [← x.toInt_toBitVec, BitVec.toInt_eq_toNat_cond]
  have := x.toBitVec.isLt
  split <;> omega

theorem pat_inj (k : Kind) (x y : k.Ty) (h : k.pat x = k.pat y) : x = y := by
  cases k <;> simp only [Kind.pat] at h
  · exact UInt16.toNat_inj.mp h
  · exact UInt32.toNat_inj.mp h
  · exact UInt64.toNat_inj.mp h
  · rw [pat_i16, pat_i16] at h
    have := UInt16.toNat_inj.mp h
    cases x; cases y; simp_all
  · rw [pat_i32, pat_i32] at h
    have := UInt32.toNat_inj.mp h
    cases x; cases y; simp_all
  · rw [pat_i64, pat_i64] at h
    have := UInt64.toNat_inj.mp h
    cases x; cases y; simp_all
  · have := UInt32.toNat_inj.mp h
    cases x; cases y; simp_all
  · have := UInt64.toNat_inj.mp h
    cases x; cases y; simp_all

/-! ## the byte expressions of the writers -/

theorem byte_u64 (d : UInt64) (k : UInt64) (hk : k.toNat < 64) : Elem.byte (d >>> k) = UInt8.ofNat (d.toNat / 2 ^ k.toNat % 256) := by
  apply UInt8.toNat_inj.mp
  simp [Elem.byte, Nat.shiftRight_eq_div_pow, Nat.mod_eq_of_lt hk]
theorem byte_u32 (d : UInt32) (k : UInt32) (hk : k.toNat < 32) : Elem.byte (d >>> k) = UInt8.ofNat (d.toNat / 2 ^ k.toNat % 256) := by
  apply UInt8.toNat_inj.mp
  simp [Elem.byte, Nat.shiftRight_eq_div_pow, Nat.mod_eq_of_lt hk]
theorem byte_u16 (d : UInt16) (k : UInt16) (hk : k.toNat < 16) : Elem.byte (d >>> k) = UInt8.ofNat (d.toNat / 2 ^ k.toNat % 256) := by
  apply UInt8.toNat_inj.mp
  simp [Elem.byte, Nat.shiftRight_eq_div_pow, Nat.mod_eq_of_lt hk]

/-- low byte of an arithmetic shift = low byte of the logical one, while the byte is inside the word -/
theorem sshift_low {w : Nat} (x : BitVec w) (n : Nat) (h : n + 8 ≤ w) :
    (x.sshiftRight n).setWidth 8 = (x >>> n).setWidth 8 := by
  apply BitVec.eq_of_getLsbD_eq
  intro i hi
  simp [BitVec.getLsbD_sshiftRight, hi]
  intros
  rw [if_pos (by omega)]
  simp; omega
theorem byte_i64 (d b : Int64) (k : Nat) (hb : (b.toBitVec.smod 64).toNat = k) (hk : k + 8 ≤ 64) :
    Elem.byte (d >>> b) = UInt8.ofNat (d.toUInt64.toNat / 2 ^ k % 256) := by
  apply UInt8.toBitVec_inj.mp
  show (d >>> b).toBitVec.setWidth 8 = _
  rw [Int64.toBitVec_shiftRight, BitVec.sshiftRight', hb, sshift_low _ _ hk]
  apply BitVec.eq_of_toNat_eq
  show ((d.toUInt64.toBitVec) >>> k).toNat % 256 = _
  simp [Nat.shiftRight_eq_div_pow]; rfl
theorem byte_i32 (d b : Int32) (k : Nat) (hb : (b.toBitVec.smod 32).toNat = k) (hk : k + 8 ≤ 32) :
    Elem.byte (d >>> b) = UInt8.ofNat (d.toUInt32.toNat / 2 ^ k % 256) := by
  apply UInt8.toBitVec_inj.mp
  show (d >>> b).toBitVec.setWidth 8 = _
  rw [Int32.toBitVec_shiftRight, BitVec.sshiftRight', hb, sshift_low _ _ hk]
  apply BitVec.eq_of_toNat_eq
  show ((d.toUInt32.toBitVec) >>> k).toNat % 256 = _
  simp [Nat.shiftRight_eq_div_pow]; rfl
theorem byte_i16 (d b : Int16) (k : Nat) (hb : (b.toBitVec.smod 16).toNat = k) (hk : k + 8 ≤ 16) :
    Elem.byte (d >>> b) = UInt8.ofNat (d.toUInt16.toNat / 2 ^ k % 256) := by
  apply UInt8.toBitVec_inj.mp
  show (d >>> b).toBitVec.setWidth 8 = _
  rw [Int16.toBitVec_shiftRight, BitVec.sshiftRight', hb, sshift_low _ _ hk]
  apply BitVec.eq_of_toNat_eq
  show ((d.toUInt16.toBitVec) >>> k).toNat % 256 = _
  simp [Nat.shiftRight_eq_div_pow]; rfl

theorem bytes_u16 (d : UInt16) :
    [Elem.byte d, Elem.byte (d >>> 8)] = digits 2 d.toNat := by
  have e : Elem.byte d = UInt8.ofNat (d.toNat % 256) := by simp [Elem.byte, ← UInt8.toNat_inj]
  simp only [digits]
  rw [e, byte_u16 d 8 (by decide)]
  rfl

theorem bytes_i16 (d : Int16) :
    [Elem.byte d, Elem.byte (d >>> 8)] = digits 2 d.toUInt16.toNat := by
  have e : Elem.byte d = UInt8.ofNat (d.toUInt16.toNat % 256) := by simp [Elem.byte, ← UInt8.toNat_inj]
  simp only [digits]
  rw [e, byte_i16 d 8 8 rfl (by decide)]

theorem bytes_u32 (d : UInt32) :
    [Elem.byte d, Elem.byte (d >>> 8), Elem.byte (d >>> 16), Elem.byte (d >>> 24)] = digits 4 d.toNat := by
  have e : Elem.byte d = UInt8.ofNat (d.toNat % 256) := by simp [Elem.byte, ← UInt8.toNat_inj]
  simp only [digits, Nat.div_div_eq_div_mul]
  rw [e, byte_u32 d 8 (by decide), byte_u32 d 16 (by decide), byte_u32 d 24 (by decide)]
  rfl

theorem bytes_i32 (d : Int32) :
    [Elem.byte d, Elem.byte (d >>> 8), Elem.byte (d >>> 16), Elem.byte (d >>> 24)] = digits 4 d.toUInt32.toNat := by
  have e : Elem.byte d = UInt8.ofNat (d.toUInt32.toNat % 256) := by simp [Elem.byte, ← UInt8.toNat_inj]
  simp only [digits, Nat.div_div_eq_div_mul]
  rw [e, byte_i32 d 8 8 rfl (by decide), byte_i32 d 16 16 rfl (by decide), byte_i32 d 24 24 rfl (by decide)]

theorem bytes_u64 (d : UInt64) :
    [Elem.byte d, Elem.byte (d >>> 8), Elem.byte (d >>> 16), Elem.byte (d >>> 24), Elem.byte (d >>> 32), Elem.byte (d >>> 40), Elem.byte (d >>> 48), Elem.byte (d >>> 56)] = digits 8 d.toNat := by
  have e : Elem.byte d = UInt8.ofNat (d.toNat % 256) := by simp [Elem.byte, ← UInt8.toNat_inj]
  simp only [digits, Nat.div_div_eq_div_mul]
  rw [e, byte_u64 d 8 (by decide), byte_u64 d 16 (by decide), byte_u64 d 24 (by decide), byte_u64 d 32 (by decide), byte_u64 d 40 (by decide), byte_u64 d 48 (by decide), byte_u64 d 56 (by decide)]
  rfl

theorem bytes_i64 (d : Int64) :
    [Elem.byte d, Elem.byte (d >>> 8), Elem.byte (d >>> 16), Elem.byte (d >>> 24), Elem.byte (d >>> 32), Elem.byte (d >>> 40), Elem.byte (d >>> 48), Elem.byte (d >>> 56)] = digits 8 d.toUInt64.toNat := by
  have e : Elem.byte d = UInt8.ofNat (d.toUInt64.toNat % 256) := by simp [Elem.byte, ← UInt8.toNat_inj]
  simp only [digits, Nat.div_div_eq_div_mul]
  rw [e, byte_i64 d 8 8 rfl (by decide), byte_i64 d 16 16 rfl (by decide), byte_i64 d 24 24 rfl (by decide), byte_i64 d 32 32 rfl (by decide), byte_i64 d 40 40 rfl (by decide), byte_i64 d 48 48 rfl (by decide), byte_i64 d 56 56 rfl (by decide)]

/-! ## the value expressions of the readers -/

theorem or_add {a b : Nat} (k : Nat) (h : a < 2 ^ k) : a ||| b * 2 ^ k = a + b * 2 ^ k := by
  rw [Nat.or_comm, Nat.mul_comm, Nat.add_comm]
  exact (Nat.two_pow_add_eq_or_of_lt h b).symm

theorem shl_u16 (x : UInt8) (k : UInt16) (hk : k.toNat ≤ 8) :
    (conv UInt16 x <<< k).toNat = x.toNat * 2 ^ k.toNat := by
  have := x.toNat_lt
  simp only [conv, Elem.ofByte, UInt16.toNat_shiftLeft, UInt8.toNat_toUInt16, Nat.shiftLeft_eq]
  rw [Nat.mod_eq_of_lt (show k.toNat < 16 by omega), Nat.mod_eq_of_lt]
  calc _ < 2 ^ 8 * 2 ^ k.toNat := Nat.mul_lt_mul_of_pos_right this (Nat.two_pow_pos _)
    _ = 2 ^ (8 + k.toNat) := (Nat.pow_add ..).symm
    _ ≤ 2 ^ 16 := Nat.pow_le_pow_right (by decide) (by omega)

theorem conv_u16 (x : UInt8) : (conv UInt16 x).toNat = x.toNat := by simp [conv, Elem.ofByte]

theorem val_u16 (x0 x1 : UInt8) :
    (conv UInt16 x0 ||| conv UInt16 x1 <<< 8).toNat =
      value [x0, x1] := by
  have := x0.toNat_lt
  have := x1.toNat_lt
  simp only [UInt16.toNat_or]
  rw [shl_u16 x1 8 (by decide), conv_u16]
  simp only [show (8 : UInt16).toNat = 8 from rfl]
  rw [or_add 8 (by omega)]
  simp only [value]; omega

theorem conv_i16 (x : UInt8) : (conv Int16 x).toUInt16 = conv UInt16 x := rfl

theorem shl_i16 (x : UInt8) (b : Int16) (k : UInt16) (h : b.toBitVec.smod 16 = k.toBitVec % 16) :
    (conv Int16 x <<< b).toUInt16 = conv UInt16 x <<< k := by
  apply UInt16.toBitVec_inj.mp
  show (conv Int16 x <<< b).toBitVec = _
  rw [Int16.toBitVec_shiftLeft, h, UInt16.toBitVec_shiftLeft]
  rfl

theorem val_i16 (x0 x1 : UInt8) :
    (conv Int16 x0 ||| conv Int16 x1 <<< 8).toUInt16.toNat =
      value [x0, x1] := by
  simp only [Int16.toUInt16_or]
  rw [shl_i16 x1 8 8 rfl, conv_i16, val_u16]

theorem shl_u32 (x : UInt8) (k : UInt32) (hk : k.toNat ≤ 24) :
    (conv UInt32 x <<< k).toNat = x.toNat * 2 ^ k.toNat := by
  have := x.toNat_lt
  simp only [conv, Elem.ofByte, UInt32.toNat_shiftLeft, UInt8.toNat_toUInt32, Nat.shiftLeft_eq]
  rw [Nat.mod_eq_of_lt (show k.toNat < 32 by omega), Nat.mod_eq_of_lt]
  calc _ < 2 ^ 8 * 2 ^ k.toNat := Nat.mul_lt_mul_of_pos_right this (Nat.two_pow_pos _)
    _ = 2 ^ (8 + k.toNat) := (Nat.pow_add ..).symm
    _ ≤ 2 ^ 32 := Nat.pow_le_pow_right (by decide) (by omega)

theorem conv_u32 (x : UInt8) : (conv UInt32 x).toNat = x.toNat := by simp [conv, Elem.ofByte]

theorem val_u32 (x0 x1 x2 x3 : UInt8) :
    (conv UInt32 x0 ||| conv UInt32 x1 <<< 8 ||| conv UInt32 x2 <<< 16 ||| conv UInt32 x3 <<< 24).toNat =
      value [x0, x1, x2, x3] := by
  have := x0.toNat_lt
  have := x1.toNat_lt
  have := x2.toNat_lt
  have := x3.toNat_lt
  simp only [UInt32.toNat_or]
  rw [shl_u32 x1 8 (by decide), shl_u32 x2 16 (by decide), shl_u32 x3 24 (by decide), conv_u32]
  simp only [show (8 : UInt32).toNat = 8 from rfl, show (16 : UInt32).toNat = 16 from rfl, show (24 : UInt32).toNat = 24 from rfl]
  rw [or_add 8 (by omega), or_add 16 (by omega), or_add 24 (by omega)]
  simp only [value]; omega

theorem conv_i32 (x : UInt8) : (conv Int32 x).toUInt32 = conv UInt32 x := rfl

theorem shl_i32 (x : UInt8) (b : Int32) (k : UInt32) (h : b.toBitVec.smod 32 = k.toBitVec % 32) :
    (conv Int32 x <<< b).toUInt32 = conv UInt32 x <<< k := by
  apply UInt32.toBitVec_inj.mp
  show (conv Int32 x <<< b).toBitVec = _
  rw [Int32.toBitVec_shiftLeft, h, UInt32.toBitVec_shiftLeft]
  rfl

theorem val_i32 (x0 x1 x2 x3 : UInt8) :
    (conv Int32 x0 ||| conv Int32 x1 <<< 8 ||| conv Int32 x2 <<< 16 ||| conv Int32 x3 <<< 24).toUInt32.toNat =
      value [x0, x1, x2, x3] := by
  simp only [Int32.toUInt32_or]
  rw [shl_i32 x1 8 8 rfl, shl_i32 x2 16 16 rfl, shl_i32 x3 24 24 rfl, conv_i32, val_u32]

theorem shl_u64 (x : UInt8) (k : UInt64) (hk : k.toNat ≤ 56) :
    (conv UInt64 x <<< k).toNat = x.toNat * 2 ^ k.toNat := by
  have := x.toNat_lt
  simp only [conv, Elem.ofByte, UInt64.toNat_shiftLeft, UInt8.toNat_toUInt64, Nat.shiftLeft_eq]
  rw [Nat.mod_eq_of_lt (show k.toNat < 64 by omega), Nat.mod_eq_of_lt]
  calc _ < 2 ^ 8 * 2 ^ k.toNat := Nat.mul_lt_mul_of_pos_right this (Nat.two_pow_pos _)
    _ = 2 ^ (8 + k.toNat) := (Nat.pow_add ..).symm
    _ ≤ 2 ^ 64 := Nat.pow_le_pow_right (by decide) (by omega)

theorem conv_u64 (x : UInt8) : (conv UInt64 x).toNat = x.toNat := by simp [conv, Elem.ofByte]

theorem val_u64 (x0 x1 x2 x3 x4 x5 x6 x7 : UInt8) :
    (conv UInt64 x0 ||| conv UInt64 x1 <<< 8 ||| conv UInt64 x2 <<< 16 ||| conv UInt64 x3 <<< 24 ||| conv UInt64 x4 <<< 32 ||| conv UInt64 x5 <<< 40 ||| conv UInt64 x6 <<< 48 ||| conv UInt64 x7 <<< 56).toNat =
      value [x0, x1, x2, x3, x4, x5, x6, x7] := by
  have := x0.toNat_lt
  have := x1.toNat_lt
  have := x2.toNat_lt
  have := x3.toNat_lt
  have := x4.toNat_lt
  have := x5.toNat_lt
  have := x6.toNat_lt
  have := x7.toNat_lt
  simp only [UInt64.toNat_or]
  rw [shl_u64 x1 8 (by decide), shl_u64 x2 16 (by decide), shl_u64 x3 24 (by decide), shl_u64 x4 32 (by decide), shl_u64 x5 40 (by decide), shl_u64 x6 48 (by decide), shl_u64 x7 56 (by decide), conv_u64]
  simp only [show (8 : UInt64).toNat = 8 from rfl, show (16 : UInt64).toNat = 16 from rfl, show (24 : UInt64).toNat = 24 from rfl, show (32 : UInt64).toNat = 32 from rfl, show (40 : UInt64).toNat = 40 from rfl, show (48 : UInt64).toNat = 48 from rfl, show (56 : UInt64).toNat = 56 from rfl]
  rw [or_add 8 (by omega), or_add 16 (by omega), or_add 24 (by omega), or_add 32 (by omega), or_add 40 (by omega), or_add 48 (by omega), or_add 56 (by omega)]
  simp only [value]; omega

theorem conv_i64 (x : UInt8) : (conv Int64 x).toUInt64 = conv UInt64 x := rfl

theorem shl_i64 (x : UInt8) (b : Int64) (k : UInt64) (h : b.toBitVec.smod 64 = k.toBitVec % 64) :
    (conv Int64 x <<< b).toUInt64 = conv UInt64 x <<< k := by
  apply UInt64.toBitVec_inj.mp
  show (conv Int64 x <<< b).toBitVec = _
  rw [Int64.toBitVec_shiftLeft, h, UInt64.toBitVec_shiftLeft]
  rfl

theorem val_i64 (x0 x1 x2 x3 x4 x5 x6 x7 : UInt8) :
    (conv Int64 x0 ||| conv Int64 x1 <<< 8 ||| conv Int64 x2 <<< 16 ||| conv Int64 x3 <<< 24 ||| conv Int64 x4 <<< 32 ||| conv Int64 x5 <<< 40 ||| conv Int64 x6 <<< 48 ||| conv Int64 x7 <<< 56).toUInt64.toNat =
      value [x0, x1, x2, x3, x4, x5, x6, x7] := by
  simp only [Int64.toUInt64_or]
  rw [shl_i64 x1 8 8 rfl, shl_i64 x2 16 16 rfl, shl_i64 x3 24 24 rfl, shl_i64 x4 32 32 rfl, shl_i64 x5 40 40 rfl, shl_i64 x6 48 48 rfl, shl_i64 x7 56 56 rfl, conv_i64, val_u64]

/-- The element with a given bit pattern. -/
def Kind.ofPat : (k : Kind) → Nat → k.Ty
  | .u16, n => UInt16.ofNat n
  | .u32, n => UInt32.ofNat n
  | .u64, n => UInt64.ofNat n
  | .i16, n => (UInt16.ofNat n).toInt16
  | .i32, n => (UInt32.ofNat n).toInt32
  | .i64, n => (UInt64.ofNat n).toInt64
  | .f32, n => ⟨UInt32.ofNat n⟩
  | .f64, n => ⟨UInt64.ofNat n⟩

theorem pat_ofPat (k : Kind) (n : Nat) (h : n < 256 ^ k.size) : k.pat (k.ofPat n) = n := by
  cases k <;> simp only [Kind.pat, Kind.ofPat, Kind.size, pat_i16, pat_i32, pat_i64] at *
  all_goals (simp; omega)

theorem ofPat_pat (k : Kind) (x : k.Ty) : k.ofPat (k.pat x) = x :=
  pat_inj k _ _ (pat_ofPat k _ (pat_lt k x))

theorem eq_ofPat (k : Kind) (x : k.Ty) (n : Nat) (h : k.pat x = n) : x = k.ofPat n := by
  rw [← h, ofPat_pat]

end Crunch.V3
