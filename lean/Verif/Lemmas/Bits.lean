import Verif.Lemmas.Run

/-! What every bit-level `Buffer` method does, for every argument. -/

namespace Crunch.V3
open Spec

/-- A bit as a byte. -/
def bitByte (b : Bool) : UInt8 := if b then 1 else 0

/-! ## bytes and their bits -/

theorem u8_ext {x y : UInt8} (h : ∀ i < 8, x.toNat.testBit i = y.toNat.testBit i) : x = y := by
  apply UInt8.toNat_inj.mp
  apply Nat.eq_of_testBit_eq
  intro i
  by_cases hi : i < 8
  · exact h i hi
  · rw [Nat.testBit_lt_two_pow, Nat.testBit_lt_two_pow]
    · exact Nat.lt_of_lt_of_le y.toNat_lt (Nat.pow_le_pow_right (by decide) (by omega))
    · exact Nat.lt_of_lt_of_le x.toNat_lt (Nat.pow_le_pow_right (by decide) (by omega))

theorem shr8_one (x : UInt8) (c : UInt64) :
    shr8 x c &&& 1 = bitByte (decide (c.toNat < 8) && x.toNat.testBit c.toNat) := by
  unfold shr8
  by_cases h : c.toNat < 8
  · have hc : c < 8 := by rw [UInt64.lt_iff_toNat_lt]; exact h
    rw [if_pos hc]
    apply UInt8.toNat_inj.mp
    have h3 : c.toNat % 256 % 8 = c.toNat := by omega
    simp only [UInt8.toNat_and, UInt8.toNat_shiftRight, UInt64.toNat_toUInt8, h3]
    show x.toNat >>> c.toNat &&& 1 = _
    rw [Nat.and_one_is_mod, Nat.shiftRight_eq_div_pow]
    simp only [h, decide_true, Bool.true_and, bitByte, Nat.testBit_eq_decide_div_mod_eq]
    have := Nat.mod_two_eq_zero_or_one (x.toNat / 2 ^ c.toNat)
    split <;> simp_all
  · have hc : ¬ c < 8 := by rw [UInt64.lt_iff_toNat_lt]; exact h
    rw [if_neg hc]
    simp [h, bitByte]

theorem testBit_shl8_one (c : UInt64) (i : Nat) :
    (shl8 1 c).toNat.testBit i = (decide (c.toNat < 8) && decide (i = c.toNat)) := by
  unfold shl8
  by_cases h : c.toNat < 8
  · have hc : c < 8 := by rw [UInt64.lt_iff_toNat_lt]; exact h
    rw [if_pos hc]
    have h3 : c.toNat % 256 % 8 = c.toNat := by omega
    simp only [UInt8.toNat_shiftLeft, UInt64.toNat_toUInt8, h3]
    show ((1 <<< c.toNat) % 2 ^ 8).testBit i = _
    rw [Nat.shiftLeft_eq, Nat.one_mul, Nat.mod_eq_of_lt (Nat.pow_lt_pow_right (by decide) h), Nat.testBit_two_pow]
    simp [h, eq_comm]
  · have hc : ¬ c < 8 := by rw [UInt64.lt_iff_toNat_lt]; exact h
    rw [if_neg hc]
    simp [h]

theorem testBit_not8 (x : UInt8) (i : Nat) (hi : i < 8) :
    (~~~x).toNat.testBit i = !x.toNat.testBit i := by
  have : (~~~x).toNat = 2 ^ 8 - (x.toNat + 1) := by
    simp
  rw [this, Nat.testBit_two_pow_sub_succ x.toNat_lt]
  simp [hi]

theorem testBit_set8 (x : UInt8) (c : UInt64) (i : Nat) :
    (x ||| shl8 1 c).toNat.testBit i = (x.toNat.testBit i || (decide (c.toNat < 8) && decide (i = c.toNat))) := by
  rw [UInt8.toNat_or, Nat.testBit_or, testBit_shl8_one]

theorem testBit_clear8 (x : UInt8) (c : UInt64) (i : Nat) (hi : i < 8) :
    (x &&& ~~~(shl8 1 c)).toNat.testBit i =
      (x.toNat.testBit i && !(decide (c.toNat < 8) && decide (i = c.toNat))) := by
  rw [UInt8.toNat_and, Nat.testBit_and, testBit_not8 _ _ hi, testBit_shl8_one]

theorem testBit_flip8 (x : UInt8) (c : UInt64) (i : Nat) :
    (x ^^^ shl8 1 c).toNat.testBit i = (x.toNat.testBit i ^^ (decide (c.toNat < 8) && decide (i = c.toNat))) := by
  rw [UInt8.toNat_xor, Nat.testBit_xor, testBit_shl8_one]

/-! ## bits of byte lists -/

/-- A byte list is determined by its length and its bits. -/
theorem bit_ext {l l' : List UInt8} (hl : l.length = l'.length)
    (h : ∀ i < 8 * l.length, bit l i = bit l' i) : l = l' := by
  apply List.ext_getElem hl
  intro n h1 h2
  apply u8_ext
  intro i hi
  have := h (8 * n + (7 - i)) (by omega)
  unfold bit at this
  rw [show (8 * n + (7 - i)) / 8 = n by omega, show 7 - (8 * n + (7 - i)) % 8 = i by omega,
    List.getElem?_eq_getElem h1, List.getElem?_eq_getElem h2] at this
  exact this

/-- Replacing the byte that holds bit `o` by `y` changes bit `j` iff it is in that byte. -/
theorem bit_patch_byte {l : List UInt8} {p : Nat} (hp : p < l.length) (y : UInt8) (j : Nat) :
    bit (patch l p [y]) j = if j / 8 = p then y.toNat.testBit (7 - j % 8) else bit l j := by
  unfold bit
  rw [getElem?_patch (by simp; omega)]
  simp only [List.length_singleton]
  by_cases h : j / 8 = p
  · rw [if_pos (by omega), if_pos h, h]; simp
  · rw [if_neg (by omega), if_neg h]

/-! ## offsets -/

theorem mod8_toUInt64 {off : Int64} (h : 0 ≤ off.toInt) :
    (7 - (off % 8).toUInt64).toNat = 7 - off.toInt.toNat % 8 := by
  have hm := toInt_mod8 off
  rw [if_pos h] at hm
  have : (off % 8).toUInt64.toNat = off.toInt.toNat % 8 := by
    rw [← pat_i64, hm]; omega
  rw [UInt64.toNat_sub, this]
  show (2 ^ 64 - _ + 7) % 2 ^ 64 = _
  omega

theorem sub_mod8_toUInt64 {off : Int64} (h : 0 ≤ off.toInt) :
    (7 - off % 8).toUInt64.toNat = 7 - off.toInt.toNat % 8 := by
  have hm := toInt_mod8 off
  rw [if_pos h] at hm
  rw [← pat_i64, toInt_sub, hm]
  show ((((7 : Int) - _ + _) % _ - _) % _).toNat = _
  omega

theorem div8_toInt {off : Int64} (h : 0 ≤ off.toInt) : (off / 8).toInt = off.toInt / 8 := by
  rw [toInt_div8, if_pos h]

/-! ## single bits -/

theorem mini_readBit_run {s : St} (hs : s.OK) {off : Int64} (h0 : 0 ≤ off.toInt) (o : UInt8) :
    Mini.ReadBit off (s, o) =
      if off.toInt < 8 * s.b.buf.len then (.ok (), (s, bitByte (bit s.bytes off.toInt.toNat)))
      else (.panic .index, (s, o)) := by
  have hb := length_bytes hs
  unfold Mini.ReadBit
  rw [bind_run]
  simp only [Mini.onB, bufLoad_run hs, div8_toInt h0]
  by_cases h1 : off.toInt < 8 * s.b.buf.len
  · rw [if_pos (by omega), if_pos h1]
    simp only [Mini.putOut, shr8_one, mod8_toUInt64 h0]
    rw [decide_eq_true (by omega)]
    simp only [Bool.true_and, bit]
    rw [show (off.toInt / 8).toNat = off.toInt.toNat / 8 by omega, List.getD,
      List.getElem?_eq_getElem (show off.toInt.toNat / 8 < s.bytes.length by omega)]
    rfl
  · rw [if_neg (by omega), if_neg h1]

/-! ## replacing the contents -/

/-- The state with the buffer's visible bytes replaced. -/
def St.put (s : St) (l : List UInt8) : St := s.write 0 l

theorem put_ok {s : St} (h : s.OK) (l : List UInt8) : (s.put l).OK := write_ok h _ _
theorem WF.put {s : St} (h : WF s) (l : List UInt8) : WF (s.put l) := h.write _ _
@[simp] theorem put_b (s : St) (l : List UInt8) : (s.put l).b = s.b := rfl

theorem patch_full {l m : List UInt8} (h : m.length = l.length) : patch l 0 m = m := by
  unfold patch; simp [h]

theorem bytes_put {s : St} (h : s.OK) {l : List UInt8} (hl : l.length = s.b.buf.len) :
    (s.put l).bytes = l := by
  have hb := length_bytes h
  unfold St.put
  rw [bytes_write h (by omega), patch_full (by omega)]

theorem write_eq_put {s : St} (h : s.OK) {p : Nat} {bs : List UInt8} (hp : p + bs.length ≤ s.b.buf.len) :
    s.write p bs = s.put (patch s.bytes p bs) := by
  have hb := length_bytes h
  have hl : (patch s.bytes p bs).length = s.b.buf.len := by rw [length_patch (by omega), hb]
  exact write_congr h hp (by omega) (by rw [patch_full (by omega)])

theorem put_put {s : St} (h : s.OK) {l m : List UInt8} (hl : l.length = s.b.buf.len)
    (hm : m.length = s.b.buf.len) : (s.put l).put m = s.put m := by
  have h1 := h.len_le; have h2 := h.fits
  unfold St.put St.write
  simp only [Nat.add_zero]
  rw [blit_blit (by omega) (by omega) (r := s.b.buf.off) (ds := m) (by omega)]
  exact patch_same (by omega) (by omega)

theorem put_self {s : St} (h : s.OK) : s.put s.bytes = s := by
  have hb := length_bytes h
  have e : s.put s.bytes = s.write 0 [] := by
    refine write_congr h (by omega) (by simp) ?_
    rw [patch_full rfl, patch_nil]
  rw [e, write_nil]

/-! ## storing one bit -/

/-- Store `b` in bit `i`. -/
def putBit (l : List UInt8) (i : Nat) (b : Bool) : List UInt8 :=
  patch l (i / 8) [if b then l.getD (i / 8) 0 ||| shl8 1 (UInt64.ofNat (7 - i % 8))
    else l.getD (i / 8) 0 &&& ~~~(shl8 1 (UInt64.ofNat (7 - i % 8)))]

theorem length_putBit {l : List UInt8} {i : Nat} (h : i < 8 * l.length) (b : Bool) :
    (putBit l i b).length = l.length := by
  unfold putBit; rw [length_patch (by simp; omega)]

theorem bit_getD {l : List UInt8} {j : Nat} (h : j < 8 * l.length) :
    bit l j = (l.getD (j / 8) 0).toNat.testBit (7 - j % 8) := by
  unfold bit
  rw [List.getD, List.getElem?_eq_getElem (show j / 8 < l.length by omega)]; rfl

theorem bit_putBit {l : List UInt8} {i : Nat} (h : i < 8 * l.length) (b : Bool) (j : Nat) :
    bit (putBit l i b) j = if j = i then b else bit l j := by
  unfold putBit
  have hc : (UInt64.ofNat (7 - i % 8)).toNat = 7 - i % 8 := by simp; omega
  rw [bit_patch_byte (by omega)]
  by_cases hj : j / 8 = i / 8
  · rw [if_pos hj]
    cases b
    · rw [if_neg (by decide), testBit_clear8 _ _ _ (by omega), hc, bit_getD (by omega), hj,
        decide_eq_true (show 7 - i % 8 < 8 by omega)]
      by_cases e : j = i
      · subst e; simp
      · rw [if_neg e, decide_eq_false (show ¬ (7 - j % 8 = 7 - i % 8) by omega)]; simp
    · rw [if_pos rfl, testBit_set8, hc, bit_getD (by omega), hj,
        decide_eq_true (show 7 - i % 8 < 8 by omega)]
      by_cases e : j = i
      · subst e; simp
      · rw [if_neg e, decide_eq_false (show ¬ (7 - j % 8 = 7 - i % 8) by omega)]; simp
  · rw [if_neg hj, if_neg (by intro h; subst h; exact hj rfl)]

/-- Read-modify-write of the byte holding bit `off`. -/
theorem rmw_run {s : St} (hs : s.OK) {off : Int64} (h0 : 0 ≤ off.toInt) (f : UInt8 → UInt8) :
    (bufLoad (off / 8) >>= fun x => bufStore (off / 8) (f x)) s =
      if off.toInt < 8 * s.b.buf.len then
        (.ok (), s.put (patch s.bytes (off.toInt.toNat / 8) [f (s.bytes.getD (off.toInt.toNat / 8) 0)]))
      else (.panic .index, s) := by
  rw [bind_run, bufLoad_run hs]
  simp only [div8_toInt h0]
  by_cases h1 : off.toInt < 8 * s.b.buf.len
  · rw [if_pos (by omega), if_pos h1]
    simp only []
    rw [bufStore_run hs]
    simp only [div8_toInt h0]
    rw [if_pos (by omega), show (off.toInt / 8).toNat = off.toInt.toNat / 8 by omega,
      write_eq_put hs (by rw [List.length_singleton]; omega)]
  · rw [if_neg (by omega), if_neg h1]

theorem u64_of_toNat {c : UInt64} {n : Nat} (h : c.toNat = n) : c = UInt64.ofNat n := by
  rw [← h]; simp

theorem mini_setBit_run {s : St} (hs : s.OK) {off : Int64} (h0 : 0 ≤ off.toInt) :
    Mini.SetBit off s =
      if off.toInt < 8 * s.b.buf.len then (.ok (), s.put (putBit s.bytes off.toInt.toNat true))
      else (.panic .index, s) := by
  unfold Mini.SetBit
  rw [rmw_run hs h0 (fun x => x ||| shl8 1 (7 - off % 8).toUInt64), u64_of_toNat (sub_mod8_toUInt64 h0)]
  rfl

theorem mini_clearBit_run {s : St} (hs : s.OK) {off : Int64} (h0 : 0 ≤ off.toInt) :
    Mini.ClearBit off s =
      if off.toInt < 8 * s.b.buf.len then (.ok (), s.put (putBit s.bytes off.toInt.toNat false))
      else (.panic .index, s) := by
  unfold Mini.ClearBit
  rw [rmw_run hs h0 (fun x => x &&& ~~~(shl8 1 (7 - off % 8).toUInt64)), u64_of_toNat (sub_mod8_toUInt64 h0)]
  rfl

theorem flip_eq_putBit {l : List UInt8} {i : Nat} (h : i < 8 * l.length) :
    patch l (i / 8) [l.getD (i / 8) 0 ^^^ shl8 1 (UInt64.ofNat (7 - i % 8))] = putBit l i (!bit l i) := by
  have hc : (UInt64.ofNat (7 - i % 8)).toNat = 7 - i % 8 := by simp; omega
  apply bit_ext
  · rw [length_patch (by simp; omega), length_putBit h]
  · intro j _
    rw [bit_putBit h, bit_patch_byte (by omega)]
    by_cases hj : j / 8 = i / 8
    · rw [if_pos hj, testBit_flip8, hc, decide_eq_true (show 7 - i % 8 < 8 by omega)]
      by_cases e : j = i
      · subst e; rw [bit_getD h]; simp
      · rw [if_neg e, decide_eq_false (show ¬ (7 - j % 8 = 7 - i % 8) by omega), bit_getD (by omega), hj]; simp
    · rw [if_neg hj, if_neg (by intro h; subst h; exact hj rfl)]

theorem mini_flipBit_run {s : St} (hs : s.OK) {off : Int64} (h0 : 0 ≤ off.toInt) :
    Mini.FlipBit off s =
      if off.toInt < 8 * s.b.buf.len then
        (.ok (), s.put (putBit s.bytes off.toInt.toNat (!bit s.bytes off.toInt.toNat)))
      else (.panic .index, s) := by
  have hb := length_bytes hs
  unfold Mini.FlipBit
  rw [rmw_run hs h0 (fun x => x ^^^ shl8 1 (7 - off % 8).toUInt64), u64_of_toNat (sub_mod8_toUInt64 h0)]
  by_cases h1 : off.toInt < 8 * s.b.buf.len
  · rw [if_pos h1, if_pos h1, flip_eq_putBit (by omega)]
  · rw [if_neg h1, if_neg h1]

/-! ## `Buffer`: range checks in front -/

/-- The panic of a rejected bit access at `off` in `L` bytes. -/
def bitPanic (over under : GoError) (off : Int) : Panic := if off < 0 then .err under else .err over

theorem bit_guard {s : St} (h : WF s) (off : Int64) (over under : GoError) (m : GoM St α) :
    (getB >>= fun b => panicIf (off > b.bcap - 1) (.err over) >>= fun _ =>
      panicIf (off < 0) (.err under) >>= fun _ => m) s =
      if 0 ≤ off.toInt ∧ off.toInt < 8 * s.b.buf.len then m s
      else (.panic (bitPanic over under off.toInt), s) := by
  have hL := h.len_lt
  simp only [getB_bind, panicIf_bind, GT.gt, Int64.lt_iff_toInt_lt, toInt_sub, h.bcap_toInt, toInt_zero', toInt_one',
    bitPanic]
  rw [show ((8 * s.b.buf.len : Int) - 1 + 2 ^ 63) % 2 ^ 64 - 2 ^ 63 = 8 * s.b.buf.len - 1 by omega]
  by_cases h1 : (8 * s.b.buf.len : Int) - 1 < off.toInt
  · rw [if_pos h1, if_neg (by omega), if_neg (by omega)]
  · rw [if_neg h1]
    by_cases h2 : off.toInt < 0
    · rw [if_pos h2, if_neg (by omega), if_pos h2]
    · rw [if_neg h2, if_pos (by omega)]

theorem buffer_readBit_run {s : St} (h : WF s) (off : Int64) :
    Buffer.ReadBit off s =
      if 0 ≤ off.toInt ∧ off.toInt < 8 * s.b.buf.len then
        (.ok (bitByte (bit s.bytes off.toInt.toNat)), s)
      else (.panic (bitPanic BufferOverreadError BufferUnderreadError off.toInt), s) := by
  unfold Buffer.ReadBit
  rw [bit_guard h]
  by_cases h1 : 0 ≤ off.toInt ∧ off.toInt < 8 * s.b.buf.len
  · rw [if_pos h1, if_pos h1]
    have := mini_readBit_run h.ok h1.1 0
    rw [if_pos h1.2] at this
    unfold Mini.ReadBit at this
    rw [bind_run] at this ⊢
    simp only [Mini.onB] at this
    revert this
    rcases bufLoad (off / 8) s with ⟨_ | _, s'⟩ <;> simp [Mini.putOut]
    intro h1 h2; exact ⟨h2, h1⟩
  · rw [if_neg h1, if_neg h1]

theorem buffer_setBit_run {s : St} (h : WF s) (off : Int64) :
    Buffer.SetBit off s =
      if 0 ≤ off.toInt ∧ off.toInt < 8 * s.b.buf.len then
        (.ok (), s.put (putBit s.bytes off.toInt.toNat true))
      else (.panic (bitPanic BufferOverwriteError BufferUnderwriteError off.toInt), s) := by
  unfold Buffer.SetBit
  rw [bit_guard h]
  by_cases h1 : 0 ≤ off.toInt ∧ off.toInt < 8 * s.b.buf.len
  · rw [if_pos h1, if_pos h1]
    have := mini_setBit_run h.ok h1.1
    rwa [if_pos h1.2] at this
  · rw [if_neg h1, if_neg h1]

theorem buffer_clearBit_run {s : St} (h : WF s) (off : Int64) :
    Buffer.ClearBit off s =
      if 0 ≤ off.toInt ∧ off.toInt < 8 * s.b.buf.len then
        (.ok (), s.put (putBit s.bytes off.toInt.toNat false))
      else (.panic (bitPanic BufferOverwriteError BufferUnderwriteError off.toInt), s) := by
  unfold Buffer.ClearBit
  rw [bit_guard h]
  by_cases h1 : 0 ≤ off.toInt ∧ off.toInt < 8 * s.b.buf.len
  · rw [if_pos h1, if_pos h1]
    have := mini_clearBit_run h.ok h1.1
    rwa [if_pos h1.2] at this
  · rw [if_neg h1, if_neg h1]

theorem buffer_flipBit_run {s : St} (h : WF s) (off : Int64) :
    Buffer.FlipBit off s =
      if 0 ≤ off.toInt ∧ off.toInt < 8 * s.b.buf.len then
        (.ok (), s.put (putBit s.bytes off.toInt.toNat (!bit s.bytes off.toInt.toNat)))
      else (.panic (bitPanic BufferOverwriteError BufferUnderwriteError off.toInt), s) := by
  unfold Buffer.FlipBit
  rw [bit_guard h]
  by_cases h1 : 0 ≤ off.toInt ∧ off.toInt < 8 * s.b.buf.len
  · rw [if_pos h1, if_pos h1]
    have := mini_flipBit_run h.ok h1.1
    rwa [if_pos h1.2] at this
  · rw [if_neg h1, if_neg h1]

end Crunch.V3
