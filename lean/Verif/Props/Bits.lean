import Verif.Props.Bytes

/-!
# Properties of the bit-level operations of v3 `Buffer` (C15 … C25)

`Spec.bit l i` is bit `i` of the byte list `l`, most significant bit of byte 0 first.
-/

namespace Crunch.V3
open Spec

/-! ## C15 -/

/-- C15: `ReadBit off` is bit `7 - off mod 8` of byte `off div 8`. -/
theorem C15_bit_numbering {s : St} (h : WF s) (off : Int64) (h0 : 0 ≤ off.toInt)
    (h1 : off.toInt < 8 * s.bytes.length) :
    ∃ b, s.bytes[off.toInt.toNat / 8]? = some b ∧
      Buffer.ReadBit off s = (.ok (if b.toNat.testBit (7 - off.toInt.toNat % 8) then 1 else 0), s) := by
  have hb := length_bytes h.ok
  refine ⟨s.bytes[off.toInt.toNat / 8]'(by omega), List.getElem?_eq_getElem _, ?_⟩
  rw [buffer_readBit_run h, if_pos (by omega)]
  simp only [bit, List.getElem?_eq_getElem (show off.toInt.toNat / 8 < s.bytes.length by omega)]
  cases (s.bytes[off.toInt.toNat / 8]'(by omega)).toNat.testBit (7 - off.toInt.toNat % 8) <;> rfl

example : Buffer.ReadBit 6 demo = (.ok 1, demo) := by
  obtain ⟨b, h1, h2⟩ := C15_bit_numbering demo_wf 6 (by decide) (by decide)
  have : b = 3 := by
    have : demo.bytes[(Int64.toInt 6).toNat / 8]? = some 3 := by decide
    rw [this] at h1; exact (Option.some.inj h1).symm
  subst this
  exact h2

/-! ## C16 -/

/-- The state change "bit `i` of the buffer becomes `v`, nothing else changes". -/
def OnlyBit (s s' : St) (i : Nat) (v : Bool) : Prop :=
  s'.b = s.b ∧ s'.bytes.length = s.bytes.length ∧
  (∀ j, bit s'.bytes j = if j = i then v else bit s.bytes j) ∧
  Untouched s.mem s'.mem s.b.buf.arr (s.b.buf.off + i / 8) (s.b.buf.off + i / 8 + 1) ∧
  s'.mem.arrays.length = s.mem.arrays.length

theorem put_putBit_only {s : St} (h : s.OK) {i : Nat} (hi : i < 8 * s.b.buf.len) (v : Bool) :
    OnlyBit s (s.put (putBit s.bytes i v)) i v := by
  have hb := length_bytes h
  have hl : (putBit s.bytes i v).length = s.b.buf.len := by rw [length_putBit (by omega), hb]
  refine ⟨rfl, ?_, ?_, ?_, put_arrays_length _ _⟩
  · rw [bytes_put h hl, hl, hb]
  · intro j; rw [bytes_put h hl, bit_putBit (by omega)]
  · intro c j _ hj
    have hw := write_eq_put h (p := i / 8) (bs := [if v then s.bytes.getD (i / 8) 0 ||| shl8 1 (UInt64.ofNat (7 - i % 8))
      else s.bytes.getD (i / 8) 0 &&& ~~~(shl8 1 (UInt64.ofNat (7 - i % 8)))]) (by rw [List.length_singleton]; omega)
    rw [show s.put (putBit s.bytes i v) = _ from hw.symm]
    exact write_array h (by rw [List.length_singleton]; omega) (by rw [List.length_singleton]; omega)

/-- C16: `SetBit`, `ClearBit` and `FlipBit` change exactly the addressed bit. -/
theorem C16_single_bit_updates {s : St} (h : WF s) (off : Int64) (h0 : 0 ≤ off.toInt)
    (h1 : off.toInt < 8 * s.bytes.length) :
    (∃ s', Buffer.SetBit off s = (.ok (), s') ∧ OnlyBit s s' off.toInt.toNat true) ∧
    (∃ s', Buffer.ClearBit off s = (.ok (), s') ∧ OnlyBit s s' off.toInt.toNat false) ∧
    (∃ s', Buffer.FlipBit off s = (.ok (), s') ∧ OnlyBit s s' off.toInt.toNat (!bit s.bytes off.toInt.toNat)) := by
  have hb := length_bytes h.ok
  refine ⟨⟨_, ?_, put_putBit_only h.ok (by omega) _⟩, ⟨_, ?_, put_putBit_only h.ok (by omega) _⟩,
    ⟨_, ?_, put_putBit_only h.ok (by omega) _⟩⟩
  · rw [buffer_setBit_run h, if_pos (by omega)]
  · rw [buffer_clearBit_run h, if_pos (by omega)]
  · rw [buffer_flipBit_run h, if_pos (by omega)]

example : ∃ s', Buffer.SetBit 95 demo = (.ok (), s') ∧ OnlyBit demo s' 95 true :=
  (C16_single_bit_updates demo_wf 95 (by decide) (by decide)).1

/-! ## C17 -/

theorem binary_mod (f : Nat → Bool) (n : Nat) : binary f (n + 64) % 2 ^ 64 = binary (fun i => f (n + i)) 64 := by
  have key : ∀ m, binary f (n + m) % 2 ^ m = binary (fun i => f (n + i)) m := by
    intro m
    induction m with
    | zero => simp [binary, Nat.mod_one]
    | succ m ih =>
      rw [← Nat.add_assoc, binary, binary, ← ih, Nat.pow_succ]
      have : (f (n + m)).toNat ≤ 1 := by cases f (n + m) <;> simp
      rw [Nat.mul_comm (2 ^ m) 2, Nat.mod_mul]
      rw [show (2 * binary f (n + m) + (f (n + m)).toNat) / 2 = binary f (n + m) by omega]
      omega
  exact key 64

/-- C17: `ReadBits off n` is the binary number of bits `off … off+n-1`, modulo 2^64; so it is
exact up to 64 bits and consists of the last 64 bits beyond. -/
theorem C17_readBits_value {s : St} (h : WF s) (off n : Int64) (hn : 1 ≤ n.toInt) (h0 : 0 ≤ off.toInt)
    (h1 : off.toInt + n.toInt ≤ 8 * s.bytes.length) :
    ∃ v : UInt64, Buffer.ReadBits off n s = (.ok v, s) ∧
      v.toNat = binary (fun i => bit s.bytes (off.toInt.toNat + i)) n.toInt.toNat % 2 ^ 64 ∧
      (n.toInt ≤ 64 → v.toNat = binary (fun i => bit s.bytes (off.toInt.toNat + i)) n.toInt.toNat) ∧
      (64 ≤ n.toInt → v.toNat =
        binary (fun i => bit s.bytes (off.toInt.toNat + (n.toInt.toNat - 64 + i))) 64) := by
  have hb := length_bytes h.ok
  have hl : loops n = n.toInt.toNat := by unfold loops; omega
  refine ⟨UInt64.ofNat (binary (fun i => bit s.bytes (off.toInt.toNat + i)) (loops n)), ?_, ?_, ?_, ?_⟩
  · rw [buffer_readBits_run h, if_pos (by omega)]
  · rw [UInt64.toNat_ofNat', hl]
  · intro h64
    rw [UInt64.toNat_ofNat', hl, Nat.mod_eq_of_lt]
    exact Nat.lt_of_lt_of_le (binary_lt _ _) (Nat.pow_le_pow_right (by decide) (by omega))
  · intro h64
    rw [UInt64.toNat_ofNat', hl]
    have := binary_mod (fun i => bit s.bytes (off.toInt.toNat + i)) (n.toInt.toNat - 64)
    rwa [show n.toInt.toNat - 64 + 64 = n.toInt.toNat by omega] at this

/-- Bits 4…15 of 0x03 0x04. -/
example : ∃ v : UInt64, Buffer.ReadBits 4 12 demo = (.ok v, demo) ∧ v.toNat = 0x304 := by
  obtain ⟨v, h1, _, h2, _⟩ := C17_readBits_value demo_wf 4 12 (by decide) (by decide) (by decide)
  exact ⟨v, h1, (h2 (by decide)).trans (by decide)⟩

/-! ## C18 -/

theorem put_putBits_bit {s : St} (h : s.OK) {o : Nat} {f : Nat → Bool} {n : Nat} (hn : o + n ≤ 8 * s.b.buf.len) :
    (s.put (putBits s.bytes o f n)).bytes.length = s.bytes.length ∧
    ∀ j, bit (s.put (putBits s.bytes o f n)).bytes j = if o ≤ j ∧ j < o + n then f (j - o) else bit s.bytes j := by
  have hb := length_bytes h
  have hl : (putBits s.bytes o f n).length = s.b.buf.len := by rw [length_putBits _ _ (by omega), hb]
  rw [bytes_put h hl]
  exact ⟨by omega, fun j => bit_putBits _ _ (by omega) j⟩

/-- C18: `SetBits off data n` makes bits `off … off+n-1` the low `n` binary digits of `data` (zero-extended),
most significant first; no other bit, byte or field changes; and `ReadBits` returns `data mod 2^n`. -/
theorem C18_setBits_effect {s : St} (h : WF s) (off : Int64) (data : UInt64) (n : Int64) (hn : 1 ≤ n.toInt)
    (h0 : 0 ≤ off.toInt) (h1 : off.toInt + n.toInt ≤ 8 * s.bytes.length) :
    ∃ s', Buffer.SetBits off data n s = (.ok (), s') ∧ s'.b = s.b ∧ s'.bytes.length = s.bytes.length ∧
      (∀ i, i < n.toInt.toNat → bit s'.bytes (off.toInt.toNat + i) = data.toNat.testBit (n.toInt.toNat - 1 - i)) ∧
      (∀ j, j < off.toInt.toNat ∨ off.toInt.toNat + n.toInt.toNat ≤ j → bit s'.bytes j = bit s.bytes j) ∧
      Untouched s.mem s'.mem s.b.buf.arr s.b.buf.off (s.b.buf.off + s.b.buf.len) ∧
      ∃ v : UInt64, Buffer.ReadBits off n s' = (.ok v, s') ∧ v.toNat = data.toNat % 2 ^ n.toInt.toNat := by
  have hb := length_bytes h.ok
  have hl : loops n = n.toInt.toNat := by unfold loops; omega
  obtain ⟨p1, p2⟩ := put_putBits_bit h.ok (o := off.toInt.toNat) (f := fieldBit data n) (n := n.toInt.toNat) (by omega)
  have hbit : ∀ i, i < n.toInt.toNat →
      bit (s.put (putBits s.bytes off.toInt.toNat (fieldBit data n) n.toInt.toNat)).bytes (off.toInt.toNat + i) =
        data.toNat.testBit (n.toInt.toNat - 1 - i) := by
    intro i hi
    rw [p2, if_pos (by omega), Nat.add_sub_cancel_left]
    unfold fieldBit
    rw [decide_eq_true hn, Bool.true_and]
  refine ⟨s.put (putBits s.bytes off.toInt.toNat (fieldBit data n) n.toInt.toNat), ?_, rfl, p1, hbit, ?_, ?_, ?_⟩
  · rw [buffer_setBits_run h, if_pos (by omega), hl]
  · intro j hj
    rw [p2, if_neg (by omega)]
  · intro c i _ hi
    apply put_array h.ok _ hi
    rw [length_putBits _ _ (by omega), hb]
  · obtain ⟨v, r1, r2, _⟩ := C17_readBits_value (h.put (putBits s.bytes off.toInt.toNat (fieldBit data n) n.toInt.toNat))
      off n hn h0 (by rw [p1]; exact h1)
    refine ⟨v, r1, ?_⟩
    rw [r2, binary_congr (g := fun i => data.toNat.testBit (n.toInt.toNat - 1 - i)) hbit, binary_testBit]
    apply Nat.mod_eq_of_lt
    have := data.toNat_lt
    have := Nat.mod_le data.toNat (2 ^ n.toInt.toNat)
    omega

example : ∃ s', Buffer.SetBits 5 0x5A5 11 demo = (.ok (), s') ∧
    ∃ v : UInt64, Buffer.ReadBits 5 11 s' = (.ok v, s') ∧ v.toNat = 0x5A5 := by
  obtain ⟨s', h1, _, _, _, _, _, v, h2, h3⟩ := C18_setBits_effect demo_wf 5 0x5A5 11 (by decide) (by decide) (by decide)
  exact ⟨s', h1, v, h2, h3.trans (by decide)⟩

/-! ## C19 -/

/-- C19: bounds of the single-bit operations; a rejected one changes nothing. -/
theorem C19_bit_bounds {s : St} (h : WF s) (off : Int64) :
    ((∃ v, Buffer.ReadBit off s = (.ok v, s)) ↔ 0 ≤ off.toInt ∧ off.toInt < 8 * s.bytes.length) ∧
    (8 * s.bytes.length ≤ off.toInt → Buffer.ReadBit off s = (.panic (.err BufferOverreadError), s)) ∧
    (off.toInt < 0 → Buffer.ReadBit off s = (.panic (.err BufferUnderreadError), s)) ∧
    (∀ op, op = Buffer.SetBit ∨ op = Buffer.ClearBit ∨ op = Buffer.FlipBit →
      ((∃ s', op off s = (.ok (), s')) ↔ 0 ≤ off.toInt ∧ off.toInt < 8 * s.bytes.length) ∧
      (8 * s.bytes.length ≤ off.toInt → op off s = (.panic (.err BufferOverwriteError), s)) ∧
      (off.toInt < 0 → op off s = (.panic (.err BufferUnderwriteError), s))) := by
  rw [length_bytes h.ok]
  refine ⟨?_, ?_, ?_, ?_⟩
  · rw [buffer_readBit_run h]
    constructor
    · rintro ⟨v, hv⟩
      split at hv
      · assumption
      · simp at hv
    · intro hc; rw [if_pos hc]; exact ⟨_, rfl⟩
  · intro hc; rw [buffer_readBit_run h, if_neg (by omega), bitPanic, if_neg (by omega)]
  · intro hc; rw [buffer_readBit_run h, if_neg (by omega), bitPanic, if_pos hc]
  · intro op hop
    have hrun : ∃ s1, op off s = if 0 ≤ off.toInt ∧ off.toInt < 8 * s.b.buf.len then (.ok (), s1)
        else (.panic (bitPanic BufferOverwriteError BufferUnderwriteError off.toInt), s) := by
      rcases hop with rfl | rfl | rfl
      · exact ⟨_, buffer_setBit_run h off⟩
      · exact ⟨_, buffer_clearBit_run h off⟩
      · exact ⟨_, buffer_flipBit_run h off⟩
    obtain ⟨s1, hrun⟩ := hrun
    rw [hrun]
    refine ⟨⟨?_, ?_⟩, ?_, ?_⟩
    · rintro ⟨v, hv⟩
      split at hv
      · assumption
      · simp at hv
    · intro hc; rw [if_pos hc]; exact ⟨_, rfl⟩
    · intro hc; rw [if_neg (by omega), bitPanic, if_neg (by omega)]
    · intro hc; rw [if_neg (by omega), bitPanic, if_pos hc]

/-- C19: bounds of the multi-bit operations. -/
theorem C19_bits_bounds {s : St} (h : WF s) (off n : Int64) (data : UInt64) (hn : 1 ≤ n.toInt) :
    ((∃ v, Buffer.ReadBits off n s = (.ok v, s)) ↔ 0 ≤ off.toInt ∧ off.toInt + n.toInt ≤ 8 * s.bytes.length) ∧
    ((∃ s', Buffer.SetBits off data n s = (.ok (), s')) ↔
      0 ≤ off.toInt ∧ off.toInt + n.toInt ≤ 8 * s.bytes.length) ∧
    (off.toInt < 0 → Buffer.ReadBits off n s = (.panic (.err BufferUnderreadError), s) ∧
      Buffer.SetBits off data n s = (.panic (.err BufferUnderwriteError), s)) ∧
    (0 ≤ off.toInt → 8 * s.bytes.length < off.toInt + n.toInt →
      Buffer.ReadBits off n s = (.panic (.err BufferOverreadError), s) ∧
      (Buffer.SetBits off data n s).1 = .panic (.err BufferOverwriteError)) := by
  rw [length_bytes h.ok]
  have hl : (loops n : Int) = n.toInt := by unfold loops; omega
  rw [buffer_readBits_run h, buffer_setBits_run h]
  by_cases hc : 0 ≤ off.toInt ∧ off.toInt + n.toInt ≤ 8 * s.b.buf.len
  · rw [if_pos (by omega), if_pos (by omega)]
    exact ⟨⟨fun _ => hc, fun _ => ⟨_, rfl⟩⟩, ⟨fun _ => hc, fun _ => ⟨_, rfl⟩⟩, fun _ => by omega, fun _ _ => by omega⟩
  · rw [if_neg (by omega), if_neg (by omega)]
    refine ⟨⟨fun ⟨_, hv⟩ => by simp at hv, fun hh => absurd hh hc⟩, ⟨fun ⟨_, hv⟩ => by simp at hv, fun hh => absurd hh hc⟩,
      fun h0 => ?_, fun h0 h1 => ?_⟩
    · rw [if_neg (by omega), bitPanic, bitPanic, if_pos h0, if_pos h0]; exact ⟨rfl, rfl⟩
    · rw [bitPanic, bitPanic, if_neg (by omega), if_neg (by omega)]; exact ⟨rfl, rfl⟩

example : (Buffer.ReadBits 90 7 demo) = (.panic (.err BufferOverreadError), demo) :=
  ((C19_bits_bounds demo_wf 90 7 0 (by decide)).2.2.2 (by decide) (by decide)).1

/-! ## C20 -/

/-- C20 is false: `SetBits` that runs off the end has already changed the bits up to the end. -/
theorem C20_failed_setBits_false :
    ¬ ∀ (s : St), WF s → ∀ (off n : Int64) (data : UInt64) (p : Panic) (s' : St), 1 ≤ n.toInt →
      Buffer.SetBits off data n s = (.panic p, s') → s'.bytes = s.bytes := by
  intro hh
  have hrun := buffer_setBits_run demo_wf 92 0 8
  rw [if_neg (by decide), if_pos (by decide)] at hrun
  have := hh demo demo_wf 92 8 0 _ _ (by decide) hrun
  have hb : bit (demo.put (putBits demo.bytes (Int64.toInt 92).toNat (fieldBit 0 8)
      (8 * demo.b.buf.len - (Int64.toInt 92).toNat))).bytes 92 = false := by
    rw [(put_putBits_bit demo_wf.ok (by decide)).2]; decide
  rw [this] at hb
  revert hb; decide

/-- C20, the part that holds: the exact effect of a failing `SetBits`.  Nothing changes when the
first bit is already out of range; otherwise exactly the bits from `off` to the end of the buffer
are set, as for a shorter field holding the leading digits of `data`; the fields never change. -/
theorem C20_failed_setBits_partial {s s' : St} (h : WF s) (off n : Int64) (data : UInt64) (p : Panic)
    (hn : 1 ≤ n.toInt) (hf : Buffer.SetBits off data n s = (.panic p, s')) :
    s'.b = s.b ∧ s'.bytes.length = s.bytes.length ∧
    (off.toInt < 0 ∨ 8 * s.bytes.length ≤ off.toInt → s' = s) ∧
    (0 ≤ off.toInt → ∀ j, bit s'.bytes j =
      if off.toInt.toNat ≤ j ∧ j < 8 * s.bytes.length then
        data.toNat.testBit (n.toInt.toNat - 1 - (j - off.toInt.toNat)) else bit s.bytes j) := by
  have hb := length_bytes h.ok
  rw [buffer_setBits_run h] at hf
  split at hf
  · simp at hf
  · injection hf with _ hs
    subst hs
    by_cases hc : 0 ≤ off.toInt ∧ off.toInt < 8 * s.b.buf.len
    · rw [if_pos hc]
      obtain ⟨p1, p2⟩ := put_putBits_bit h.ok (o := off.toInt.toNat) (f := fieldBit data n)
        (n := 8 * s.b.buf.len - off.toInt.toNat) (by omega)
      refine ⟨rfl, p1, fun hx => by omega, fun _ j => ?_⟩
      rw [p2]
      unfold fieldBit
      rw [decide_eq_true hn, Bool.true_and]
      by_cases hj : off.toInt.toNat ≤ j ∧ j < 8 * s.b.buf.len
      · rw [if_pos (by omega), if_pos (by omega)]
      · rw [if_neg (by omega), if_neg (by omega)]
    · rw [if_neg hc]
      exact ⟨rfl, rfl, fun _ => rfl, fun h0 j => by rw [if_neg (by omega)]⟩

/-! ## C21 -/

/-- C21 is false: with `n ≤ 0` `ReadBits` still returns one bit and `SetBits` clears one. -/
theorem C21_nonpositive_count_false :
    (¬ ∀ (s : St), WF s → ∀ (off n : Int64), n.toInt ≤ 0 → 0 ≤ off.toInt → off.toInt < 8 * s.bytes.length →
      Buffer.ReadBits off n s = (.ok 0, s)) ∧
    (¬ ∀ (s : St), WF s → ∀ (off n : Int64) (data : UInt64), n.toInt ≤ 0 → 0 ≤ off.toInt →
      off.toInt < 8 * s.bytes.length → Buffer.SetBits off data n s = (.ok (), s)) := by
  constructor
  · intro hh
    have := hh demo demo_wf 6 0 (by decide) (by decide) (by decide)
    rw [buffer_readBits_run demo_wf, if_pos (by decide)] at this
    injection this with this _
    injection this with this
    revert this; decide
  · intro hh
    have h2 := hh demo demo_wf 6 0 0 (by decide) (by decide) (by decide)
    rw [buffer_setBits_run demo_wf, if_pos (by decide)] at h2
    injection h2 with _ h2
    have hb := (put_putBits_bit demo_wf.ok (o := (Int64.toInt 6).toNat) (f := fieldBit 0 0) (n := loops 0) (by decide)).2 6
    rw [h2] at hb
    revert hb; decide

/-- C21, the part that holds (the exact effect): with `n ≤ 0`, `ReadBits` is the single bit at `off`
and `SetBits` is `ClearBit` at `off`, whatever `data`. -/
theorem C21_nonpositive_count_partial {s : St} (h : WF s) (off n : Int64) (data : UInt64) (hn : n.toInt ≤ 0) :
    (Buffer.ReadBits off n s = match Buffer.ReadBit off s with
      | (.ok v, s') => (.ok v.toUInt64, s')
      | (.panic p, s') => (.panic p, s')) ∧
    Buffer.SetBits off data n s = Buffer.ClearBit off s := by
  have hl : loops n = 1 := by unfold loops; omega
  constructor
  · rw [buffer_readBits_run h, buffer_readBit_run h, hl]
    by_cases hc : 0 ≤ off.toInt ∧ off.toInt < 8 * s.b.buf.len
    · rw [if_pos (by omega), if_pos hc]
      simp only [binary, Nat.add_zero, Nat.mul_zero, Nat.zero_add]
      cases bit s.bytes off.toInt.toNat <;> rfl
    · rw [if_neg (by omega), if_neg hc]
  · rw [buffer_setBits_run h, buffer_clearBit_run h, hl]
    by_cases hc : 0 ≤ off.toInt ∧ off.toInt < 8 * s.b.buf.len
    · rw [if_pos (by omega), if_pos hc]
      have : fieldBit data n 0 = false := by
        unfold fieldBit; rw [decide_eq_false (by omega), Bool.false_and]
      simp only [putBits, this, Nat.add_zero]
    · rw [if_neg (by omega), if_neg hc, if_neg hc]

/-! ## C22 -/

/-- What a bit-level Next operation is, in terms of the positioned one. -/
def NextBitOf (d : Int64) (next pos : Res α × St) : Prop :=
  match pos with
  | (.ok a, s') => next = (.ok a, { s' with b := { s'.b with boff := s'.b.boff + d } })
  | (.panic p, s') => next = (.panic p, s')

theorem nextBitOf_advance (d : Int64) (r : Res α × St) : NextBitOf d (advanceBit d r) r := by
  rcases r with ⟨_ | _, s⟩ <;> exact rfl

/-- C22: the bit-level Next methods. -/
theorem C22_next_bit_ops (s : St) :
    NextBitOf 1 (Buffer.ReadBitNext s) (Buffer.ReadBit s.b.boff s) ∧
    (∀ n, NextBitOf n (Buffer.ReadBitsNext n s) (Buffer.ReadBits s.b.boff n s)) ∧
    NextBitOf 1 (Buffer.SetBitNext s) (Buffer.SetBit s.b.boff s) ∧
    NextBitOf 1 (Buffer.ClearBitNext s) (Buffer.ClearBit s.b.boff s) ∧
    (∀ data n, NextBitOf n (Buffer.SetBitsNext data n s) (Buffer.SetBits s.b.boff data n s)) ∧
    NextBitOf 1 (Buffer.FlipBitNext s) (Buffer.FlipBit s.b.boff s) := by
  refine ⟨?_, ?_, ?_, ?_, ?_, ?_⟩
  · rw [readBitNext_run]; exact nextBitOf_advance _ _
  · intro n; rw [readBitsNext_run]; exact nextBitOf_advance _ _
  · rw [setBitNext_run]; exact nextBitOf_advance _ _
  · rw [clearBitNext_run]; exact nextBitOf_advance _ _
  · intro d n; rw [setBitsNext_run]; exact nextBitOf_advance _ _
  · rw [flipBitNext_run]; exact nextBitOf_advance _ _

/-- C22: the offsets after a bit-level Next operation (`d` its width): moved by exactly `d` without
wrap-around on success, not moved on a panic; the byte offset is never touched. -/
theorem C22_next_bit_advance {s : St} (h : WF s) (n : Int64) (hn : 1 ≤ n.toInt) (data : UInt64) :
    (∀ v s', Buffer.ReadBitsNext n s = (.ok v, s') →
      s'.b.boff.toInt = s.b.boff.toInt + n.toInt ∧ s'.b.off = s.b.off) ∧
    (∀ p s', Buffer.ReadBitsNext n s = (.panic p, s') → s' = s) ∧
    (∀ s', Buffer.SetBitsNext data n s = (.ok (), s') →
      s'.b.boff.toInt = s.b.boff.toInt + n.toInt ∧ s'.b.off = s.b.off) ∧
    (∀ p s', Buffer.SetBitsNext data n s = (.panic p, s') → s'.b = s.b) := by
  have hL := h.len_lt
  have hl : (loops n : Int) = n.toInt := by unfold loops; omega
  have key : 0 ≤ s.b.boff.toInt ∧ s.b.boff.toInt + loops n ≤ 8 * s.b.buf.len →
      (s.b.boff + n).toInt = s.b.boff.toInt + n.toInt := by
    intro h1; rw [toInt_add]; omega
  refine ⟨?_, ?_, ?_, ?_⟩
  · intro v s' hr
    rw [readBitsNext_run, buffer_readBits_run h] at hr
    split at hr
    · rename_i hc
      simp only [advanceBit] at hr
      injection hr with _ hr; subst hr
      exact ⟨key hc, rfl⟩
    · simp [advanceBit] at hr
  · intro p s' hr
    rw [readBitsNext_run, buffer_readBits_run h] at hr
    split at hr
    · simp [advanceBit] at hr
    · simp only [advanceBit] at hr
      injection hr with _ hr; exact hr.symm
  · intro s' hr
    rw [setBitsNext_run, buffer_setBits_run h] at hr
    split at hr
    · rename_i hc
      simp only [advanceBit] at hr
      injection hr with _ hr; subst hr
      exact ⟨key hc, rfl⟩
    · simp [advanceBit] at hr
  · intro p s' hr
    rw [setBitsNext_run, buffer_setBits_run h] at hr
    split at hr
    · simp [advanceBit] at hr
    · simp only [advanceBit] at hr
      injection hr with _ hr; subst hr
      split <;> rfl

/-! ## C23 -/

theorem binary_add (f : Nat → Bool) (m n : Nat) :
    binary f (m + n) = binary f m * 2 ^ n + binary (fun i => f (m + i)) n := by
  induction n with
  | zero => simp [binary]
  | succ n ih =>
    rw [← Nat.add_assoc, binary, binary, ih, Nat.pow_succ]
    simp only [Nat.mul_add, ← Nat.mul_assoc, Nat.mul_comm]
    omega

theorem binary_byte (b : UInt8) : binary (fun i => b.toNat.testBit (7 - i)) 8 = b.toNat := by
  rw [binary_testBit b.toNat 8]
  exact Nat.mod_eq_of_lt b.toNat_lt

theorem value_append_singleton (l : List UInt8) (b : UInt8) : value (l ++ [b]) = value l + 256 ^ l.length * b.toNat := by
  induction l with
  | nil => simp [value]
  | cons x l ih => simp only [List.cons_append, value, ih, List.length_cons, Nat.pow_succ, Nat.mul_add]; 
                   rw [Nat.mul_comm (256 ^ l.length) 256, Nat.mul_assoc]; omega

theorem decode_be_cons (b : UInt8) (l : List UInt8) : decode .be (b :: l) = b.toNat * 256 ^ l.length + decode .be l := by
  simp only [decode, List.reverse_cons, value_append_singleton, List.length_reverse]
  rw [Nat.mul_comm]; omega

/-- The bits of whole bytes spell the big-endian number. -/
theorem binary_bytes (l : List UInt8) : binary (bit l) (8 * l.length) = decode .be l := by
  induction l with
  | nil => rfl
  | cons b l ih =>
    rw [List.length_cons, show 8 * (l.length + 1) = 8 + 8 * l.length by omega, binary_add, decode_be_cons, ← ih]
    rw [show 2 ^ (8 * l.length) = 256 ^ l.length by rw [Nat.pow_mul]]
    congr 1
    · congr 1
      rw [← binary_byte b]
      apply binary_congr
      intro i hi
      simp [bit, show i / 8 = 0 by omega, Nat.mod_eq_of_lt hi]
    · apply binary_congr
      intro i _
      simp only [bit]
      rw [show (8 + i) / 8 = i / 8 + 1 by omega, List.getElem?_cons_succ, show (8 + i) % 8 = i % 8 by omega]

theorem bit_slice {l : List UInt8} {p w i : Nat} (h : i < 8 * w) : bit (slice l p w) i = bit l (8 * p + i) := by
  unfold bit
  rw [getElem?_slice (by omega), show (8 * p + i) / 8 = p + i / 8 by omega, show (8 * p + i) % 8 = i % 8 by omega]

theorem bitOff {off : Int64} {L : Nat} (h0 : 0 ≤ off.toInt) (h1 : off.toInt ≤ L) (hL : L < 2 ^ 50) :
    (off * 8).toInt = 8 * off.toInt := by
  have : (8 : Int64).toInt = 8 := rfl
  rw [toInt_mul, this]; omega

/-- C23: `8·w` bits at bit offset `8·off` are the `w`-byte big-endian integer at byte offset `off`. -/
theorem C23_bits_are_be_read {s : St} (h : WF s) (k : Kind) (off : Int64) (h0 : 0 ≤ off.toInt)
    (h1 : off.toInt + k.size ≤ s.bytes.length) :
    ∃ (x : k.Ty) (v : UInt64), Buffer.Read k .be off 1 s = (.ok [x], s) ∧
      Buffer.ReadBits (off * 8) (Int64.ofNat (8 * k.size)) s = (.ok v, s) ∧ v.toNat = k.pat x := by
  have hb := length_bytes h.ok
  have hL := h.len_lt
  have h8 := size_le k; have hp := size_pos k
  have eo := bitOff h0 (show off.toInt ≤ s.b.buf.len by omega) hL
  have en : (Int64.ofNat (8 * k.size)).toInt = 8 * k.size := by rw [toInt_ofNat (by omega)]; omega
  obtain ⟨out, r1, r2, r3⟩ := C03_typed_read_value h k .be off 1 (by decide) h0 (by rw [toInt_one']; omega)
  obtain ⟨v, v1, _, v2, _⟩ := C17_readBits_value h (off * 8) (Int64.ofNat (8 * k.size)) (by omega) (by omega) (by omega)
  rw [toInt_one'] at r2
  match out, r1, r2, r3 with
  | [x], r1, _, r3 =>
    refine ⟨x, v, r1, v1, ?_⟩
    have hx := r3 0 (by simp)
    simp only [List.getElem_cons_zero, Nat.zero_mul, Nat.add_zero] at hx
    rw [v2 (by omega), hx, ← binary_bytes, length_slice (by omega), en,
      show (8 * (k.size : Int)).toNat = 8 * k.size by omega]
    apply binary_congr
    intro i hi
    rw [bit_slice hi, eo, show (8 * off.toInt).toNat = 8 * off.toInt.toNat by omega]

theorem bit_digits_reverse (w v i : Nat) (h : i < 8 * w) :
    bit (encode .be w v) i = v.testBit (8 * w - 1 - i) := by
  have hl : (encode .be w v).length = w := length_encode ..
  unfold bit
  rw [getElem?_encode _ _ _ _ (show i / 8 < w by omega)]
  simp only [digitPos, UInt8.toNat_ofNat', Nat.mod_mod_of_dvd _ (show 2 ^ 8 ∣ 256 from ⟨1, rfl⟩)]
  rw [show (256 : Nat) = 2 ^ 8 from rfl, Nat.testBit_mod_two_pow, decide_eq_true (show 7 - i % 8 < 8 by omega), Bool.true_and,
    ← Nat.pow_mul, ← Nat.shiftRight_eq_div_pow, Nat.testBit_shiftRight]
  congr 1
  omega

/-- C23: `SetBits` of `8·w` bits at `8·off` has exactly the effect of the big-endian write of the
unsigned integer with that value. -/
theorem C23_setBits_is_be_write {s : St} (h : WF s) (k : Kind) (off : Int64) (x : k.Ty) (data : UInt64)
    (hx : k.pat x = data.toNat % 256 ^ k.size) (h0 : 0 ≤ off.toInt) (h1 : off.toInt + k.size ≤ s.bytes.length) :
    ∃ s', Buffer.SetBits (off * 8) data (Int64.ofNat (8 * k.size)) s = (.ok (), s') ∧
      Buffer.Write k .be off [x] s = (.ok (), s') := by
  have hb := length_bytes h.ok
  have hL := h.len_lt
  have h8 := size_le k; have hp := size_pos k
  have eo := bitOff h0 (show off.toInt ≤ s.b.buf.len by omega) hL
  have en : (Int64.ofNat (8 * k.size)).toInt = 8 * k.size := by rw [toInt_ofNat (by omega)]; omega
  have hl : loops (Int64.ofNat (8 * k.size)) = 8 * k.size := by unfold loops; omega
  have hen : (enc k .be [x]).length = k.size := by rw [length_enc]; simp
  refine ⟨s.put (patch s.bytes off.toInt.toNat (enc k .be [x])), ?_, ?_⟩
  · rw [buffer_setBits_run h, if_pos (by omega), hl]
    congr 2
    apply bit_ext
    · rw [length_putBits _ _ (by omega), length_patch (by omega)]
    · intro j hj
      rw [bit_putBits _ _ (by omega), eo, show (8 * off.toInt).toNat = 8 * off.toInt.toNat by omega]
      have hpe : ∀ q, (patch s.bytes off.toInt.toNat (enc k .be [x]))[q]? =
          if off.toInt.toNat ≤ q ∧ q < off.toInt.toNat + k.size then (enc k .be [x])[q - off.toInt.toNat]? else s.bytes[q]? := by
        intro q; rw [getElem?_patch (by omega), hen]
      by_cases hc : 8 * off.toInt.toNat ≤ j ∧ j < 8 * off.toInt.toNat + 8 * k.size
      · rw [if_pos hc]
        have e1 : bit (patch s.bytes off.toInt.toNat (enc k .be [x])) j = bit (enc k .be [x]) (j - 8 * off.toInt.toNat) := by
          unfold bit
          rw [hpe, if_pos (by omega), show j / 8 - off.toInt.toNat = (j - 8 * off.toInt.toNat) / 8 by omega,
            show (j - 8 * off.toInt.toNat) % 8 = j % 8 by omega]
        rw [e1, show enc k .be [x] = encode .be k.size (k.pat x) by simp [enc], bit_digits_reverse _ _ _ (by omega)]
        unfold fieldBit
        rw [decide_eq_true (by omega), Bool.true_and, hx, show (256 : Nat) ^ k.size = 2 ^ (8 * k.size) by rw [Nat.pow_mul],
          Nat.testBit_mod_two_pow, decide_eq_true (by omega), Bool.true_and, en]
        congr 1
      · rw [if_neg hc]
        unfold bit
        rw [hpe, if_neg (by omega)]
  · rw [buffer_write_run h k .be off [x] (by simp [maxAlloc]; omega), if_pos ⟨by simp, h0, by simp; omega⟩,
      write_eq_put h.ok (by omega)]

example : ∃ s', Buffer.SetBits (3 * 8) 0xBEEF (Int64.ofNat (8 * Kind.u16.size)) demo = (.ok (), s') ∧
    Buffer.Write .u16 .be 3 [0xBEEF] demo = (.ok (), s') :=
  C23_setBits_is_be_write demo_wf .u16 3 0xBEEF 0xBEEF (by decide) (by decide) (by decide)

/-! ## C24, C25 -/

/-- C24: the whole-buffer operations on a non-empty buffer. -/
theorem C24_whole_buffer_ops {s : St} (h : WF s) (hne : s.bytes ≠ []) :
    (∃ s', Buffer.ClearAllBits s = (.ok (), s') ∧ s'.b = s.b ∧ s'.bytes = List.replicate s.bytes.length 0 ∧
      Untouched s.mem s'.mem s.b.buf.arr s.b.buf.off (s.b.buf.off + s.b.buf.len)) ∧
    (∃ s', Buffer.SetAllBits s = (.ok (), s') ∧ s'.b = s.b ∧ s'.bytes = List.replicate s.bytes.length 0xFF ∧
      Untouched s.mem s'.mem s.b.buf.arr s.b.buf.off (s.b.buf.off + s.b.buf.len)) ∧
    (∃ s', Buffer.FlipAllBits s = (.ok (), s') ∧ s'.b = s.b ∧ s'.bytes.length = s.bytes.length ∧
      (∀ j, j < 8 * s.bytes.length → bit s'.bytes j = !bit s.bytes j) ∧
      Untouched s.mem s'.mem s.b.buf.arr s.b.buf.off (s.b.buf.off + s.b.buf.len) ∧
      Buffer.FlipAllBits s' = (.ok (), s)) := by
  have hb := length_bytes h.ok
  have hp : 0 < s.b.buf.len := by rw [← hb]; exact List.length_pos_iff.mpr hne
  refine ⟨⟨s.put (s.bytes.map fun _ => 0), ?_, rfl, ?_, ?_⟩, ⟨s.put (s.bytes.map fun _ => 0xFF), ?_, rfl, ?_, ?_⟩,
    ⟨s.put (s.bytes.map fun x => ~~~x), ?_, rfl, ?_, ?_, ?_, ?_⟩⟩
  · rw [buffer_clearAll, mini_clearAll h.ok hp]
  · rw [bytes_put h.ok (by simpa using hb)]; simp [List.map_const']
  · intro c i _ hi; exact put_array h.ok (by simpa using hb) hi
  · rw [buffer_setAll, mini_setAll h.ok hp]
  · rw [bytes_put h.ok (by simpa using hb)]; simp [List.map_const']
  · intro c i _ hi; exact put_array h.ok (by simpa using hb) hi
  · rw [buffer_flipAll, mini_flipAll h.ok hp]
  · rw [bytes_put h.ok (by simpa using hb)]; simp
  · intro j hj
    rw [bytes_put h.ok (by simpa using hb)]
    unfold bit
    rw [List.getElem?_map, List.getElem?_eq_getElem (show j / 8 < s.bytes.length by omega)]
    simp only [Option.map_some]
    rw [testBit_not8 _ _ (by omega)]
  · intro c i _ hi; exact put_array h.ok (by simpa using hb) hi
  · rw [buffer_flipAll, mini_flipAll (put_ok h.ok _) hp, bytes_put h.ok (by simpa using hb),
      put_put h.ok (by simpa using hb) (by simpa using hb), List.map_map]
    have : ((fun x : UInt8 => ~~~x) ∘ fun x => ~~~x) = id := by funext x; simp
    rw [this, List.map_id, put_self h.ok]

example : ∃ s', Buffer.FlipAllBits demo = (.ok (), s') ∧ Buffer.FlipAllBits s' = (.ok (), demo) :=
  let ⟨s', h1, _, _, _, _, h2⟩ := (C24_whole_buffer_ops demo_wf (by decide)).2.2
  ⟨s', h1, h2⟩

/-- C24: flipping one bit twice restores the whole state. -/
theorem C24_flipBit_twice {s : St} (h : WF s) (off : Int64) (h0 : 0 ≤ off.toInt)
    (h1 : off.toInt < 8 * s.bytes.length) :
    ∃ s', Buffer.FlipBit off s = (.ok (), s') ∧ Buffer.FlipBit off s' = (.ok (), s) := by
  have hb := length_bytes h.ok
  have hl : (putBit s.bytes off.toInt.toNat (!bit s.bytes off.toInt.toNat)).length = s.b.buf.len := by
    rw [length_putBit (by omega), hb]
  refine ⟨s.put (putBit s.bytes off.toInt.toNat (!bit s.bytes off.toInt.toNat)), ?_, ?_⟩
  · rw [buffer_flipBit_run h, if_pos (by omega)]
  · rw [buffer_flipBit_run (h.put _)]
    rw [if_pos ⟨h0, by rw [put_b]; omega⟩, bytes_put h.ok hl, put_put h.ok hl (by rw [length_putBit (by omega), hl])]
    have : putBit (putBit s.bytes off.toInt.toNat (!bit s.bytes off.toInt.toNat)) off.toInt.toNat
        (!bit (putBit s.bytes off.toInt.toNat (!bit s.bytes off.toInt.toNat)) off.toInt.toNat) = s.bytes := by
      apply bit_ext
      · rw [length_putBit (by omega), hl, hb]
      · intro j _
        rw [bit_putBit (by omega), bit_putBit (by omega), bit_putBit (by omega)]
        by_cases e : j = off.toInt.toNat
        · subst e; simp
        · rw [if_neg e, if_neg e]
    rw [this, put_self h.ok]

/-- C25 is false: on an empty buffer all three whole-buffer operations panic with an index error. -/
theorem C25_whole_buffer_never_panic_false {s : St} (h : WF s) (he : s.bytes = []) :
    Buffer.ClearAllBits s = (.panic .index, s) ∧ Buffer.SetAllBits s = (.panic .index, s) ∧
    Buffer.FlipAllBits s = (.panic .index, s) := by
  have hb := length_bytes h.ok
  have h0 : s.b.buf.len = 0 := by rw [← hb, he]; rfl
  exact ⟨mini_clearAll_empty h.ok h0, mini_setAll_empty h.ok h0, mini_flipAll_empty h.ok h0⟩

example : Buffer.ClearAllBits demoEmpty = (.panic .index, demoEmpty) :=
  (C25_whole_buffer_never_panic_false demoEmpty_wf (by decide)).1

/-- C25, the part that holds: they return normally exactly on non-empty buffers. -/
theorem C25_whole_buffer_never_panic_partial {s : St} (h : WF s) :
    ((∃ s', Buffer.ClearAllBits s = (.ok (), s')) ↔ s.bytes ≠ []) ∧
    ((∃ s', Buffer.SetAllBits s = (.ok (), s')) ↔ s.bytes ≠ []) ∧
    ((∃ s', Buffer.FlipAllBits s = (.ok (), s')) ↔ s.bytes ≠ []) := by
  by_cases he : s.bytes = []
  · obtain ⟨h1, h2, h3⟩ := C25_whole_buffer_never_panic_false h he
    rw [h1, h2, h3]; simp [he]
  · obtain ⟨⟨a, h1, _⟩, ⟨b, h2, _⟩, ⟨c, h3, _⟩⟩ := C24_whole_buffer_ops h he
    rw [h1, h2, h3]; simp [he]

end Crunch.V3
