import Verif.Lemmas.Resize

/-! Single bytes, the `Next` methods, and frame facts about memory. -/

namespace Crunch.V3
open Spec

/-! ## frame -/

theorem write_array {s : St} (h : s.OK) {p : Nat} {bs : List UInt8} (hp : p + bs.length ≤ s.b.buf.len)
    {c i : Nat} (hi : c ≠ s.b.buf.arr ∨ i < s.b.buf.off + p ∨ s.b.buf.off + p + bs.length ≤ i) :
    ((s.write p bs).mem.array c)[i]? = (s.mem.array c)[i]? := by
  have h1 := h.len_le; have h2 := h.fits
  unfold St.write
  simp only []
  rw [array_blit _ _ _ _ _ (by omega)]
  by_cases e : s.b.buf.arr = c
  · subst e
    rw [if_pos rfl, getElem?_patch (by omega), if_neg]
    rcases hi with hi | hi | hi
    · exact absurd rfl hi
    · omega
    · omega
  · rw [if_neg e]

theorem put_array {s : St} (h : s.OK) {l : List UInt8} (hl : l.length = s.b.buf.len)
    {c i : Nat} (hi : c ≠ s.b.buf.arr ∨ i < s.b.buf.off ∨ s.b.buf.off + s.b.buf.len ≤ i) :
    ((s.put l).mem.array c)[i]? = (s.mem.array c)[i]? := by
  apply write_array h (by omega)
  omega

theorem put_array_length (s : St) (l : List UInt8) (c : Nat) :
    ((s.put l).mem.array c).length = (s.mem.array c).length := length_array_blit _ _ _ _ _

theorem put_arrays_length (s : St) (l : List UInt8) : (s.put l).mem.arrays.length = s.mem.arrays.length :=
  blit_length _ _ _ _

/-! ## single bytes -/

/-- The state after the allocation of a byte-slice literal. -/
def St.lit (s : St) (bs : List UInt8) : St := { s with mem := s.mem.alloc bs }

theorem WF.lit {s : St} (h : WF s) {bs : List UInt8} (hb : bs.length ≤ maxAlloc) : WF (s.lit bs) :=
  ⟨h.ok.alloc hb, h.cap, h.bcap⟩

theorem lit_bytes {s : St} (h : s.OK) (bs : List UInt8) : (s.lit bs).bytes = s.bytes := view_alloc h bs

theorem buffer_writeByte_run {s : St} (h : WF s) (off : Int64) (v : UInt8) :
    Buffer.WriteByte off v s =
      if 0 ≤ off.toInt ∧ off.toInt < s.b.buf.len then (.ok (), (s.lit [v]).write off.toInt.toNat [v])
      else (.panic (writeBytesPanic off.toInt 1 s.b.buf.len), s.lit [v]) := by
  unfold Buffer.WriteByte
  rw [bind_ok (s' := s.lit [v]) (a := { arr := s.mem.arrays.length, off := 0, len := 1, cap := 1 })]
  · rw [buffer_writeBytes_run (h.lit (by rw [List.length_singleton]; decide)) _ _ (by show 1 ≤ maxAlloc; decide)]
    have hv : (s.lit [v]).mem.view { arr := s.mem.arrays.length, off := 0, len := 1, cap := 1 } = [v] := by
      simp [Heap.view, St.lit, array_alloc_self]
    have e : (s.lit [v]).b = s.b := rfl
    rw [hv, e]
    simp only []
    by_cases h1 : 0 ≤ off.toInt ∧ off.toInt < s.b.buf.len
    · rw [if_pos h1, if_pos (by omega)]
    · rw [if_neg h1, if_neg (by omega)]; rfl
  · simp only [onMem, litBytes, St.lit]; rfl

theorem buffer_readByte_run {s : St} (h : WF s) (off : Int64) :
    Buffer.ReadByte off s =
      if 0 ≤ off.toInt ∧ off.toInt < s.b.buf.len then (.ok (s.bytes.getD off.toInt.toNat 0), s)
      else (.panic (readBytesPanic off.toInt 1 s.b.buf.len), s) := by
  have h1 := h.ok.len_le; have h2 := h.ok.fits
  unfold Buffer.ReadByte
  rw [bind_run, buffer_readBytes_run h]
  simp only [toInt_one']
  by_cases hh : 0 ≤ off.toInt ∧ off.toInt < s.b.buf.len
  · rw [if_pos (by omega), if_pos hh]
    simp only [onMem, loadAt, toInt_zero']
    rw [if_pos (by decide)]
    simp only [St.bytes, Heap.view, List.getD, List.getElem?_take, List.getElem?_drop]
    rw [if_pos (by omega)]; simp
  · rw [if_neg (by omega), if_neg hh]

/-! ## Next -/

/-- Move the byte offset after a success. -/
def advance (d : Int64) : Res α × St → Res α × St
  | (.ok a, s) => (.ok a, { s with b := { s.b with off := s.b.off + d } })
  | (.panic p, s) => (.panic p, s)

/-- Move the bit offset after a success. -/
def advanceBit (d : Int64) : Res α × St → Res α × St
  | (.ok a, s) => (.ok a, { s with b := { s.b with boff := s.b.boff + d } })
  | (.panic p, s) => (.panic p, s)

theorem seek_after (m : GoM St Unit) (d : Int64) (s : St) :
    (m >>= fun _ => Buffer.SeekByte d true) s = advance d (m s) := by
  rw [bind_run]
  rcases m s with ⟨_ | _, s'⟩ <;> rfl

theorem seek_after_val (m : GoM St α) (d : Int64) (s : St) :
    (m >>= fun out => Buffer.SeekByte d true >>= fun _ => pure out) s = advance d (m s) := by
  rw [bind_run]
  rcases m s with ⟨_ | _, s'⟩ <;> rfl

theorem seekBit_after (m : GoM St Unit) (d : Int64) (s : St) :
    (m >>= fun _ => Buffer.SeekBit d true) s = advanceBit d (m s) := by
  rw [bind_run]
  rcases m s with ⟨_ | _, s'⟩ <;> rfl

theorem seekBit_after_val (m : GoM St α) (d : Int64) (s : St) :
    (m >>= fun out => Buffer.SeekBit d true >>= fun _ => pure out) s = advanceBit d (m s) := by
  rw [bind_run]
  rcases m s with ⟨_ | _, s'⟩ <;> rfl

theorem writeNext_run (k : Kind) (e : Endian) (data : List k.Ty) (s : St) :
    Buffer.WriteNext k e data s = advance (len data * Int64.ofNat k.size) (Buffer.Write k e s.b.off data s) := by
  rw [buffer_writeNext, getB_bind, seek_after]

theorem readNext_run (k : Kind) (e : Endian) (n : Int64) (s : St) :
    Buffer.ReadNext k e n s = advance (n * Int64.ofNat k.size) (Buffer.Read k e s.b.off n s) := by
  rw [buffer_readNext, getB_bind, seek_after_val]

theorem writeBytesNext_run (data : Slice) (s : St) :
    Buffer.WriteBytesNext data s = advance (Int64.ofNat data.len) (Buffer.WriteBytes s.b.off data s) := by
  unfold Buffer.WriteBytesNext
  rw [getB_bind, seek_after]

theorem readBytesNext_run (n : Int64) (s : St) :
    Buffer.ReadBytesNext n s = advance n (Buffer.ReadBytes s.b.off n s) := by
  unfold Buffer.ReadBytesNext
  rw [getB_bind, seek_after_val]

theorem writeByteNext_run (v : UInt8) (s : St) :
    Buffer.WriteByteNext v s = advance 1 (Buffer.WriteByte s.b.off v s) := by
  unfold Buffer.WriteByteNext
  rw [getB_bind, ← bind_assoc']
  exact seek_after (Buffer.WriteByte s.b.off v) 1 s

theorem readByteNext_run (s : St) :
    Buffer.ReadByteNext s = advance 1 (Buffer.ReadByte s.b.off s) := by
  unfold Buffer.ReadByteNext
  rw [getB_bind, ← bind_assoc']
  exact seek_after_val (Buffer.ReadByte s.b.off) 1 s

theorem readBitNext_run (s : St) : Buffer.ReadBitNext s = advanceBit 1 (Buffer.ReadBit s.b.boff s) := by
  unfold Buffer.ReadBitNext
  rw [getB_bind, seekBit_after_val]
theorem readBitsNext_run (n : Int64) (s : St) :
    Buffer.ReadBitsNext n s = advanceBit n (Buffer.ReadBits s.b.boff n s) := by
  unfold Buffer.ReadBitsNext
  rw [getB_bind, seekBit_after_val]
theorem setBitNext_run (s : St) : Buffer.SetBitNext s = advanceBit 1 (Buffer.SetBit s.b.boff s) := by
  unfold Buffer.SetBitNext
  rw [getB_bind, seekBit_after]
theorem clearBitNext_run (s : St) : Buffer.ClearBitNext s = advanceBit 1 (Buffer.ClearBit s.b.boff s) := by
  unfold Buffer.ClearBitNext
  rw [getB_bind, seekBit_after]
theorem flipBitNext_run (s : St) : Buffer.FlipBitNext s = advanceBit 1 (Buffer.FlipBit s.b.boff s) := by
  unfold Buffer.FlipBitNext
  rw [getB_bind, seekBit_after]
theorem setBitsNext_run (data : UInt64) (n : Int64) (s : St) :
    Buffer.SetBitsNext data n s = advanceBit n (Buffer.SetBits s.b.boff data n s) := by
  unfold Buffer.SetBitsNext
  rw [getB_bind, seekBit_after]

/-! ## elements of encoded and decoded lists -/

theorem getElem_dec {k : Kind} {e : Endian} {c i : Nat} {l : List UInt8} (h : i < c) :
    (dec k e c l)[i]'(by simpa using h) = k.ofPat (decode e (slice l (i * k.size) k.size)) := by
  simp [dec]

theorem slice_enc (k : Kind) (e : Endian) (data : List k.Ty) (i : Nat) (h : i < data.length) :
    slice (enc k e data) (i * k.size) k.size = encode e k.size (k.pat data[i]) := by
  induction data generalizing i with
  | nil => simp at h
  | cons x xs ih =>
    have hl : (encode e k.size (k.pat x)).length = k.size := length_encode ..
    cases i with
    | zero => simp [enc, slice, hl]
    | succ i =>
      simp only [List.length_cons] at h
      have := ih i (by omega)
      rw [List.getElem_cons_succ, ← this]
      simp only [enc, List.flatMap_cons, slice]
      rw [List.drop_append, List.drop_of_length_le (by rw [hl, Nat.succ_mul]; omega), hl, Nat.succ_mul, List.nil_append,
        Nat.add_sub_cancel]

theorem dec_enc (k : Kind) (e : Endian) (data : List k.Ty) : dec k e data.length (enc k e data) = data := by
  apply List.ext_getElem
  · simp
  · intro i h1 h2
    rw [getElem_dec h2, slice_enc k e data i h2, decode_encode _ _ _ (pat_lt k _), ofPat_pat]

theorem slice_drop (l : List UInt8) (p q n : Nat) : slice (l.drop p) q n = slice l (p + q) n := by
  simp [slice, List.drop_drop]

theorem slice_slice {l : List UInt8} {p n q m : Nat} (h : q + m ≤ n) : slice (slice l p n) q m = slice l (p + q) m := by
  unfold slice
  rw [List.drop_take, List.drop_drop, List.take_take, Nat.min_eq_left (by omega)]

theorem mul_le_of_lt {i c w : Nat} (h : i < c) : i * w + w ≤ c * w := by
  rw [← Nat.succ_mul]; exact Nat.mul_le_mul_right w h

theorem dec_congr {k : Kind} {e : Endian} {c : Nat} {l m : List UInt8}
    (h : slice l 0 (c * k.size) = slice m 0 (c * k.size)) : dec k e c l = dec k e c m := by
  apply List.ext_getElem
  · simp
  · intro i h1 h2
    rw [length_dec] at h1
    have := mul_le_of_lt (w := k.size) h1
    have e1 := slice_slice (l := l) (p := 0) (n := c * k.size) (q := i * k.size) (m := k.size) (by omega)
    have e2 := slice_slice (l := m) (p := 0) (n := c * k.size) (q := i * k.size) (m := k.size) (by omega)
    rw [getElem_dec h1, getElem_dec h1, ← Nat.zero_add (i * k.size), ← e1, ← e2, h]

theorem getElem?_digits (w v j : Nat) (h : j < w) : (digits w v)[j]? = some (UInt8.ofNat (v / 256 ^ j % 256)) := by
  induction w generalizing v j with
  | zero => omega
  | succ w ih =>
    cases j with
    | zero => simp [digits]
    | succ j =>
      simp only [digits, List.getElem?_cons_succ]
      rw [ih _ _ (by omega), Nat.div_div_eq_div_mul, Nat.pow_succ, Nat.mul_comm]

theorem getElem?_encode (e : Endian) (w v j : Nat) (h : j < w) :
    (encode e w v)[j]? = some (UInt8.ofNat (v / 256 ^ digitPos e w j % 256)) := by
  cases e
  · exact getElem?_digits w v j h
  · simp only [encode]
    have hl := length_digits w v
    rw [List.getElem?_reverse (by omega), hl, getElem?_digits w v _ (by omega)]; rfl

theorem getElem?_slice {l : List UInt8} {p n i : Nat} (h : i < n) : (slice l p n)[i]? = l[p + i]? := by
  unfold slice
  rw [List.getElem?_take, if_pos h, List.getElem?_drop]

end Crunch.V3
