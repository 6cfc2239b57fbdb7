import Verif.Lemmas.TypedRead

/-! What every byte-level `Buffer` method does, for every argument. -/

namespace Crunch.V3
open Spec

/-- The invariant of a buffer: its slice fits, and the cached capacities are right. -/
structure WF (s : St) : Prop where
  ok : s.OK
  cap : s.b.cap = Int64.ofNat s.b.buf.len
  bcap : s.b.bcap = Int64.ofNat (8 * s.b.buf.len)

/-- Two's complement wrap-around of a mathematical integer. -/
def wrap (x : Int) : Int := (x + 2 ^ 63) % 2 ^ 64 - 2 ^ 63

theorem wrap_id {x : Int} (h1 : -2 ^ 63 ≤ x) (h2 : x < 2 ^ 63) : wrap x = x := by
  unfold wrap; omega

theorem wrap_add_wrap (a b : Int) : wrap (a + wrap b) = wrap (a + b) := by
  unfold wrap; omega

theorem WF.len_lt {s : St} (h : WF s) : s.b.buf.len < 2 ^ 50 := by
  have := h.ok.len_le_max; have := maxAlloc_lt; omega

theorem WF.cap_toInt {s : St} (h : WF s) : s.b.cap.toInt = s.b.buf.len := by
  have := h.len_lt
  rw [h.cap, toInt_ofNat (by omega)]

theorem WF.bcap_toInt {s : St} (h : WF s) : s.b.bcap.toInt = 8 * s.b.buf.len := by
  have := h.len_lt
  rw [h.bcap, toInt_ofNat (by omega)]; omega

theorem WF.write {s : St} (h : WF s) (p : Nat) (bs : List UInt8) : WF (s.write p bs) :=
  ⟨write_ok h.ok p bs, h.cap, h.bcap⟩

/-! ## typed writers -/

/-- The panic of a rejected typed write of `n` bytes at `off` into `L` bytes. -/
def writePanic (off n L : Int) : Panic :=
  if off + n < 2 ^ 63 ∧ off + n > L then .err BufferOverwriteError
  else if off < 0 then .err BufferUnderwriteError
  else .index

theorem len_mul {α : Type} (data : List α) (w : Nat) (h : data.length * w ≤ maxAlloc) (_hw : 0 < w) :
    (len data * Int64.ofNat w).toInt = data.length * w := by
  have hM := maxAlloc_lt
  rw [len, ← ofNat_mul, toInt_ofNat (by omega)]; simp

theorem mini_write_run {s : St} (hs : s.OK) (k : Kind) (e : Endian) (off : Int64) (data : List k.Ty)
    (hd : data.length * k.size ≤ maxAlloc) (h0 : data ≠ []) :
    Mini.Write k e off data s =
      if 0 ≤ off.toInt ∧ off.toInt + data.length * k.size ≤ s.b.buf.len then
        (.ok (), s.write off.toInt.toNat (enc k e data))
      else if 0 ≤ off.toInt ∧ off.toInt < s.b.buf.len then
        (.panic .index, s.write off.toInt.toNat ((enc k e data).take (s.b.buf.len - off.toInt.toNat)))
      else (.panic .index, s) := by
  have hM := maxAlloc_lt
  have h1 := size_pos k
  have hl : data.length ≤ data.length * k.size := Nat.le_mul_of_pos_right _ h1
  have hp : 0 < data.length := List.length_pos_iff.mpr h0
  have hle := length_enc k e data
  rw [mini_write_eq k e off data h0 (by omega),
    storeFrom_run off _ 0 s hs (by omega) (by intro h; rw [h] at hle; simp at hle; omega)]
  simp only [Int.natCast_zero, Int.add_zero, hle, Int.natCast_mul]

theorem buffer_write_run {s : St} (h : WF s) (k : Kind) (e : Endian) (off : Int64) (data : List k.Ty)
    (hd : data.length * k.size ≤ maxAlloc) :
    Buffer.Write k e off data s =
      if data ≠ [] ∧ 0 ≤ off.toInt ∧ off.toInt + data.length * k.size ≤ s.b.buf.len then
        (.ok (), s.write off.toInt.toNat (enc k e data))
      else (.panic (writePanic off.toInt (data.length * k.size) s.b.buf.len), s) := by
  have hM := maxAlloc_lt
  have hL := h.len_lt
  have o1 := toInt_lt' off; have o2 := le_toInt' off
  rw [buffer_write_mini]
  simp only [getB_bind, panicIf_bind, GT.gt, Int64.lt_iff_toInt_lt, h.cap_toInt, toInt_add,
    len_mul data k.size hd (size_pos k), toInt_zero', writePanic]
  have hd' : (data.length : Int) * k.size ≤ maxAlloc := by exact_mod_cast hd
  have hd0 : 0 ≤ (data.length : Int) * k.size := by exact_mod_cast Nat.zero_le _
  generalize hX : (data.length : Int) * k.size = X at *
  by_cases h1 : off.toInt + X < 2 ^ 63
  · rw [show (off.toInt + X + 2 ^ 63) % 2 ^ 64 - 2 ^ 63 = off.toInt + X by omega]
    by_cases h2 : (s.b.buf.len : Int) < off.toInt + X
    · rw [if_pos h2, if_neg (by omega), if_pos ⟨h1, h2⟩]
    · rw [if_neg h2]
      by_cases h3 : off.toInt < 0
      · rw [if_pos h3, if_neg (by omega), if_neg (by omega), if_pos h3]
      · rw [if_neg h3]
        by_cases h4 : data = []
        · subst h4
          rw [mini_write_nil, if_neg (by simp), if_neg (by omega), if_neg h3]; rfl
        · rw [mini_write_run h.ok k e off data hd h4, hX, if_pos (by omega), if_pos ⟨h4, by omega⟩]
  · rw [if_neg (by omega), if_neg (by omega)]
    by_cases h4 : data = []
    · subst h4; simp at hX; omega
    · rw [mini_write_run h.ok k e off data hd h4, hX, if_neg (by omega), if_neg (by omega),
        if_neg (by omega), if_neg (by omega), if_neg (by omega)]

/-! ## typed readers -/

/-- The panic of a rejected typed read of `n` elements of `w` bytes at `off` from `L` bytes. -/
def readPanic (w off n L : Int) : Panic :=
  if wrap (off + n * w) > L then .err BufferOverreadError
  else if off < 0 then .err BufferUnderreadError
  else if n < 0 ∨ n * w > maxAlloc then .makeSlice
  else .index

theorem canRead_full {k : Kind} {off : Int64} {n L : Nat} (h : 0 < n) :
    n ≤ canRead k off n L ↔ 0 ≤ off.toInt ∧ off.toInt + n * k.size ≤ L := by
  unfold canRead
  split
  · omega
  · rw [Nat.le_min, Nat.le_div_iff_mul_le (size_pos k)]
    have : ((n * k.size : Nat) : Int) = n * k.size := Int.natCast_mul ..
    have hX : 0 < n * k.size := Nat.mul_pos h (size_pos k)
    rw [← this]; omega

theorem buffer_read_run {s : St} (h : WF s) (k : Kind) (e : Endian) (off n : Int64) :
    Buffer.Read k e off n s =
      if 1 ≤ n.toInt ∧ 0 ≤ off.toInt ∧ off.toInt + n.toInt * k.size ≤ s.b.buf.len then
        (.ok (dec k e n.toInt.toNat (s.bytes.drop off.toInt.toNat)), s)
      else (.panic (readPanic k.size off.toInt n.toInt s.b.buf.len), s) := by
  have hM := maxAlloc_lt
  have hL := h.len_lt
  have o1 := toInt_lt' off; have o2 := le_toInt' off
  have n1 := toInt_lt' n; have n2 := le_toInt' n
  have h8 := size_le k; have hp := size_pos k
  have hw : (Int64.ofNat k.size).toInt = k.size := toInt_ofNat (by omega)
  rw [buffer_read_mini]
  simp only [getB_bind, panicIf_bind, GT.gt, Int64.lt_iff_toInt_lt, h.cap_toInt, toInt_add, toInt_mul, hw,
    toInt_zero', readPanic]
  have e1 : (off.toInt + ((n.toInt * (k.size : Int) + 2 ^ 63) % 2 ^ 64 - 2 ^ 63) + 2 ^ 63) % 2 ^ 64 - 2 ^ 63 =
      wrap (off.toInt + n.toInt * k.size) := wrap_add_wrap off.toInt (n.toInt * k.size)
  rw [e1]
  generalize hX : n.toInt * (k.size : Int) = X at *
  by_cases h1 : (s.b.buf.len : Int) < wrap (off.toInt + X)
  · rw [if_pos h1, if_neg, if_pos h1]
    intro hh
    have : 0 ≤ X := by rw [← hX]; exact Int.mul_nonneg (by omega) (by omega)
    rw [wrap_id (by omega) (by omega)] at h1; omega
  · rw [if_neg h1, if_neg h1]
    by_cases h2 : off.toInt < 0
    · rw [if_pos h2, if_neg (by omega), if_pos h2]
    · rw [if_neg h2, if_neg h2]
      unfold makeTyped
      rw [hX]
      by_cases h3 : n.toInt < 0 ∨ X > maxAlloc
      · rw [if_pos h3, if_pos h3, throwP_bind, if_neg]
        · rfl
        · intro hh; have := h.ok.len_le_max; omega
      · rw [if_neg h3, if_neg h3]
        simp only [pure_bind']
        obtain ⟨m, hm⟩ : ∃ m : Nat, n.toInt = m := ⟨n.toInt.toNat, by omega⟩
        have hlen : (List.replicate n.toInt.toNat k.zero).length = m := by simp [hm]
        by_cases h4 : m = 0
        · subst h4
          rw [if_neg (by omega)]
          have hr : Mini.Read k e off 1 (s, []) = (.panic .index, (s, [])) := by
            have := mini_read_run h.ok k e off 1 (by decide) (by decide) ([] : List k.Ty) (by simp)
            have hc : canRead k off ([] : List k.Ty).length s.b.buf.len = 0 := by
              unfold canRead; split <;> simp
            rw [hc] at this
            simpa [dec] using this
          rw [mini_read_nonpos k e off n (by omega), hm]
          simp only [Mini.callOut, Int.toNat_natCast, List.replicate_zero, hr]
        · have hmX : (m : Int) ≤ X := by
            rw [← hX, hm]
            have := Nat.le_mul_of_pos_right m hp
            exact_mod_cast this
          have hn : n = Int64.ofNat m := by
            apply Int64.toInt_inj.mp; rw [toInt_ofNat (by omega), hm]
          have hmm : (maxAlloc : Int) < 2 ^ 50 := by exact_mod_cast hM
          have := mini_read_run h.ok k e off m (by omega) (by omega) (List.replicate n.toInt.toNat k.zero) (by rw [hlen]; omega)
          rw [← hn, hlen] at this
          simp only [Mini.callOut, this]
          have hcf := @canRead_full k off m s.b.buf.len (by omega)
          rw [← hm, hX] at hcf
          by_cases h5 : 0 ≤ off.toInt ∧ off.toInt + X ≤ s.b.buf.len
          · rw [if_pos (hcf.mpr h5), if_pos (by omega), hm]; simp
          · rw [if_neg (fun h => h5 (hcf.mp h)), if_neg (by omega)]

/-! ## raw bytes -/

/-- The panic of a rejected `WriteBytes` of `n` bytes at `off` into `L` bytes. -/
def writeBytesPanic (off n L : Int) : Panic :=
  if off + n < 2 ^ 63 ∧ off + n > L then .err BufferOverwriteError
  else if off < 0 then .err BufferUnderwriteError
  else .sliceBounds

theorem onMem_eq {m : GoM Heap α} {s : St} {r : Res α} (h : m s.mem = (r, s.mem)) :
    onMem m s = (r, s) := by simp only [onMem, h]

theorem resliceFrom_run {h : Heap} {sl : Slice} (ok : SliceOK h sl) (lo : Int64) :
    resliceFrom sl lo h =
      if 0 ≤ lo.toInt ∧ lo.toInt ≤ sl.len then
        (.ok { arr := sl.arr, off := sl.off + lo.toInt.toNat, len := sl.len - lo.toInt.toNat,
               cap := sl.cap - lo.toInt.toNat }, h)
      else (.panic .sliceBounds, h) := by
  have hL := ok.len_le_max; have hM := maxAlloc_lt
  unfold resliceFrom
  rw [bind_run]
  simp only [reslice]
  rw [toInt_ofNat (by omega)]
  by_cases h1 : 0 ≤ lo.toInt ∧ lo.toInt ≤ sl.len
  · rw [if_pos (by omega), if_pos h1]; simp
  · rw [if_neg (by omega), if_neg h1]

theorem mini_writeBytes_run {s : St} (h : s.OK) (off : Int64) (data : Slice) :
    Mini.WriteBytes off data s =
      if 0 ≤ off.toInt ∧ off.toInt ≤ s.b.buf.len then
        (.ok (), s.write off.toInt.toNat ((s.mem.view data).take (s.b.buf.len - off.toInt.toNat)))
      else (.panic .sliceBounds, s) := by
  unfold Mini.WriteBytes
  simp only [getB_bind]
  by_cases h1 : 0 ≤ off.toInt ∧ off.toInt ≤ s.b.buf.len
  · rw [if_pos h1]
    have e := resliceFrom_run h off
    rw [if_pos h1] at e
    rw [bind_ok (onMem_eq e)]
    simp only [onMem, copyBytes, St.write]
  · rw [if_neg h1]
    apply bind_panic
    simp only [onMem, resliceFrom_run h, if_neg h1]

theorem buffer_writeBytes_mini (off : Int64) (data : Slice) :
    Buffer.WriteBytes off data = (do
      let b ← getB
      panicIf (off + Int64.ofNat data.len > b.cap) (.err BufferOverwriteError)
      panicIf (off < 0) (.err BufferUnderwriteError)
      Mini.WriteBytes off data) := by
  funext s
  simp only [Buffer.WriteBytes, Mini.WriteBytes, getB_bind, panicIf_bind]

theorem view_len_le (h : Heap) (s : Slice) : (h.view s).length ≤ s.len := by
  simp [Heap.view]; omega

theorem buffer_writeBytes_run {s : St} (h : WF s) (off : Int64) (data : Slice) (hd : data.len ≤ maxAlloc) :
    Buffer.WriteBytes off data s =
      if 0 ≤ off.toInt ∧ off.toInt + data.len ≤ s.b.buf.len then
        (.ok (), s.write off.toInt.toNat (s.mem.view data))
      else (.panic (writeBytesPanic off.toInt data.len s.b.buf.len), s) := by
  have hM := maxAlloc_lt
  have hL := h.len_lt
  have o1 := toInt_lt' off; have o2 := le_toInt' off
  rw [buffer_writeBytes_mini]
  simp only [getB_bind, panicIf_bind, GT.gt, Int64.lt_iff_toInt_lt, h.cap_toInt, toInt_add, toInt_zero',
    writeBytesPanic]
  rw [toInt_ofNat (show data.len < 2 ^ 63 by omega), mini_writeBytes_run h.ok]
  have hv := view_len_le s.mem data
  by_cases h1 : off.toInt + data.len < 2 ^ 63
  · rw [show (off.toInt + data.len + 2 ^ 63) % 2 ^ 64 - 2 ^ 63 = off.toInt + data.len by omega]
    by_cases h2 : (s.b.buf.len : Int) < off.toInt + data.len
    · rw [if_pos h2, if_neg (by omega), if_pos (by omega)]
    · rw [if_neg h2]
      by_cases h3 : off.toInt < 0
      · rw [if_pos h3, if_neg (by omega), if_neg (by omega), if_pos h3]
      · rw [if_neg h3, if_pos (by omega), if_pos (by omega), List.take_of_length_le (by omega)]
  · rw [if_neg (by omega), if_neg (by omega), if_neg (by omega), if_neg (by omega), if_neg (by omega),
      if_neg (by omega)]

/-- The panic of a rejected `ReadBytes` of `n` bytes at `off` from `L` bytes. -/
def readBytesPanic (off n L : Int) : Panic :=
  if wrap (off + n) > L then .err BufferOverreadError
  else if off < 0 then .err BufferUnderreadError
  else .sliceBounds

theorem buffer_readBytes_run {s : St} (h : WF s) (off n : Int64) :
    Buffer.ReadBytes off n s =
      if 0 ≤ n.toInt ∧ 0 ≤ off.toInt ∧ off.toInt + n.toInt ≤ s.b.buf.len then
        (.ok { arr := s.b.buf.arr, off := s.b.buf.off + off.toInt.toNat, len := n.toInt.toNat,
               cap := s.b.buf.cap - off.toInt.toNat }, s)
      else (.panic (readBytesPanic off.toInt n.toInt s.b.buf.len), s) := by
  have hM := maxAlloc_lt
  have hL := h.len_lt
  have hc := h.ok.len_le
  have o1 := toInt_lt' off; have o2 := le_toInt' off
  have n1 := toInt_lt' n; have n2 := le_toInt' n
  unfold Buffer.ReadBytes
  simp only [getB_bind, panicIf_bind, GT.gt, Int64.lt_iff_toInt_lt, h.cap_toInt, toInt_zero', onMem, reslice,
    readBytesPanic]
  rw [show (off + n).toInt = wrap (off.toInt + n.toInt) from toInt_add off n]
  by_cases h1 : (s.b.buf.len : Int) < wrap (off.toInt + n.toInt)
  · rw [if_pos h1, if_pos h1, if_neg]
    intro hh; unfold wrap at h1; omega
  · rw [if_neg h1, if_neg h1]
    by_cases h2 : off.toInt < 0
    · rw [if_pos h2, if_neg (by omega), if_pos h2]
    · rw [if_neg h2, if_neg h2]
      by_cases h3 : 0 ≤ n.toInt ∧ off.toInt + n.toInt ≤ s.b.buf.len
      · rw [wrap_id (by omega) (by omega), if_pos (by omega), if_pos (by omega)]
        simp only [Prod.mk.injEq, Res.ok.injEq, Slice.mk.injEq, and_true, true_and]
        omega
      · rw [if_neg (by unfold wrap at *; omega), if_neg (by omega)]

end Crunch.V3
