import Verif.Props.Demo

/-!
# Properties of the byte-level operations of v3 `Buffer` (C01 … C14)

`WF s` is the invariant of `C26` (every reachable state satisfies it).  `s.bytes` is the
content of the buffer, `s.mem` the whole memory, `s.b` the receiver's fields.  `Buffer.Write
k e` stands for the method `Write⟨k⟩⟨e⟩`, `Buffer.Read k e` for `Read⟨k⟩⟨e⟩`.
-/

namespace Crunch.V3
open Spec

/-- Every byte of every array outside positions `lo … hi-1` of array `a` is the same; arrays
may have been added. -/
def Untouched (m m' : Heap) (a lo hi : Nat) : Prop :=
  ∀ c i, c < m.arrays.length → (c ≠ a ∨ i < lo ∨ hi ≤ i) → (m'.array c)[i]? = (m.array c)[i]?

/-- No array changed; arrays may have been added. -/
def Unchanged (m m' : Heap) : Prop := ∀ c, c < m.arrays.length → m'.array c = m.array c

theorem fit_maxAlloc {s : St} (h : WF s) {o : Int} {x : Nat} (h0 : 0 ≤ o) (hf : o + x ≤ s.bytes.length) :
    x ≤ maxAlloc := by
  have := h.ok.len_le_max; rw [length_bytes h.ok] at hf; omega

/-! ## C01 -/

/-- C01: a typed write is read back by the matching reader. -/
theorem C01_typed_round_trip {s : St} (h : WF s) (k : Kind) (e : Endian) (off : Int64) (data : List k.Ty)
    (hne : data ≠ []) (h0 : 0 ≤ off.toInt) (hfit : off.toInt + (data.length * k.size : Nat) ≤ s.bytes.length) :
    ∃ s', Buffer.Write k e off data s = (.ok (), s') ∧
      Buffer.Read k e off (Int64.ofNat data.length) s' = (.ok data, s') := by
  have hb := length_bytes h.ok
  have hm := fit_maxAlloc h h0 hfit
  have hM := maxAlloc_lt
  have h1 := size_pos k
  have hp : 0 < data.length := List.length_pos_iff.mpr hne
  have hle : data.length ≤ data.length * k.size := Nat.le_mul_of_pos_right _ h1
  have hen := length_enc k e data
  have hn : (Int64.ofNat data.length).toInt = data.length := toInt_ofNat (by omega)
  refine ⟨s.write off.toInt.toNat (enc k e data), ?_, ?_⟩
  · rw [buffer_write_run h k e off data hm, if_pos ⟨hne, h0, by rw [← Int.natCast_mul]; omega⟩]
  · rw [buffer_read_run (h.write _ _)]
    simp only [hn, write_b]
    rw [← Int.natCast_mul, if_pos (by omega), Int.toNat_natCast, bytes_write h.ok (by omega)]
    congr 2
    refine Eq.trans (dec_congr (m := enc k e data) ?_) (dec_enc k e data)
    rw [slice_drop, Nat.add_zero, ← hen, slice_patch_self (by omega)]
    simp [slice]

example : ∃ s', Buffer.Write .i32 .be 4 [-5, 7] demo = (.ok (), s') ∧
    Buffer.Read .i32 .be 4 2 s' = (.ok [-5, 7], s') :=
  C01_typed_round_trip demo_wf .i32 .be 4 [-5, 7] (by decide) (by decide) (by decide)

/-! ## C02 -/

/-- C02: byte `j` of element `i` is the `j`-th base-256 digit of its bit pattern, counted from
the least significant end for LE and from the most significant end for BE. -/
theorem C02_byte_layout {s : St} (h : WF s) (k : Kind) (e : Endian) (off : Int64) (data : List k.Ty)
    (hne : data ≠ []) (h0 : 0 ≤ off.toInt) (hfit : off.toInt + (data.length * k.size : Nat) ≤ s.bytes.length) :
    ∃ s', Buffer.Write k e off data s = (.ok (), s') ∧
      ∀ (i : Nat) (hi : i < data.length) (j : Nat), j < k.size →
        s'.bytes[off.toInt.toNat + i * k.size + j]? =
          some (UInt8.ofNat (k.pat data[i] / 256 ^ digitPos e k.size j % 256)) := by
  have hb := length_bytes h.ok
  have hm := fit_maxAlloc h h0 hfit
  have hen := length_enc k e data
  refine ⟨s.write off.toInt.toNat (enc k e data), ?_, ?_⟩
  · rw [buffer_write_run h k e off data hm, if_pos ⟨hne, h0, by rw [← Int.natCast_mul]; omega⟩]
  · intro i hi j hj
    have hij := mul_le_of_lt (w := k.size) hi
    rw [bytes_write h.ok (by omega), getElem?_patch (by omega), if_pos (by omega),
      show off.toInt.toNat + i * k.size + j - off.toInt.toNat = i * k.size + j by omega,
      ← getElem?_slice hj, slice_enc k e data i hi, getElem?_encode _ _ _ _ hj]

example : ∃ s', Buffer.Write .u16 .le 1 [0x1234, 0xABCD] demo = (.ok (), s') ∧
    s'.bytes[3]? = some 0xCD := by
  obtain ⟨s', h1, h2⟩ := C02_byte_layout demo_wf .u16 .le 1 [0x1234, 0xABCD] (by decide) (by decide) (by decide)
  exact ⟨s', h1, (h2 1 (by decide) 0 (by decide)).trans (by decide)⟩

/-! ## C03 -/

/-- C03: a typed read returns the elements whose bit patterns the addressed bytes encode. -/
theorem C03_typed_read_value {s : St} (h : WF s) (k : Kind) (e : Endian) (off n : Int64)
    (hn : 1 ≤ n.toInt) (h0 : 0 ≤ off.toInt) (hfit : off.toInt + n.toInt * k.size ≤ s.bytes.length) :
    ∃ out, Buffer.Read k e off n s = (.ok out, s) ∧ out.length = n.toInt ∧
      ∀ (i : Nat) (hi : i < out.length),
        k.pat out[i] = decode e (slice s.bytes (off.toInt.toNat + i * k.size) k.size) := by
  have hb := length_bytes h.ok
  refine ⟨dec k e n.toInt.toNat (s.bytes.drop off.toInt.toNat), ?_, ?_, ?_⟩
  · rw [buffer_read_run h, if_pos ⟨hn, h0, by omega⟩]
  · rw [length_dec]; omega
  · intro i hi
    rw [length_dec] at hi
    have hij := mul_le_of_lt (w := k.size) hi
    have e1 : ((n.toInt.toNat * k.size : Nat) : Int) = n.toInt * k.size := by
      rw [Int.natCast_mul, Int.toNat_of_nonneg (by omega)]
    rw [getElem_dec hi, slice_drop, pat_ofPat]
    have hl : (slice s.bytes (off.toInt.toNat + i * k.size) k.size).length = k.size := length_slice (by omega)
    have := decode_lt e (slice s.bytes (off.toInt.toNat + i * k.size) k.size)
    rwa [hl] at this

example : ∃ out, Buffer.Read .u16 .be 1 2 demo = (.ok out, demo) ∧ out.length = (2 : Int) :=
  let ⟨out, h1, h2, _⟩ := C03_typed_read_value demo_wf .u16 .be 1 2 (by decide) (by decide) (by decide)
  ⟨out, h1, h2⟩

/-! ## C04 -/

/-- C04, typed writes: only bytes `off … off+size-1` of the buffer can change, nothing else anywhere
in memory and no field. -/
theorem C04_typed_write_frame {s s' : St} (h : WF s) (k : Kind) (e : Endian) (off : Int64) (data : List k.Ty)
    (hd : data.length * k.size ≤ maxAlloc) (hok : Buffer.Write k e off data s = (.ok (), s')) :
    s'.b = s.b ∧
    Untouched s.mem s'.mem s.b.buf.arr (s.b.buf.off + off.toInt.toNat)
      (s.b.buf.off + off.toInt.toNat + data.length * k.size) ∧
    (∀ c, (s'.mem.array c).length = (s.mem.array c).length) ∧
    s'.bytes.length = s.bytes.length ∧
    ∀ i, i < off.toInt.toNat ∨ off.toInt.toNat + data.length * k.size ≤ i → s'.bytes[i]? = s.bytes[i]? := by
  have hen := length_enc k e data
  rw [buffer_write_run h k e off data hd] at hok
  split at hok
  · rename_i hc
    obtain ⟨_, h0, h1⟩ := hc
    rw [← Int.natCast_mul] at h1
    injection hok with _ hs
    subst hs
    have hb := length_bytes h.ok
    refine ⟨rfl, ?_, fun c => length_array_blit _ _ _ _ _, ?_, ?_⟩
    · intro c i _ hi
      exact write_array h.ok (by omega) (by omega)
    · rw [bytes_write h.ok (by omega), length_patch (by omega)]
    · intro i hi
      rw [bytes_write h.ok (by omega), getElem?_patch (by omega), if_neg (by omega)]
  · simp at hok

example : ∃ s', Buffer.Write .u32 .be 2 [0xDEADBEEF] demo = (.ok (), s') ∧ s'.bytes[1]? = demo.bytes[1]? ∧
    s'.bytes[6]? = demo.bytes[6]? := by
  obtain ⟨s', h1, _⟩ := C01_typed_round_trip demo_wf .u32 .be 2 [0xDEADBEEF] (by decide) (by decide) (by decide)
  obtain ⟨_, _, _, _, h2⟩ := C04_typed_write_frame demo_wf .u32 .be 2 [0xDEADBEEF] (by decide) h1
  exact ⟨s', h1, h2 1 (by decide), h2 6 (by decide)⟩

/-- C04, `WriteBytes`. -/
theorem C04_writeBytes_frame {s s' : St} (h : WF s) (off : Int64) (data : Slice) (hd : SliceOK s.mem data)
    (hok : Buffer.WriteBytes off data s = (.ok (), s')) :
    s'.b = s.b ∧
    Untouched s.mem s'.mem s.b.buf.arr (s.b.buf.off + off.toInt.toNat)
      (s.b.buf.off + off.toInt.toNat + data.len) ∧
    (∀ c, (s'.mem.array c).length = (s.mem.array c).length) ∧
    s'.bytes.length = s.bytes.length ∧
    ∀ i, i < off.toInt.toNat ∨ off.toInt.toNat + data.len ≤ i → s'.bytes[i]? = s.bytes[i]? := by
  have hv := length_view hd
  rw [buffer_writeBytes_run h off data hd.len_le_max] at hok
  split at hok
  · rename_i hc
    obtain ⟨h0, h1⟩ := hc
    injection hok with _ hs
    subst hs
    have hb := length_bytes h.ok
    refine ⟨rfl, ?_, fun c => length_array_blit _ _ _ _ _, ?_, ?_⟩
    · intro c i _ hi
      exact write_array h.ok (by omega) (by omega)
    · rw [bytes_write h.ok (by omega), length_patch (by omega)]
    · intro i hi
      rw [bytes_write h.ok (by omega), getElem?_patch (by omega), if_neg (by omega)]
  · simp at hok

/-- C04, `WriteByte` (the literal slice it builds is new memory). -/
theorem C04_writeByte_frame {s s' : St} (h : WF s) (off : Int64) (v : UInt8)
    (hok : Buffer.WriteByte off v s = (.ok (), s')) :
    s'.b = s.b ∧
    Untouched s.mem s'.mem s.b.buf.arr (s.b.buf.off + off.toInt.toNat) (s.b.buf.off + off.toInt.toNat + 1) ∧
    s'.bytes.length = s.bytes.length ∧
    ∀ i, i ≠ off.toInt.toNat → s'.bytes[i]? = s.bytes[i]? := by
  rw [buffer_writeByte_run h off v] at hok
  split at hok
  · rename_i hc
    injection hok with _ hs
    subst hs
    have hw := h.lit (bs := [v]) (by rw [List.length_singleton]; decide)
    have e : (s.lit [v]).b = s.b := rfl
    have hb := length_bytes hw.ok
    rw [e] at hb
    refine ⟨rfl, ?_, ?_, ?_⟩
    · intro c i hc' hi
      rw [write_array hw.ok (by rw [e, List.length_singleton]; omega) (by rw [e, List.length_singleton]; omega)]
      show ((s.mem.alloc [v]).array c)[i]? = _
      rw [array_alloc_lt hc']
    · rw [bytes_write hw.ok (by rw [e, List.length_singleton]; omega),
        length_patch (by rw [List.length_singleton]; omega), lit_bytes h.ok]
    · intro i hi
      rw [bytes_write hw.ok (by rw [e, List.length_singleton]; omega),
        getElem?_patch (by rw [List.length_singleton]; omega), if_neg (by rw [List.length_singleton]; omega),
        lit_bytes h.ok]
  · simp at hok

/-! ## C05 -/

/-- C05: reads at an explicit offset, the getters and `After…` leave the whole state unchanged,
for all arguments, whether they return or panic. -/
theorem C05_reads_pure {s : St} (h : WF s) :
    (∀ k e off n, (Buffer.Read k e off n s).2 = s) ∧
    (∀ off n, (Buffer.ReadBytes off n s).2 = s) ∧
    (∀ off, (Buffer.ReadByte off s).2 = s) ∧
    (∀ off, (Buffer.ReadBit off s).2 = s) ∧
    (∀ off n, (Buffer.ReadBits off n s).2 = s) ∧
    (∀ o, Buffer.AfterByte o s = (.ok ((Buffer.AfterByte o s).1.getD 0), s)) ∧
    (∀ o, Buffer.AfterBit o s = (.ok ((Buffer.AfterBit o s).1.getD 0), s)) ∧
    Buffer.Bytes s = (.ok s.b.buf, s) ∧
    Buffer.ByteCapacity s = (.ok s.b.cap, s) ∧ Buffer.BitCapacity s = (.ok s.b.bcap, s) ∧
    Buffer.ByteOffset s = (.ok s.b.off, s) ∧ Buffer.BitOffset s = (.ok s.b.boff, s) := by
  refine ⟨?_, ?_, ?_, ?_, ?_, ?_, ?_, rfl, rfl, rfl, rfl, rfl⟩
  · intro k e off n; rw [buffer_read_run h]; split <;> rfl
  · intro off n; rw [buffer_readBytes_run h]; split <;> rfl
  · intro off; rw [buffer_readByte_run h]; split <;> rfl
  · intro off; rw [buffer_readBit_run h]; split <;> rfl
  · intro off n; rw [buffer_readBits_run h]; split <;> rfl
  · intro o; cases o <;> rfl
  · intro o; cases o <;> rfl

example : (Buffer.Read .f64 .le 100 (-3) demo).2 = demo := (C05_reads_pure demo_wf).1 _ _ _ _

/-! ## C07, C08 -/

/-- C07, typed writes: success exactly when the range is inside the buffer; otherwise the
documented error, as long as `off + size` does not leave the int64 range. -/
theorem C07_typed_write_bounds {s : St} (h : WF s) (k : Kind) (e : Endian) (off : Int64) (data : List k.Ty)
    (hne : data ≠ []) (hd : data.length * k.size ≤ maxAlloc) :
    ((∃ s', Buffer.Write k e off data s = (.ok (), s')) ↔
      0 ≤ off.toInt ∧ off.toInt + (data.length * k.size : Nat) ≤ s.bytes.length) ∧
    (off.toInt + (data.length * k.size : Nat) < 2 ^ 63 →
      (off.toInt + (data.length * k.size : Nat) > s.bytes.length →
        (Buffer.Write k e off data s).1 = .panic (.err BufferOverwriteError)) ∧
      (off.toInt + (data.length * k.size : Nat) ≤ s.bytes.length → off.toInt < 0 →
        (Buffer.Write k e off data s).1 = .panic (.err BufferUnderwriteError))) := by
  rw [length_bytes h.ok, buffer_write_run h k e off data hd]
  have hX : (data.length * k.size : Int) = (data.length * k.size : Nat) := (Int.natCast_mul _ _).symm
  unfold writePanic
  generalize (data.length : Int) * (k.size : Int) = Y at *
  subst hX
  generalize data.length * k.size = X at *
  by_cases h1 : 0 ≤ off.toInt ∧ off.toInt + X ≤ s.b.buf.len
  · rw [if_pos ⟨hne, h1⟩]
    refine ⟨⟨fun _ => h1, fun _ => ⟨_, rfl⟩⟩, fun _ => ⟨fun _ => by omega, fun _ => by omega⟩⟩
  · rw [if_neg (fun hh => h1 hh.2)]
    refine ⟨⟨fun ⟨s', hs⟩ => by simp at hs, fun hh => absurd hh h1⟩, fun h2 => ⟨fun h3 => ?_, fun h3 h4 => ?_⟩⟩
    · rw [if_pos ⟨h2, h3⟩]
    · rw [if_neg (by omega), if_pos h4]

example : (∃ s', Buffer.Write .u64 .le 4 [1] demo = (.ok (), s')) :=
  (C07_typed_write_bounds demo_wf .u64 .le 4 [1] (by decide) (by decide)).1.mpr (by decide)
example : (Buffer.Write .u64 .le 5 [1] demo).1 = .panic (.err BufferOverwriteError) :=
  ((C07_typed_write_bounds demo_wf .u64 .le 5 [1] (by decide) (by decide)).2 (by decide)).1 (by decide)

/-- C07, `WriteBytes`. -/
theorem C07_writeBytes_bounds {s : St} (h : WF s) (off : Int64) (data : Slice) (hd : SliceOK s.mem data) :
    ((∃ s', Buffer.WriteBytes off data s = (.ok (), s')) ↔
      0 ≤ off.toInt ∧ off.toInt + data.len ≤ s.bytes.length) ∧
    (off.toInt + data.len < 2 ^ 63 →
      (off.toInt + data.len > s.bytes.length →
        (Buffer.WriteBytes off data s).1 = .panic (.err BufferOverwriteError)) ∧
      (off.toInt + data.len ≤ s.bytes.length → off.toInt < 0 →
        (Buffer.WriteBytes off data s).1 = .panic (.err BufferUnderwriteError))) := by
  rw [length_bytes h.ok, buffer_writeBytes_run h off data hd.len_le_max]
  simp only [writeBytesPanic]
  by_cases h1 : 0 ≤ off.toInt ∧ off.toInt + data.len ≤ s.b.buf.len
  · rw [if_pos h1]
    refine ⟨⟨fun _ => h1, fun _ => ⟨_, rfl⟩⟩, fun _ => ⟨fun _ => by omega, fun _ => by omega⟩⟩
  · rw [if_neg h1]
    refine ⟨⟨fun ⟨s', hs⟩ => by simp at hs, fun hh => absurd hh h1⟩, fun h2 => ⟨fun h3 => ?_, fun h3 h4 => ?_⟩⟩
    · rw [if_pos ⟨h2, h3⟩]
    · rw [if_neg (by omega), if_pos h4]

/-- C07, `WriteByte`. -/
theorem C07_writeByte_bounds {s : St} (h : WF s) (off : Int64) (v : UInt8) :
    ((∃ s', Buffer.WriteByte off v s = (.ok (), s')) ↔ 0 ≤ off.toInt ∧ off.toInt < s.bytes.length) ∧
    (off.toInt + 1 < 2 ^ 63 →
      (off.toInt ≥ s.bytes.length → (Buffer.WriteByte off v s).1 = .panic (.err BufferOverwriteError)) ∧
      (off.toInt < 0 → (Buffer.WriteByte off v s).1 = .panic (.err BufferUnderwriteError))) := by
  rw [length_bytes h.ok, buffer_writeByte_run h off v]
  simp only [writeBytesPanic]
  by_cases h1 : 0 ≤ off.toInt ∧ off.toInt < s.b.buf.len
  · rw [if_pos h1]
    refine ⟨⟨fun _ => h1, fun _ => ⟨_, rfl⟩⟩, fun _ => ⟨fun _ => by omega, fun _ => by omega⟩⟩
  · rw [if_neg h1]
    refine ⟨⟨fun ⟨s', hs⟩ => by simp at hs, fun hh => absurd hh h1⟩, fun h2 => ⟨fun h3 => ?_, fun h4 => ?_⟩⟩
    · rw [if_pos (by omega)]
    · rw [if_neg (by omega), if_pos h4]

/-- C08, typed reads. -/
theorem C08_typed_read_bounds {s : St} (h : WF s) (k : Kind) (e : Endian) (off n : Int64) (hn : 1 ≤ n.toInt) :
    ((∃ r, Buffer.Read k e off n s = (.ok r, s)) ↔
      0 ≤ off.toInt ∧ off.toInt + n.toInt * k.size ≤ s.bytes.length) ∧
    (off.toInt + n.toInt * k.size < 2 ^ 63 →
      (off.toInt + n.toInt * k.size > s.bytes.length →
        (Buffer.Read k e off n s).1 = .panic (.err BufferOverreadError)) ∧
      (off.toInt + n.toInt * k.size ≤ s.bytes.length → off.toInt < 0 →
        (Buffer.Read k e off n s).1 = .panic (.err BufferUnderreadError))) := by
  have o2 := le_toInt' off
  have hX : 0 ≤ n.toInt * (k.size : Int) := Int.mul_nonneg (by omega) (by omega)
  rw [length_bytes h.ok, buffer_read_run h]
  simp only [readPanic]
  generalize n.toInt * (k.size : Int) = X at *
  by_cases h1 : 0 ≤ off.toInt ∧ off.toInt + X ≤ s.b.buf.len
  · rw [if_pos ⟨hn, h1⟩]
    refine ⟨⟨fun _ => h1, fun _ => ⟨_, rfl⟩⟩, fun _ => ⟨fun _ => by omega, fun _ => by omega⟩⟩
  · rw [if_neg (fun hh => h1 hh.2)]
    refine ⟨⟨fun ⟨s', hs⟩ => by simp at hs, fun hh => absurd hh h1⟩, fun h2 => ?_⟩
    rw [wrap_id (by omega) h2]
    refine ⟨fun h3 => ?_, fun h3 h4 => ?_⟩
    · rw [if_pos h3]
    · rw [if_neg (by omega), if_pos h4]

example : (Buffer.Read .u32 .be 9 1 demo).1 = .panic (.err BufferOverreadError) :=
  ((C08_typed_read_bounds demo_wf .u32 .be 9 1 (by decide)).2 (by decide)).1 (by decide)

/-- C08, `ReadBytes`. -/
theorem C08_readBytes_bounds {s : St} (h : WF s) (off n : Int64) (hn : 0 ≤ n.toInt) :
    ((∃ r, Buffer.ReadBytes off n s = (.ok r, s)) ↔
      0 ≤ off.toInt ∧ off.toInt + n.toInt ≤ s.bytes.length) ∧
    (off.toInt + n.toInt < 2 ^ 63 →
      (off.toInt + n.toInt > s.bytes.length →
        (Buffer.ReadBytes off n s).1 = .panic (.err BufferOverreadError)) ∧
      (off.toInt + n.toInt ≤ s.bytes.length → off.toInt < 0 →
        (Buffer.ReadBytes off n s).1 = .panic (.err BufferUnderreadError))) := by
  have o2 := le_toInt' off
  rw [length_bytes h.ok, buffer_readBytes_run h]
  simp only [readBytesPanic]
  by_cases h1 : 0 ≤ off.toInt ∧ off.toInt + n.toInt ≤ s.b.buf.len
  · rw [if_pos ⟨hn, h1⟩]
    refine ⟨⟨fun _ => h1, fun _ => ⟨_, rfl⟩⟩, fun _ => ⟨fun _ => by omega, fun _ => by omega⟩⟩
  · rw [if_neg (fun hh => h1 hh.2)]
    refine ⟨⟨fun ⟨s', hs⟩ => by simp at hs, fun hh => absurd hh h1⟩, fun h2 => ?_⟩
    rw [wrap_id (by omega) h2]
    refine ⟨fun h3 => ?_, fun h3 h4 => ?_⟩
    · rw [if_pos h3]
    · rw [if_neg (by omega), if_pos h4]

/-- C08, `ReadByte`. -/
theorem C08_readByte_bounds {s : St} (h : WF s) (off : Int64) :
    ((∃ r, Buffer.ReadByte off s = (.ok r, s)) ↔ 0 ≤ off.toInt ∧ off.toInt < s.bytes.length) ∧
    (off.toInt + 1 < 2 ^ 63 →
      (off.toInt ≥ s.bytes.length → (Buffer.ReadByte off s).1 = .panic (.err BufferOverreadError)) ∧
      (off.toInt < 0 → (Buffer.ReadByte off s).1 = .panic (.err BufferUnderreadError))) := by
  have o2 := le_toInt' off
  rw [length_bytes h.ok, buffer_readByte_run h off]
  simp only [readBytesPanic]
  by_cases h1 : 0 ≤ off.toInt ∧ off.toInt < s.b.buf.len
  · rw [if_pos h1]
    refine ⟨⟨fun _ => h1, fun _ => ⟨_, rfl⟩⟩, fun _ => ⟨fun _ => by omega, fun _ => by omega⟩⟩
  · rw [if_neg h1]
    refine ⟨⟨fun ⟨s', hs⟩ => by simp at hs, fun hh => absurd hh h1⟩, fun h2 => ?_⟩
    rw [wrap_id (by omega) h2]
    refine ⟨fun h3 => ?_, fun h4 => ?_⟩
    · rw [if_pos (by omega)]
    · rw [if_neg (by omega), if_pos h4]

/-! ## C09 -/

/-- C09: a byte-level write that panics, for whatever reason, has changed no field and no byte.
(`WriteByte` has allocated its literal by then; nothing that existed changed.) -/
theorem C09_failed_write_changes_nothing {s : St} (h : WF s) (off : Int64) :
    (∀ (k : Kind) (e : Endian) (data : List k.Ty) (p : Panic) (s' : St), data.length * k.size ≤ maxAlloc →
      Buffer.Write k e off data s = (.panic p, s') → s' = s) ∧
    (∀ (data : Slice) (p : Panic) (s' : St), SliceOK s.mem data →
      Buffer.WriteBytes off data s = (.panic p, s') → s' = s) ∧
    (∀ (v : UInt8) (p : Panic) (s' : St),
      Buffer.WriteByte off v s = (.panic p, s') → s'.b = s.b ∧ Unchanged s.mem s'.mem) := by
  refine ⟨?_, ?_, ?_⟩
  · intro k e data p s' hd hp
    rw [buffer_write_run h k e off data hd] at hp
    split at hp
    · simp at hp
    · injection hp with _ h2; exact h2.symm
  · intro data p s' hd hp
    rw [buffer_writeBytes_run h off data hd.len_le_max] at hp
    split at hp
    · simp at hp
    · injection hp with _ h2; exact h2.symm
  · intro v p s' hp
    rw [buffer_writeByte_run h off v] at hp
    split at hp
    · simp at hp
    · injection hp with _ h2
      subst h2
      exact ⟨rfl, fun c hc => array_alloc_lt hc⟩

/-- A write whose bound computation wraps around int64 does panic (with a run-time error). -/
example : Buffer.Write .u16 .le 9223372036854775807 [1, 2] demo = (.panic .index, demo) := by
  rw [buffer_write_run demo_wf _ _ _ _ (by decide), if_neg (by decide)]
  have : writePanic (Int64.toInt 9223372036854775807) (([1, 2] : List UInt16).length * (Kind.u16.size : Int)) demo.b.buf.len = .index := by
    decide
  exact congrArg (fun p => (Res.panic p, demo)) this

/-! ## C10 -/

/-- C10: whatever the arguments, a successful read on a `Buffer` only returns bytes at positions
inside the buffer. -/
theorem C10_no_disclosure {s : St} (h : WF s) (off n : Int64) :
    (∀ t s', Buffer.ReadBytes off n s = (.ok t, s') →
      t.arr = s.b.buf.arr ∧ s.b.buf.off ≤ t.off ∧ t.off + t.len ≤ s.b.buf.off + s.b.buf.len ∧
      s'.mem.view t = slice s.bytes (t.off - s.b.buf.off) t.len) ∧
    (∀ v s', Buffer.ReadByte off s = (.ok v, s') → ∃ p, p < s.bytes.length ∧ s.bytes[p]? = some v) ∧
    (∀ (k : Kind) (e : Endian) (out : List k.Ty) (s' : St), Buffer.Read k e off n s = (.ok out, s') →
      ∀ (i : Nat) (hi : i < out.length), ∃ p, p + k.size ≤ s.bytes.length ∧
        k.pat out[i] = decode e (slice s.bytes p k.size)) := by
  have hb := length_bytes h.ok
  refine ⟨?_, ?_, ?_⟩
  · intro t s' hr
    rw [buffer_readBytes_run h] at hr
    split at hr
    · rename_i hc
      injection hr with h1 h2
      injection h1 with h1
      subst h1; subst h2
      refine ⟨rfl, by simp only; omega, by simp only; omega, ?_⟩
      simp only [Heap.view, St.bytes, slice]
      rw [List.drop_take, List.drop_drop, List.take_take, Nat.add_sub_cancel_left,
        Nat.min_eq_left (by omega)]
    · simp at hr
  · intro v s' hr
    rw [buffer_readByte_run h] at hr
    split at hr
    · rename_i hc
      injection hr with h1 h2
      injection h1 with h1
      refine ⟨off.toInt.toNat, by omega, ?_⟩
      rw [← h1, List.getD, List.getElem?_eq_getElem (show off.toInt.toNat < s.bytes.length by omega)]; rfl
    · simp at hr
  · intro k e out s' hr i hi
    rw [buffer_read_run h] at hr
    split at hr
    · rename_i hc
      obtain ⟨out', h1, h2, h3⟩ := C03_typed_read_value h k e off n hc.1 hc.2.1 (by omega)
      rw [buffer_read_run h, if_pos hc] at h1
      have : out = out' := by
        injection hr with a b; injection h1 with c d
        rw [a] at c; injection c
      subst this
      refine ⟨off.toInt.toNat + i * k.size, ?_, h3 i hi⟩
      have hij := mul_le_of_lt (w := k.size) hi
      have e1 : ((out.length * k.size : Nat) : Int) = n.toInt * k.size := by
        rw [Int.natCast_mul, h2]
      omega
    · simp at hr

/-- Overflowing arguments are among those covered: 2^61 elements of 8 bytes wrap to 0. -/
example : (Buffer.Read .u64 .be 0 2305843009213693952 demo).1 = .panic .makeSlice := by
  rw [buffer_read_run demo_wf, if_neg (by decide)]
  have : readPanic Kind.u64.size (Int64.toInt 0) (Int64.toInt 2305843009213693952) demo.b.buf.len = .makeSlice := by
    decide
  exact congrArg Res.panic this

/-! ## C11 -/

/-- C11 is false for the typed accessors: an empty slice or a zero count always panics,
because the loops test their condition after the body. -/
theorem C11_zero_length_typed_false {s : St} (h : WF s) (k : Kind) (e : Endian) (off : Int64) :
    (∃ p, Buffer.Write k e off [] s = (.panic p, s)) ∧ (∃ p, Buffer.Read k e off 0 s = (.panic p, s)) := by
  constructor
  · rw [buffer_write_run h k e off [] (by simp), if_neg (by simp)]; exact ⟨_, rfl⟩
  · rw [buffer_read_run h, if_neg (by simp)]; exact ⟨_, rfl⟩

/-- The precise panic at an offset inside the buffer: an index error, not a library error. -/
theorem C11_zero_length_typed_panic {s : St} (h : WF s) (k : Kind) (e : Endian) (off : Int64)
    (h0 : 0 ≤ off.toInt) (h1 : off.toInt ≤ s.bytes.length) :
    Buffer.Write k e off [] s = (.panic .index, s) ∧ Buffer.Read k e off 0 s = (.panic .index, s) := by
  rw [length_bytes h.ok] at h1
  have hL := h.len_lt
  constructor
  · rw [buffer_write_run h k e off [] (by simp), if_neg (by simp)]
    simp only [writePanic, List.length_nil, Int.natCast_zero, Int.zero_mul, Int.add_zero]
    rw [if_neg (by omega), if_neg (by omega)]
  · rw [buffer_read_run h, if_neg (by simp)]
    simp only [readPanic, toInt_zero', Int.zero_mul, Int.add_zero]
    rw [wrap_id (by omega) (by omega), if_neg (by omega), if_neg (by omega), if_neg (by omega)]

/-- C11, the part that holds: `WriteBytes` of an empty slice and `ReadBytes` of zero bytes. -/
theorem C11_zero_length_raw_partial {s : St} (h : WF s) (off : Int64) (h0 : 0 ≤ off.toInt)
    (h1 : off.toInt ≤ s.bytes.length) :
    (∀ data : Slice, data.len = 0 → Buffer.WriteBytes off data s = (.ok (), s)) ∧
    (∃ t, Buffer.ReadBytes off 0 s = (.ok t, s) ∧ t.len = 0 ∧ s.mem.view t = []) := by
  rw [length_bytes h.ok] at h1
  constructor
  · intro data hd
    rw [buffer_writeBytes_run h off data (by omega), if_pos (by omega)]
    have : s.mem.view data = [] := by simp [Heap.view, hd]
    rw [this, write_nil]
  · refine ⟨⟨s.b.buf.arr, s.b.buf.off + off.toInt.toNat, 0, s.b.buf.cap - off.toInt.toNat⟩, ?_, ?_, ?_⟩
    · rw [buffer_readBytes_run h]
      simp only [toInt_zero']
      rw [if_pos (by omega)]; rfl
    · rfl
    · simp [Heap.view]

example : Buffer.WriteBytes 12 ⟨1, 2, 0, 1⟩ demo = (.ok (), demo) :=
  (C11_zero_length_raw_partial demo_wf 12 (by decide) (by decide)).1 _ rfl

/-! ## C12 -/

/-- C12 is false: some out-of-range arguments produce Go run-time errors. -/
theorem C12_library_errors_false :
    ¬ ∀ (s : St), WF s → ∀ (off n : Int64), ¬ (0 ≤ off.toInt ∧ 0 ≤ n.toInt ∧ off.toInt + n.toInt ≤ s.bytes.length) →
      ∃ e, (Buffer.ReadBytes off n s).1 = .panic (.err e) := by
  intro hh
  obtain ⟨e, he⟩ := hh demo demo_wf 1 9223372036854775807 (by decide)
  rw [buffer_readBytes_run demo_wf, if_neg (by decide)] at he
  have : readBytesPanic (Int64.toInt 1) (Int64.toInt 9223372036854775807) demo.b.buf.len = .sliceBounds := by decide
  rw [this] at he
  simp at he

/-- C12, the part that holds: without int64 overflow (and for non-empty transfers) every access
that is not inside the buffer panics with one of the four `Buffer…Error` values. -/
theorem C12_library_errors_partial {s : St} (h : WF s) (off : Int64) :
    (∀ (k : Kind) (e : Endian) (data : List k.Ty), data ≠ [] → data.length * k.size ≤ maxAlloc →
      off.toInt + (data.length * k.size : Nat) < 2 ^ 63 →
      ¬ (0 ≤ off.toInt ∧ off.toInt + (data.length * k.size : Nat) ≤ s.bytes.length) →
      (Buffer.Write k e off data s).1 = .panic (.err BufferOverwriteError) ∨
      (Buffer.Write k e off data s).1 = .panic (.err BufferUnderwriteError)) ∧
    (∀ (k : Kind) (e : Endian) (n : Int64), 1 ≤ n.toInt → off.toInt + n.toInt * k.size < 2 ^ 63 →
      ¬ (0 ≤ off.toInt ∧ off.toInt + n.toInt * k.size ≤ s.bytes.length) →
      (Buffer.Read k e off n s).1 = .panic (.err BufferOverreadError) ∨
      (Buffer.Read k e off n s).1 = .panic (.err BufferUnderreadError)) ∧
    (∀ (data : Slice), SliceOK s.mem data → off.toInt + data.len < 2 ^ 63 →
      ¬ (0 ≤ off.toInt ∧ off.toInt + data.len ≤ s.bytes.length) →
      (Buffer.WriteBytes off data s).1 = .panic (.err BufferOverwriteError) ∨
      (Buffer.WriteBytes off data s).1 = .panic (.err BufferUnderwriteError)) ∧
    (∀ (n : Int64), 0 ≤ n.toInt → off.toInt + n.toInt < 2 ^ 63 →
      ¬ (0 ≤ off.toInt ∧ off.toInt + n.toInt ≤ s.bytes.length) →
      (Buffer.ReadBytes off n s).1 = .panic (.err BufferOverreadError) ∨
      (Buffer.ReadBytes off n s).1 = .panic (.err BufferUnderreadError)) := by
  refine ⟨?_, ?_, ?_, ?_⟩
  · intro k e data hne hd ho hr
    have := (C07_typed_write_bounds h k e off data hne hd).2 ho
    by_cases hc : off.toInt + (data.length * k.size : Nat) > s.bytes.length
    · exact .inl (this.1 hc)
    · exact .inr (this.2 (by omega) (by omega))
  · intro k e n hn ho hr
    have := (C08_typed_read_bounds h k e off n hn).2 ho
    by_cases hc : off.toInt + n.toInt * k.size > s.bytes.length
    · exact .inl (this.1 hc)
    · exact .inr (this.2 (by omega) (by omega))
  · intro data hd ho hr
    have := (C07_writeBytes_bounds h off data hd).2 ho
    by_cases hc : off.toInt + data.len > s.bytes.length
    · exact .inl (this.1 hc)
    · exact .inr (this.2 (by omega) (by omega))
  · intro n hn ho hr
    have := (C08_readBytes_bounds h off n hn).2 ho
    by_cases hc : off.toInt + n.toInt > s.bytes.length
    · exact .inl (this.1 hc)
    · exact .inr (this.2 (by omega) (by omega))

/-! ## C13, C14 -/

/-- C13/C14: `WriteBytes` stores the bytes its source had before the call, however the source
overlaps the buffer, and `ReadBytes` returns them. -/
theorem C13_raw_round_trip {s : St} (h : WF s) (off : Int64) (data : Slice) (hd : SliceOK s.mem data)
    (h0 : 0 ≤ off.toInt) (hfit : off.toInt + data.len ≤ s.bytes.length) :
    ∃ s', Buffer.WriteBytes off data s = (.ok (), s') ∧
      s'.bytes = patch s.bytes off.toInt.toNat (s.mem.view data) ∧
      ∃ t, Buffer.ReadBytes off (Int64.ofNat data.len) s' = (.ok t, s') ∧ s'.mem.view t = s.mem.view data := by
  have hM := maxAlloc_lt
  have hb := length_bytes h.ok
  have hv := length_view hd
  have hl := hd.len_le_max
  have hn : (Int64.ofNat data.len).toInt = data.len := toInt_ofNat (by omega)
  refine ⟨s.write off.toInt.toNat (s.mem.view data), ?_, ?_, ?_⟩
  · rw [buffer_writeBytes_run h off data hl, if_pos (by omega)]
  · rw [bytes_write h.ok (by omega)]
  · have hr : 0 ≤ (Int64.ofNat data.len).toInt ∧ 0 ≤ off.toInt ∧
        off.toInt + (Int64.ofNat data.len).toInt ≤ (s.write off.toInt.toNat (s.mem.view data)).b.buf.len := by
      rw [hn, write_b]; omega
    have hrun := buffer_readBytes_run (h.write off.toInt.toNat (s.mem.view data)) off (Int64.ofNat data.len)
    rw [if_pos hr] at hrun
    refine ⟨_, hrun, ?_⟩
    obtain ⟨_, _, _, e4⟩ := (C10_no_disclosure (h.write off.toInt.toNat (s.mem.view data)) off _).1 _ _ hrun
    rw [e4]
    simp only [hn, Int.toNat_natCast, write_b, Nat.add_sub_cancel_left]
    rw [bytes_write h.ok (by omega), ← hv, slice_patch_self (by omega)]

example : ∃ s', Buffer.WriteBytes 4 demoSrc demo = (.ok (), s') ∧
    s'.bytes = [3, 4, 5, 6, 0xAA, 0xBB, 0xCC, 10, 11, 12, 13, 14] := by
  obtain ⟨s', h1, h2, _⟩ := C13_raw_round_trip demo_wf 4 demoSrc demoSrc_ok (by decide) (by decide)
  exact ⟨s', h1, h2.trans (by decide)⟩

/-- C13, single bytes. -/
theorem C13_byte_round_trip {s : St} (h : WF s) (off : Int64) (v : UInt8)
    (h0 : 0 ≤ off.toInt) (hfit : off.toInt < s.bytes.length) :
    ∃ s', Buffer.WriteByte off v s = (.ok (), s') ∧ s'.bytes = s.bytes.set off.toInt.toNat v ∧
      Buffer.ReadByte off s' = (.ok v, s') := by
  have hb := length_bytes h.ok
  have hw := h.lit (bs := [v]) (by rw [List.length_singleton]; decide)
  have e : (s.lit [v]).b = s.b := rfl
  have hs : ((s.lit [v]).write off.toInt.toNat [v]).bytes = s.bytes.set off.toInt.toNat v := by
    rw [bytes_write hw.ok (by rw [e, List.length_singleton]; omega), lit_bytes h.ok, set_eq_patch (by omega)]
  refine ⟨(s.lit [v]).write off.toInt.toNat [v], ?_, hs, ?_⟩
  · rw [buffer_writeByte_run h, if_pos (by omega)]
  · rw [buffer_readByte_run (hw.write _ _)]
    simp only [write_b, e]
    rw [if_pos (by omega), hs, List.getD, List.getElem?_set_self (by omega)]; rfl

/-- C13: `ReadByte off` is byte `off`. -/
theorem C13_readByte_value {s : St} (h : WF s) (off : Int64) (h0 : 0 ≤ off.toInt)
    (hfit : off.toInt < s.bytes.length) :
    ∃ v, Buffer.ReadByte off s = (.ok v, s) ∧ s.bytes[off.toInt.toNat]? = some v := by
  have hb := length_bytes h.ok
  refine ⟨_, by rw [buffer_readByte_run h, if_pos (by omega)], ?_⟩
  rw [List.getD, List.getElem?_eq_getElem (show off.toInt.toNat < s.bytes.length by omega)]; rfl

/-- C14: the source may be a part of the buffer itself; the copied bytes are those before the call. -/
theorem C14_overlapping_source {s : St} (h : WF s) (src n dst : Int64)
    (hn : 0 ≤ n.toInt) (h0 : 0 ≤ src.toInt) (h1 : src.toInt + n.toInt ≤ s.bytes.length)
    (h2 : 0 ≤ dst.toInt) (h3 : dst.toInt + n.toInt ≤ s.bytes.length) :
    ∃ t s', Buffer.ReadBytes src n s = (.ok t, s) ∧ Buffer.WriteBytes dst t s = (.ok (), s') ∧
      s'.bytes = patch s.bytes dst.toInt.toNat (slice s.bytes src.toInt.toNat n.toInt.toNat) := by
  have hb := length_bytes h.ok
  have hl := h.ok.len_le; have hf := h.ok.fits
  have hrun := buffer_readBytes_run h src n
  rw [if_pos (by omega)] at hrun
  obtain ⟨_, _, _, e4⟩ := (C10_no_disclosure h src n).1 _ _ hrun
  have hok : SliceOK s.mem ⟨s.b.buf.arr, s.b.buf.off + src.toInt.toNat, n.toInt.toNat, s.b.buf.cap - src.toInt.toNat⟩ :=
    ⟨by simp only; omega, by simp only; omega, h.ok.small⟩
  obtain ⟨s', w1, w2, _⟩ := C13_raw_round_trip h dst _ hok h2 (by simp only; omega)
  refine ⟨_, s', hrun, w1, ?_⟩
  rw [w2, e4]
  simp only [Nat.add_sub_cancel_left]

/-- Copying bytes 2…9 of the buffer two positions to the left, and to the right. -/
example : ∃ t s', Buffer.ReadBytes 2 8 demo = (.ok t, demo) ∧ Buffer.WriteBytes 4 t demo = (.ok (), s') ∧
    s'.bytes = [3, 4, 5, 6, 5, 6, 7, 8, 9, 10, 11, 12] := by
  obtain ⟨t, s', h1, h2, h3⟩ := C14_overlapping_source demo_wf 2 8 4 (by decide) (by decide) (by decide) (by decide)
    (by decide)
  exact ⟨t, s', h1, h2, h3.trans (by decide)⟩

/-! ## C06 -/

/-- What a Next operation is, in terms of the positioned one: same result, same effect, and the byte
offset moves by `d` if and only if it returns. -/
def NextOf (d : Int64) (next pos : Res α × St) : Prop :=
  match pos with
  | (.ok a, s') => next = (.ok a, { s' with b := { s'.b with off := s'.b.off + d } })
  | (.panic p, s') => next = (.panic p, s')

theorem nextOf_advance (d : Int64) (r : Res α × St) : NextOf d (advance d r) r := by
  rcases r with ⟨_ | _, s⟩ <;> exact rfl

/-- C06: the byte-level Next methods are the positioned methods at the current byte offset plus an
advance by the number of bytes named. -/
theorem C06_next_byte_ops (s : St) :
    (∀ k e (data : List k.Ty), NextOf (Int64.ofNat (data.length * k.size)) (Buffer.WriteNext k e data s)
      (Buffer.Write k e s.b.off data s)) ∧
    (∀ k e (n : Int64), NextOf (n * Int64.ofNat k.size) (Buffer.ReadNext k e n s) (Buffer.Read k e s.b.off n s)) ∧
    (∀ data, NextOf (Int64.ofNat data.len) (Buffer.WriteBytesNext data s) (Buffer.WriteBytes s.b.off data s)) ∧
    (∀ n, NextOf n (Buffer.ReadBytesNext n s) (Buffer.ReadBytes s.b.off n s)) ∧
    (∀ v, NextOf 1 (Buffer.WriteByteNext v s) (Buffer.WriteByte s.b.off v s)) ∧
    NextOf 1 (Buffer.ReadByteNext s) (Buffer.ReadByte s.b.off s) := by
  refine ⟨?_, ?_, ?_, ?_, ?_, ?_⟩
  · intro k e data; rw [writeNext_run, len, ← ofNat_mul]; exact nextOf_advance _ _
  · intro k e n; rw [readNext_run]; exact nextOf_advance _ _
  · intro data; rw [writeBytesNext_run]; exact nextOf_advance _ _
  · intro n; rw [readBytesNext_run]; exact nextOf_advance _ _
  · intro v; rw [writeByteNext_run]; exact nextOf_advance _ _
  · rw [readByteNext_run]; exact nextOf_advance _ _

/-- C06: after a successful Next operation the byte offset is exactly the old one plus the number of
bytes transferred (no wrap-around), and the bit offset is the same. -/
theorem C06_next_advance {s s' : St} (h : WF s) :
    (∀ k e (data : List k.Ty), data.length * k.size ≤ maxAlloc → Buffer.WriteNext k e data s = (.ok (), s') →
      s'.b.off.toInt = s.b.off.toInt + (data.length * k.size : Nat) ∧ s'.b.boff = s.b.boff) ∧
    (∀ k e (n : Int64) out, Buffer.ReadNext k e n s = (.ok out, s') →
      s'.b.off.toInt = s.b.off.toInt + n.toInt * k.size ∧ s'.b.boff = s.b.boff) ∧
    (∀ data, SliceOK s.mem data → Buffer.WriteBytesNext data s = (.ok (), s') →
      s'.b.off.toInt = s.b.off.toInt + data.len ∧ s'.b.boff = s.b.boff) ∧
    (∀ n t, Buffer.ReadBytesNext n s = (.ok t, s') →
      s'.b.off.toInt = s.b.off.toInt + n.toInt ∧ s'.b.boff = s.b.boff) ∧
    (∀ v, Buffer.WriteByteNext v s = (.ok (), s') → s'.b.off.toInt = s.b.off.toInt + 1 ∧ s'.b.boff = s.b.boff) ∧
    (∀ v, Buffer.ReadByteNext s = (.ok v, s') → s'.b.off.toInt = s.b.off.toInt + 1 ∧ s'.b.boff = s.b.boff) := by
  have hL := h.len_lt
  have hM := maxAlloc_lt
  have key : ∀ (d : Int64), 0 ≤ s.b.off.toInt → 0 ≤ d.toInt → s.b.off.toInt + d.toInt ≤ s.b.buf.len →
      (s.b.off + d).toInt = s.b.off.toInt + d.toInt := by
    intro d h1 h2 h3; rw [toInt_add]; omega
  refine ⟨?_, ?_, ?_, ?_, ?_, ?_⟩
  · intro k e data hd hr
    rw [writeNext_run, buffer_write_run h k e _ _ hd] at hr
    split at hr
    · rename_i hc
      rw [← Int.natCast_mul] at hc
      simp only [advance] at hr
      injection hr with _ hr; subst hr
      have hlm := len_mul data k.size hd (size_pos k)
      rw [← Int.natCast_mul] at hlm
      refine ⟨?_, rfl⟩
      simp only [write_b]
      rw [key _ hc.2.1 (by omega) (by omega), hlm]
    · simp [advance] at hr
  · intro k e n out hr
    rw [readNext_run, buffer_read_run h] at hr
    split at hr
    · rename_i hc
      simp only [advance] at hr
      injection hr with _ hr; subst hr
      have h8 := size_le k; have hp := size_pos k
      have e1 : (n * Int64.ofNat k.size).toInt = n.toInt * k.size := by
        rw [toInt_mul, toInt_ofNat (by omega)]
        have : 0 ≤ n.toInt * (k.size : Int) := Int.mul_nonneg (by omega) (by omega)
        omega
      refine ⟨?_, rfl⟩
      simp only []
      have : 0 ≤ n.toInt * (k.size : Int) := Int.mul_nonneg (by omega) (by omega)
      rw [key _ hc.2.1 (by omega) (by omega), e1]
    · simp [advance] at hr
  · intro data hd hr
    have := hd.len_le_max
    rw [writeBytesNext_run, buffer_writeBytes_run h _ _ hd.len_le_max] at hr
    split at hr
    · rename_i hc
      simp only [advance] at hr
      injection hr with _ hr; subst hr
      have e1 : (Int64.ofNat data.len).toInt = data.len := toInt_ofNat (by omega)
      refine ⟨?_, rfl⟩
      simp only [write_b]
      rw [key _ hc.1 (by omega) (by omega), e1]
    · simp [advance] at hr
  · intro n t hr
    rw [readBytesNext_run, buffer_readBytes_run h] at hr
    split at hr
    · rename_i hc
      simp only [advance] at hr
      injection hr with _ hr; subst hr
      refine ⟨?_, rfl⟩
      simp only []
      rw [key _ hc.2.1 (by omega) (by omega)]
    · simp [advance] at hr
  · intro v hr
    rw [writeByteNext_run, buffer_writeByte_run h] at hr
    split at hr
    · rename_i hc
      simp only [advance] at hr
      injection hr with _ hr; subst hr
      refine ⟨?_, rfl⟩
      show (s.b.off + 1).toInt = _
      rw [key _ hc.1 (by decide) (by rw [toInt_one']; omega), toInt_one']
    · simp [advance] at hr
  · intro v hr
    rw [readByteNext_run, buffer_readByte_run h] at hr
    split at hr
    · rename_i hc
      simp only [advance] at hr
      injection hr with _ hr; subst hr
      refine ⟨?_, rfl⟩
      show (s.b.off + 1).toInt = _
      rw [key _ hc.1 (by decide) (by rw [toInt_one']; omega), toInt_one']
    · simp [advance] at hr

example : ∃ s', Buffer.WriteNext .u16 .le [7, 8, 9] demo = (.ok (), s') ∧ s'.b.off.toInt = 9 := by
  obtain ⟨s', h1⟩ : ∃ s', Buffer.WriteNext .u16 .le [7, 8, 9] demo = (.ok (), s') := by
    rw [writeNext_run, buffer_write_run demo_wf _ _ _ _ (by decide), if_pos (by decide)]; exact ⟨_, rfl⟩
  exact ⟨s', h1, ((C06_next_advance demo_wf).1 _ _ _ (by decide) h1).1⟩

end Crunch.V3
