import Verif.Props.Demo
import Verif.Props.V2
import Verif.Lemmas.V1Complex

/-!
# Properties of the v1 buffers (C56, C57, C58)

`p.run ⟨s, false⟩` executes a v1 call on memory and fields `s` with the mutex free.
-/

namespace Crunch.V1
open Spec
open V3 (St WF Kind enc dec demo demo_wf demoSrc demoSrc_ok)

/-! ## what is said about the data -/

/-- The integers a value of type `interface{}` holds. -/
def Any.values (h : Heap) : Any → List Nat
  | .bytes s => (h.view s).map (·.toNat)
  | .u16 l => l.map (·.toNat)
  | .u32 l => l.map (·.toNat)
  | .u64 l => l.map (·.toNat)
  | .other => []

/-- Their number, in Go's `len`. -/
def Any.count : Any → Nat
  | .bytes s => s.len
  | .u16 l => l.length
  | .u32 l => l.length
  | .u64 l => l.length
  | .other => 0

/-- `size` is the integer size of the elements of `d`. -/
def Any.HasSize : Any → Int64 → Prop
  | .bytes _, size => size = Unsigned8
  | .u16 _, size => size = Unsigned16
  | .u32 _, size => size = Unsigned32
  | .u64 _, size => size = Unsigned64
  | .other, _ => False

/-- `d` can exist: a byte slice lies in memory, another slice is no larger than memory. -/
def Any.Valid (h : Heap) : Any → Prop
  | .bytes s => SliceOK h s
  | .u16 l => l.length * 2 ≤ maxAlloc
  | .u32 l => l.length * 4 ≤ maxAlloc
  | .u64 l => l.length * 8 ≤ maxAlloc
  | .other => True

/-- Position `off` of the buffer is not inside the byte slice `d`, except at its start. -/
def Any.Apart (s : St) (off : Int64) : Any → Prop
  | .bytes src => src.arr ≠ s.b.buf.arr ∨ s.b.buf.off + off.toInt.toNat ≤ src.off ∨ src.off + src.len ≤ s.b.buf.off + off.toInt.toNat
  | _ => True

/-! ## C56 -/

/-- C56, the full statement: `WriteComplex` of data that fits, then `ReadComplex` of the same count, size and order at the same
offset, returns the integers. -/
def C56_full : Prop :=
  ∀ (s : St) (off : Int64) (d : Any) (size : Int64) (e : Endian), WF s → d.Valid s.mem → d.HasSize size → 0 ≤ off.toInt →
    off.toInt + d.count * size.toInt ≤ s.bytes.length →
    ∃ s' out, (Buffer.WriteComplex off d size (some e)).run ⟨s, false⟩ = (.ok (), s') ∧
      (Buffer.ReadComplex off (Int64.ofNat d.count) size (some e)).run s' = (.ok out, s') ∧ out.values s'.st.mem = d.values s.mem

theorem roundtrip_kind {s : St} (h : WF s) (kd : Kind) (e : Endian) (l : List kd.Ty) (con : List kd.Ty → Any) (off : Int64)
    (h0 : 0 ≤ off.toInt) (hr : off.toInt + l.length * kd.size ≤ s.b.buf.len) :
    complexRead kd e con off (Int64.ofNat l.length) (s.write off.toInt.toNat (enc kd e l)) = .ok (con l) := by
  have hM := maxAlloc_lt; have hL := h.len_lt; have hc := h.ok.len_le
  have hp := V3.size_pos kd
  have h1 : l.length * 1 ≤ l.length * kd.size := Nat.mul_le_mul_left _ hp
  have hrn : off.toInt.toNat + l.length * kd.size ≤ s.b.buf.len := by omega
  have en : (Int64.ofNat l.length).toInt = l.length := toInt_ofNat (by omega)
  unfold complexRead
  rw [en, V3.write_b, if_pos (by omega), if_pos (by simp only [Int.toNat_natCast]; omega)]
  simp only [Int.toNat_natCast]
  rw [dec_written h.ok kd e l hrn]

/-- C56 is false: writing no integers at all panics with an index error, and bytes that come from the buffer itself are
overwritten while they are copied (C66). -/
theorem C56_empty_false : ¬ C56_full ∧
    (Buffer.WriteComplex 3 (.u16 []) Unsigned16 (some .be)).run ⟨demo, false⟩ = (.panic .index, ⟨demo, true⟩) := by
  have e : (Buffer.WriteComplex 3 (.u16 []) Unsigned16 (some .be)).run ⟨demo, false⟩ = (.panic .index, ⟨demo, true⟩) := by
    show (Buffer.writeComplex 3 (.u16 []) Unsigned16 (some .be)).run _ = _
    rw [writeComplex_u16 _ _ _ (by decide), write_lit_run demo_wf _ _ (by decide), if_neg (by decide)]
    rfl
  refine ⟨fun h => ?_, e⟩
  obtain ⟨s', out, h1, _, _⟩ := h demo 3 (.u16 []) Unsigned16 .be demo_wf (show (0 : Nat) ≤ maxAlloc by decide) rfl (by decide) (by decide)
  rw [e] at h1
  exact nomatch h1

/-- C56, what holds: for every non-empty data that fits and, if it is a byte slice, does not have the destination start inside
it, the write succeeds, releases the lock, and the read returns the integers that were there before the write. -/
theorem C56_complex_roundtrip_partial {s : St} (h : WF s) (off : Int64) (d : Any) (size : Int64) (e : Endian)
    (hv : d.Valid s.mem) (hs : d.HasSize size) (hn : 0 < d.count) (ha : d.Apart s off) (h0 : 0 ≤ off.toInt)
    (hr : off.toInt + d.count * size.toInt ≤ s.bytes.length) :
    ∃ s' out, (Buffer.WriteComplex off d size (some e)).run ⟨s, false⟩ = (.ok (), ⟨s', false⟩) ∧
      (Buffer.ReadComplex off (Int64.ofNat d.count) size (some e)).run ⟨s', false⟩ = (.ok out, ⟨s', false⟩) ∧
      out.HasSize size ∧ out.values s'.mem = d.values s.mem ∧ s'.b = s.b := by
  have hM := maxAlloc_lt; have hL := h.len_lt
  rw [V3.length_bytes h.ok] at hr
  show ∃ s' out, (Buffer.writeComplex off d size (some e)).run ⟨s, false⟩ = (.ok (), ⟨s', false⟩) ∧
    (Buffer.readComplex off (Int64.ofNat d.count) size (some e)).run ⟨s', false⟩ = (.ok out, ⟨s', false⟩) ∧ _
  cases d with
  | bytes src =>
    cases hs
    change 0 < src.len at hn
    change off.toInt + src.len * 1 ≤ _ at hr
    have hd := (show SliceOK s.mem src from hv).len_le_max
    have en : (Int64.ofNat src.len).toInt = src.len := toInt_ofNat (by omega)
    rw [writeComplex_u8, V2.writeBytes_run h off hv, if_pos (by omega), V2.copied_eq_view hv ha]
    refine ⟨_, .bytes ⟨s.b.buf.arr, s.b.buf.off + off.toInt.toNat, src.len, s.b.buf.cap - off.toInt.toNat⟩, rfl, ?_, ?_⟩
    · show (Buffer.readComplex off (Int64.ofNat src.len) Unsigned8 (some e)).run _ = _
      rw [readComplex_u8 (h.write _ _), en, V3.write_b, if_pos (by omega)]
      simp only [Int.toNat_natCast]
    · refine ⟨rfl, ?_, rfl⟩
      have hf := h.ok.fits; have hc := h.ok.len_le; have hlv := length_view (show SliceOK s.mem src from hv)
      show (((s.write off.toInt.toNat (s.mem.view src)).mem.view
        ⟨s.b.buf.arr, s.b.buf.off + off.toInt.toNat, src.len, s.b.buf.cap - off.toInt.toNat⟩).map (·.toNat)) = (s.mem.view src).map (·.toNat)
      congr 1
      unfold Heap.view V3.St.write
      simp only []
      rw [array_blit _ _ _ _ _ (by unfold Heap.view at hlv; omega), if_pos rfl]
      have := slice_patch_self (l := s.mem.array s.b.buf.arr) (p := s.b.buf.off + off.toInt.toNat) (bs := s.mem.view src) (by omega)
      rw [hlv] at this
      exact this
  | u16 l =>
    cases hs
    change 0 < l.length at hn
    change off.toInt + l.length * 2 ≤ _ at hr
    have hlen := V3.length_enc .u16 e l
    change (enc .u16 e l).length = l.length * 2 at hlen
    rw [writeComplex_u16 _ _ _ hv, write_lit_run h _ _ (by rw [hlen]; exact hv), if_pos (by rw [hlen]; omega)]
    refine ⟨_, .u16 l, rfl, ?_, rfl, rfl, rfl⟩
    show (Buffer.readComplex off (Int64.ofNat l.length) Unsigned16 (some e)).run _ = _
    rw [readComplex_u16 (h.write _ _), roundtrip_kind h .u16 e l .u16 off h0 hr]
  | u32 l =>
    cases hs
    change 0 < l.length at hn
    change off.toInt + l.length * 4 ≤ _ at hr
    have hlen := V3.length_enc .u32 e l
    change (enc .u32 e l).length = l.length * 4 at hlen
    rw [writeComplex_u32 _ _ _ hv, write_lit_run h _ _ (by rw [hlen]; exact hv), if_pos (by rw [hlen]; omega)]
    refine ⟨_, .u32 l, rfl, ?_, rfl, rfl, rfl⟩
    show (Buffer.readComplex off (Int64.ofNat l.length) Unsigned32 (some e)).run _ = _
    rw [readComplex_u32 (h.write _ _), roundtrip_kind h .u32 e l .u32 off h0 hr]
  | u64 l =>
    cases hs
    change 0 < l.length at hn
    change off.toInt + l.length * 8 ≤ _ at hr
    have hlen := V3.length_enc .u64 e l
    change (enc .u64 e l).length = l.length * 8 at hlen
    rw [writeComplex_u64 _ _ _ hv, write_lit_run h _ _ (by rw [hlen]; exact hv), if_pos (by rw [hlen]; omega)]
    refine ⟨_, .u64 l, rfl, ?_, rfl, rfl, rfl⟩
    show (Buffer.readComplex off (Int64.ofNat l.length) Unsigned64 (some e)).run _ = _
    rw [readComplex_u64 (h.write _ _), roundtrip_kind h .u64 e l .u64 off h0 hr]
  | other => exact hs.elim

example : ∃ s' out, (Buffer.WriteComplex 3 (.u32 [0x01020304, 0xFFFEFDFC]) Unsigned32 (some .be)).run ⟨demo, false⟩ = (.ok (), ⟨s', false⟩) ∧
    (Buffer.ReadComplex 3 2 Unsigned32 (some .be)).run ⟨s', false⟩ = (.ok out, ⟨s', false⟩) ∧
    out.HasSize Unsigned32 ∧ out.values s'.mem = [0x01020304, 0xFFFEFDFC] ∧ s'.b = demo.b :=
  C56_complex_roundtrip_partial demo_wf 3 (.u32 [0x01020304, 0xFFFEFDFC]) Unsigned32 .be (show (8 : Nat) ≤ maxAlloc by decide) rfl
    (by decide) trivial (by decide) (by decide)
example : (Any.bytes demoSrc).Valid demo.mem ∧ (Any.bytes demoSrc).HasSize Unsigned8 ∧ 0 < (Any.bytes demoSrc).count ∧
    (Any.bytes demoSrc).Apart demo 9 ∧ (9 : Int64).toInt + (Any.bytes demoSrc).count * Unsigned8.toInt ≤ demo.bytes.length :=
  ⟨demoSrc_ok, rfl, by decide, .inl (by decide), by decide⟩

theorem miniRoundtrip_kind {s : St} (h : s.OK) (kd : Kind) (e : Endian) (l : List kd.Ty) (con : List kd.Ty → Any) (off : Int64)
    (h0 : 0 ≤ off.toInt) (hr : off.toInt + l.length * kd.size ≤ s.b.buf.len) (o : Any) :
    miniRead kd e con off (Int64.ofNat l.length) (s.write off.toInt.toNat (enc kd e l)) o =
      (.ok (), (s.write off.toInt.toNat (enc kd e l), con l)) := by
  have hM := maxAlloc_lt; have hL := h.len_le_max; have hc := h.len_le
  have hp := V3.size_pos kd
  have h1 : l.length * 1 ≤ l.length * kd.size := Nat.mul_le_mul_left _ hp
  have hrn : off.toInt.toNat + l.length * kd.size ≤ s.b.buf.len := by omega
  have en : (Int64.ofNat l.length).toInt = l.length := toInt_ofNat (by omega)
  unfold miniRead
  rw [en, V3.write_b, if_pos (by omega), if_pos (by simp only [Int.toNat_natCast]; omega)]
  simp only [Int.toNat_natCast]
  rw [dec_written h kd e l hrn]

/-- C56 for `MiniBuffer`, with the same restrictions: whatever the variable passed for the result held before. -/
theorem C56_mini_complex_roundtrip_partial {s : St} (h : s.OK) (off : Int64) (d : Any) (size : Int64) (e : Endian) (o : Any)
    (hv : d.Valid s.mem) (hs : d.HasSize size) (hn : 0 < d.count) (ha : d.Apart s off) (h0 : 0 ≤ off.toInt)
    (hr : off.toInt + d.count * size.toInt ≤ s.bytes.length) :
    ∃ s' out, Mini.WriteComplex off d size (some e) s = (.ok (), s') ∧
      Mini.ReadComplex off (Int64.ofNat d.count) size (some e) (s', o) = (.ok (), (s', out)) ∧
      out.HasSize size ∧ out.values s'.mem = d.values s.mem ∧ s'.b = s.b := by
  have hM := maxAlloc_lt; have hL := h.len_le_max; have hc := h.len_le
  rw [V3.length_bytes h] at hr
  show ∃ s' out, Mini.writeComplex off d size (some e) s = (.ok (), s') ∧
    Mini.readComplex off (Int64.ofNat d.count) size (some e) (s', o) = (.ok (), (s', out)) ∧ _
  cases d with
  | bytes src =>
    cases hs
    change 0 < src.len at hn
    change off.toInt + src.len * 1 ≤ _ at hr
    have hd := (show SliceOK s.mem src from hv).len_le_max
    have en : (Int64.ofNat src.len).toInt = src.len := toInt_ofNat (by omega)
    rw [mini_writeComplex_u8, show V2.Mini.WriteBytes off src = V2.Mini.write off src from rfl, V2.mini_write_run h off hv,
      if_neg (by omega), if_pos (by omega), V2.copied_eq_view hv ha]
    refine ⟨_, .bytes ⟨s.b.buf.arr, s.b.buf.off + off.toInt.toNat, src.len, s.b.buf.cap - off.toInt.toNat⟩, rfl, ?_, ?_⟩
    · show Mini.readComplex off (Int64.ofNat src.len) Unsigned8 (some e) _ = _
      rw [mini_readComplex_u8 (V3.write_ok h _ _), en, V3.write_b, if_pos (by omega)]
      simp only [Int.toNat_natCast]
    · refine ⟨rfl, ?_, rfl⟩
      have hf := h.fits; have hlv := length_view (show SliceOK s.mem src from hv)
      show (((s.write off.toInt.toNat (s.mem.view src)).mem.view
        ⟨s.b.buf.arr, s.b.buf.off + off.toInt.toNat, src.len, s.b.buf.cap - off.toInt.toNat⟩).map (·.toNat)) = (s.mem.view src).map (·.toNat)
      congr 1
      unfold Heap.view V3.St.write
      simp only []
      rw [array_blit _ _ _ _ _ (by unfold Heap.view at hlv; omega), if_pos rfl]
      have := slice_patch_self (l := s.mem.array s.b.buf.arr) (p := s.b.buf.off + off.toInt.toNat) (bs := s.mem.view src) (by omega)
      rw [hlv] at this
      exact this
  | u16 l =>
    cases hs
    change 0 < l.length at hn
    change off.toInt + l.length * 2 ≤ _ at hr
    have hlen := V3.length_enc .u16 e l
    change (enc .u16 e l).length = l.length * 2 at hlen
    rw [mini_writeComplex_u16 _ _ _ hv, mini_writeLit_run h _ _ (by rw [hlen]; exact hv), if_pos (by rw [hlen]; omega)]
    exact ⟨_, .u16 l, rfl, (mini_readComplex_u16 (V3.write_ok h _ _) _ _ e o).trans (miniRoundtrip_kind h .u16 e l .u16 off h0 hr o),
      rfl, rfl, rfl⟩
  | u32 l =>
    cases hs
    change 0 < l.length at hn
    change off.toInt + l.length * 4 ≤ _ at hr
    have hlen := V3.length_enc .u32 e l
    change (enc .u32 e l).length = l.length * 4 at hlen
    rw [mini_writeComplex_u32 _ _ _ hv, mini_writeLit_run h _ _ (by rw [hlen]; exact hv), if_pos (by rw [hlen]; omega)]
    exact ⟨_, .u32 l, rfl, (mini_readComplex_u32 (V3.write_ok h _ _) _ _ e o).trans (miniRoundtrip_kind h .u32 e l .u32 off h0 hr o),
      rfl, rfl, rfl⟩
  | u64 l =>
    cases hs
    change 0 < l.length at hn
    change off.toInt + l.length * 8 ≤ _ at hr
    have hlen := V3.length_enc .u64 e l
    change (enc .u64 e l).length = l.length * 8 at hlen
    rw [mini_writeComplex_u64 _ _ _ hv, mini_writeLit_run h _ _ (by rw [hlen]; exact hv), if_pos (by rw [hlen]; omega)]
    exact ⟨_, .u64 l, rfl, (mini_readComplex_u64 (V3.write_ok h _ _) _ _ e o).trans (miniRoundtrip_kind h .u64 e l .u64 off h0 hr o),
      rfl, rfl, rfl⟩
  | other => exact hs.elim

example : ∃ s' out, Mini.WriteComplex 5 (.u64 [0x0102030405060708]) Unsigned64 (some .le) ⟨demo.mem, { demo.b with buf := ⟨0, 2, 13, 16⟩ }⟩ = (.ok (), s') ∧
    Mini.ReadComplex 5 1 Unsigned64 (some .le) (s', .other) = (.ok (), (s', out)) ∧
    out.HasSize Unsigned64 ∧ out.values s'.mem = [0x0102030405060708] ∧ s'.b = { demo.b with buf := ⟨0, 2, 13, 16⟩ } :=
  C56_mini_complex_roundtrip_partial (s := ⟨demo.mem, { demo.b with buf := ⟨0, 2, 13, 16⟩ }⟩) ⟨by decide, by decide, by decide⟩ 5
    (.u64 [0x0102030405060708]) Unsigned64 .le .other (show (8 : Nat) ≤ maxAlloc by decide) rfl (by decide) trivial (by decide) (by decide)

/-! ## C57 -/

/-- The integer sizes the package names. -/
def ValidSize (size : Int64) : Prop := size = Unsigned8 ∨ size = Unsigned16 ∨ size = Unsigned32 ∨ size = Unsigned64

/-- C57, the full statement: a `ReadComplex` of integers that reach past the end of the buffer panics with
`BufferOverreadError`. -/
def C57_full : Prop :=
  ∀ (s : St) (off n size : Int64) (e : Endian), WF s → ValidSize size → 0 ≤ off.toInt → 0 ≤ n.toInt →
    off.toInt + n.toInt < 2 ^ 63 → s.bytes.length < off.toInt + n.toInt * size.toInt →
    ((Buffer.ReadComplex off n size (some e)).run ⟨s, false⟩).1 = .panic (.err BufferOverreadError)

/-- C57 is false: only `n` bytes are checked, not `n * size`.  On a buffer of 12 bytes whose slice has 4 bytes of spare capacity
the call returns two integers made of those spare bytes, and one element further it panics with a slice bounds error. -/
theorem C57_reads_past_the_end_false : ¬ C57_full ∧
    (Buffer.ReadComplex 8 4 Unsigned16 (some .be)).run ⟨demo, false⟩ = (.ok (.u16 [0x0B0C, 0x0D0E, 0x0F10, 0x1112]), ⟨demo, false⟩) ∧
    demo.bytes = [3, 4, 5, 6, 7, 8, 9, 10, 11, 12, 13, 14] ∧
    (Buffer.ReadComplex 7 5 Unsigned16 (some .be)).run ⟨demo, false⟩ = (.panic .sliceBounds, ⟨demo, false⟩) := by
  have e : (Buffer.ReadComplex 8 4 Unsigned16 (some .be)).run ⟨demo, false⟩ =
      (.ok (.u16 [0x0B0C, 0x0D0E, 0x0F10, 0x1112]), ⟨demo, false⟩) := by
    refine (readComplex_u16 demo_wf 8 4 .be).trans ?_
    congr 1
  refine ⟨fun h => ?_, e, by decide, (readComplex_u16 demo_wf 7 5 .be).trans (by congr 1)⟩
  have := h demo 8 4 Unsigned16 .be demo_wf (.inr (.inl rfl)) (by decide) (by decide) (by decide) (by decide)
  rw [e] at this
  exact nomatch this

theorem values_dec (kd : Kind) (e : Endian) (n : Nat) (l : List UInt8) (h : n * kd.size ≤ l.length) :
    (dec kd e n l).map kd.pat = (List.range n).map fun i => decode e (Spec.slice l (i * kd.size) kd.size) := by
  rw [dec, List.map_map]
  apply List.map_congr_left
  intro i hi
  have := V3.mul_le_of_lt (w := kd.size) (List.mem_range.mp hi)
  have hl : (Spec.slice l (i * kd.size) kd.size).length = kd.size := length_slice (by omega)
  refine V3.pat_ofPat kd _ ?_
  have := V3.decode_lt e (Spec.slice l (i * kd.size) kd.size)
  rwa [hl] at this

/-- What C57 says, as far as it holds, about the result `r` of a `ReadComplex`. -/
def ReadsInside (s : St) (off n size : Int64) (e : Endian) (r : Res Any) : Prop :=
  (0 ≤ off.toInt → off.toInt + n.toInt < 2 ^ 63 → s.bytes.length < off.toInt + n.toInt → r = .panic (.err BufferOverreadError)) ∧
  ((∃ out, r = .ok out) ↔
    0 ≤ off.toInt ∧ 0 ≤ n.toInt ∧ off.toInt + n.toInt ≤ s.bytes.length ∧ off.toInt + n.toInt * size.toInt ≤ s.b.buf.cap) ∧
  ∀ out, r = .ok out →
    out.values s.mem = (List.range n.toInt.toNat).map (fun i => decode e (Spec.slice (s.mem.array s.b.buf.arr)
      (s.b.buf.off + off.toInt.toNat + i * size.toInt.toNat) size.toInt.toNat)) ∧
    (off.toInt + n.toInt * size.toInt ≤ s.bytes.length ∨ s.b.buf.cap = s.b.buf.len →
      out.values s.mem = (List.range n.toInt.toNat).map (fun i => decode e (Spec.slice s.bytes
        (off.toInt.toNat + i * size.toInt.toNat) size.toInt.toNat)))

theorem slice_bytes {s : St} (p w : Nat) (hw : p + w ≤ s.b.buf.len) :
    Spec.slice s.bytes p w = Spec.slice (s.mem.array s.b.buf.arr) (s.b.buf.off + p) w := by
  show Spec.slice (Spec.slice _ _ _) _ _ = _
  exact V3.slice_slice hw

theorem inside_values {s : St} {n w o : Nat} {e : Endian} (hc : o + n * w ≤ s.b.buf.len) :
    ((List.range n).map fun i => decode e (Spec.slice (s.mem.array s.b.buf.arr) (s.b.buf.off + o + i * w) w)) =
      (List.range n).map fun i => decode e (Spec.slice s.bytes (o + i * w) w) := by
  apply List.map_congr_left
  intro i hi
  have := V3.mul_le_of_lt (w := w) (List.mem_range.mp hi)
  rw [slice_bytes _ _ (by omega), Nat.add_assoc]

theorem complexRead_inside {s : St} (h : WF s) (off n size : Int64) (e : Endian) (kd : Kind) (con : List kd.Ty → Any)
    (hk : size.toInt = kd.size) (hcon : ∀ l, (con l).values s.mem = l.map kd.pat) :
    ReadsInside s off n size e (complexRead kd e con off n s) := by
  have hc := h.ok.len_le; have hf := h.ok.fits; have hL := h.len_lt
  have hl := V3.length_bytes h.ok
  unfold complexRead ReadsInside
  rw [hl, hk, Int.toNat_natCast]
  by_cases a : 0 ≤ n.toInt ∧ 0 ≤ off.toInt ∧ off.toInt + n.toInt ≤ s.b.buf.len
  · obtain ⟨a1, a2, a3⟩ := a
    rw [if_pos ⟨a1, a2, a3⟩]
    have en : ((n.toInt.toNat * kd.size : Nat) : Int) = n.toInt * kd.size := by rw [Int.natCast_mul, Int.toNat_of_nonneg a1]
    by_cases b : off.toInt.toNat + n.toInt.toNat * kd.size ≤ s.b.buf.cap
    · rw [if_pos b]
      refine ⟨fun _ _ _ => by omega, ⟨fun _ => ⟨a2, a1, a3, by omega⟩, fun _ => ⟨_, rfl⟩⟩, fun out ho => ?_⟩
      cases ho
      have v : (con (dec kd e n.toInt.toNat (St.from s off.toInt.toNat))).values s.mem =
          (List.range n.toInt.toNat).map (fun i => decode e (Spec.slice (s.mem.array s.b.buf.arr)
            (s.b.buf.off + off.toInt.toNat + i * kd.size) kd.size)) := by
        rw [hcon, values_dec]
        · apply List.map_congr_left
          intro i _
          unfold St.from Spec.slice
          rw [List.drop_drop]
        · unfold St.from
          rw [List.length_drop]; omega
      exact ⟨v, fun hin => v.trans (inside_values (by omega))⟩
    · rw [if_neg b]
      exact ⟨fun _ _ _ => by omega, ⟨fun ⟨_, ho⟩ => (nomatch ho), fun ⟨_, _, _, _⟩ => by omega⟩, fun _ ho => (nomatch ho)⟩
  · rw [if_neg a]
    refine ⟨fun h0 h1 h2 => ?_, ⟨fun ⟨_, ho⟩ => (nomatch ho), fun ⟨_, _, _, _⟩ => by omega⟩, fun _ ho => (nomatch ho)⟩
    have n2 := le_toInt' n
    unfold V3.readBytesPanic
    rw [V3.wrap_id (by omega) (by omega), if_pos h2]
    rfl

theorem values_bytes (e : Endian) {l : List UInt8} {p n : Nat} (h : p + n ≤ l.length) :
    (Spec.slice l p n).map (·.toNat) = (List.range n).map fun i => decode e (Spec.slice l (p + i * 1) 1) := by
  refine List.ext_getElem (by simp [length_slice h]) fun i h1 h2 => ?_
  have hi : i < n := by simpa using h2
  rw [List.getElem_map, List.getElem_map, List.getElem_range]
  have e1 : Spec.slice l (p + i * 1) 1 = [l[p + i]] := by
    unfold Spec.slice
    rw [Nat.mul_one, List.drop_eq_getElem_cons (by omega)]
    rfl
  have e2 : (Spec.slice l p n)[i]'(by simpa using h1) = l[p + i] := by
    unfold Spec.slice
    rw [List.getElem_take, List.getElem_drop]
  rw [e1, e2]
  cases e <;> simp [decode, value]

/-- C57, what holds, for every state, offset, count and size: a call changes nothing and releases the lock; it panics with
`BufferOverreadError` when the first `n` bytes do not fit; when it returns, the integers are those encoded in memory from
position `off` of the buffer on, inside the capacity of the slice, so inside the buffer whenever they fit or the slice has
no spare capacity. -/
theorem C57_read_complex_partial {s : St} (h : WF s) (off n size : Int64) (e : Endian) (hs : ValidSize size) :
    ((Buffer.ReadComplex off n size (some e)).run ⟨s, false⟩).2 = ⟨s, false⟩ ∧
    ReadsInside s off n size e ((Buffer.ReadComplex off n size (some e)).run ⟨s, false⟩).1 := by
  show ((Buffer.readComplex off n size (some e)).run ⟨s, false⟩).2 = _ ∧
    ReadsInside s off n size e ((Buffer.readComplex off n size (some e)).run ⟨s, false⟩).1
  rcases hs with rfl | rfl | rfl | rfl
  · rw [readComplex_u8 h]
    have hc := h.ok.len_le; have hf := h.ok.fits; have hL := h.len_lt
    unfold ReadsInside
    rw [V3.length_bytes h.ok, show Unsigned8.toInt = 1 from rfl, Int.mul_one]
    by_cases a : 0 ≤ n.toInt ∧ 0 ≤ off.toInt ∧ off.toInt + n.toInt ≤ s.b.buf.len
    · rw [if_pos a]
      refine ⟨rfl, fun _ _ _ => by omega, ⟨fun _ => ⟨by omega, by omega, by omega, by omega⟩, fun _ => ⟨_, rfl⟩⟩, fun out ho => ?_⟩
      cases ho
      have v := values_bytes e (l := s.mem.array s.b.buf.arr) (p := s.b.buf.off + off.toInt.toNat) (n := n.toInt.toNat) (by omega)
      exact ⟨v, fun _ => v.trans (inside_values (by omega))⟩
    · rw [if_neg a]
      refine ⟨rfl, fun h0 h1 h2 => ?_, ⟨fun ⟨_, ho⟩ => (nomatch ho), fun ⟨_, _, _, _⟩ => by omega⟩, fun _ ho => (nomatch ho)⟩
      have n2 := le_toInt' n
      simp only [V3.readBytesPanic]
      rw [V3.wrap_id (by omega) (by omega), if_pos h2]
      rfl
  · rw [readComplex_u16 h]
    exact ⟨rfl, complexRead_inside h _ _ _ e .u16 .u16 rfl fun _ => rfl⟩
  · rw [readComplex_u32 h]
    exact ⟨rfl, complexRead_inside h _ _ _ e .u32 .u32 rfl fun _ => rfl⟩
  · rw [readComplex_u64 h]
    exact ⟨rfl, complexRead_inside h _ _ _ e .u64 .u64 rfl fun _ => rfl⟩

example : ((Buffer.ReadComplex 4 2 Unsigned32 (some .le)).run ⟨demo, false⟩).1 = .ok (.u32 [0x0A090807, 0x0E0D0C0B]) :=
  congrArg Prod.fst (readComplex_u32 demo_wf 4 2 .le)

/-! ## C58 -/

/-- C58, the full statement, for the v1 `Buffer`: an invalid integer size is reported by both calls, an invalid bit by `SetBit`,
and nothing changes. -/
def C58_full : Prop :=
  (∀ (s : St) (off n size : Int64) (d : Any) (o : ByteOrder), WF s → ¬ ValidSize size →
    (Buffer.WriteComplex off d size o).run ⟨s, false⟩ = (.panic (.err BufferInvalidIntegerSizeError), ⟨s, false⟩) ∧
    (Buffer.ReadComplex off n size o).run ⟨s, false⟩ = (.panic (.err BufferInvalidIntegerSizeError), ⟨s, false⟩)) ∧
  ∀ (s : St) (off : Int64) (v : UInt8), WF s → v ≠ 0 → v ≠ 1 →
    (Buffer.SetBit off v).run ⟨s, false⟩ = (.panic (.err BufferInvalidBitError), ⟨s, false⟩)

/-- C58 is false: an offset outside the buffer is reported first. -/
theorem C58_range_first_false : ¬ C58_full ∧
    (Buffer.ReadComplex 11 2 3 none).run ⟨demo, false⟩ = (.panic (.err BufferOverreadError), ⟨demo, false⟩) ∧
    (Buffer.SetBit 96 2).run ⟨demo, false⟩ = (.panic (.err BufferOverwriteError), ⟨demo, false⟩) := by
  refine ⟨fun h => ?_, (readComplex_other demo_wf 11 2 3 none (by decide) (by decide) (by decide) (by decide)).trans rfl, rfl⟩
  have := h.2 demo 96 2 demo_wf (by decide) (by decide)
  rw [show (Buffer.SetBit 96 2).run ⟨demo, false⟩ = (.panic (.err BufferOverwriteError), ⟨demo, false⟩) from rfl] at this
  exact absurd (congrArg Prod.fst this) (by decide)

/-- C58, `WriteComplex`: every call with an invalid size reports it, whatever the data, order, offset and state. -/
theorem C58_writeComplex_invalid (sh : Sh) (off size : Int64) (d : Any) (o : ByteOrder) (hs : ¬ ValidSize size) :
    (Buffer.WriteComplex off d size o).run sh = (.panic (.err BufferInvalidIntegerSizeError), sh) := by
  rw [show Buffer.WriteComplex off d size o = Buffer.writeComplex off d size o from rfl,
    writeComplex_other off d size o (fun h => hs (.inl h)) (fun h => hs (.inr (.inl h))) (fun h => hs (.inr (.inr (.inl h))))
      (fun h => hs (.inr (.inr (.inr h))))]
  rfl

/-- C58, `ReadComplex`: a call with an invalid size changes nothing and never returns; when the first `n` bytes fit it reports
the size. -/
theorem C58_readComplex_invalid_partial {s : St} (h : WF s) (off n size : Int64) (o : ByteOrder) (hs : ¬ ValidSize size) :
    ((Buffer.ReadComplex off n size o).run ⟨s, false⟩).2 = ⟨s, false⟩ ∧
    (∃ p, ((Buffer.ReadComplex off n size o).run ⟨s, false⟩).1 = .panic p) ∧
    (0 ≤ off.toInt → 0 ≤ n.toInt → off.toInt + n.toInt ≤ s.bytes.length →
      ((Buffer.ReadComplex off n size o).run ⟨s, false⟩).1 = .panic (.err BufferInvalidIntegerSizeError)) := by
  rw [show Buffer.ReadComplex off n size o = Buffer.readComplex off n size o from rfl,
    readComplex_other h off n size o (fun h => hs (.inl h)) (fun h => hs (.inr (.inl h))) (fun h => hs (.inr (.inr (.inl h))))
      (fun h => hs (.inr (.inr (.inr h)))), V3.length_bytes h.ok]
  refine ⟨rfl, ⟨_, rfl⟩, fun h0 h1 h2 => ?_⟩
  simp only []
  rw [if_pos ⟨h1, h0, h2⟩]

/-- C58, `SetBit`: a value that is not a bit changes nothing; inside the buffer it is reported. -/
theorem C58_setBit_invalid_partial {s : St} (h : WF s) (off : Int64) (v : UInt8) (h0 : v ≠ 0) (h1 : v ≠ 1) :
    ((Buffer.SetBit off v).run ⟨s, false⟩).2 = ⟨s, false⟩ ∧
    (0 ≤ off.toInt ∧ off.toInt < 8 * s.bytes.length →
      ((Buffer.SetBit off v).run ⟨s, false⟩).1 = .panic (.err BufferInvalidBitError)) ∧
    (off.toInt < 0 → ((Buffer.SetBit off v).run ⟨s, false⟩).1 = .panic (.err BufferUnderwriteError)) ∧
    (8 * s.bytes.length ≤ off.toInt → ((Buffer.SetBit off v).run ⟨s, false⟩).1 = .panic (.err BufferOverwriteError)) :=
  V2.C58_v2_setBit_invalid h off v h0 h1

/-- C58 for `MiniBuffer`, whose `ReadComplex` takes the slice before it looks at the size. -/
theorem C58_mini_readComplex_invalid_partial {s : St} (h : s.OK) (off n size : Int64) (bo : ByteOrder) (o : Any)
    (hs : ¬ ValidSize size) :
    (Mini.ReadComplex off n size bo (s, o)).2 = (s, o) ∧
    (∃ p, (Mini.ReadComplex off n size bo (s, o)).1 = .panic p) ∧
    (0 ≤ off.toInt → 0 ≤ n.toInt → off.toInt + n.toInt ≤ s.bytes.length →
      (Mini.ReadComplex off n size bo (s, o)).1 = .panic (.err BufferInvalidIntegerSizeError)) := by
  have hc := h.len_le
  rw [show Mini.ReadComplex off n size bo = Mini.readComplex off n size bo from rfl,
    mini_readComplex_other h off n size bo o (fun h => hs (.inl h)) (fun h => hs (.inr (.inl h))) (fun h => hs (.inr (.inr (.inl h))))
      (fun h => hs (.inr (.inr (.inr h)))), V3.length_bytes h]
  refine ⟨rfl, ⟨_, rfl⟩, fun h0 h1 h2 => ?_⟩
  simp only []
  rw [if_pos ⟨h1, h0, by omega⟩]

/-- C58 for `MiniBuffer`, the calls that check first: every invalid value is reported. -/
theorem C58_mini_invalid (s : St) (off size : Int64) (d : Any) (o : ByteOrder) (v : UInt8) (h0 : v ≠ 0) (h1 : v ≠ 1)
    (hs : ¬ ValidSize size) :
    Mini.WriteComplex off d size o s = (.panic (.err BufferInvalidIntegerSizeError), s) ∧
    Mini.SetBit off v s = (.panic (.err BufferInvalidBitError), s) := by
  refine ⟨?_, ?_⟩
  · rw [show Mini.WriteComplex off d size o = Mini.writeComplex off d size o from rfl,
      mini_writeComplex_other off d size o (fun h => hs (.inl h)) (fun h => hs (.inr (.inl h))) (fun h => hs (.inr (.inr (.inl h))))
        (fun h => hs (.inr (.inr (.inr h))))]
    rfl
  · show Mini.setbit off v s = _
    unfold Mini.setbit
    rw [if_neg h0, if_neg h1]
    rfl

example : ¬ ValidSize 3 ∧ ¬ ValidSize 0 ∧ ¬ ValidSize (-1) ∧ (2 : UInt8) ≠ 0 ∧ (2 : UInt8) ≠ 1 ∧
    (Buffer.ReadComplex 10 2 3 (some .be)).run ⟨demo, false⟩ = (.panic (.err BufferInvalidIntegerSizeError), ⟨demo, false⟩) ∧
    (Buffer.SetBit 95 2).run ⟨demo, false⟩ = (.panic (.err BufferInvalidBitError), ⟨demo, false⟩) := by
  refine ⟨?_, ?_, ?_, by decide, by decide, ?_, rfl⟩
  iterate 3 exact fun h => by rcases h with h | h | h | h <;> exact absurd h (by decide)
  exact (readComplex_other demo_wf 10 2 3 _ (by decide) (by decide) (by decide) (by decide)).trans rfl

end Crunch.V1
