import Verif.Props.Resize

/-!
# Laws relating operations (C41, C42)
-/

namespace Crunch.V3
open Spec

/-! ## C41 -/

/-- The operations that write whole bytes. -/
inductive ByteWrite where
  | typed (k : Kind) (e : Endian) (off : Int64) (data : List k.Ty)
  | bytes (off : Int64) (src : Slice)
  | byte (off : Int64) (v : UInt8)

namespace ByteWrite

/-- The method call. -/
def run : ByteWrite → GoM St Unit
  | typed k e off data => Buffer.Write k e off data
  | bytes off src => Buffer.WriteBytes off src
  | byte off v => Buffer.WriteByte off v

def off : ByteWrite → Int64
  | typed _ _ off _ => off
  | bytes off _ => off
  | byte off _ => off

/-- Number of bytes written. -/
def size : ByteWrite → Nat
  | typed k _ _ data => data.length * k.size
  | bytes _ src => src.len
  | byte _ _ => 1

/-- In range; an empty typed slice is excluded (it panics, C11). -/
def Fits (s : St) (w : ByteWrite) : Prop :=
  0 ≤ w.off.toInt ∧ w.off.toInt + w.size ≤ s.bytes.length ∧
  match w with
  | typed _ _ _ data => data ≠ []
  | bytes _ src => SliceOK s.mem src ∧ src.arr < s.mem.arrays.length
  | byte _ _ => True

/-- The source slice (if any) does not overlap the bytes `lo … hi-1` of the buffer. -/
def SourceClear (s : St) (lo hi : Nat) : ByteWrite → Prop
  | bytes _ src => src.arr ≠ s.b.buf.arr ∨ src.off + src.len ≤ s.b.buf.off + lo ∨ s.b.buf.off + hi ≤ src.off
  | _ => True

/-- The bytes written. -/
def content (m : Heap) : ByteWrite → List UInt8
  | typed k e _ data => enc k e data
  | bytes _ src => m.view src
  | byte _ v => [v]

end ByteWrite

/-- The memory `m'` is `m` with `bs` at position `p` of array `a`, and possibly more arrays. -/
structure Patched (m m' : Heap) (a p : Nat) (bs : List UInt8) : Prop where
  more : m.arrays.length ≤ m'.arrays.length
  eq : ∀ c, c < m.arrays.length → m'.array c = if c = a then patch (m.array c) p bs else m.array c

theorem buf_lt {s : St} (h : WF s) (hp : 0 < s.bytes.length) : s.b.buf.arr < s.mem.arrays.length := by
  have hb := length_bytes h.ok
  have h1 := h.ok.fits; have h2 := h.ok.len_le
  by_cases hh : s.b.buf.arr < s.mem.arrays.length
  · exact hh
  · rw [array_nil_of_ge (h := s.mem) (a := s.b.buf.arr) (by omega)] at h1; simp at h1; omega

theorem patched_write {s : St} (h : s.OK) {p : Nat} {bs : List UInt8} (hp : p + bs.length ≤ s.b.buf.len) :
    Patched s.mem (s.write p bs).mem s.b.buf.arr (s.b.buf.off + p) bs := by
  have := h.fits; have := h.len_le
  refine ⟨by unfold St.write; simp only []; rw [blit_length]; omega, fun c _ => ?_⟩
  unfold St.write
  simp only []
  rw [array_blit _ _ _ _ _ (by omega)]
  by_cases hc : s.b.buf.arr = c
  · subst hc; simp only [if_true]
  · rw [if_neg hc, if_neg (Ne.symm hc)]

theorem byteWrite_effect {s : St} (h : WF s) (w : ByteWrite) (hf : w.Fits s) :
    ∃ s', w.run s = (.ok (), s') ∧ s'.b = s.b ∧ WF s' ∧ (w.content s.mem).length = w.size ∧
      Patched s.mem s'.mem s.b.buf.arr (s.b.buf.off + w.off.toInt.toNat) (w.content s.mem) := by
  have hb := length_bytes h.ok
  obtain ⟨h0, h1, h2⟩ := hf
  have hm := fit_maxAlloc h h0 h1
  match w with
  | .typed k e off data =>
    simp only [ByteWrite.off, ByteWrite.size, ByteWrite.content, ByteWrite.run] at *
    have hl := length_enc k e data
    refine ⟨s.write off.toInt.toNat (enc k e data), ?_, rfl, h.write _ _, hl, patched_write h.ok (by omega)⟩
    rw [buffer_write_run h k e off data hm, if_pos ⟨h2, h0, by rw [← Int.natCast_mul]; omega⟩]
  | .bytes off src =>
    simp only [ByteWrite.off, ByteWrite.size, ByteWrite.content, ByteWrite.run] at *
    have hl := length_view h2.1
    refine ⟨s.write off.toInt.toNat (s.mem.view src), ?_, rfl, h.write _ _, hl, patched_write h.ok (by omega)⟩
    rw [buffer_writeBytes_run h off src hm, if_pos (by omega)]
  | .byte off v =>
    simp only [ByteWrite.off, ByteWrite.size, ByteWrite.content, ByteWrite.run] at *
    have hw : WF (s.lit [v]) := h.lit (by rw [List.length_singleton]; decide)
    have hlen : off.toInt.toNat + [v].length ≤ (s.lit [v]).b.buf.len := by
      rw [List.length_singleton]; show _ ≤ s.b.buf.len; omega
    refine ⟨(s.lit [v]).write off.toInt.toNat [v], ?_, rfl, hw.write _ _, rfl, ?_⟩
    · rw [buffer_writeByte_run h, if_pos (by omega)]
    · have hp := patched_write hw.ok hlen
      refine ⟨Nat.le_trans (by simp [St.lit, Heap.alloc]) hp.more, fun c hc => ?_⟩
      rw [hp.eq c (Nat.lt_of_lt_of_le hc (by simp [St.lit, Heap.alloc]))]
      show (if c = s.b.buf.arr then patch ((s.mem.alloc [v]).array c) _ _ else (s.mem.alloc [v]).array c) = _
      rw [array_alloc_lt hc]; rfl

theorem patched_view_self {s : St} {m' : Heap} {p : Nat} {bs : List UInt8} (h : WF s) (hne : 0 < s.bytes.length)
    (hp : p + bs.length ≤ s.bytes.length) (hP : Patched s.mem m' s.b.buf.arr (s.b.buf.off + p) bs) :
    m'.view s.b.buf = patch s.bytes p bs := by
  have hb := length_bytes h.ok
  have := h.ok.fits; have := h.ok.len_le
  have e : m'.view s.b.buf = (s.write p bs).mem.view s.b.buf := by
    unfold Heap.view
    rw [hP.eq _ (buf_lt h hne), (patched_write h.ok (by omega)).eq _ (buf_lt h hne)]
  rw [e]
  exact bytes_write h.ok (by omega)

theorem patched_view_clear {m m' : Heap} {a p : Nat} {bs : List UInt8} {t : Slice} (hP : Patched m m' a p bs)
    (hp : p + bs.length ≤ (m.array a).length)
    (ht : t.arr < m.arrays.length) (d : t.arr ≠ a ∨ t.off + t.len ≤ p ∨ p + bs.length ≤ t.off) :
    m'.view t = m.view t := by
  have e : m'.view t = (m.blit a p bs).view t := by
    unfold Heap.view
    rw [hP.eq _ ht, array_blit _ _ _ _ _ hp]
    by_cases hc : a = t.arr
    · subst hc; simp only [if_true]
    · rw [if_neg hc, if_neg (Ne.symm hc)]
  rw [e]
  apply view_blit_disj hp
  rcases d with d | d
  · exact .inl (Ne.symm d)
  · exact .inr (by omega)

theorem content_stable {m m' : Heap} {s : St} {a : ByteWrite} {p : Nat} {bs : List UInt8}
    (hP : Patched m m' s.b.buf.arr (s.b.buf.off + p) bs) (hm : s.mem = m) (ha : a.Fits s)
    (hp : s.b.buf.off + p + bs.length ≤ (m.array s.b.buf.arr).length)
    (hc : a.SourceClear s p (p + bs.length)) : a.content m' = a.content m := by
  subst hm
  match a, ha, hc with
  | .typed .., _, _ => rfl
  | .byte .., _, _ => rfl
  | .bytes off src, ha, hc =>
    simp only [ByteWrite.SourceClear] at hc
    exact patched_view_clear hP hp ha.2.2.2 (by rcases hc with hc | hc | hc; exact .inl hc; exact .inr (.inl hc); exact .inr (.inr (by omega)))

theorem fits_after {s s' : St} {a : ByteWrite} {p : Nat} {bs : List UInt8} (h : WF s) (hb' : s'.b = s.b) (hw : WF s')
    (hP : Patched s.mem s'.mem s.b.buf.arr (s.b.buf.off + p) bs) (hp : p + bs.length ≤ s.bytes.length)
    (ha : a.Fits s) : a.Fits s' := by
  have hl : s'.bytes.length = s.bytes.length := by rw [length_bytes hw.ok, length_bytes h.ok, hb']
  have := h.ok.fits; have := h.ok.len_le; have := length_bytes h.ok
  refine ⟨ha.1, by rw [hl]; exact ha.2.1, ?_⟩
  match a, ha with
  | .typed .., ha => exact ha.2.2
  | .byte .., _ => trivial
  | .bytes off src, ha =>
    have ho := ha.2.2.1
    refine ⟨?_, Nat.lt_of_lt_of_le ha.2.2.2 hP.more⟩
    have hlen : (s'.mem.array src.arr).length = (s.mem.array src.arr).length := by
      rw [hP.eq _ ha.2.2.2]
      split
      · rename_i hc; rw [hc, length_patch (by omega)]
      · rfl
    exact ⟨ho.len_le, by rw [hlen]; exact ho.fits, by rw [hlen]; exact ho.small⟩

/-- C41: two in-range byte writes to disjoint ranges (whose sources, for `WriteBytes`, are not in the range
the other one overwrites) can be exchanged: both orders succeed with the same content, the same fields and
the same contents of every array that existed before. -/
theorem C41_disjoint_writes_commute {s : St} (h : WF s) (a b : ByteWrite) (ha : a.Fits s) (hb : b.Fits s)
    (hd : a.off.toInt + a.size ≤ b.off.toInt ∨ b.off.toInt + b.size ≤ a.off.toInt)
    (hca : a.SourceClear s b.off.toInt.toNat (b.off.toInt.toNat + b.size))
    (hcb : b.SourceClear s a.off.toInt.toNat (a.off.toInt.toNat + a.size)) :
    ∃ s1 s2, (a.run >>= fun _ => b.run) s = (.ok (), s1) ∧ (b.run >>= fun _ => a.run) s = (.ok (), s2) ∧
      s1.bytes = s2.bytes ∧ s1.b = s.b ∧ s2.b = s.b ∧
      (∀ c, c < s.mem.arrays.length → s1.mem.array c = s2.mem.array c) := by
  have hlen := length_bytes h.ok
  have hfit := h.ok.fits; have hle := h.ok.len_le
  have a0 := ha.1; have a1 := ha.2.1; have b0 := hb.1; have b1 := hb.2.1
  obtain ⟨sa, ra, ea, wa, la, Pa⟩ := byteWrite_effect h a ha
  obtain ⟨sb, rb, eb, wb, lb, Pb⟩ := byteWrite_effect h b hb
  have fb := fits_after h ea wa Pa (by omega) hb
  have fa := fits_after h eb wb Pb (by omega) ha
  obtain ⟨sab, rab, eab, wab, lab, Pab⟩ := byteWrite_effect wa b fb
  obtain ⟨sba, rba, eba, wba, lba, Pba⟩ := byteWrite_effect wb a fa
  have cb : b.content sa.mem = b.content s.mem := content_stable Pa rfl hb (by omega) (by rw [la]; exact hcb)
  have ca : a.content sb.mem = a.content s.mem := content_stable Pb rfl ha (by omega) (by rw [lb]; exact hca)
  have key : ∀ c, c < s.mem.arrays.length → sab.mem.array c = sba.mem.array c := by
    intro c hc
    rw [Pab.eq c (Nat.lt_of_lt_of_le hc Pa.more), Pba.eq c (Nat.lt_of_lt_of_le hc Pb.more), ea, eb, cb, ca,
      Pa.eq c hc, Pb.eq c hc]
    by_cases hcc : c = s.b.buf.arr
    · subst hcc
      simp only [if_true]
      exact patch_comm (by omega) (by omega) (by omega)
    · simp only [if_neg hcc]
  refine ⟨sab, sba, by rw [bind_ok ra]; exact rab, by rw [bind_ok rb]; exact rba, ?_, by rw [eab, ea], by rw [eba, eb], key⟩
  unfold St.bytes
  rw [eab, ea, eba, eb]
  by_cases hz : 0 < s.bytes.length
  · unfold Heap.view
    rw [key _ (buf_lt h hz)]
  · have : s.b.buf.len = 0 := by omega
    simp [Heap.view, this]

example : ∃ s1 s2, ((ByteWrite.typed .u32 .le 0 [7]).run >>= fun _ => (ByteWrite.byte 4 9).run) demo = (.ok (), s1) ∧
    ((ByteWrite.byte 4 9).run >>= fun _ => (ByteWrite.typed .u32 .le 0 [7]).run) demo = (.ok (), s2) ∧
    s1.bytes = s2.bytes := by
  obtain ⟨s1, s2, h1, h2, h3, _⟩ := C41_disjoint_writes_commute demo_wf (.typed .u32 .le 0 [7]) (.byte 4 9)
    ⟨by decide, by decide, by simp⟩ ⟨by decide, by decide, trivial⟩ (.inl (by decide)) trivial trivial
  exact ⟨s1, s2, h1, h2, h3⟩

/-- C41: of two writes to the same range the later one determines the content: the result is as if the
first had not happened. -/
theorem C41_last_write_wins {s : St} (h : WF s) (a b : ByteWrite) (ha : a.Fits s) (hb : b.Fits s)
    (hoff : a.off = b.off) (hsz : a.size = b.size)
    (hcb : b.SourceClear s a.off.toInt.toNat (a.off.toInt.toNat + a.size)) :
    ∃ s1 s2, (a.run >>= fun _ => b.run) s = (.ok (), s1) ∧ b.run s = (.ok (), s2) ∧
      s1.bytes = s2.bytes ∧ s1.b = s2.b ∧
      (∀ c, c < s.mem.arrays.length → s1.mem.array c = s2.mem.array c) := by
  have hlen := length_bytes h.ok
  have hfit := h.ok.fits; have hle := h.ok.len_le
  have a0 := ha.1; have a1 := ha.2.1; have b0 := hb.1; have b1 := hb.2.1
  obtain ⟨sa, ra, ea, wa, la, Pa⟩ := byteWrite_effect h a ha
  obtain ⟨sb, rb, eb, wb, lb, Pb⟩ := byteWrite_effect h b hb
  have fb := fits_after h ea wa Pa (by omega) hb
  obtain ⟨sab, rab, eab, wab, lab, Pab⟩ := byteWrite_effect wa b fb
  have cb : b.content sa.mem = b.content s.mem := content_stable Pa rfl hb (by omega) (by rw [la]; exact hcb)
  have key : ∀ c, c < s.mem.arrays.length → sab.mem.array c = sb.mem.array c := by
    intro c hc
    rw [Pab.eq c (Nat.lt_of_lt_of_le hc Pa.more), Pb.eq c hc, ea, cb, Pa.eq c hc]
    by_cases hcc : c = s.b.buf.arr
    · subst hcc
      simp only [if_true, hoff]
      exact patch_same (by rw [← hoff]; omega) (by omega)
    · simp only [if_neg hcc]
  refine ⟨sab, sb, by rw [bind_ok ra]; exact rab, rb, ?_, by rw [eab, ea, eb], key⟩
  unfold St.bytes
  rw [eab, ea, eb]
  by_cases hz : 0 < s.bytes.length
  · unfold Heap.view
    rw [key _ (buf_lt h hz)]
  · have : s.b.buf.len = 0 := by omega
    simp [Heap.view, this]

example : ∃ s1 s2, ((ByteWrite.typed .u16 .le 2 [7]).run >>= fun _ => (ByteWrite.typed .i16 .be 2 [-1]).run) demo = (.ok (), s1) ∧
    (ByteWrite.typed .i16 .be 2 [-1]).run demo = (.ok (), s2) ∧ s1.bytes = s2.bytes := by
  obtain ⟨s1, s2, h1, h2, h3, _⟩ := C41_last_write_wins demo_wf (.typed .u16 .le 2 [7]) (.typed .i16 .be 2 [-1])
    ⟨by decide, by decide, by simp⟩ ⟨by decide, by decide, by simp⟩ rfl rfl trivial
  exact ⟨s1, s2, h1, h2, h3⟩

/-! ## C42 -/

/-- C42: readers of equal element size agree up to reinterpretation: the elements have the same bit patterns. -/
theorem C42_reinterpretation {s : St} (h : WF s) (k k' : Kind) (hk : k.size = k'.size) (e : Endian) (off n : Int64)
    (hn : 1 ≤ n.toInt) (h0 : 0 ≤ off.toInt) (hfit : off.toInt + n.toInt * k.size ≤ s.bytes.length) :
    ∃ out out', Buffer.Read k e off n s = (.ok out, s) ∧ Buffer.Read k' e off n s = (.ok out', s) ∧
      out.length = out'.length ∧
      ∀ (i : Nat) (hi : i < out.length) (hi' : i < out'.length), k.pat out[i] = k'.pat out'[i] := by
  obtain ⟨out, r, l, v⟩ := C03_typed_read_value h k e off n hn h0 hfit
  obtain ⟨out', r', l', v'⟩ := C03_typed_read_value h k' e off n hn h0 (by rw [← hk]; exact hfit)
  refine ⟨out, out', r, r', by omega, fun i hi hi' => ?_⟩
  rw [v i hi, v' i hi', hk]

theorem int16_reinterpret {x : Int16} {y : UInt16} (h : (x.toInt % 2 ^ 16).toNat = y.toNat) : x = y.toInt16 := by
  apply Int16.toInt_inj.mp
  have e : y.toInt16.toInt = (y.toNat : Int).bmod (2 ^ 16) := BitVec.toInt_eq_toNat_bmod y.toBitVec
  rw [e]
  have h1 := x.toInt_lt; have h2 := x.le_toInt; have h3 := y.toNat_lt
  simp only [Int.bmod]
  omega

theorem int32_reinterpret {x : Int32} {y : UInt32} (h : (x.toInt % 2 ^ 32).toNat = y.toNat) : x = y.toInt32 := by
  apply Int32.toInt_inj.mp
  have e : y.toInt32.toInt = (y.toNat : Int).bmod (2 ^ 32) := BitVec.toInt_eq_toNat_bmod y.toBitVec
  rw [e]
  have h1 := x.toInt_lt; have h2 := x.le_toInt; have h3 := y.toNat_lt
  simp only [Int.bmod]
  omega

theorem int64_reinterpret {x : Int64} {y : UInt64} (h : (x.toInt % 2 ^ 64).toNat = y.toNat) : x = y.toInt64 := by
  apply Int64.toInt_inj.mp
  have e : y.toInt64.toInt = (y.toNat : Int).bmod (2 ^ 64) := BitVec.toInt_eq_toNat_bmod y.toBitVec
  rw [e]
  have h1 := x.toInt_lt; have h2 := x.le_toInt; have h3 := y.toNat_lt
  simp only [Int.bmod]
  omega

theorem eq_map_of_getElem {l : List α} {l' : List β} {f : β → α} (hl : l.length = l'.length)
    (h : ∀ i (hi : i < l.length) (hi' : i < l'.length), l[i] = f l'[i]) : l = l'.map f := by
  apply List.ext_getElem
  · simpa using hl
  · intro i hi hi'
    rw [List.getElem_map]
    exact h i hi (by simpa using hi')

/-- C42: signed and float reads are the element-wise conversion of the unsigned read at the same place. -/
theorem C42_signed_and_float_reads {s : St} (h : WF s) (e : Endian) (off n : Int64) (hn : 1 ≤ n.toInt)
    (h0 : 0 ≤ off.toInt) :
    (off.toInt + n.toInt * 2 ≤ s.bytes.length → ∃ u, Buffer.Read .u16 e off n s = (.ok u, s) ∧
      Buffer.Read .i16 e off n s = (.ok (u.map UInt16.toInt16), s)) ∧
    (off.toInt + n.toInt * 4 ≤ s.bytes.length → ∃ u, Buffer.Read .u32 e off n s = (.ok u, s) ∧
      Buffer.Read .i32 e off n s = (.ok (u.map UInt32.toInt32), s) ∧
      Buffer.Read .f32 e off n s = (.ok (u.map F32.mk), s)) ∧
    (off.toInt + n.toInt * 8 ≤ s.bytes.length → ∃ u, Buffer.Read .u64 e off n s = (.ok u, s) ∧
      Buffer.Read .i64 e off n s = (.ok (u.map UInt64.toInt64), s) ∧
      Buffer.Read .f64 e off n s = (.ok (u.map F64.mk), s)) := by
  refine ⟨fun hf => ?_, fun hf => ?_, fun hf => ?_⟩
  · obtain ⟨x, u, r1, r2, l, v⟩ := C42_reinterpretation h .i16 .u16 rfl e off n hn h0 hf
    refine ⟨u, r2, ?_⟩
    rw [r1, eq_map_of_getElem l fun i hi hi' => int16_reinterpret (v i hi hi')]
  · obtain ⟨x, u, r1, r2, l, v⟩ := C42_reinterpretation h .i32 .u32 rfl e off n hn h0 hf
    obtain ⟨y, u', r3, r4, l', v'⟩ := C42_reinterpretation h .f32 .u32 rfl e off n hn h0 hf
    have hu : u' = u := by rw [r2] at r4; simpa using r4.symm
    subst hu
    refine ⟨u', r2, ?_, ?_⟩
    · rw [r1, eq_map_of_getElem l fun i hi hi' => int32_reinterpret (v i hi hi')]
    · rw [r3, eq_map_of_getElem l' fun i hi hi' => congrArg F32.mk (UInt32.toNat_inj.mp (v' i hi hi'))]
  · obtain ⟨x, u, r1, r2, l, v⟩ := C42_reinterpretation h .i64 .u64 rfl e off n hn h0 hf
    obtain ⟨y, u', r3, r4, l', v'⟩ := C42_reinterpretation h .f64 .u64 rfl e off n hn h0 hf
    have hu : u' = u := by rw [r2] at r4; simpa using r4.symm
    subst hu
    refine ⟨u', r2, ?_, ?_⟩
    · rw [r1, eq_map_of_getElem l fun i hi hi' => int64_reinterpret (v i hi hi')]
    · rw [r3, eq_map_of_getElem l' fun i hi hi' => congrArg F64.mk (UInt64.toNat_inj.mp (v' i hi hi'))]

example : ∃ u, Buffer.Read .u16 .le 3 2 demo = (.ok u, demo) ∧
    Buffer.Read .i16 .le 3 2 demo = (.ok (u.map UInt16.toInt16), demo) :=
  (C42_signed_and_float_reads demo_wf .le 3 2 (by decide) (by decide)).1 (by decide)

/-- The other byte order. -/
def other : Endian → Endian
  | .le => .be
  | .be => .le

theorem digit_value : ∀ (l : List UInt8) (j : Nat), value l / 256 ^ j % 256 = (l[j]?.getD 0).toNat := by
  intro l
  induction l with
  | nil => intro j; simp [value]
  | cons b l ih =>
    intro j
    have hb := b.toNat_lt
    match j with
    | 0 => simp only [value, Nat.pow_zero, Nat.div_one, List.getElem?_cons_zero, Option.getD_some]; omega
    | j + 1 =>
      rw [List.getElem?_cons_succ, ← ih j, Nat.pow_succ, Nat.mul_comm (256 ^ j), ← Nat.div_div_eq_div_mul]
      congr 2
      simp only [value]; omega

/-- C42: what is written in one byte order and read in the other comes back with its bytes swapped
(digit `j` of the result is digit `size-1-j` of the original), and the two encodings are each other's
reverse in memory. -/
theorem C42_byte_swap {s : St} (h : WF s) (k : Kind) (e : Endian) (off : Int64) (x : k.Ty) (h0 : 0 ≤ off.toInt)
    (hfit : off.toInt + k.size ≤ s.bytes.length) :
    ∃ s1 s2 y, Buffer.Write k e off [x] s = (.ok (), s1) ∧ Buffer.Write k (other e) off [x] s = (.ok (), s2) ∧
      slice s1.bytes off.toInt.toNat k.size = (slice s2.bytes off.toInt.toNat k.size).reverse ∧
      Buffer.Read k (other e) off 1 s1 = (.ok [y], s1) ∧
      ∀ j, j < k.size → k.pat y / 256 ^ j % 256 = k.pat x / 256 ^ (k.size - 1 - j) % 256 := by
  have hb := length_bytes h.ok
  have hp := size_pos k
  have hf1 : off.toInt + (([x].length * k.size : Nat) : Int) ≤ s.bytes.length := by rw [List.length_singleton]; omega
  obtain ⟨s1, r1, v1⟩ := C02_byte_layout h k e off [x] (by simp) h0 hf1
  obtain ⟨s2, r2, v2⟩ := C02_byte_layout h k (other e) off [x] (by simp) h0 hf1
  have hd : [x].length * k.size ≤ maxAlloc := fit_maxAlloc h h0 hf1
  have fr1 := C04_typed_write_frame h k e off [x] hd r1
  have fr2 := C04_typed_write_frame h k (other e) off [x] hd r2
  have w1 : WF s1 := by
    rw [buffer_write_run h k e off [x] hd, if_pos ⟨by simp, h0, by simp; omega⟩] at r1
    injection r1 with _ r1; subst r1; exact h.write _ _
  obtain ⟨out, rr, rl, rv⟩ := C03_typed_read_value w1 k (other e) off 1 (by decide) h0
    (by rw [toInt_one', fr1.2.2.2.1]; omega)
  rw [toInt_one'] at rl
  have l1 : (slice s1.bytes off.toInt.toNat k.size).length = k.size := length_slice (by rw [fr1.2.2.2.1]; omega)
  have l2 : (slice s2.bytes off.toInt.toNat k.size).length = k.size := length_slice (by rw [fr2.2.2.2.1]; omega)
  have g1 : ∀ j, j < k.size → (slice s1.bytes off.toInt.toNat k.size)[j]? =
      some (UInt8.ofNat (k.pat x / 256 ^ digitPos e k.size j % 256)) := by
    intro j hj
    rw [getElem?_slice hj]
    have := v1 0 (by simp) j hj
    simpa using this
  have g2 : ∀ j, j < k.size → (slice s2.bytes off.toInt.toNat k.size)[j]? =
      some (UInt8.ofNat (k.pat x / 256 ^ digitPos (other e) k.size j % 256)) := by
    intro j hj
    rw [getElem?_slice hj]
    have := v2 0 (by simp) j hj
    simpa using this
  have hpos : ∀ j, j < k.size → digitPos e k.size (k.size - 1 - j) = digitPos (other e) k.size j := by
    intro j hj
    cases e
    · rfl
    · show k.size - 1 - (k.size - 1 - j) = j; omega
  match out, rr, rl, rv with
  | [y], rr, _, rv =>
    refine ⟨s1, s2, y, r1, r2, ?_, rr, ?_⟩
    · apply List.ext_getElem?
      intro j
      by_cases hj : j < k.size
      · rw [List.getElem?_reverse (by omega), l2, g1 j hj, g2 _ (by omega)]
        rw [← hpos _ (by omega), show k.size - 1 - (k.size - 1 - j) = j by omega]
      · rw [List.getElem?_eq_none (by omega), List.getElem?_eq_none (by rw [List.length_reverse]; omega)]
    · intro j hj
      have hy := rv 0 (by simp)
      simp only [List.getElem_cons_zero, Nat.zero_mul, Nat.add_zero] at hy
      rw [hy]
      cases e
      · show value (slice s1.bytes off.toInt.toNat k.size).reverse / _ % _ = _
        rw [digit_value, List.getElem?_reverse (by omega), l1, g1 _ (by omega)]
        simp [digitPos]
      · show value (slice s1.bytes off.toInt.toNat k.size) / _ % _ = _
        rw [digit_value, g1 _ hj]
        simp [digitPos]

example : ∃ s1 y, Buffer.Write .u16 .le 0 [0x1234] demo = (.ok (), s1) ∧ Buffer.Read .u16 .be 0 1 s1 = (.ok [y], s1) ∧
    Kind.u16.pat y / 256 ^ 0 % 256 = 0x12 := by
  obtain ⟨s1, _, y, h1, _, _, h2, h3⟩ := C42_byte_swap demo_wf .u16 .le 0 0x1234 (by decide) (by decide)
  exact ⟨s1, y, h1, h2, (h3 0 (by decide)).trans (by decide)⟩

end Crunch.V3
