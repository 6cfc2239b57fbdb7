import Verif.Props.History

/-!
# Streams written and read back with the Next methods (C39, C40)
-/

namespace Crunch.V3
open Spec

/-! ## C39 -/

/-- One typed message. -/
structure Msg where
  k : Kind
  e : Endian
  data : List k.Ty

/-- Its size in bytes. -/
def Msg.size (m : Msg) : Nat := m.data.length * m.k.size
/-- The call that writes it at the byte offset. -/
def Msg.write (m : Msg) : Op := .write m.k m.e none m.data
/-- The call that reads as many elements of its type at the byte offset. -/
def Msg.read (m : Msg) : Op := .read m.k m.e none (Int64.ofNat m.data.length)
/-- The size of a stream. -/
def streamSize (ms : List Msg) : Nat := (ms.map Msg.size).sum

/-- The bytes of a message. -/
def Msg.bytes (m : Msg) : List UInt8 := enc m.k m.e m.data
theorem Msg.length_bytes (m : Msg) : m.bytes.length = m.size := length_enc _ _ _

theorem length_stream (ms : List Msg) : (ms.flatMap Msg.bytes).length = streamSize ms := by
  induction ms with
  | nil => rfl
  | cons m ms ih =>
    rw [List.flatMap_cons, List.length_append, ih, Msg.length_bytes]; rfl

theorem write_stream {s : St} (h : WF s) (ms : List Msg) (hne : ∀ m ∈ ms, m.data ≠ []) (h0 : 0 ≤ s.b.off.toInt)
    (hfit : s.b.off.toInt + streamSize ms ≤ s.b.buf.len) :
    ∃ s1, execAll (ms.map Msg.write) s = (ms.map fun _ => .ok .unit, s1) ∧ WF s1 ∧
      s1.b.off.toInt = s.b.off.toInt + streamSize ms ∧ s1.b.buf = s.b.buf ∧
      s1.bytes = patch s.bytes s.b.off.toInt.toNat (ms.flatMap Msg.bytes) := by
  induction ms generalizing s with
  | nil => exact ⟨s, rfl, h, by simp [streamSize], rfl, (patch_nil _ _).symm⟩
  | cons m ms ih =>
    have hM := maxAlloc_lt
    have hlm := h.ok.len_le_max
    have hsz : streamSize (m :: ms) = m.size + streamSize ms := by simp [streamSize]
    rw [hsz] at hfit
    have hen : (enc m.k m.e m.data).length = m.size := length_enc _ _ _
    have hms : m.data.length * m.k.size ≤ maxAlloc := by show m.size ≤ _; omega
    have hb := length_bytes h.ok
    have hX : (m.data.length : Int) * m.k.size = (m.size : Nat) := (Int.natCast_mul ..).symm
    have hrun := buffer_write_run h m.k m.e s.b.off m.data hms
    rw [if_pos ⟨hne m (List.mem_cons_self ..), h0, by omega⟩] at hrun
    have hoff : (s.b.off + len m.data * Int64.ofNat m.k.size).toInt = s.b.off.toInt + m.size := by
      rw [toInt_add, len_mul m.data m.k.size hms (size_pos _)]
      have : (m.data.length : Int) * m.k.size = m.size := hX
      have := toInt_lt' s.b.off
      rw [hX]; omega
    have hw := h.write s.b.off.toInt.toNat (enc m.k m.e m.data)
    have hex : exec m.write s = (.ok .unit, { s.write s.b.off.toInt.toNat (enc m.k m.e m.data) with
        b := { (s.write s.b.off.toInt.toNat (enc m.k m.e m.data)).b with off := s.b.off + len m.data * Int64.ofNat m.k.size } }) := by
      simp only [Msg.write, exec, wrapVal_run, writeNext_run, hrun]; rfl
    obtain ⟨s1, e1, e2, e3, e4, e5⟩ := ih (s := { s.write s.b.off.toInt.toNat (enc m.k m.e m.data) with
        b := { (s.write s.b.off.toInt.toNat (enc m.k m.e m.data)).b with off := s.b.off + len m.data * Int64.ofNat m.k.size } })
      ⟨hw.ok, hw.cap, hw.bcap⟩ (fun x hx => hne x (List.mem_cons_of_mem _ hx))
      (by show 0 ≤ (s.b.off + len m.data * Int64.ofNat m.k.size).toInt; omega)
      (by show (s.b.off + len m.data * Int64.ofNat m.k.size).toInt + _ ≤ (s.b.buf.len : Int); omega)
    refine ⟨s1, ?_, e2, ?_, e4, ?_⟩
    · show (_ :: _, _) = (_ :: _, _)
      rw [hex, e1]
    · rw [e3, hsz]
      show (s.b.off + len m.data * Int64.ofNat m.k.size).toInt + _ = _
      omega
    · rw [e5]
      show patch (s.write s.b.off.toInt.toNat (enc m.k m.e m.data)).bytes (s.b.off + len m.data * Int64.ofNat m.k.size).toInt.toNat _ = _
      rw [bytes_write h.ok (by omega), hoff, show (s.b.off.toInt + m.size).toNat = s.b.off.toInt.toNat + (enc m.k m.e m.data).length by omega,
        List.flatMap_cons]
      exact patch_patch_adj (by rw [length_stream, hb]; omega)

private theorem read_stream {s : St} (h : WF s) (ms : List Msg) (hne : ∀ m ∈ ms, m.data ≠ []) (h0 : 0 ≤ s.b.off.toInt)
    (hfit : s.b.off.toInt + streamSize ms ≤ s.b.buf.len)
    (hc : slice s.bytes s.b.off.toInt.toNat (streamSize ms) = ms.flatMap Msg.bytes) :
    ∃ o : Int64, o.toInt = s.b.off.toInt + streamSize ms ∧
      execAll (ms.map Msg.read) s = (ms.map fun m => .ok (.typed m.k m.data), { s with b := { s.b with off := o } }) := by
  induction ms generalizing s with
  | nil => exact ⟨s.b.off, by simp [streamSize], rfl⟩
  | cons m ms ih =>
    have hM := maxAlloc_lt
    have hlm := h.ok.len_le_max
    have hsz : streamSize (m :: ms) = m.size + streamSize ms := by simp [streamSize]
    rw [hsz] at hfit hc
    have hpos : 0 < m.data.length := List.length_pos_iff.mpr (hne m (List.mem_cons_self ..))
    have hle : m.data.length ≤ m.size := Nat.le_mul_of_pos_right _ (size_pos _)
    have hen : (enc m.k m.e m.data).length = m.size := length_enc _ _ _
    have hms : m.data.length * m.k.size ≤ maxAlloc := by show m.size ≤ _; omega
    have hb := length_bytes h.ok
    have hX : (m.data.length : Int) * m.k.size = (m.size : Nat) := (Int.natCast_mul ..).symm
    have hn : (Int64.ofNat m.data.length).toInt = m.data.length := toInt_ofNat (by omega)
    have hrun := buffer_read_run h m.k m.e s.b.off (Int64.ofNat m.data.length)
    rw [hn, if_pos ⟨by omega, h0, by omega⟩, Int.toNat_natCast] at hrun
    rw [List.flatMap_cons] at hc
    have hs1 : slice s.bytes s.b.off.toInt.toNat m.size = enc m.k m.e m.data := by
      have := congrArg (List.take m.size) hc
      rw [List.take_append_of_le_length (by rw [Msg.length_bytes]; omega), List.take_of_length_le (l := m.bytes) (by rw [Msg.length_bytes]; omega)] at this
      rw [show enc m.k m.e m.data = m.bytes from rfl, ← this]
      unfold slice; rw [List.take_take, Nat.min_eq_left (by omega)]
    have hs2 : slice s.bytes (s.b.off.toInt.toNat + m.size) (streamSize ms) = ms.flatMap Msg.bytes := by
      have := congrArg (List.drop m.size) hc
      rw [List.drop_append, Msg.length_bytes, Nat.sub_self, List.drop_zero, List.drop_of_length_le (l := m.bytes) (by rw [Msg.length_bytes]; omega), List.nil_append] at this
      rw [← this]
      unfold slice; rw [List.drop_take, List.drop_drop]; congr 1; omega
    have hdec : dec m.k m.e m.data.length (s.bytes.drop s.b.off.toInt.toNat) = m.data := by
      refine Eq.trans (dec_congr (m := enc m.k m.e m.data) ?_) (dec_enc m.k m.e m.data)
      show slice (s.bytes.drop s.b.off.toInt.toNat) 0 m.size = slice (enc m.k m.e m.data) 0 m.size
      rw [slice_drop, Nat.add_zero, hs1]
      unfold slice
      rw [List.drop_zero, List.take_of_length_le (by omega)]
    rw [hdec] at hrun
    have hoff : (s.b.off + Int64.ofNat m.data.length * Int64.ofNat m.k.size).toInt = s.b.off.toInt + m.size := by
      rw [toInt_add, show Int64.ofNat m.data.length = len m.data from rfl, len_mul m.data m.k.size hms (size_pos _)]
      have := toInt_lt' s.b.off
      rw [hX]; omega
    have hex : exec m.read s = (.ok (.typed m.k m.data), { s with b := { s.b with off := s.b.off + Int64.ofNat m.data.length * Int64.ofNat m.k.size } }) := by
      simp only [Msg.read, exec, wrapVal_run, readNext_run, hrun]; rfl
    obtain ⟨o, e1, e2⟩ := ih (s := { s with b := { s.b with off := s.b.off + Int64.ofNat m.data.length * Int64.ofNat m.k.size } })
      ⟨h.ok, h.cap, h.bcap⟩ (fun x hx => hne x (List.mem_cons_of_mem _ hx))
      (by show 0 ≤ (s.b.off + Int64.ofNat m.data.length * Int64.ofNat m.k.size).toInt; omega)
      (by show (s.b.off + Int64.ofNat m.data.length * Int64.ofNat m.k.size).toInt + _ ≤ (s.b.buf.len : Int); omega)
      (by show slice s.bytes (s.b.off + Int64.ofNat m.data.length * Int64.ofNat m.k.size).toInt.toNat _ = _
          rw [hoff, show (s.b.off.toInt + m.size).toNat = s.b.off.toInt.toNat + m.size by omega, hs2])
    refine ⟨o, ?_, ?_⟩
    · rw [e1, hsz]
      show (s.b.off + Int64.ofNat m.data.length * Int64.ofNat m.k.size).toInt + _ = _
      omega
    · show (_ :: _, _) = (_ :: _, _)
      rw [hex, e2]

/-- C39: a stream of typed messages written with the Next writers is read back by the matching Next readers after
seeking to where it began; both passes end at the same offset and reading changes nothing. -/
theorem C39_message_stream {s : St} (h : WF s) (ms : List Msg) (hne : ∀ m ∈ ms, m.data ≠ []) (h0 : 0 ≤ s.b.off.toInt)
    (hfit : s.b.off.toInt + streamSize ms ≤ s.bytes.length) :
    ∃ s1, execAll (ms.map Msg.write) s = (ms.map fun _ => .ok .unit, s1) ∧
      s1.b.off.toInt = s.b.off.toInt + streamSize ms ∧
      execAll (.seekByte s.b.off false :: ms.map Msg.read) s1 =
        (.ok .unit :: ms.map fun m => .ok (.typed m.k m.data), s1) := by
  have hb := length_bytes h.ok
  rw [hb] at hfit
  obtain ⟨s1, e1, e2, e3, e4, e5⟩ := write_stream h ms hne h0 hfit
  refine ⟨s1, e1, e3, ?_⟩
  have hex : exec (.seekByte s.b.off false) s1 = (.ok .unit, { s1 with b := { s1.b with off := s.b.off } }) := by
    simp only [exec, wrapVal_run, buffer_seekByte_run]; rfl
  obtain ⟨o, r1, r2⟩ := read_stream (s := { s1 with b := { s1.b with off := s.b.off } }) ⟨e2.ok, e2.cap, e2.bcap⟩ ms hne h0
    (by show s.b.off.toInt + _ ≤ (s1.b.buf.len : Int); rw [e4]; exact hfit)
    (by show slice s1.bytes s.b.off.toInt.toNat _ = _
        rw [e5, ← length_stream, slice_patch_self (by rw [length_stream, hb]; omega)])
  have ho : o = s1.b.off := by
    apply Int64.toInt_inj.mp
    rw [r1, e3]
  show (_ :: _, _) = (_ :: _, _)
  rw [hex, r2, ho]

example : ∃ s1, execAll [.write .i16 .be none [-2, 3], .write .f32 .le none [⟨5⟩]] demo = ([.ok .unit, .ok .unit], s1) ∧
    execAll [.seekByte 3 false, .read .i16 .be none 2, .read .f32 .le none 1] s1 =
      ([.ok .unit, .ok (.typed .i16 [-2, 3]), .ok (.typed .f32 [⟨5⟩])], s1) :=
  let ⟨s1, h1, _, h2⟩ := C39_message_stream demo_wf [⟨.i16, .be, [-2, 3]⟩, ⟨.f32, .le, [⟨5⟩]⟩]
    (by intro m hm
        simp only [List.mem_cons, List.not_mem_nil, or_false] at hm
        rcases hm with rfl | rfl <;> intro h <;> exact absurd (congrArg List.length h) (by decide)) (by decide) (by decide)
  ⟨s1, h1, h2⟩

/-! ## C40 -/

/-- One bit field: a value and a width. -/
structure Field where
  value : UInt64
  width : Int64

/-- The call that writes it at the bit offset. -/
def Field.write (f : Field) : Op := .setBits none f.value f.width
/-- The call that reads as many bits at the bit offset. -/
def Field.read (f : Field) : Op := .readBits none f.width
/-- The number of bits of a stream. -/
def fieldsSize (fs : List Field) : Int := (fs.map fun f => f.width.toInt).sum

/-- The fields are stored from bit `p` on. -/
private def FieldsAt (l : List UInt8) : Nat → List Field → Prop
  | _, [] => True
  | p, f :: fs => (∀ i, i < f.width.toInt.toNat → bit l (p + i) = f.value.toNat.testBit (f.width.toInt.toNat - 1 - i)) ∧
      FieldsAt l (p + f.width.toInt.toNat) fs

private theorem FieldsAt.congr {l l' : List UInt8} {fs : List Field} {p : Nat} (h : ∀ j, p ≤ j → bit l' j = bit l j)
    (hf : FieldsAt l p fs) : FieldsAt l' p fs := by
  induction fs generalizing p with
  | nil => trivial
  | cons f fs ih => exact ⟨fun i hi => by rw [h _ (by omega), hf.1 i hi], ih (fun j hj => h j (by omega)) hf.2⟩

private theorem fieldsSize_nonneg (fs : List Field) (hw : ∀ f ∈ fs, 1 ≤ f.width.toInt) : 0 ≤ fieldsSize fs := by
  induction fs with
  | nil => simp [fieldsSize]
  | cons f fs ih =>
    have h1 := hw f (List.mem_cons_self ..)
    have h2 := ih fun x hx => hw x (List.mem_cons_of_mem _ hx)
    have : fieldsSize (f :: fs) = f.width.toInt + fieldsSize fs := by simp [fieldsSize]
    omega

private theorem write_fields {s : St} (h : WF s) (fs : List Field) (hw : ∀ f ∈ fs, 1 ≤ f.width.toInt) (h0 : 0 ≤ s.b.boff.toInt)
    (hfit : s.b.boff.toInt + fieldsSize fs ≤ 8 * s.b.buf.len) :
    ∃ s1, execAll (fs.map Field.write) s = (fs.map fun _ => .ok .unit, s1) ∧ WF s1 ∧
      s1.b.boff.toInt = s.b.boff.toInt + fieldsSize fs ∧ s1.b.buf = s.b.buf ∧
      (∀ j, j < s.b.boff.toInt.toNat → bit s1.bytes j = bit s.bytes j) ∧
      FieldsAt s1.bytes s.b.boff.toInt.toNat fs := by
  induction fs generalizing s with
  | nil => exact ⟨s, rfl, h, by simp [fieldsSize], rfl, fun _ _ => rfl, trivial⟩
  | cons f fs ih =>
    have hM := maxAlloc_lt
    have hlm := h.ok.len_le_max
    have hsz : fieldsSize (f :: fs) = f.width.toInt + fieldsSize fs := by simp [fieldsSize]
    rw [hsz] at hfit
    have h1 := hw f (List.mem_cons_self ..)
    have hnn := fieldsSize_nonneg fs fun x hx => hw x (List.mem_cons_of_mem _ hx)
    have hb := length_bytes h.ok
    obtain ⟨t, t1, t2, t3, t4, t5, _, _⟩ := C18_setBits_effect h s.b.boff f.value f.width h1 h0 (by rw [hb]; omega)
    have hst := step_ok h (.setBits (some s.b.boff) f.value f.width) trivial
    have hex0 : exec (.setBits (some s.b.boff) f.value f.width) s = (.ok .unit, t) := by
      simp only [exec, wrapVal_run, t1, wrapRes]
    rw [hex0] at hst
    have htw := hst.wf
    have hoff : (s.b.boff + f.width).toInt = s.b.boff.toInt + f.width.toInt := by
      rw [toInt_add]
      have := toInt_lt' s.b.boff
      omega
    have hex : exec f.write s = (.ok .unit, { t with b := { t.b with boff := s.b.boff + f.width } }) := by
      simp only [Field.write, exec, wrapVal_run, setBitsNext_run, t1]
      simp only [advanceBit, wrapRes, t2]
    obtain ⟨s1, e1, e2, e3, e4, e5, e6⟩ := ih (s := { t with b := { t.b with boff := s.b.boff + f.width } })
      ⟨htw.ok, htw.cap, htw.bcap⟩ (fun x hx => hw x (List.mem_cons_of_mem _ hx))
      (by show 0 ≤ (s.b.boff + f.width).toInt; omega)
      (by show (s.b.boff + f.width).toInt + _ ≤ 8 * (t.b.buf.len : Int); rw [t2]; omega)
    have hp : ({ t with b := { t.b with boff := s.b.boff + f.width } } : St).b.boff.toInt.toNat =
        s.b.boff.toInt.toNat + f.width.toInt.toNat := by
      show (s.b.boff + f.width).toInt.toNat = _; omega
    rw [hp] at e5 e6
    refine ⟨s1, ?_, e2, ?_, e4.trans (by show t.b.buf = _; rw [t2]), ?_, ?_, e6⟩
    · show (_ :: _, _) = (_ :: _, _)
      rw [hex, e1]
    · rw [e3, hsz]
      show (s.b.boff + f.width).toInt + _ = _
      omega
    · intro j hj
      rw [e5 j (by omega)]
      exact t5 j (.inl hj)
    · intro i hi
      rw [e5 _ (by omega)]
      exact t4 i hi

private theorem read_fields {s : St} (h : WF s) (fs : List Field) (hw : ∀ f ∈ fs, 1 ≤ f.width.toInt) (h0 : 0 ≤ s.b.boff.toInt)
    (hfit : s.b.boff.toInt + fieldsSize fs ≤ 8 * s.b.buf.len) (hf : FieldsAt s.bytes s.b.boff.toInt.toNat fs) :
    ∃ o : Int64, o.toInt = s.b.boff.toInt + fieldsSize fs ∧
      execAll (fs.map Field.read) s =
        (fs.map fun f => .ok (.u64 (UInt64.ofNat (f.value.toNat % 2 ^ f.width.toInt.toNat))), { s with b := { s.b with boff := o } }) := by
  induction fs generalizing s with
  | nil => exact ⟨s.b.boff, by simp [fieldsSize], rfl⟩
  | cons f fs ih =>
    have hM := maxAlloc_lt
    have hlm := h.ok.len_le_max
    have hsz : fieldsSize (f :: fs) = f.width.toInt + fieldsSize fs := by simp [fieldsSize]
    rw [hsz] at hfit
    have h1 := hw f (List.mem_cons_self ..)
    have hnn := fieldsSize_nonneg fs fun x hx => hw x (List.mem_cons_of_mem _ hx)
    have hb := length_bytes h.ok
    have hl : loops f.width = f.width.toInt.toNat := by unfold loops; omega
    have hrun := buffer_readBits_run h s.b.boff f.width
    rw [if_pos (by omega), hl, binary_congr (g := fun i => f.value.toNat.testBit (f.width.toInt.toNat - 1 - i)) (fun i hi => hf.1 i hi),
      binary_testBit] at hrun
    have hoff : (s.b.boff + f.width).toInt = s.b.boff.toInt + f.width.toInt := by
      rw [toInt_add]
      have := toInt_lt' s.b.boff
      omega
    have hex : exec f.read s = (.ok (.u64 (UInt64.ofNat (f.value.toNat % 2 ^ f.width.toInt.toNat))),
        { s with b := { s.b with boff := s.b.boff + f.width } }) := by
      simp only [Field.read, exec, wrapVal_run, readBitsNext_run, hrun]; rfl
    obtain ⟨o, e1, e2⟩ := ih (s := { s with b := { s.b with boff := s.b.boff + f.width } })
      ⟨h.ok, h.cap, h.bcap⟩ (fun x hx => hw x (List.mem_cons_of_mem _ hx))
      (by show 0 ≤ (s.b.boff + f.width).toInt; omega)
      (by show (s.b.boff + f.width).toInt + _ ≤ 8 * (s.b.buf.len : Int); omega)
      (by show FieldsAt s.bytes (s.b.boff + f.width).toInt.toNat fs
          rw [hoff, show (s.b.boff.toInt + f.width.toInt).toNat = s.b.boff.toInt.toNat + f.width.toInt.toNat by omega]
          exact hf.2)
    refine ⟨o, ?_, ?_⟩
    · rw [e1, hsz]
      show (s.b.boff + f.width).toInt + _ = _
      omega
    · show (_ :: _, _) = (_ :: _, _)
      rw [hex, e2]

/-- C40: a stream of bit fields written with `SetBitsNext` is read back with `ReadBitsNext` after seeking to where it
began, every value modulo 2^width; both passes end at the same bit offset and reading changes nothing. -/
theorem C40_field_stream {s : St} (h : WF s) (fs : List Field) (hw : ∀ f ∈ fs, 1 ≤ f.width.toInt) (h0 : 0 ≤ s.b.boff.toInt)
    (hfit : s.b.boff.toInt + fieldsSize fs ≤ 8 * s.bytes.length) :
    ∃ s1, execAll (fs.map Field.write) s = (fs.map fun _ => .ok .unit, s1) ∧
      s1.b.boff.toInt = s.b.boff.toInt + fieldsSize fs ∧
      execAll (.seekBit s.b.boff false :: fs.map Field.read) s1 =
        (.ok .unit :: fs.map fun f => .ok (.u64 (UInt64.ofNat (f.value.toNat % 2 ^ f.width.toInt.toNat))), s1) := by
  have hb := length_bytes h.ok
  rw [hb] at hfit
  obtain ⟨s1, e1, e2, e3, e4, _, e6⟩ := write_fields h fs hw h0 hfit
  refine ⟨s1, e1, e3, ?_⟩
  have hex : exec (.seekBit s.b.boff false) s1 = (.ok .unit, { s1 with b := { s1.b with boff := s.b.boff } }) := by
    simp only [exec, wrapVal_run, buffer_seekBit_run]; rfl
  obtain ⟨o, r1, r2⟩ := read_fields (s := { s1 with b := { s1.b with boff := s.b.boff } }) ⟨e2.ok, e2.cap, e2.bcap⟩ fs hw h0
    (by show s.b.boff.toInt + _ ≤ 8 * (s1.b.buf.len : Int); rw [e4]; exact hfit) e6
  have ho : o = s1.b.boff := by
    apply Int64.toInt_inj.mp
    rw [r1, e3]
  show (_ :: _, _) = (_ :: _, _)
  rw [hex, r2, ho]

example : ∃ s1, execAll [.setBits none 5 3, .setBits none 0xFFF 10] demo = ([.ok .unit, .ok .unit], s1) ∧
    execAll [.seekBit 5 false, .readBits none 3, .readBits none 10] s1 = ([.ok .unit, .ok (.u64 5), .ok (.u64 1023)], s1) :=
  let ⟨s1, h1, _, h2⟩ := C40_field_stream demo_wf [⟨5, 3⟩, ⟨0xFFF, 10⟩]
    (by intro f hf
        simp only [List.mem_cons, List.not_mem_nil, or_false] at hf
        rcases hf with rfl | rfl <;> decide) (by decide) (by decide)
  ⟨s1, h1, h2⟩

end Crunch.V3
