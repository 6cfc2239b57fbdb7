import Verif.Props.Demo
import Verif.Lemmas.V2Exec
import Verif.Lemmas.Step

/-!
# Properties of v2 `Buffer` used by one goroutine (C50, C51, C55, C58, C66)

`(exec op).run ⟨s, false⟩` executes a v2 call on memory and fields `s` with the mutex free; the resulting state's
`locked` says whether the mutex is taken afterwards.
-/

namespace Crunch.V2
open Spec
open V3 (St WF Val demo demo_wf demoSrc demoSrc_ok)

/-! ## C50 -/

/-- The calls C50 is about: all but raw writes, `Grow` and `Reset`, which differ. -/
def Comparable : Op2 → Prop
  | .writeBytes .. => False
  | .writeByte .. => False
  | .grow _ => False
  | .reset => False
  | _ => True

/-- C50: the v2 call has the outcome (result or panic) of the v3 call and leaves the same fields and memory, in every state,
well-formed or not. -/
theorem C50_v2_agrees_with_v3 (op : Op2) (op3 : V3.Op) (h : toV3 op = some op3) (hc : Comparable op) (s : St) :
    ((exec op).run ⟨s, false⟩).1 = (V3.exec op3 s).1 ∧ ((exec op).run ⟨s, false⟩).2.st = (V3.exec op3 s).2 := by
  rw [exec_run op s]
  show (seq op s).1 = _ ∧ (seq op s).2 = _
  have e : seq op = V3.exec op3 := by
    cases op with
    | setBit p v =>
      unfold toV3 at h
      simp only [] at h
      by_cases h0 : v = 0
      · rw [if_pos h0] at h
        cases h
        subst h0
        cases p <;> rfl
      · by_cases h1 : v = 1
        · rw [if_neg h0, if_pos h1] at h
          cases h
          subst h1
          cases p <;> rfl
        · rw [if_neg h0, if_neg h1] at h
          exact nomatch h
    | writeBytes _ _ => exact hc.elim
    | writeByte _ _ => exact hc.elim
    | grow _ => exact hc.elim
    | reset => exact hc.elim
    | _ => cases h; rfl
  rw [e]
  exact ⟨rfl, rfl⟩

example : toV3 (.write .u16 .be (some 3) [(0x1234 : UInt16), 0xFFEE]) = some (.write .u16 .be (some 3) [0x1234, 0xFFEE]) ∧
    Comparable (.write .u16 .be (some 3) [(0x1234 : UInt16), 0xFFEE]) ∧
    ((exec (.write .u16 .be (some 3) [(0x1234 : UInt16), 0xFFEE])).run ⟨demo, false⟩).2.st.bytes =
      [3, 4, 5, 0x12, 0x34, 0xFF, 0xEE, 10, 11, 12, 13, 14] := ⟨rfl, trivial, by
  rw [(C50_v2_agrees_with_v3 (.write .u16 .be (some 3) [0x1234, 0xFFEE]) _ rfl trivial demo).2]
  show (V3.wrapVal _ (V3.Buffer.Write .u16 .be 3 [0x1234, 0xFFEE]) demo).2.bytes = _
  rw [V3.wrapVal_run, V3.buffer_write_run demo_wf .u16 .be 3 _ (by decide), if_pos (by decide)]
  decide⟩
example : toV3 (.setBit none 1) = some (.setBit none) ∧ Comparable (.setBit none 1) := ⟨rfl, trivial⟩

/-- C50 for raw writes: when the v3 call succeeds on a source that is not empty and is not overlapped from behind by the
destination, the v2 call succeeds too with the same content, memory and fields. -/
theorem C50_writeBytes_agrees {s s' : St} (h : WF s) (off : Int64) {src : Slice} (hs : SliceOK s.mem src) (hn : 0 < src.len)
    (hd : src.arr ≠ s.b.buf.arr ∨ s.b.buf.off + off.toInt.toNat ≤ src.off ∨ src.off + src.len ≤ s.b.buf.off + off.toInt.toNat)
    (h3 : V3.Buffer.WriteBytes off src s = (.ok (), s')) : (Buffer.WriteBytes off src).run ⟨s, false⟩ = (.ok (), ⟨s', false⟩) := by
  rw [V3.buffer_writeBytes_run h off src hs.len_le_max] at h3
  rw [writeBytes_run h off hs]
  split at h3
  · rename_i hf
    cases h3
    rw [if_pos ⟨hn, hf⟩, copied_eq_view hs hd]
  · exact nomatch h3

example : (Buffer.WriteBytes 5 demoSrc).run ⟨demo, false⟩ =
    (.ok (), ⟨(V3.Buffer.WriteBytes 5 demoSrc demo).2, false⟩) :=
  C50_writeBytes_agrees demo_wf 5 demoSrc_ok (by decide) (by decide)
    (by rw [V3.buffer_writeBytes_run demo_wf 5 demoSrc (by decide), if_pos (by decide)])

/-- C50 for single bytes: when the v3 call succeeds, the v2 call does, with the same content and fields. -/
theorem C50_writeByte_agrees {s s' : St} (h : WF s) (off : Int64) (v : UInt8)
    (h3 : V3.Buffer.WriteByte off v s = (.ok (), s')) :
    ∃ t, (Buffer.WriteByte off v).run ⟨s, false⟩ = (.ok (), ⟨t, false⟩) ∧ t.bytes = s'.bytes ∧ t.b = s'.b := by
  rw [V3.buffer_writeByte_run h] at h3
  split at h3
  · rename_i hf
    have hb := V3.length_bytes h.ok
    cases h3
    refine ⟨_, (writeByte_run h off v).trans (if_pos ⟨hf.1, by omega⟩), ?_, rfl⟩
    rw [V3.bytes_write h.ok (by rw [List.length_singleton]; omega),
      V3.bytes_write (h.lit (by rw [List.length_singleton]; decide)).ok
        (by rw [List.length_singleton]; show _ ≤ s.b.buf.len; omega), V3.lit_bytes h.ok]
  · exact nomatch h3

example : ∃ t, (Buffer.WriteByte 11 7).run ⟨demo, false⟩ = (.ok (), ⟨t, false⟩) ∧ t.bytes = [3, 4, 5, 6, 7, 8, 9, 10, 11, 12, 13, 7] := by
  obtain ⟨t, h1, h2, _⟩ := C50_writeByte_agrees demo_wf 11 7 (s' := (V3.Buffer.WriteByte 11 7 demo).2)
    (by rw [V3.buffer_writeByte_run demo_wf, if_pos (by decide)])
  exact ⟨t, h1, h2.trans (by decide)⟩

/-! ## C51 -/

/-- C51: `Grow(n)` keeps the content and appends `n` zero bytes, whatever the spare capacity holds and however much
`append` over-allocates; the offsets stay, the cached capacities are right, the lock is free. -/
theorem C51_grow_appends_zeros {s : St} (h : WF s) (n : Int64) (hn : 0 ≤ n.toInt) (hf : s.bytes.length + n.toInt ≤ maxAlloc) :
    ∃ s', (Buffer.Grow n).run ⟨s, false⟩ = (.ok (), ⟨s', false⟩) ∧
      s'.bytes = s.bytes ++ List.replicate n.toInt.toNat 0 ∧
      s'.b.cap.toInt = s.bytes.length + n.toInt ∧ s'.b.bcap.toInt = 8 * (s.bytes.length + n.toInt) ∧
      s'.b.off = s.b.off ∧ s'.b.boff = s.b.boff := by
  rw [V3.length_bytes h.ok] at hf
  obtain ⟨s', e, w, hb, h1, h2, _⟩ := mini_grow_ok h.ok n hn hf
  refine ⟨s', ?_, hb, ?_, ?_, h1, h2⟩
  · rw [show Buffer.Grow n = Buffer.grow n from rfl, grow_leaky n s, e]; rfl
  · rw [w.cap_toInt, ← V3.length_bytes w.ok, hb, List.length_append, List.length_replicate]; omega
  · rw [w.bcap_toInt, ← V3.length_bytes w.ok, hb, List.length_append, List.length_replicate]; omega

/-- The spare capacity of `demo` holds 15, 16, 17, 18: it is cleared. -/
example : ((Buffer.Grow 3).run ⟨demo, false⟩).2.st.bytes = [3, 4, 5, 6, 7, 8, 9, 10, 11, 12, 13, 14, 0, 0, 0] ∧
    WF demo ∧ demo.bytes.length + (3 : Int64).toInt ≤ maxAlloc := ⟨by decide, demo_wf, by decide⟩

/-- C51 for `MiniBuffer`. -/
theorem C51_mini_grow_appends_zeros {s : St} (h : s.OK) (n : Int64) (hn : 0 ≤ n.toInt) (hf : s.bytes.length + n.toInt ≤ maxAlloc) :
    ∃ s', Mini.Grow n s = (.ok (), s') ∧ s'.bytes = s.bytes ++ List.replicate n.toInt.toNat 0 ∧
      s'.b.cap.toInt = s.bytes.length + n.toInt ∧ s'.b.bcap.toInt = 8 * (s.bytes.length + n.toInt) ∧
      s'.b.off = s.b.off ∧ s'.b.boff = s.b.boff := by
  rw [V3.length_bytes h] at hf
  obtain ⟨s', e, w, hb, h1, h2, _⟩ := mini_grow_ok h n hn hf
  refine ⟨s', e, hb, ?_, ?_, h1, h2⟩
  · rw [w.cap_toInt, ← V3.length_bytes w.ok, hb, List.length_append, List.length_replicate, V3.length_bytes h]; omega
  · rw [w.bcap_toInt, ← V3.length_bytes w.ok, hb, List.length_append, List.length_replicate, V3.length_bytes h]; omega

example : (Mini.Grow 9 demo).2.bytes = [3, 4, 5, 6, 7, 8, 9, 10, 11, 12, 13, 14, 0, 0, 0, 0, 0, 0, 0, 0, 0] ∧ demo.OK :=
  ⟨by decide, demo_wf.ok⟩

/-! ## C55 -/

/-- C55, the full statement: after any call, returned or panicked, the mutex is free. -/
def C55_full : Prop :=
  ∀ (op : Op2) (s : St), WF s → (∀ p src, op = .writeBytes p src → SliceOK s.mem src) → ((exec op).run ⟨s, false⟩).2.locked = false

/-- An empty slice. -/
def noBytes : Slice := { arr := 1, off := 0, len := 0, cap := 0 }
theorem noBytes_ok : SliceOK demo.mem noBytes := ⟨by decide, by decide, by decide⟩

/-- Writes that leave the mutex taken on a well-formed buffer: exactly those of no elements, or whose end wraps around
`int64`. -/
theorem C55_writeBytes_leak {s : St} (h : WF s) (off : Int64) {src : Slice} (hs : SliceOK s.mem src) :
    ((exec (.writeBytes (some off) src)).run ⟨s, false⟩).2.locked = true ↔
      0 ≤ off.toInt ∧ ((src.len = 0 ∧ off.toInt ≤ s.bytes.length) ∨ 2 ^ 63 ≤ off.toInt + src.len) := by
  have hM := maxAlloc_lt; have hL := h.len_lt; have hD := hs.len_le_max
  have o1 := toInt_lt' off; have o2 := le_toInt' off
  have e : ((exec (.writeBytes (some off) src)).run ⟨s, false⟩).2.locked = ((Buffer.WriteBytes off src).run ⟨s, false⟩).2.locked := by
    show ((Buffer.WriteBytes off src).bind fun _ => .ret Val.unit).run ⟨s, false⟩ |>.2.locked = _
    rw [Prog.run_bind, bind_run]
    cases (Buffer.WriteBytes off src).run ⟨s, false⟩ with
    | mk r t => cases r <;> rfl
  rw [e, writeBytes_run h off hs, V3.length_bytes h.ok]
  by_cases hc : 0 < src.len ∧ 0 ≤ off.toInt ∧ off.toInt + src.len ≤ s.b.buf.len
  · rw [if_pos hc]
    simp only [Bool.false_eq_true, false_iff]
    omega
  · rw [if_neg hc]
    simp only [writePanic]
    by_cases h1 : off.toInt + src.len < 2 ^ 63 ∧ off.toInt + src.len > s.b.buf.len
    · rw [if_pos h1]
      simp only [Panic.runtime, Bool.false_eq_true, false_iff]
      omega
    · rw [if_neg h1]
      by_cases h2 : off.toInt < 0
      · rw [if_pos h2]
        simp only [Panic.runtime, Bool.false_eq_true, false_iff]
        omega
      · rw [if_neg h2]
        simp only [Panic.runtime, true_iff]
        omega

example : WF demo ∧ SliceOK demo.mem noBytes ∧ 0 ≤ (12 : Int64).toInt ∧ noBytes.len = 0 ∧ (12 : Int64).toInt ≤ demo.bytes.length :=
  ⟨demo_wf, noBytes_ok, by decide, by decide, by decide⟩

/-- C55 is false: writing no bytes, `Grow(-1)` and a typed write at the largest offset each panic inside the locked section
and leave the mutex taken. -/
theorem C55_releases_lock_false : ¬ C55_full ∧
    ((exec (.writeBytes (some 0) noBytes)).run ⟨demo, false⟩).2.locked = true ∧
    ((exec (.write .u16 .le (some 0) [])).run ⟨demo, false⟩).2.locked = true ∧
    ((exec (.write .u16 .le (some 9223372036854775807) [(1 : UInt16)])).run ⟨demo, false⟩).2.locked = true ∧
    ((exec (.grow (-1))).run ⟨demo, false⟩).2.locked = true := by
  have h1 : ((exec (.writeBytes (some 0) noBytes)).run ⟨demo, false⟩).2.locked = true :=
    (C55_writeBytes_leak demo_wf 0 noBytes_ok).mpr (by decide)
  refine ⟨fun h => ?_, h1, ?_, ?_, by decide⟩
  rotate_left
  · rw [exec_run _ demo]
    show (true && (V3.wrapVal _ (V3.Buffer.Write .u16 .le 0 []) demo).1.runtime) = true
    rw [V3.wrapVal_run, V3.buffer_write_run demo_wf .u16 .le 0 _ (by decide), if_neg (by decide)]
    decide
  · rw [exec_run _ demo]
    show (true && (V3.wrapVal _ (V3.Buffer.Write .u16 .le 9223372036854775807 [1]) demo).1.runtime) = true
    rw [V3.wrapVal_run, V3.buffer_write_run demo_wf .u16 .le 9223372036854775807 _ (by decide), if_neg (by decide)]
    decide
  have := h (.writeBytes (some 0) noBytes) demo demo_wf (fun p src e => by cases e; exact noBytes_ok)
  rw [h1] at this
  exact nomatch this

/-- C55, what holds: the mutex is taken afterwards exactly when the call is a write or a `Grow` and it panicked with
a run-time error (not one of the library's errors).  Every other call, and every call that returns, releases it. -/
theorem C55_releases_lock_partial (op : Op2) (s : St) :
    ((exec op).run ⟨s, false⟩).2.locked = (leaks op && ((exec op).run ⟨s, false⟩).1.runtime) := by
  rw [exec_run op s]

/-- A call that returns normally releases the mutex. -/
theorem C55_returns_unlocked (op : Op2) (s : St) (v : Val) (h : ((exec op).run ⟨s, false⟩).1 = .ok v) :
    ((exec op).run ⟨s, false⟩).2.locked = false := by
  rw [C55_releases_lock_partial, h]
  exact Bool.and_false _

/-- A call that is not a write or `Grow` releases the mutex, also when it panics. -/
theorem C55_reads_unlocked (op : Op2) (s : St) (h : leaks op = false) : ((exec op).run ⟨s, false⟩).2.locked = false := by
  rw [C55_releases_lock_partial, h]
  exact Bool.false_and _

/-- Once the mutex is taken for good, seeking (like every other locking call) blocks forever. -/
theorem C55_then_blocked (s : St) (off : Int64) (r : Bool) :
    (Buffer.Seek off r).run ⟨s, true⟩ = (.panic .blocked, ⟨s, true⟩) ∧
    Buffer.AlignBit.run ⟨s, true⟩ = (.panic .blocked, ⟨s, true⟩) ∧
    Buffer.Refresh.run ⟨s, true⟩ = (.panic .blocked, ⟨s, true⟩) ∧
    Buffer.Reset.run ⟨s, true⟩ = (.panic .blocked, ⟨s, true⟩) ∧
    (Buffer.Grow off).run ⟨s, true⟩ = (.panic .blocked, ⟨s, true⟩) := ⟨rfl, rfl, rfl, rfl, rfl⟩

/-! ## C58, v2 part -/

/-- C58 (v2): `SetBit` of a value that is not a bit changes nothing; inside the buffer it panics with
`BufferInvalidBitError` and releases the lock. -/
theorem C58_v2_setBit_invalid {s : St} (h : WF s) (off : Int64) (v : UInt8) (h0 : v ≠ 0) (h1 : v ≠ 1) :
    ((Buffer.SetBit off v).run ⟨s, false⟩).2 = ⟨s, false⟩ ∧
    (0 ≤ off.toInt ∧ off.toInt < 8 * s.bytes.length →
      ((Buffer.SetBit off v).run ⟨s, false⟩).1 = .panic (.err BufferInvalidBitError)) ∧
    (off.toInt < 0 → ((Buffer.SetBit off v).run ⟨s, false⟩).1 = .panic (.err BufferUnderwriteError)) ∧
    (8 * s.bytes.length ≤ off.toInt → ((Buffer.SetBit off v).run ⟨s, false⟩).1 = .panic (.err BufferOverwriteError)) := by
  have hL := h.len_lt
  have o1 := toInt_lt' off; have o2 := le_toInt' off
  rw [show Buffer.SetBit off v = Buffer.setbit off v from rfl, setbit_invalid off v h0 h1 s, V3.length_bytes h.ok]
  have e : (s.b.bcap - 1).toInt = 8 * s.b.buf.len - 1 := by
    rw [toInt_sub, h.bcap_toInt, toInt_one']; omega
  simp only [V3.getB_bind, panicIf_bind, GT.gt, Int64.lt_iff_toInt_lt, e, toInt_zero']
  by_cases a : 8 * (s.b.buf.len : Int) - 1 < off.toInt
  · rw [if_pos a]
    exact ⟨rfl, fun _ => by omega, fun _ => by omega, fun _ => rfl⟩
  · rw [if_neg a]
    by_cases b : off.toInt < 0
    · rw [if_pos b]
      exact ⟨rfl, fun _ => by omega, fun _ => rfl, fun _ => by omega⟩
    · rw [if_neg b]
      exact ⟨rfl, fun _ => rfl, fun _ => by omega, fun _ => by omega⟩

example : (Buffer.SetBit 95 2).run ⟨demo, false⟩ = (.panic (.err BufferInvalidBitError), ⟨demo, false⟩) ∧ (2 : UInt8) ≠ 0 ∧
    (2 : UInt8) ≠ 1 := ⟨rfl, by decide, by decide⟩

/-- C58 (v2 `MiniBuffer`): the same, with no range check at all. -/
theorem C58_v2_mini_setBit_invalid (s : St) (off : Int64) (v : UInt8) (h0 : v ≠ 0) (h1 : v ≠ 1) :
    Mini.SetBit off v s = (.panic (.err BufferInvalidBitError), s) := by
  show Mini.setbit off v s = _
  unfold Mini.setbit
  rw [if_neg h0, if_neg h1]
  rfl

/-! ## C66 -/

/-- C66, the full statement: after a `WriteBytes` that succeeds, the destination holds the bytes the source held before. -/
def C66_full : Prop :=
  ∀ (s : St) (off : Int64) (src : Slice), WF s → SliceOK s.mem src → ∀ s', (Buffer.WriteBytes off src).run ⟨s, false⟩ = (.ok (), s') →
    s'.st.bytes = patch s.bytes off.toInt.toNat (s.mem.view src)

/-- The first five bytes of the buffer of `demo`. -/
def demoHead : Slice := { arr := 0, off := 2, len := 5, cap := 5 }
theorem demoHead_ok : SliceOK demo.mem demoHead := ⟨by decide, by decide, by decide⟩

/-- C66 is false: copying the buffer's own head two bytes further on repeats its first two bytes. -/
theorem C66_overlapping_write_false : ¬ C66_full ∧
    ((Buffer.WriteBytes 2 demoHead).run ⟨demo, false⟩).2.st.bytes = [3, 4, 3, 4, 3, 4, 3, 10, 11, 12, 13, 14] := by
  have e : ((Buffer.WriteBytes 2 demoHead).run ⟨demo, false⟩).2.st.bytes = [3, 4, 3, 4, 3, 4, 3, 10, 11, 12, 13, 14] := by
    rw [writeBytes_run demo_wf 2 demoHead_ok, if_pos (by decide)]
    decide
  refine ⟨fun h => ?_, e⟩
  have := h demo 2 demoHead demo_wf demoHead_ok _ (by rw [writeBytes_run demo_wf 2 demoHead_ok, if_pos (by decide)])
  revert this
  decide

/-- C66, what holds, for every call: it succeeds iff the source is not empty and fits, and then byte `i` of the
destination is byte `i` of the source as it was before the call, except that when the destination starts `d > 0` bytes
after the start of the source in the same array it is byte `i % d`.  Everything else in the buffer stays. -/
theorem C66_overlapping_write_partial {s : St} (h : WF s) (off : Int64) {src : Slice} (hs : SliceOK s.mem src) :
    ((∃ s', (Buffer.WriteBytes off src).run ⟨s, false⟩ = (.ok (), s')) ↔
      0 < src.len ∧ 0 ≤ off.toInt ∧ off.toInt + src.len ≤ s.bytes.length) ∧
    ∀ s', (Buffer.WriteBytes off src).run ⟨s, false⟩ = (.ok (), s') → s'.st.b = s.b ∧ s'.st.bytes.length = s.bytes.length ∧
      ∀ i, s'.st.bytes[i]? =
        if off.toInt.toNat ≤ i ∧ i < off.toInt.toNat + src.len then
          (s.mem.view src)[if src.arr = s.b.buf.arr ∧ src.off < s.b.buf.off + off.toInt.toNat then
            (i - off.toInt.toNat) % (s.b.buf.off + off.toInt.toNat - src.off) else i - off.toInt.toNat]?
        else s.bytes[i]? := by
  rw [writeBytes_run h off hs]
  have hb := V3.length_bytes h.ok
  have hv := length_view hs
  rw [hb]
  by_cases hc : 0 < src.len ∧ 0 ≤ off.toInt ∧ off.toInt + src.len ≤ s.b.buf.len
  · rw [if_pos hc]
    refine ⟨⟨fun _ => hc, fun _ => ⟨_, rfl⟩⟩, fun s' e => ?_⟩
    have e' := (Prod.mk.inj e).2
    subst e'
    have e1 : (s.write off.toInt.toNat (copied s off.toInt.toNat src src.len)).bytes =
        patch s.bytes off.toInt.toNat (copied s off.toInt.toNat src src.len) :=
      V3.bytes_write h.ok (by rw [length_copied]; omega)
    refine ⟨rfl, ?_, fun i => ?_⟩
    · show (V3.St.bytes _).length = _
      rw [e1, length_patch (by rw [length_copied]; omega), hb]
    · show (V3.St.bytes _)[i]? = _
      rw [e1, getElem?_patch (by rw [length_copied]; omega), length_copied]
      by_cases hi : off.toInt.toNat ≤ i ∧ i < off.toInt.toNat + src.len
      · rw [if_pos hi, if_pos hi]
        have hr : i - off.toInt.toNat < src.len := by omega
        simp only [copied, List.getElem?_map, List.getElem?_range hr, Option.map_some, copyByte, List.getD]
        generalize hj : (if src.arr = s.b.buf.arr ∧ src.off < s.b.buf.off + off.toInt.toNat then
            (i - off.toInt.toNat) % (s.b.buf.off + off.toInt.toNat - src.off) else i - off.toInt.toNat) = j
        have : j < (s.mem.view src).length := by
          rw [hv, ← hj]
          split
          · exact Nat.lt_of_le_of_lt (Nat.mod_le _ _) hr
          · exact hr
        rw [List.getElem?_eq_getElem this]
        rfl
      · rw [if_neg hi, if_neg hi]
  · rw [if_neg hc]
    refine ⟨⟨fun hh => ?_, fun hh => (hc hh).elim⟩, fun s' e => ?_⟩
    · obtain ⟨_, e⟩ := hh
      exact nomatch (Prod.mk.inj e).1
    · exact nomatch (Prod.mk.inj e).1

example : WF demo ∧ SliceOK demo.mem demoHead ∧ 0 < demoHead.len ∧ 0 ≤ (2 : Int64).toInt ∧
    (2 : Int64).toInt + demoHead.len ≤ demo.bytes.length := ⟨demo_wf, demoHead_ok, by decide, by decide, by decide⟩

end Crunch.V2
