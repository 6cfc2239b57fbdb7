import Verif.Props.V1
import Verif.Props.V2
import Verif.Lemmas.V1Free
import Verif.Props.Conc

/-!
# Properties of v1 `Buffer` next to v2 (C69–C75)

`(exec1 op).run ⟨s, false⟩` executes a v1 call on memory and fields `s` with the mutex free.
-/

namespace Crunch.V1
open Spec
open V3 (St WF Val demo demo_wf Kind)
open V2 (exec Op2)

/-! ## C69 -/

/-- The calls that go over the whole buffer. -/
def Whole : Op1 → Bool
  | .clearAll => true
  | .setAll => true
  | .flipAll => true
  | _ => false

/-- A bit count, where there is one, is positive. -/
def Counted : Op1 → Prop
  | .readBits _ n => 0 < n
  | .setBits _ _ n => 0 < n
  | _ => True

/-- The outcome of a v2 call as one of a v1 call. -/
def asV1 (r : Res Val × Sh) : Res Val1 × Sh :=
  (match r.1 with
    | .ok v => .ok (.val v)
    | .panic p => .panic p, r.2)

theorem valOf_run (p : Prog Val) (sh : Sh) : (valOf p).run sh = asV1 (p.run sh) := by
  unfold valOf asV1
  rw [Prog.run_bind, bind_run]
  cases p.run sh with
  | mk r t => cases r <;> rfl

/-- C69: the v1 method is, step by step, the v2 method of the same name: the same reads, writes, locks and panics in the same
order, hence the same behaviour alone and in every interleaving.  Bit counts must be positive; the calls over the whole
buffer are in the next theorem. -/
theorem C69_same_steps (op : Op1) (op2 : Op2) (h : toV2 op = some op2) (hc : Counted op) (hw : Whole op = false) :
    exec1 op = (exec op2).bind fun v => .ret (.val v) := by
  refine exec1_v2 op op2 h ?_
  cases op <;> first | rfl | exact decide_eq_true hc | (simp [toV2, Whole] at h hw)

/-- C69 for the calls over the whole buffer, when there is a byte in it. -/
theorem C69_whole_buffer (op : Op1) (op2 : Op2) (h : toV2 op = some op2) (hw : Whole op = true) {s : St} (hs : WF s)
    (hb : s.bytes ≠ []) (l : Bool) : (exec1 op).run ⟨s, l⟩ = asV1 ((exec op2).run ⟨s, l⟩) := by
  have hM := maxAlloc_lt; have hL := hs.len_lt
  have hlen := V3.length_bytes hs.ok
  have hp : 0 < s.b.buf.len := by
    have := List.length_pos_iff.mpr hb
    omega
  have h0 : (0 : Int64) < Int64.ofNat s.b.buf.len := by
    rw [Int64.lt_iff_toInt_lt, toInt_ofNat (by omega), toInt_zero']; omega
  rw [← valOf_run]
  have fin : ∀ (f : Unit → Val) (p q : Prog Unit), p.run ⟨s, l⟩ = q.run ⟨s, l⟩ → (wrap1 f p).run ⟨s, l⟩ = (valOf (V2.wrapVal f q)).run ⟨s, l⟩ := by
    intro f p q e
    rw [← wrap1_eq]
    unfold wrap1
    rw [Prog.run_bind, Prog.run_bind, bind_run, bind_run, e]
  cases op with
  | clearAll => cases h; exact fin _ _ _ (all_run _ _ h0)
  | setAll => cases h; exact fin _ _ _ (all_run _ _ h0)
  | flipAll => cases h; exact fin _ _ _ (all_run _ _ h0)
  | _ => exact nomatch hw

/-- C69 for the constructor: the same steps again. -/
theorem C69_constructor (slices : List Slice) : Buffer.NewBuffer slices = V2.Buffer.NewBuffer slices := rfl

example : toV2 (.setBits (some 3) 5 3) = some (.setBits (some 3) 5 3) ∧ Counted (.setBits (some 3) 5 3) ∧
    Whole (.setBits (some 3) 5 3) = false ∧ toV2 .flipAll = some .flipAll ∧ Whole .flipAll = true ∧ WF demo ∧ demo.bytes ≠ [] :=
  ⟨rfl, show (0 : Int64) < 3 by decide, rfl, rfl, rfl, demo_wf, by decide⟩

/-! ## C70 -/

/-- C70: in v1 a bit count of zero or less is no bits: nothing is read or written and nothing panics, whatever the offset, even
while the mutex is taken. -/
theorem C70_no_bits (sh : Sh) (off : Int64) (d : UInt64) (n : Int64) (hn : n.toInt ≤ 0) :
    (Buffer.ReadBits off n).run sh = (.ok 0, sh) ∧ (Buffer.SetBits off d n).run sh = (.ok (), sh) := by
  have h : ¬ 0 < n := by rw [Int64.lt_iff_toInt_lt, toInt_zero']; omega
  constructor
  · show (Buffer.readbits off n).run sh = _
    rw [readbits_stop off n h]; rfl
  · show (Buffer.setbits off d n).run sh = _
    rw [setbits_stop off d n h]; rfl

/-- C70 for the Next variants: only the bit offset moves, by the count given. -/
theorem C70_no_bits_next (s : St) (d : UInt64) (n : Int64) (hn : n.toInt ≤ 0) :
    (Buffer.ReadBitsNext n).run ⟨s, false⟩ = (.ok 0, ⟨{ s with b := { s.b with boff := s.b.boff + n } }, false⟩) ∧
    (Buffer.SetBitsNext d n).run ⟨s, false⟩ = (.ok (), ⟨{ s with b := { s.b with boff := s.b.boff + n } }, false⟩) := by
  have h : ¬ 0 < n := by rw [Int64.lt_iff_toInt_lt, toInt_zero']; omega
  constructor
  · show ((Prog.field .boff).bind fun boff => (Buffer.readbits boff n).bind fun out => (Buffer.seekbit n true).bind fun _ => .ret out).run _ = _
    simp only [readbits_stop _ n h]; rfl
  · show ((Prog.field .boff).bind fun boff => (Buffer.setbits boff d n).bind fun out => Buffer.seekbit n true).run _ = _
    simp only [setbits_stop _ d n h]; rfl

/-- C70 for the calls over the whole buffer: on an empty buffer they do nothing. -/
theorem C70_empty_buffer (s : St) (h : s.b.buf.len = 0) :
    Buffer.ClearAllBits.run ⟨s, false⟩ = (.ok (), ⟨s, false⟩) ∧ Buffer.SetAllBits.run ⟨s, false⟩ = (.ok (), ⟨s, false⟩) ∧
    Buffer.FlipAllBits.run ⟨s, false⟩ = (.ok (), ⟨s, false⟩) :=
  ⟨all_empty _ s h, all_empty _ s h, all_empty _ s h⟩

/-- v2 panics in all these cases. -/
example : (Buffer.ReadBits 96 0).run ⟨demo, false⟩ = (.ok 0, ⟨demo, false⟩) ∧
    ((V2.Buffer.ReadBits 96 0).run ⟨demo, false⟩).1 = .panic (.err V2.BufferOverreadError) ∧
    (V2.Buffer.ClearAllBits.run ⟨V3.St.mk ⟨[[]], fun _ _ => 0⟩ ⟨⟨0, 0, 0, 0⟩, 0, 0, 0, 0⟩, false⟩).1 = .panic .index := by
  refine ⟨(C70_no_bits ⟨demo, false⟩ 96 0 0 (by decide)).1, by decide +kernel, by decide +kernel⟩

/-! ## C71 -/

/-- `WriteComplex` of the integers of `l`, and the v2 method for them. -/
def asAny : (k : V2.UKind) → List k.kind.Ty → Any
  | .u16, l => .u16 l
  | .u32, l => .u32 l
  | .u64, l => .u64 l

/-- The size of the integers. -/
def sizeOf : V2.UKind → Int64
  | .u16 => Unsigned16
  | .u32 => Unsigned32
  | .u64 => Unsigned64

theorem writeComplex_kind (k : V2.UKind) (e : Endian) (off : Int64) (l : List k.kind.Ty) (hl : l.length * k.kind.size ≤ maxAlloc) :
    Buffer.writeComplex off (asAny k l) (sizeOf k) (some e) = Buffer.write off (.lit (V3.enc k.kind e l)) := by
  cases k
  · exact writeComplex_u16 off l e hl
  · exact writeComplex_u32 off l e hl
  · exact writeComplex_u64 off l e hl

/-- C71: `WriteComplex` of unsigned integers has the outcome of the v2 method `WriteU16LE` … `WriteU64BE` for them: the same
bytes at the same place, the same panic, the same state of the mutex. -/
theorem C71_writeComplex_is_write {s : St} (h : WF s) (k : V2.UKind) (e : Endian) (off : Int64) (l : List k.kind.Ty)
    (hl : l.length * k.kind.size ≤ maxAlloc) :
    (exec1 (.writeComplex (some off) (asAny k l) (sizeOf k) (some e))).run ⟨s, false⟩ =
      asV1 ((exec (.write k e (some off) l)).run ⟨s, false⟩) := by
  rw [← valOf_run]
  show (wrap1 (fun _ => Val.unit) (Buffer.writeComplex off (asAny k l) (sizeOf k) (some e))).run _ =
    (valOf (V2.wrapVal (fun _ => .unit) (V2.Buffer.Write k e off l))).run _
  rw [← wrap1_eq]
  unfold wrap1
  rw [Prog.run_bind, Prog.run_bind, bind_run, bind_run]
  have key : (Buffer.writeComplex off (asAny k l) (sizeOf k) (some e)).run ⟨s, false⟩ = (V2.Buffer.Write k e off l).run ⟨s, false⟩ := by
    have hlen := V3.length_enc k.kind e l
    have hpos : 0 < k.kind.size := by cases k <;> decide
    rw [writeComplex_kind k e off l hl, write_lit_run h off _ (by omega), V2.write_typed k e off l s, V3.buffer_write_run h _ _ _ _ hl, hlen]
    have hc : 0 < l.length * k.kind.size ↔ l ≠ [] := by
      rw [← List.length_pos_iff]
      constructor
      · intro hp; exact Nat.pos_of_mul_pos_right hp
      · intro hp; exact Nat.mul_pos hp hpos
    by_cases hr : l ≠ [] ∧ 0 ≤ off.toInt ∧ off.toInt + l.length * k.kind.size ≤ s.b.buf.len
    · rw [if_pos hr, if_pos ⟨hc.mpr hr.1, hr.2.1, by have := hr.2.2; omega⟩]; rfl
    · rw [if_neg hr, if_neg (fun hx => hr ⟨hc.mp hx.1, hx.2.1, by have := hx.2.2; omega⟩)]
      rfl
  rw [key]

/-- C71 for reads: a `ReadComplex` whose integers all lie inside the buffer returns what the v2 method returns. -/
theorem C71_readComplex_is_read {s : St} (h : WF s) (k : V2.UKind) (e : Endian) (off n : Int64) (hn : 0 < n.toInt) (h0 : 0 ≤ off.toInt)
    (hr : off.toInt + n.toInt * k.kind.size ≤ s.bytes.length) :
    ∃ l : List k.kind.Ty, (Buffer.ReadComplex off n (sizeOf k) (some e)).run ⟨s, false⟩ = (.ok (asAny k l), ⟨s, false⟩) ∧
      (V2.Buffer.Read k e off n).run ⟨s, false⟩ = (.ok l, ⟨s, false⟩) := by
  have hM := maxAlloc_lt; have hL := h.len_lt; have hf := h.ok.fits; have hlc := h.ok.len_le
  have hlen := V3.length_bytes h.ok
  rw [hlen] at hr
  have hpos : 0 < k.kind.size := by cases k <;> decide
  have hmul : n.toInt ≤ n.toInt * k.kind.size := by
    have := Int.mul_le_mul_of_nonneg_left (show (1 : Int) ≤ k.kind.size by omega) (show 0 ≤ n.toInt by omega)
    omega
  have hnat : ((n.toInt.toNat * k.kind.size : Nat) : Int) = n.toInt * k.kind.size := by
    rw [Int.natCast_mul, Int.toNat_of_nonneg (by omega)]
  refine ⟨V3.dec k.kind e n.toInt.toNat (s.bytes.drop off.toInt.toNat), ?_, ?_⟩
  · have hd : V3.dec k.kind e n.toInt.toNat (St.from s off.toInt.toNat) = V3.dec k.kind e n.toInt.toNat (s.bytes.drop off.toInt.toNat) := by
      apply V3.dec_congr
      show Spec.slice (List.drop _ (s.mem.array s.b.buf.arr)) _ _ = _
      rw [V3.slice_drop, V3.slice_drop, slice_bytes _ _ (by omega), Nat.add_assoc]
    have c : complexRead k.kind e (asAny k) off n s = .ok (asAny k (V3.dec k.kind e n.toInt.toNat (s.bytes.drop off.toInt.toNat))) := by
      unfold complexRead
      rw [if_pos ⟨by omega, h0, by omega⟩, if_pos (by omega), hd]
    rw [← c]
    cases k
    · exact readComplex_u16 h off n e
    · exact readComplex_u32 h off n e
    · exact readComplex_u64 h off n e
  · rw [V2.read_typed k e off n s, V3.buffer_read_run h, if_pos ⟨by omega, h0, hr⟩]

/-- Two 16-bit integers, written at 3 and read back by both versions. -/
example : ∃ l : List (V2.UKind.u16).kind.Ty,
    (Buffer.ReadComplex 3 2 Unsigned16 (some .be)).run ⟨demo, false⟩ = (.ok (asAny .u16 l), ⟨demo, false⟩) ∧
      (V2.Buffer.Read .u16 .be 3 2).run ⟨demo, false⟩ = (.ok l, ⟨demo, false⟩) :=
  C71_readComplex_is_read demo_wf .u16 .be 3 2 (by decide) (by decide) (by decide)
example : (exec1 (.writeComplex (some 3) (.u32 [0x01020304, 5]) Unsigned32 (some .le))).run ⟨demo, false⟩ =
    asV1 ((exec (.write .u32 .le (some 3) [(0x01020304 : UInt32), (5 : UInt32)])).run ⟨demo, false⟩) :=
  C71_writeComplex_is_write demo_wf .u32 .le 3 [(0x01020304 : UInt32), (5 : UInt32)] (by decide)

/-! ## C72 -/

/-- Any method may be called. -/
def anyOp1 (_ : Op1) : Prop := True

/-- C72: at most one goroutine is inside a locked section, and one is exactly when the mutex is taken. -/
theorem C72_mutual_exclusion {c0 c : Conf Op1 Val1} {τ : Trace Op1 Val1} (q : Quiet c0) (e : Exec exec1 anyOp1 c0 τ c) :
    (∀ i j, inside τ i = true → inside τ j = true → i = j) ∧ (c.sh.locked = true ↔ ∃ i, inside τ i = true) :=
  shared_exclusion (fun op _ => exec1_brk op) q e

/-- C72: a step that changes memory or a field of the buffer is taken by the goroutine inside. -/
theorem C72_changes_inside {c0 c c' : Conf Op1 Val1} {τ : Trace Op1 Val1} (q : Quiet c0) (e : Exec exec1 anyOp1 c0 τ c)
    {i : Nat} {a : Act Op1 Val1} (st : Step exec1 anyOp1 c i a c') (h : c'.sh.st ≠ c.sh.st) : inside τ i = true :=
  shared_changes (fun op _ => exec1_brk op) q e st h

/-- C72: whenever the mutex is free, memory and fields are those of the sections executed one after another in the order in which
the mutex was acquired. -/
theorem C72_sections_serial {c0 c : Conf Op1 Val1} {τ : Trace Op1 Val1} (q : Quiet c0) (e : Exec exec1 anyOp1 c0 τ c)
    (hf : c.sh.locked = false) : c.sh.st = (sections τ).foldl (fun s p => secRun p s) c0.sh.st :=
  shared_serial_free (fun op _ => exec1_brk op) q e hf

/-- C72: goroutines making only calls with a single locked section (`Atomic1`: among them every `WriteComplex`) behave as if
the calls were made one after another in the order of `points τ`; see C67. -/
theorem C72_linearizable {c0 c : Conf Op1 Val1} {τ : Trace Op1 Val1} (q : Quiet c0) (e : Exec exec1 Atomic1 c0 τ c) :
    (∀ i, ∃ pending, ofThread i (seqRun exec1 (points τ) c0.sh).1 = finished i τ ++ pending ∧ pending.length ≤ 1 ∧
      (c.thr i = .idle → pending = [])) ∧
    (∀ i, ∃ waiting, started i τ = ofThread i (points τ) ++ waiting ∧ waiting.length ≤ 1 ∧ (c.thr i = .idle → waiting = [])) ∧
    ((∀ i, c.thr i = .idle) → c.sh = (seqRun exec1 (points τ) c0.sh).2) :=
  shared_linearizable exec1_once q e

/-- Two goroutines write two bytes each to the same place, the second one arriving in the middle of the first. -/
def demoRace1 : List (Nat × Option Op1) :=
  (0, some (.writeComplex (some 1) (.u16 [0xAABB]) Unsigned16 (some .be))) ::
    (1, some (.writeComplex (some 2) (.u16 [0x0102]) Unsigned16 (some .be))) :: (1, none) :: steps 0 8 ++ steps 1 7

example : ∃ τ c, Exec exec1 Atomic1 (rest _ _ demo) τ c ∧ (∀ i, c.thr i = .idle) ∧ c.sh.locked = false ∧ (sections τ).length = 2 ∧
    c.sh.st.bytes = [3, 0xAA, 1, 2, 7, 8, 9, 10, 11, 12, 13, 14] := by
  obtain ⟨τ, c, e, hi, h⟩ := sched_ex_done (allowed := Atomic1) (ex := exec1) (rest_quiet demo) 2 demoRace1
    (fun τ c => !c.sh.locked && (sections τ).length == 2 && c.sh.st.bytes == [3, 0xAA, 1, 2, 7, 8, 9, 10, 11, 12, 13, 14])
    (allowed_of fun op ho => by
      rcases (by simpa [demoRace1, steps, List.filterMap_cons, List.filterMap_append, List.filterMap_replicate_of_none] using ho :
        op = _ ∨ op = _) with rfl | rfl <;> rfl) (by decide) (by decide +kernel)
  simp only [Bool.and_eq_true, beq_iff_eq, Bool.not_eq_true'] at h
  exact ⟨τ, c, e, hi, h.1.1, h.1.2, h.2⟩

/-! ## C73 -/

/-- C73, the full statement: after any v1 call, returned or panicked, the mutex is free. -/
def C73_full : Prop := ∀ (op : Op1) (s : St), WF s → ((exec1 op).run ⟨s, false⟩).2.locked = false

/-- C73 is false: writing no integers at all, and `Grow(-1)`, panic inside the locked section and leave the mutex taken. -/
theorem C73_releases_lock_false : ¬ C73_full ∧
    ((exec1 (.writeComplex (some 0) (.u16 []) Unsigned16 (some .le))).run ⟨demo, false⟩).2.locked = true ∧
    ((exec1 (.grow (-1))).run ⟨demo, false⟩).2.locked = true := by
  have h : ((exec1 (.writeComplex (some 0) (.u16 []) Unsigned16 (some .le))).run ⟨demo, false⟩).2.locked = true := by decide +kernel
  exact ⟨fun hf => (nomatch h.symm.trans (hf _ demo demo_wf)), h, by decide +kernel⟩

/-- C73, what holds: a call that returns, or that panics with one of the library's errors, has released the mutex; every call other
than a write or `Grow` releases it always. -/
theorem C73_releases_lock_partial (op : Op1) (s : St) :
    (∀ v, ((exec1 op).run ⟨s, false⟩).1 = .ok v → ((exec1 op).run ⟨s, false⟩).2.locked = false) ∧
    (∀ x, ((exec1 op).run ⟨s, false⟩).1 = .panic (.err x) → ((exec1 op).run ⟨s, false⟩).2.locked = false) ∧
    (leaks1 op = false → ((exec1 op).run ⟨s, false⟩).2.locked = false) := by
  have key : ((exec1 op).run ⟨s, false⟩).1.runtime = false → ((exec1 op).run ⟨s, false⟩).2.locked = false := by
    intro h
    cases hl : ((exec1 op).run ⟨s, false⟩).2.locked with
    | false => rfl
    | true => exact nomatch (exec1_frees op s hl).symm.trans h
  exact ⟨fun v h => key (by rw [h]; rfl), fun x h => key (by rw [h]; rfl), fun h => exec1_free op h s⟩

example : ((exec1 (.writeComplex (some 3) (.u32 [1, 2]) Unsigned32 (some .le))).run ⟨demo, false⟩).1 matches .ok _ := by decide +kernel
example : ((exec1 (.writeComplex (some 5) (.u32 [1, 2]) Unsigned32 (some .le))).run ⟨demo, false⟩).1 matches .panic (.err _) := by
  decide +kernel

/-! ## C74 -/

/-- After a success, move the byte offset by `n`; after a panic do nothing. -/
def thenMove (n : Int64) (r : Res α × Sh) : Res α × Sh :=
  match r with
  | (.ok a, sh) => (.ok a, { sh with st := { sh.st with b := { sh.st.b with off := sh.st.b.off + n } } })
  | (.panic p, sh) => (.panic p, sh)

/-- C74: `ReadComplexNext` is `ReadComplex` at the offset, which then moves by `n` times the integer size; the offset does not move
when it panics. -/
theorem C74_readComplexNext (s : St) (n size : Int64) (o : ByteOrder) :
    (Buffer.ReadComplexNext n size o).run ⟨s, false⟩ = thenMove (n * size) ((Buffer.ReadComplex s.b.off n size o).run ⟨s, false⟩) ∧
    ((Buffer.ReadComplex s.b.off n size o).run ⟨s, false⟩).2.st.b = s.b := by
  refine ⟨?_, (readComplex_noAssign _ _ _ _).keeps _⟩
  show (Prog.bind (Buffer.readComplex s.b.off n size o) fun out => (Buffer.seek (n * size) true).bind fun _ => .ret out).run _ = _
  rw [Prog.run_bind, bind_run]
  have hf := readComplex_free s.b.off n size o s
  show _ = thenMove _ ((Buffer.readComplex s.b.off n size o).run ⟨s, false⟩)
  cases h : (Buffer.readComplex s.b.off n size o).run ⟨s, false⟩ with
  | mk r t =>
    rw [h] at hf
    cases t with
    | mk st l =>
      cases hf
      cases r <;> rfl

/-- C74: `WriteComplexNext` is `WriteComplex` at the offset, which then moves by the number of integers times their size; the offset
does not move when it panics. -/
theorem C74_writeComplexNext (s : St) (d : Any) (size : Int64) (o : ByteOrder) :
    (Buffer.WriteComplexNext d size o).run ⟨s, false⟩ =
      thenMove (Int64.ofNat d.count * size) ((Buffer.WriteComplex s.b.off d size o).run ⟨s, false⟩) ∧
    ((Buffer.WriteComplex s.b.off d size o).run ⟨s, false⟩).2.st.b = s.b := by
  refine ⟨?_, (writeComplex_noAssign _ _ _ _).keeps _⟩
  have hf := writeComplex_frees s.b.off d size o s
  show (Prog.bind (Buffer.writeComplex s.b.off d size o) _).run _ = thenMove _ ((Buffer.writeComplex s.b.off d size o).run ⟨s, false⟩)
  rw [Prog.run_bind, bind_run]
  cases h : (Buffer.writeComplex s.b.off d size o).run ⟨s, false⟩ with
  | mk r t =>
    rw [h] at hf
    cases r with
    | panic p => rfl
    | ok a =>
      have hl : t.locked = false := by
        cases hl : t.locked with
        | false => rfl
        | true => exact nomatch hf hl
      rw [sh_eta hl]
      have ok1 : ∀ {p : Panic} {q : Res Unit × Sh}, (.panic p, ⟨s, false⟩) = (Res.ok a, t) → q = thenMove (Int64.ofNat d.count * size) (.ok a, ⟨t.st, false⟩) :=
        fun h => nomatch h
      by_cases h1 : size = Unsigned8
      · subst h1
        cases d with
        | bytes l => rfl
        | _ => exact ok1 h
      by_cases h2 : size = Unsigned16
      · subst h2
        cases d with
        | u16 l => rfl
        | _ => exact ok1 h
      by_cases h4 : size = Unsigned32
      · subst h4
        cases d with
        | u32 l => rfl
        | _ => exact ok1 h
      by_cases h8 : size = Unsigned64
      · subst h8
        cases d with
        | u64 l => rfl
        | _ => exact ok1 h
      rw [writeComplex_other _ _ _ _ h1 h2 h4 h8] at h
      exact nomatch h

/-- Two 32-bit integers written at offset 3 move it to 11; a third does not fit and leaves it there. -/
example : ((Buffer.WriteComplexNext (.u32 [1, 2]) Unsigned32 (some .le)).run ⟨demo, false⟩).2.st.b.off = 11 ∧
    ((Buffer.WriteComplexNext (.u32 [1, 2, 3]) Unsigned32 (some .le)).run ⟨demo, false⟩).1 = .panic (.err BufferOverwriteError) ∧
    ((Buffer.WriteComplexNext (.u32 [1, 2, 3]) Unsigned32 (some .le)).run ⟨demo, false⟩).2.st.b.off = 3 := by
  decide +kernel

/-! ## C75 -/

/-- Only positioned `WriteComplex` and `ReadComplex`. -/
def ComplexOnly : Op1 → Prop
  | .writeComplex (some _) _ _ _ => True
  | .readComplex (some _) _ _ _ => True
  | _ => False

/-- C75, the full statement: what concurrent positioned `WriteComplex` and `ReadComplex` calls return is what they return one after
another in some order, so that a read sees either all or nothing of a write. -/
def C75_full : Prop :=
  ∀ (s : St), WF s → ∀ (τ : Trace Op1 Val1) (c : Conf Op1 Val1), Exec exec1 ComplexOnly (rest _ _ s) τ c → (∀ i, c.thr i = .idle) →
    ∃ L : List (Nat × Op1), (∀ i, ofThread i L = started i τ) ∧
      ∀ i, ofThread i (seqRun exec1 L (rest Op1 Val1 s).sh).1 = finished i τ

/-- One goroutine reads two bytes as an integer; between the two bytes another one writes an integer over them. -/
def demoTorn : List (Nat × Option Op1) :=
  (0, some (.readComplex (some 0) 1 Unsigned16 (some .be))) :: (1, some (.writeComplex (some 0) (.u16 [0xAABB]) Unsigned16 (some .be))) ::
    steps 0 5 ++ steps 1 8 ++ steps 0 2

/-- The 16-bit integers a list of outcomes consists of. -/
def gotU16 (l : List (Op1 × Res Val1)) : List (List UInt16) :=
  l.map fun x => match x.2 with
    | .ok (.any (.u16 v)) => v
    | _ => []

/-- C75 is false: the bytes are read after the mutex has been released, and 0xAA04 is read, half of the old integer 0x0304 and half
of the new one 0xAABB. -/
theorem C75_torn_read_false : ¬ C75_full := by
  intro hfull
  obtain ⟨τ, c, e, hi, hn, h⟩ := sched_ex_only (allowed := ComplexOnly) (ex := exec1) (rest_quiet demo) 2 demoTorn
    (fun τ _ => (started 0 τ matches [.readComplex (some 0) 1 2 (some .be)]) &&
      (started 1 τ matches [.writeComplex (some 0) (.u16 [0xAABB]) 2 (some .be)]) && gotU16 (finished 0 τ) == [[0xAA04]])
    (allowed_of fun op ho => by
      rcases (by simpa [demoTorn, steps, List.filterMap_cons, List.filterMap_append, List.filterMap_replicate_of_none] using ho :
        op = _ ∨ op = _) with rfl | rfl <;> trivial) (by decide) (by decide +kernel)
  simp only [Bool.and_eq_true, beq_iff_eq] at h
  obtain ⟨⟨h0, h1⟩, hg⟩ := h
  have h0 : started 0 τ = [.readComplex (some 0) 1 Unsigned16 (some .be)] := by
    split at h0
    · assumption
    · exact nomatch h0
  have h1 : started 1 τ = [.writeComplex (some 0) (.u16 [0xAABB]) Unsigned16 (some .be)] := by
    split at h1
    · assumption
    · exact nomatch h1
  obtain ⟨L, hL, hs⟩ := hfull demo demo_wf τ c e hi
  have hg' := congrArg gotU16 (hs 0)
  rw [hg] at hg'
  rcases V2.two_calls ((hL 0).trans h0) ((hL 1).trans h1) (fun i h => (hL i).trans (hn i h).1) with rfl | rfl <;>
    exact absurd hg' (by decide +kernel)

/-- C75, what holds: calls of any kind that do not overlap in time, whichever goroutines make them, do what they do one after
another; `WriteComplex`, and `ReadComplex` of bytes, may overlap (C72), the latter returning a slice of the buffer's memory. -/
theorem C75_torn_read_partial {c0 c : Conf Op1 Val1} {τ : Trace Op1 Val1} (q : Quiet c0) (e : Exec exec1 anyOp1 c0 τ c)
    (no : NoOverlap τ) (hi : ∀ i, c.thr i = .idle) :
    c.sh = (seqRun exec1 (calls τ) c0.sh).2 ∧ ∀ i, finished i τ = ofThread i (seqRun exec1 (calls τ) c0.sh).1 := by
  cases exec_serial q e no with
  | quiet _ h1 h2 => exact ⟨h1, h2⟩
  | @busy i _ _ _ h _ _ _ _ => rw [hi i] at h; exact nomatch h

/-- The same two calls taking turns. -/
def demoTurns1 : List (Nat × Option Op1) :=
  (0, some (.readComplex (some 0) 1 Unsigned16 (some .be))) :: steps 0 7 ++
    (1, some (.writeComplex (some 0) (.u16 [0xAABB]) Unsigned16 (some .be))) :: steps 1 8

example : ∃ τ c, Exec exec1 anyOp1 (rest _ _ demo) τ c ∧ NoOverlap τ ∧ (∀ i, c.thr i = .idle) ∧
    gotU16 (finished 0 τ) = [[0x0304]] ∧ c.sh.st.bytes = [0xAA, 0xBB, 5, 6, 7, 8, 9, 10, 11, 12, 13, 14] := by
  obtain ⟨τ, c, e, hi, h⟩ := sched_ex_done (allowed := anyOp1) (ex := exec1) (rest_quiet demo) 2 demoTurns1
    (fun τ c => noOverlapB 2 τ && gotU16 (finished 0 τ) == [[0x0304]] && c.sh.st.bytes == [0xAA, 0xBB, 5, 6, 7, 8, 9, 10, 11, 12, 13, 14])
    (fun _ _ _ _ => trivial) (by decide) (by decide +kernel)
  simp only [Bool.and_eq_true, beq_iff_eq] at h
  exact ⟨τ, c, e, noOverlap_of h.1.1, hi, h.1.2, h.2⟩

end Crunch.V1
