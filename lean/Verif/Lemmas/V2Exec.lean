import Verif.Lemmas.V2Copy
import Verif.Lemmas.New

/-! Every v2 `Buffer` call executed alone: what it does, and whether it leaves the lock taken. -/

namespace Crunch
open V3 (St getB modB onMem)

theorem Leaky.of_alone {p : Prog α} {m : GoM St α} (h : Alone p m) (hm : NoPanic m) : Leaky p m := by
  intro st
  rw [h st]
  cases e : (m st).1 with
  | ok a => rfl
  | panic q => exact (hm st q e).elim

namespace V2
open Spec
open V3 (WF Val)

/-- The checks and the loop of v2 `write`. -/
def writeSeq (off : Int64) (data : Slice) : GoM St Unit := do
  let b ← getB
  panicIf (off + Int64.ofNat data.len > b.cap) (.err BufferOverwriteError)
  panicIf (off < 0) (.err BufferUnderwriteError)
  Mini.write off data

/-- The checks and the store of v2 `write` of one byte. -/
def writeByteSeq (off : Int64) (v : UInt8) : GoM St Unit := do
  let b ← getB
  panicIf (off + 1 > b.cap) (.err BufferOverwriteError)
  panicIf (off < 0) (.err BufferUnderwriteError)
  V3.bufStore off v

/-- The checks of v2 `setbit` with a value that is not a bit. -/
def badBit (off : Int64) : GoM St Unit := do
  let b ← getB
  panicIf (off > b.bcap - 1) (.err BufferOverwriteError)
  panicIf (off < 0) (.err BufferUnderwriteError)
  throwP (.err BufferInvalidBitError)

/-- v2 `setbit` without its lock. -/
def setBitSeq (off : Int64) (v : UInt8) : GoM St Unit :=
  if v = 0 then V3.Buffer.ClearBit off else if v = 1 then V3.Buffer.SetBit off else badBit off

/-- A call on a buffer nobody else uses, as a transformer of memory and fields. -/
def seq : Op2 → GoM St Val
  | .write k e p d => V3.exec (.write k.kind e p d)
  | .read k e p n => V3.exec (.read k.kind e p n)
  | .writeBytes (some o) src => V3.wrapVal (fun _ => .unit) (writeSeq o src)
  | .writeBytes none src => V3.wrapVal (fun _ => .unit) do
      let b ← getB
      writeSeq b.off src
      V3.Buffer.SeekByte (Int64.ofNat src.len) true
  | .writeByte (some o) v => V3.wrapVal (fun _ => .unit) (writeByteSeq o v)
  | .writeByte none v => V3.wrapVal (fun _ => .unit) do
      let b ← getB
      writeByteSeq b.off v
      V3.Buffer.SeekByte 1 true
  | .readBytes p n => V3.exec (.readBytes p n)
  | .readByte p => V3.exec (.readByte p)
  | .readBit p => V3.exec (.readBit p)
  | .readBits p n => V3.exec (.readBits p n)
  | .setBit (some o) v => V3.wrapVal (fun _ => .unit) (setBitSeq o v)
  | .setBit none v => V3.wrapVal (fun _ => .unit) do
      let b ← getB
      setBitSeq b.boff v
      V3.Buffer.SeekBit 1 true
  | .flipBit p => V3.exec (.flipBit p)
  | .setBits p d n => V3.exec (.setBits p d n)
  | .clearAll => V3.exec .clearAll
  | .setAll => V3.exec .setAll
  | .flipAll => V3.exec .flipAll
  | .seek o r => V3.exec (.seekByte o r)
  | .seekBit o r => V3.exec (.seekBit o r)
  | .after o => V3.exec (.afterByte o)
  | .afterBit o => V3.exec (.afterBit o)
  | .alignByte => V3.exec .alignByte
  | .alignBit => V3.exec .alignBit
  | .grow n => V3.wrapVal (fun _ => .unit) (Mini.grow n)
  | .refresh => V3.exec .refresh
  | .reset => V3.wrapVal (fun _ => .unit) Mini.reset
  | .bytes => V3.exec .bytes
  | .capacity => V3.exec .byteCapacity
  | .bitCapacity => V3.exec .bitCapacity
  | .offset => V3.exec .byteOffset
  | .bitOffset => V3.exec .bitOffset

/-- The calls that unlock without `defer`: a run-time panic inside leaves the lock taken. -/
def leaks : Op2 → Bool
  | .write .. => true
  | .writeBytes .. => true
  | .writeByte .. => true
  | .grow _ => true
  | _ => false

/-- Run alone, started with the lock free. -/
def Runs (p : Prog α) (m : GoM St α) (leaky : Bool) : Prop :=
  ∀ st, p.run ⟨st, false⟩ = ((m st).1, ⟨(m st).2, leaky && (m st).1.runtime⟩)

theorem Runs.alone {p : Prog α} {m : GoM St α} (h : Alone p m) : Runs p m false := h
theorem Runs.leaky {p : Prog α} {m : GoM St α} (h : Leaky p m) : Runs p m true := h

theorem readByte_alone (off : Int64) : Alone (Buffer.ReadByte off) (V3.Buffer.ReadByte off) :=
  (read_alone off 1).bind fun s => Alone.noLock (Prog.run_loadAt s 0)

theorem setBit_alone (off : Int64) (v : UInt8) : Alone (Buffer.setbit off v) (setBitSeq off v) := by
  unfold setBitSeq
  by_cases h0 : v = 0
  · subst h0; exact setbit_zero_alone off
  · rw [if_neg h0]
    by_cases h1 : v = 1
    · subst h1; exact setbit_one_alone off
    · rw [if_neg h1]; exact setbit_invalid off v h0 h1

theorem reset_alone : Alone Buffer.reset Mini.reset := fun _ => rfl

theorem grow_leaky (n : Int64) : Leaky (Buffer.grow n) (Mini.grow n) := fun st => grow_eq n ⟨st, false⟩ rfl

theorem exec_run (op : Op2) : Runs (exec op) (seq op) (leaks op) := by
  cases op with
  | write k e p d =>
    cases p with
    | none => exact (writeNext_typed k e d).map _
    | some o => exact (write_typed k e o d).map _
  | read k e p n =>
    cases p with
    | none => exact (readNext_typed k e n).map _
    | some o => exact (read_typed k e o n).map _
  | writeBytes p src =>
    cases p with
    | none =>
      refine Leaky.map (m := getB >>= fun b => writeSeq b.off src >>= fun _ => _) ?_ _
      exact Leaky.field fun b => (write_mem_leaky b.off src).bind (fun _ => seek_alone _ _) fun _ => noPanic_seek _ _
    | some o => exact (write_mem_leaky o src).map _
  | writeByte p v =>
    cases p with
    | none =>
      refine Leaky.map (m := getB >>= fun b => writeByteSeq b.off v >>= fun _ => _) ?_ _
      exact Leaky.field fun b => (write_lit_leaky b.off v).bind (fun _ => seek_alone _ _) fun _ => noPanic_seek _ _
    | some o => exact (write_lit_leaky o v).map _
  | readBytes p n =>
    cases p with
    | none => exact Alone.map (Alone.field fun b => (read_alone b.off n).bind fun _ => (seek_alone _ _).bind fun _ => Alone.ret _) _
    | some o => exact (read_alone o n).map _
  | readByte p =>
    cases p with
    | none =>
      refine Alone.map ?_ _
      exact Alone.field fun b => (read_alone b.off 1).bind fun s =>
        (Alone.noLock (Prog.run_loadAt s 0)).bind fun _ => (seek_alone _ _).bind fun _ => Alone.ret _
    | some o => exact (readByte_alone o).map _
  | readBit p =>
    cases p with
    | none => exact Alone.map (Alone.field fun b => (readbit_alone b.boff).bind fun _ => (seekbit_alone _ _).bind fun _ => Alone.ret _) _
    | some o => exact (readbit_alone o).map _
  | readBits p n =>
    cases p with
    | none => exact Alone.map (Alone.field fun b => (readbits_alone b.boff n).bind fun _ => (seekbit_alone _ _).bind fun _ => Alone.ret _) _
    | some o => exact (readbits_alone o n).map _
  | setBit p v =>
    cases p with
    | none =>
      refine Alone.map (m := getB >>= fun b => setBitSeq b.boff v >>= fun _ => _) ?_ _
      exact Alone.field fun b => (setBit_alone b.boff v).bind fun _ => seekbit_alone _ _
    | some o => exact (setBit_alone o v).map _
  | flipBit p =>
    cases p with
    | none => exact Alone.map (Alone.field fun b => (flipbit_alone b.boff).bind fun _ => seekbit_alone _ _) _
    | some o => exact (flipbit_alone o).map _
  | setBits p d n =>
    cases p with
    | none => exact Alone.map (Alone.field fun b => (setbits_alone b.boff d n).bind fun _ => seekbit_alone _ _) _
    | some o => exact (setbits_alone o d n).map _
  | clearAll => exact clearall_alone.map _
  | setAll => exact setall_alone.map _
  | flipAll => exact flipall_alone.map _
  | seek o r => exact (seek_alone o r).map _
  | seekBit o r => exact (seekbit_alone o r).map _
  | after o => exact (after_alone o).map _
  | afterBit o => exact (afterbit_alone o).map _
  | alignByte => exact alignbyte_alone.map _
  | alignBit => exact alignbit_alone.map _
  | grow n => exact (grow_leaky n).map _
  | refresh => exact refresh_alone.map _
  | reset => exact reset_alone.map _
  | bytes => exact fun _ => rfl
  | capacity => exact fun _ => rfl
  | bitCapacity => exact fun _ => rfl
  | offset => exact fun _ => rfl
  | bitOffset => exact fun _ => rfl

/-! ## grow -/

theorem append_frame {m m' : Heap} {t t' : Slice} {data : List UInt8} (w : SliceOK m t) (h : appendBytes t data m = (.ok t', m')) :
    m.arrays.length ≤ m'.arrays.length ∧ ∀ u, SliceOK m u → (u.arr ≠ t.arr ∨ u.off + u.len ≤ t.off + t.len ∨ t.off + t.cap ≤ u.off) →
      m'.view u = m.view u := by
  have h2 := w.fits; have h1 := w.len_le
  unfold appendBytes at h
  simp only [] at h
  split at h
  · rename_i hc
    cases h
    refine ⟨by simp, fun u hu d => view_blit_disj (by omega) ?_⟩
    rcases d with d | d | d
    · exact .inl (Ne.symm d)
    · exact .inr (.inr d)
    · exact .inr (.inl (by omega))
  · split at h
    · exact nomatch h
    · cases h
      exact ⟨by simp [Heap.alloc], fun u hu _ => view_alloc hu _⟩

theorem extends_nil (m : Heap) : V3.Extends ⟨[], m.slack⟩ m := ⟨Nat.zero_le _, fun _ h => absurd h (Nat.not_lt_zero _)⟩

theorem mini_grow_ok {s : St} (h : s.OK) (n : Int64) (hn : 0 ≤ n.toInt) (hf : s.b.buf.len + n.toInt ≤ maxAlloc) :
    ∃ s', Mini.grow n s = (.ok (), s') ∧ WF s' ∧ s'.bytes = s.bytes ++ List.replicate n.toInt.toNat 0 ∧
      s'.b.off = s.b.off ∧ s'.b.boff = s.b.boff ∧ (∀ u, SliceOK s.mem u → SliceOK s'.mem u) ∧
      ∀ u, SliceOK s.mem u → (u.arr ≠ s.b.buf.arr ∨ u.off + u.len ≤ s.b.buf.off + s.b.buf.len ∨
        s.b.buf.off + s.b.buf.cap ≤ u.off) → s'.mem.view u = s.mem.view u := by
  obtain ⟨t', m', e, a⟩ := V3.append_ok (extends_nil s.mem) h (Nat.zero_le _) (List.replicate n.toInt.toNat 0)
    (by rw [List.length_replicate]; omega)
  refine ⟨s.refit m' t', ?_, V3.WF.refit a.ok, a.view, rfl, rfl, a.slices, (append_frame h e).2⟩
  unfold Mini.grow
  simp only [V3.getB_bind, panicIf_bind]
  rw [if_neg (by omega), bind_ok (s' := { s with mem := m' }) (a := t')]
  · show V3.Buffer.Refresh ⟨m', { s.b with buf := t' }⟩ = _
    rw [V3.buffer_refresh_run]; rfl
  · simp only [onMem, e]

theorem mini_grow_panic {s : St} (h : s.OK) (n : Int64) (hn : n.toInt < 0 ∨ maxAlloc < s.b.buf.len + n.toInt) :
    Mini.grow n s = (.panic .makeSlice, s) := by
  unfold Mini.grow
  simp only [V3.getB_bind, panicIf_bind]
  by_cases h1 : n.toInt < 0 ∨ n.toInt > maxAlloc
  · rw [if_pos h1]
  · rw [if_neg h1]
    apply bind_panic
    simp only [onMem]
    rw [V3.append_panic h _ (by rw [List.length_replicate]; omega)]

end V2
end Crunch
