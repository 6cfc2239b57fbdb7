import Verif.Lemmas.Progress
import Verif.Lemmas.V1Free

/-! The methods that release the mutex with `defer` never end inside their sections. -/

namespace Crunch

theorem Tidy.makeTyped (w : Nat) (z : α) (n : Int64) : Tidy false false (Prog.makeTyped w z n) := by
  unfold Prog.makeTyped; split <;> rfl
theorem Tidy.loadAt (s : Slice) (i : Int64) : Tidy false false (Prog.loadAt s i) := by
  unfold Prog.loadAt; split
  · exact fun _ => rfl
  · rfl
theorem Looks.tidy {p : Prog α} (hp : Looks p) : Tidy false false p := by
  induction p with
  | ret a => rfl
  | panic q => rfl
  | getI x k ih => exact fun v => ih v (hp v)
  | getBuf k ih => exact fun v => ih v (hp v)
  | load t i k ih => exact fun v => ih v (hp v)
  | _ => exact hp.elim

namespace V2
open Spec
open V3 (Val)

theorem Tidy.map {p : Prog α} (h : Tidy false false p) (f : α → Val) : Tidy false false (wrapVal f p) := h.bind fun _ => rfl

theorem tidy_read_shape (c : Int64 → Prop) [DecidablePred c] (d : Prop) [Decidable d] {z : α} (w : Nat)
    {body : Int64 → List α → Prog (List α)} (n : Int64) (hb : ∀ i a, Still (body i a)) :
    Tidy false false ((Prog.field .cap).bind fun cap => (Prog.panicIf (c cap) (.err BufferOverreadError)).bind fun _ =>
        (Prog.panicIf d (.err BufferUnderreadError)).bind fun _ => (Prog.makeTyped w z n).bind fun out =>
          Prog.locked (Prog.doLoop body n 0 out)) :=
  (Tidy.field _).bind fun _ => (Tidy.panicIf _ _).bind fun _ => (Tidy.panicIf _ _).bind fun _ =>
    (Tidy.makeTyped _ _ _).bind fun _ => Tidy.locked (still_doLoop hb _ _ _).plain.noLock

theorem tidy_guard_shape (f : Field) (c : Int64 → Prop) [DecidablePred c] (d : Prop) [Decidable d] (e e' : Panic)
    {body : Prog α} (hb : Still body) :
    Tidy false false ((Prog.field f).bind fun x => (Prog.panicIf (c x) e).bind fun _ =>
        (Prog.panicIf d e').bind fun _ => Prog.locked body) :=
  (Tidy.field _).bind fun _ => (Tidy.panicIf _ _).bind fun _ => (Tidy.panicIf _ _).bind fun _ => Tidy.locked hb.plain.noLock

theorem read_tidy (k : UKind) (e : Endian) (off n : Int64) : Tidy false false (Buffer.Read k e off n) := by
  cases k <;> cases e
  · exact tidy_read_shape (fun cap => off + n * 2 > cap) _ _ _ (by r_plain)
  · exact tidy_read_shape (fun cap => off + n * 2 > cap) _ _ _ (by r_plain)
  · exact tidy_read_shape (fun cap => off + n * 4 > cap) _ _ _ (by r_plain)
  · exact tidy_read_shape (fun cap => off + n * 4 > cap) _ _ _ (by r_plain)
  · exact tidy_read_shape (fun cap => off + n * 8 > cap) _ _ _ (by r_plain)
  · exact tidy_read_shape (fun cap => off + n * 8 > cap) _ _ _ (by r_plain)

theorem readRaw_tidy (off n : Int64) : Tidy false false (Buffer.read off n) :=
  tidy_guard_shape .cap (fun cap => off + n > cap) _ _ _ fun _ => still_reslice _ _ _

theorem readbit_tidy (off : Int64) : Tidy false false (Buffer.readbit off) :=
  tidy_guard_shape .bcap (fun bcap => off > bcap - 1) _ _ _ ((still_bufLoad _).bind' fun _ => trivial)

theorem setbit_tidy (off : Int64) (v : UInt8) : Tidy false false (Buffer.setbit off v) := by
  refine tidy_guard_shape .bcap (fun bcap => off > bcap - 1) _ _ _ ?_
  split
  · exact (still_bufLoad _).bind' fun _ => still_bufStore _ _
  · split
    · exact (still_bufLoad _).bind' fun _ => still_bufStore _ _
    · trivial

theorem flipbit_tidy (off : Int64) : Tidy false false (Buffer.flipbit off) :=
  tidy_guard_shape .bcap (fun bcap => off > bcap - 1) _ _ _ ((still_bufLoad _).bind' fun _ => still_bufStore _ _)

theorem clear_tidy : Tidy false false Buffer.clearallbits :=
  Tidy.locked (p := Prog.buf.bind _) fun _ => (still_doLoop (fun _ _ => still_bufStore _ _) _ _ _).plain.noLock
theorem setall_tidy : Tidy false false Buffer.setallbits :=
  Tidy.locked (p := Prog.buf.bind _) fun _ => (still_doLoop (fun _ _ => still_bufStore _ _) _ _ _).plain.noLock
theorem flipall_tidy : Tidy false false Buffer.flipallbits :=
  Tidy.locked (p := Prog.buf.bind _) fun _ =>
    (still_doLoop (fun _ _ => (still_bufLoad _).bind' fun _ => still_bufStore _ _) _ _ _).plain.noLock

theorem seek_tidy (off : Int64) (r : Bool) : Tidy false false (Buffer.seek off r) := by
  cases r <;> exact Tidy.locked (by first | exact trivial | exact fun _ => trivial)
theorem seekbit_tidy (off : Int64) (r : Bool) : Tidy false false (Buffer.seekbit off r) := by
  cases r <;> exact Tidy.locked (by first | exact trivial | exact fun _ => trivial)
theorem alignbit_tidy : Tidy false false Buffer.alignbit := Tidy.locked fun _ => trivial
theorem alignbyte_tidy : Tidy false false Buffer.alignbyte := Tidy.locked fun _ => trivial
theorem refresh_tidy : Tidy false false Buffer.refresh := Tidy.locked fun _ _ => trivial
theorem reset_tidy : Tidy false false Buffer.reset := Tidy.locked fun _ => trivial

theorem readNext_tidy (k : UKind) (e : Endian) (n : Int64) : Tidy false false (Buffer.ReadNext k e n) := by
  cases k <;> cases e
  · exact (Tidy.field _).bind fun o => (read_tidy .u16 .le o n).bind fun _ => (seek_tidy _ _).bind fun _ => Tidy.ret _
  · exact (Tidy.field _).bind fun o => (read_tidy .u16 .be o n).bind fun _ => (seek_tidy _ _).bind fun _ => Tidy.ret _
  · exact (Tidy.field _).bind fun o => (read_tidy .u32 .le o n).bind fun _ => (seek_tidy _ _).bind fun _ => Tidy.ret _
  · exact (Tidy.field _).bind fun o => (read_tidy .u32 .be o n).bind fun _ => (seek_tidy _ _).bind fun _ => Tidy.ret _
  · exact (Tidy.field _).bind fun o => (read_tidy .u64 .le o n).bind fun _ => (seek_tidy _ _).bind fun _ => Tidy.ret _
  · exact (Tidy.field _).bind fun o => (read_tidy .u64 .be o n).bind fun _ => (seek_tidy _ _).bind fun _ => Tidy.ret _

theorem readbits_tidy (off n : Int64) : Tidy false false (Buffer.readbits off n) :=
  Tidy.doLoop (fun _ _ => (readbit_tidy _).bind fun _ => Tidy.ret _) _ _ _
theorem setbits_tidy (off : Int64) (d : UInt64) (n : Int64) : Tidy false false (Buffer.setbits off d n) :=
  Tidy.doLoop (fun _ _ => setbit_tidy _ _) _ _ _

theorem exec_tidy (op : Op2) (h : leaks op = false) : Tidy false false (exec op) := by
  cases op with
  | read k e p n =>
    cases p with
    | none => exact Tidy.map (readNext_tidy k e n) _
    | some o => exact Tidy.map (read_tidy k e o n) _
  | readBytes p n =>
    cases p with
    | none => exact Tidy.map ((Tidy.field _).bind fun _ => (readRaw_tidy _ _).bind fun _ => (seek_tidy _ _).bind fun _ => Tidy.ret _) _
    | some o => exact Tidy.map (readRaw_tidy o _) _
  | readByte p =>
    cases p with
    | none =>
      exact Tidy.map ((Tidy.field _).bind fun _ => (readRaw_tidy _ _).bind fun _ => (Tidy.loadAt _ _).bind fun _ =>
        (seek_tidy _ _).bind fun _ => Tidy.ret _) _
    | some o => exact Tidy.map ((readRaw_tidy o _).bind fun _ => Tidy.loadAt _ _) _
  | readBit p =>
    cases p with
    | none => exact Tidy.map ((Tidy.field _).bind fun _ => (readbit_tidy _).bind fun _ => (seekbit_tidy _ _).bind fun _ => Tidy.ret _) _
    | some o => exact Tidy.map (readbit_tidy o) _
  | readBits p n =>
    cases p with
    | none => exact Tidy.map ((Tidy.field _).bind fun _ => (readbits_tidy _ _).bind fun _ => (seekbit_tidy _ _).bind fun _ => Tidy.ret _) _
    | some o => exact Tidy.map (readbits_tidy o n) _
  | setBit p v =>
    cases p with
    | none => exact Tidy.map ((Tidy.field _).bind fun _ => (setbit_tidy _ _).bind fun _ => seekbit_tidy _ _) _
    | some o => exact Tidy.map (setbit_tidy o v) _
  | flipBit p =>
    cases p with
    | none => exact Tidy.map ((Tidy.field _).bind fun _ => (flipbit_tidy _).bind fun _ => seekbit_tidy _ _) _
    | some o => exact Tidy.map (flipbit_tidy o) _
  | setBits p d n =>
    cases p with
    | none => exact Tidy.map ((Tidy.field _).bind fun _ => (setbits_tidy _ _ _).bind fun _ => seekbit_tidy _ _) _
    | some o => exact Tidy.map (setbits_tidy o d n) _
  | clearAll => exact Tidy.map clear_tidy _
  | setAll => exact Tidy.map setall_tidy _
  | flipAll => exact Tidy.map flipall_tidy _
  | seek o r => exact Tidy.map (seek_tidy o r) _
  | seekBit o r => exact Tidy.map (seekbit_tidy o r) _
  | after o => cases o <;> exact Tidy.map (by first | exact fun _ => rfl | exact fun _ _ => rfl) _
  | afterBit o => cases o <;> exact Tidy.map (by first | exact fun _ => rfl | exact fun _ _ => rfl) _
  | alignByte => exact Tidy.map alignbyte_tidy _
  | alignBit => exact Tidy.map alignbit_tidy _
  | refresh => exact Tidy.map refresh_tidy _
  | reset => exact Tidy.map reset_tidy _
  | bytes => exact fun _ => rfl
  | capacity => exact fun _ => rfl
  | bitCapacity => exact fun _ => rfl
  | offset => exact fun _ => rfl
  | bitOffset => exact fun _ => rfl
  | _ => exact nomatch h

end V2

namespace V1
open V3 (Val)

theorem readComplex_tidy (off n size : Int64) (o : ByteOrder) : Tidy false false (Buffer.readComplex off n size o) := by
  obtain ⟨conv, hc, e⟩ := readComplex_split off n size o
  rw [e]
  exact (V2.readRaw_tidy off n).bind fun s => (hc s).tidy

theorem tidy_wrap {p : Prog α} (h : Tidy false false p) (f : α → Val) : Tidy false false (wrap1 f p) := h.bind fun _ => rfl

theorem clear_tidy : Tidy false false Buffer.clearallbits :=
  Tidy.locked (p := Prog.buf.bind _) fun _ => (still_forLoop (fun _ _ => still_bufStore _ _) _ _ _).plain.noLock
theorem setall_tidy : Tidy false false Buffer.setallbits :=
  Tidy.locked (p := Prog.buf.bind _) fun _ => (still_forLoop (fun _ _ => still_bufStore _ _) _ _ _).plain.noLock
theorem flipall_tidy : Tidy false false Buffer.flipallbits :=
  Tidy.locked (p := Prog.buf.bind _) fun _ =>
    (still_forLoop (fun _ _ => (still_bufLoad _).bind' fun _ => still_bufStore _ _) _ _ _).plain.noLock
theorem readbits_tidy (off n : Int64) : Tidy false false (Buffer.readbits off n) :=
  Tidy.forLoop (fun _ _ => (V2.readbit_tidy _).bind fun _ => Tidy.ret _) _ _ _
theorem setbits_tidy (off : Int64) (d : UInt64) (n : Int64) : Tidy false false (Buffer.setbits off d n) :=
  Tidy.forLoop (fun _ _ => V2.setbit_tidy _ _) _ _ _

theorem leaks_v2 (op : Op1) (op2 : V2.Op2) (h : toV2 op = some op2) (hl : leaks1 op = false) : V2.leaks op2 = false := by
  cases op <;> cases h <;> first | rfl | cases hl

theorem exec1_tidy (op : Op1) (hl : leaks1 op = false) : Tidy false false (exec1 op) := by
  cases hs : Shared op with
  | true =>
    cases h : toV2 op with
    | some op2 =>
      rw [exec1_v2 op op2 h hs]
      exact (V2.exec_tidy op2 (leaks_v2 op op2 h hl)).bind fun _ => rfl
    | none => cases op <;> simp [toV2, Shared] at h hs
  | false =>
    cases op with
    | writeComplex p d w e => exact nomatch hl
    | readComplex p n w e =>
      cases p with
      | some o => exact (readComplex_tidy o n w e).bind fun _ => rfl
      | none =>
        exact Tidy.bind ((Tidy.field _).bind fun o => (readComplex_tidy o n w e).bind fun _ => (V2.seek_tidy _ _).bind fun _ =>
          Tidy.ret _) fun _ => rfl
    | readBits p n =>
      cases p with
      | some o => exact tidy_wrap (readbits_tidy o n) _
      | none => exact tidy_wrap ((Tidy.field _).bind fun _ => (readbits_tidy _ _).bind fun _ => (V2.seekbit_tidy _ _).bind fun _ => Tidy.ret _) _
    | setBits p d n =>
      cases p with
      | some o => exact tidy_wrap (setbits_tidy o d n) _
      | none => exact tidy_wrap ((Tidy.field _).bind fun _ => (setbits_tidy _ _ _).bind fun _ => V2.seekbit_tidy _ _) _
    | clearAll => exact tidy_wrap clear_tidy _
    | setAll => exact tidy_wrap setall_tidy _
    | flipAll => exact tidy_wrap flipall_tidy _
    | _ => exact nomatch hs

end V1
end Crunch
