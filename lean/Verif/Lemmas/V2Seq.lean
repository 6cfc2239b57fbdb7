import Verif.Lemmas.ProgRun
import Verif.Lemmas.Bits
import Verif.V2.Api

/-! A v2 `Buffer` method executed alone does what the v3 method does. -/

namespace Crunch
open V3 (St getB modB onMem)

/-- A panic the runtime raises, as opposed to one of the library's errors. -/
def Panic.runtime : Panic → Bool
  | .err _ => false
  | _ => true

/-- The outcome is a panic raised by the runtime. -/
def Res.runtime : Res α → Bool
  | .ok _ => false
  | .panic p => p.runtime

/-- `m` never panics with one of the library's errors. -/
def NoErr (m : GoM σ α) : Prop := ∀ s e, (m s).1 ≠ .panic (.err e)

/-- `m` never panics. -/
def NoPanic (m : GoM σ α) : Prop := ∀ s p, (m s).1 ≠ .panic p

theorem NoErr.bind {m : GoM σ α} {f : α → GoM σ β} (hm : NoErr m) (hf : ∀ a, NoErr (f a)) : NoErr (m >>= f) := by
  intro s e
  rw [bind_run]
  have h1 := hm s e
  cases h : m s with
  | mk r t =>
    rw [h] at h1
    cases r with
    | ok a => exact hf a t e
    | panic p => simpa using h1

theorem noErr_pure (a : α) : NoErr (pure a : GoM σ α) := fun _ _ h => nomatch h

theorem noErr_doLoop {body : Int64 → α → GoM σ α} (h : ∀ i a, NoErr (body i a)) (n i : Int64) (a : α) :
    NoErr (doLoop body n i a) := by
  fun_induction doLoop body n i a with
  | case1 i a ih =>
    refine (h i a).bind fun a' => ?_
    split
    · rename_i hh
      exact ih a' hh
    · exact noErr_pure _

theorem noErr_idx (l : List α) (i : Int64) : NoErr (idx l i : GoM σ α) := by
  intro s e
  unfold idx
  split
  · cases l[i.toInt.toNat]? <;> intro h <;> nomatch h
  · intro h; nomatch h

theorem noErr_bufStore (i : Int64) (v : UInt8) : NoErr (V3.bufStore i v) := by
  intro s e
  simp only [V3.bufStore, V3.getB_bind, onMem, storeAt]
  split <;> intro h <;> nomatch h

theorem noErr_loadAt (t : Slice) (i : Int64) : NoErr (onMem (loadAt t i)) := by
  intro s e
  simp only [onMem, loadAt]
  split <;> intro h <;> nomatch h

/-! ## executed alone -/

/-- `p`, started alone with the lock free, does what `m` does and leaves the lock free. -/
def Alone (p : Prog α) (m : GoM St α) : Prop := ∀ st, p.run ⟨st, false⟩ = ((m st).1, ⟨(m st).2, false⟩)

/-- `p`, started alone with the lock free, does what `m` does, and leaves the lock taken exactly when the runtime
panicked. -/
def Leaky (p : Prog α) (m : GoM St α) : Prop :=
  ∀ st, p.run ⟨st, false⟩ = ((m st).1, ⟨(m st).2, (m st).1.runtime⟩)

namespace Alone

theorem ret (a : α) : Alone (.ret a) (pure a) := fun _ => rfl

theorem bind {p : Prog α} {m : GoM St α} {f : α → Prog β} {g : α → GoM St β} (h : Alone p m)
    (hf : ∀ a, Alone (f a) (g a)) : Alone (p.bind f) (m >>= g) := by
  intro st
  rw [Prog.run_bind, bind_run, bind_run, h st]
  cases e : m st with
  | mk r t =>
    cases r with
    | ok a => exact hf a t
    | panic q => rfl

theorem doLoop {body : Int64 → α → Prog α} {m : Int64 → α → GoM St α} (h : ∀ i a, Alone (body i a) (m i a))
    (n i : Int64) (a : α) : Alone (Prog.doLoop body n i a) (Crunch.doLoop m n i a) := by
  fun_induction Prog.doLoop body n i a with
  | case1 i a ih =>
    rw [Crunch.doLoop.eq_def]
    refine (h i a).bind fun a' => ?_
    split
    · rename_i hh
      exact ih a' hh
    · exact ret _

theorem field {f : Field} {k : Int64 → Prog β} {k' : V3.Buf → GoM St β} (h : ∀ b, Alone (k (f.get b)) (k' b)) :
    Alone ((Prog.field f).bind k) (getB >>= k') := fun st => h st.b st

theorem panicIf (c : Prop) [Decidable c] (p : Panic) : Alone (Prog.panicIf c p) (Crunch.panicIf c p) := by
  intro st
  rw [Prog.run_panicIf]
  unfold Crunch.panicIf; split <;> rfl

theorem noLock {p : Prog α} {m : GoM St α} (hr : p.run = lift m) : Alone p m := by
  intro st; rw [hr]; rfl

theorem locked {p : Prog α} {m : GoM St α} (hp : p.NoLock) (hr : p.run = lift m) : Alone (Prog.locked p) m := by
  intro st
  show p.deferUnlock.run ⟨st, true⟩ = _
  rw [hp.run_deferUnlock, hr]
  rfl

theorem map {p : Prog α} {m : GoM St α} (h : Alone p m) (f : α → V3.Val) : Alone (V2.wrapVal f p) (V3.wrapVal f m) :=
  h.bind fun a => ret (f a)

end Alone

namespace Leaky

theorem crit {p : Prog Unit} {m : GoM St Unit} (hr : p.run = lift m) (hm : NoErr m) :
    Leaky (Prog.Lock.bind fun _ => p.bind fun _ => Prog.Unlock) m := by
  intro st
  show (p.bind fun _ => Prog.Unlock).run ⟨st, true⟩ = _
  rw [Prog.run_bind, bind_run, hr]
  simp only [lift]
  have h := hm st
  cases e : m st with
  | mk r t =>
    rw [e] at h
    cases r with
    | ok a => rfl
    | panic q =>
      cases q with
      | err x => exact (h x rfl).elim
      | _ => rfl

theorem field {f : Field} {k : Int64 → Prog β} {k' : V3.Buf → GoM St β} (h : ∀ b, Leaky (k (f.get b)) (k' b)) :
    Leaky ((Prog.field f).bind k) (getB >>= k') := fun st => h st.b st

theorem panicIf (c : Prop) [Decidable c] (e : GoError) {k : Unit → Prog β} {k' : Unit → GoM St β} (h : ∀ b, Leaky (k b) (k' b)) :
    Leaky ((Prog.panicIf c (.err e)).bind k) (Crunch.panicIf c (.err e) >>= k') := by
  intro st
  rw [Prog.run_bind, Prog.run_panicIf]
  simp only [panicIf_bind]
  split
  · rfl
  · exact h () st

/-- Something that cannot panic follows. -/
theorem bind {p : Prog α} {m : GoM St α} {f : α → Prog β} {g : α → GoM St β} (h : Leaky p m)
    (hf : ∀ a, Alone (f a) (g a)) (hg : ∀ a, NoPanic (g a)) : Leaky (p.bind f) (m >>= g) := by
  intro st
  rw [Prog.run_bind, bind_run, bind_run, h st]
  cases e : m st with
  | mk r t =>
    cases r with
    | ok a =>
      have h1 := hf a t
      have h2 := hg a t
      show (f a).run ⟨t, false⟩ = ((g a t).1, ⟨(g a t).2, (g a t).1.runtime⟩)
      rw [h1]
      cases e2 : (g a t).1 with
      | ok b => rfl
      | panic q => exact (h2 q e2).elim
    | panic q => rfl

theorem map {p : Prog α} {m : GoM St α} (h : Leaky p m) (f : α → V3.Val) : Leaky (V2.wrapVal f p) (V3.wrapVal f m) :=
  h.bind (fun a => .ret (f a)) fun _ _ _ hh => nomatch hh

end Leaky

namespace V2
open Spec

/-! ## seeks and aligns -/

theorem noPanic_modB (f : V3.Buf → V3.Buf) : NoPanic (modB f) := fun _ _ h => nomatch h

theorem seek_alone (off : Int64) (r : Bool) : Alone (Buffer.seek off r) (V3.Buffer.SeekByte off r) := by
  cases r <;> exact fun _ => rfl

theorem seekbit_alone (off : Int64) (r : Bool) : Alone (Buffer.seekbit off r) (V3.Buffer.SeekBit off r) := by
  cases r <;> exact fun _ => rfl

theorem noPanic_seek (off : Int64) (r : Bool) : NoPanic (V3.Buffer.SeekByte off r) := by
  cases r <;> exact noPanic_modB _

theorem alignbit_alone : Alone Buffer.alignbit V3.Buffer.AlignBit := fun _ => rfl
theorem alignbyte_alone : Alone Buffer.alignbyte V3.Buffer.AlignByte := fun _ => rfl
theorem refresh_alone : Alone Buffer.refresh V3.Buffer.Refresh := fun _ => rfl

theorem after_alone (off : List Int64) : Alone (Buffer.after off) (V3.Buffer.AfterByte off) := by
  cases off <;> exact fun _ => rfl
theorem afterbit_alone (off : List Int64) : Alone (Buffer.afterbit off) (V3.Buffer.AfterBit off) := by
  cases off <;> exact fun _ => rfl

/-! ## bits -/

theorem atob_eq (x : UInt8) (c : UInt64) : atob ((x &&& shl8 1 c) != 0) = shr8 x c &&& 1 := by
  rw [V3.shr8_one]
  have hb : ∀ i, (x &&& shl8 1 c).toNat.testBit i = (x.toNat.testBit i && (decide (c.toNat < 8) && decide (i = c.toNat))) := by
    intro i
    rw [UInt8.toNat_and, Nat.testBit_and, V3.testBit_shl8_one]
  by_cases h : (decide (c.toNat < 8) && x.toNat.testBit c.toNat) = true
  · rw [h]
    have : (x &&& shl8 1 c) ≠ 0 := by
      intro h0
      have h1 := hb c.toNat
      rw [h0] at h1
      simp at h h1
      have := h1 h.2
      omega
    simp [atob, V3.bitByte, this]
  · have : (x &&& shl8 1 c) = 0 := by
      apply V3.u8_ext
      intro i hi
      rw [hb i]
      simp at h ⊢
      intro h1 h2 h3
      subst h3
      rw [h h2] at h1
      exact nomatch h1
    simp [this, atob, V3.bitByte, h]

theorem count_eq (off : Int64) : (7 - off % 8).toUInt64 = 7 - (off % 8).toUInt64 := by
  generalize off % 8 = x
  apply UInt64.toBitVec_inj.mp
  rfl

theorem readbit_alone (off : Int64) : Alone (Buffer.readbit off) (V3.Buffer.ReadBit off) := by
  refine Alone.field fun b => (Alone.panicIf _ _).bind fun _ => (Alone.panicIf _ _).bind fun _ => Alone.locked ?_ ?_
  · exact (Prog.noLock_bufLoad _).bind fun _ => trivial
  · rw [Prog.run_bind', lift_bind, Prog.run_bufLoad]
    congr 1
    funext x
    rw [atob_eq, count_eq]
    rfl

theorem readbits_alone (off n : Int64) : Alone (Buffer.readbits off n) (V3.Buffer.ReadBits off n) :=
  Alone.doLoop (fun i _ => (readbit_alone (off + i)).bind fun _ => Alone.ret _) n 0 0

/-- One bit written, as v3 does it. -/
theorem rmw_noLock (off : Int64) (f : UInt8 → UInt8) :
    ((Prog.bufLoad (off / 8)).bind fun x => Prog.bufStore (off / 8) (f x)).NoLock :=
  (Prog.noLock_bufLoad _).bind fun _ => Prog.noLock_bufStore _ _

theorem rmw_run (off : Int64) (f : UInt8 → UInt8) :
    ((Prog.bufLoad (off / 8)).bind fun x => Prog.bufStore (off / 8) (f x)).run =
      lift (V3.bufLoad (off / 8) >>= fun x => V3.bufStore (off / 8) (f x)) := by
  rw [Prog.run_bind, lift_bind, Prog.run_bufLoad]
  congr 1
  funext x
  rw [Prog.run_bufStore]

theorem setbit_zero_alone (off : Int64) : Alone (Buffer.setbit off 0) (V3.Buffer.ClearBit off) :=
  Alone.field fun _ => (Alone.panicIf _ _).bind fun _ => (Alone.panicIf _ _).bind fun _ =>
    Alone.locked (rmw_noLock off fun x => x &&& ~~~(shl8 1 (7 - off % 8).toUInt64)) (rmw_run off _)

theorem setbit_one_alone (off : Int64) : Alone (Buffer.setbit off 1) (V3.Buffer.SetBit off) :=
  Alone.field fun _ => (Alone.panicIf _ _).bind fun _ => (Alone.panicIf _ _).bind fun _ =>
    Alone.locked (rmw_noLock off fun x => x ||| shl8 1 (7 - off % 8).toUInt64) (rmw_run off _)

theorem flipbit_alone (off : Int64) : Alone (Buffer.flipbit off) (V3.Buffer.FlipBit off) :=
  Alone.field fun _ => (Alone.panicIf _ _).bind fun _ => (Alone.panicIf _ _).bind fun _ =>
    Alone.locked (rmw_noLock off fun x => x ^^^ shl8 1 (7 - off % 8).toUInt64) (rmw_run off _)

theorem and_one_cases (x : UInt64) : (x &&& 1).toUInt8 = 0 ∨ (x &&& 1).toUInt8 = 1 := by
  have h : (x &&& 1).toNat = x.toNat % 2 := by rw [UInt64.toNat_and]; exact Nat.and_one_is_mod _
  rcases Nat.mod_two_eq_zero_or_one x.toNat with h1 | h1
  · left
    rw [h1] at h
    have : x &&& 1 = 0 := UInt64.toNat_inj.mp h
    rw [this]; rfl
  · right
    rw [h1] at h
    have : x &&& 1 = 1 := UInt64.toNat_inj.mp h
    rw [this]; rfl

theorem setbits_alone (off : Int64) (data : UInt64) (n : Int64) : Alone (Buffer.setbits off data n) (V3.Buffer.SetBits off data n) := by
  refine Alone.doLoop (fun i _ => ?_) n 0 ()
  rcases and_one_cases (shr64 data (n - i - 1).toUInt64) with h | h <;> rw [h]
  · rw [if_pos rfl]; exact setbit_zero_alone _
  · rw [if_neg (by decide)]; exact setbit_one_alone _

theorem setbit_invalid (off : Int64) (v : UInt8) (h0 : v ≠ 0) (h1 : v ≠ 1) :
    Alone (Buffer.setbit off v) (do
      let b ← getB
      Crunch.panicIf (off > b.bcap - 1) (.err BufferOverwriteError)
      Crunch.panicIf (off < 0) (.err BufferUnderwriteError)
      throwP (.err BufferInvalidBitError)) := by
  refine Alone.field fun _ => (Alone.panicIf _ _).bind fun _ => (Alone.panicIf _ _).bind fun _ => ?_
  rw [if_neg h0, if_neg h1]
  exact fun _ => rfl

theorem run_buf_bind (k : Slice → Prog β) (s : Sh) : (Prog.buf.bind k).run s = (k s.st.b.buf).run s := rfl
theorem lift_getB_bind (k : V3.Buf → GoM St β) (s : Sh) : lift (getB >>= k) s = lift (k s.st.b) s := rfl

theorem all_alone (body : Int64 → Unit → Prog Unit) (m : Int64 → Unit → GoM St Unit) (hb : ∀ i a, (body i a).NoLock)
    (hr : ∀ i a, (body i a).run = lift (m i a)) :
    Alone (Prog.locked (Prog.buf.bind fun s => Prog.doLoop body (Int64.ofNat s.len) 0 ()))
      (getB >>= fun b => doLoop m (Int64.ofNat b.buf.len) 0 ()) := by
  refine Alone.locked (fun s => Prog.noLock_doLoop hb _ _ _) ?_
  refine gom_ext fun s => ?_
  rw [run_buf_bind, lift_getB_bind, Prog.run_doLoop, lift_doLoop]
  simp only [hr]

theorem clearall_alone : Alone Buffer.clearallbits V3.Buffer.ClearAllBits :=
  all_alone _ _ (fun _ _ => Prog.noLock_bufStore _ _) fun _ _ => Prog.run_bufStore _ _
theorem setall_alone : Alone Buffer.setallbits V3.Buffer.SetAllBits :=
  all_alone _ _ (fun _ _ => Prog.noLock_bufStore _ _) fun _ _ => Prog.run_bufStore _ _
theorem flipall_alone : Alone Buffer.flipallbits V3.Buffer.FlipAllBits :=
  all_alone _ _ (fun _ _ => (Prog.noLock_bufLoad _).bind fun _ => Prog.noLock_bufStore _ _) fun i _ => by
    rw [Prog.run_bind', lift_bind, Prog.run_bufLoad]
    congr 1
    funext x
    rw [Prog.run_bufStore]

/-! ## raw bytes read -/

theorem readBytes_eq (off n : Int64) : V3.Buffer.ReadBytes off n = (getB >>= fun b =>
    Crunch.panicIf (off + n > b.cap) (.err BufferOverreadError) >>= fun _ =>
      Crunch.panicIf (off < 0) (.err BufferUnderreadError) >>= fun _ => getB >>= fun b => onMem (reslice b.buf off (off + n))) := by
  funext s
  simp only [V3.Buffer.ReadBytes, V3.getB_bind, panicIf_bind]
  rfl

theorem read_alone (off n : Int64) : Alone (Buffer.read off n) (V3.Buffer.ReadBytes off n) := by
  rw [readBytes_eq]
  refine Alone.field fun _ => (Alone.panicIf _ _).bind fun _ => (Alone.panicIf _ _).bind fun _ => Alone.locked ?_ ?_
  · exact fun s => Prog.noLock_reslice _ _ _
  · refine gom_ext fun s => ?_
    rw [lift_getB_bind]
    show (Prog.reslice s.st.b.buf off (off + n)).run s = _
    rw [Prog.run_reslice]

/-! ## typed accessors -/

/-- A write: checks, then a locked section that is not released by `defer`. -/
theorem write_leaky (c : Int64 → Prop) [DecidablePred c] (d : Prop) [Decidable d] {body : Int64 → Unit → Prog Unit}
    {m : Int64 → Unit → GoM St Unit} (n : Int64) (hr : ∀ i a, (body i a).run = lift (m i a))
    (hm : ∀ i a, NoErr (m i a)) :
    Leaky ((Prog.field .cap).bind fun cap => (Prog.panicIf (c cap) (.err BufferOverwriteError)).bind fun _ =>
        (Prog.panicIf d (.err BufferUnderwriteError)).bind fun _ => Prog.Lock.bind fun _ =>
          (Prog.doLoop body n 0 ()).bind fun _ => Prog.Unlock)
      (getB >>= fun b => panicIf (c b.cap) (.err BufferOverwriteError) >>= fun _ =>
        panicIf d (.err BufferUnderwriteError) >>= fun _ => doLoop m n 0 ()) := by
  refine Leaky.field fun b => Leaky.panicIf _ _ fun _ => Leaky.panicIf _ _ fun _ => Leaky.crit ?_ ?_
  · rw [Prog.run_doLoop, lift_doLoop]
    simp only [hr]
  · exact noErr_doLoop hm _ _ _

/-- A typed read: checks, `make`, then a section released by `defer`. -/
theorem read_guarded (c : Int64 → Prop) [DecidablePred c] (d : Prop) [Decidable d] {z : α} (w : Nat)
    {body : Int64 → List α → Prog (List α)}
    {m : Int64 → List α → GoM St (List α)} (n : Int64) (hb : ∀ i a, (body i a).NoLock) (hr : ∀ i a, (body i a).run = lift (m i a)) :
    Alone ((Prog.field .cap).bind fun cap => (Prog.panicIf (c cap) (.err BufferOverreadError)).bind fun _ =>
        (Prog.panicIf d (.err BufferUnderreadError)).bind fun _ => (Prog.makeTyped w z n).bind fun out =>
          Prog.locked (Prog.doLoop body n 0 out))
      (getB >>= fun b => panicIf (c b.cap) (.err BufferOverreadError) >>= fun _ =>
        panicIf d (.err BufferUnderreadError) >>= fun _ => makeTyped w z n >>= fun out => doLoop m n 0 out) := by
  refine Alone.field fun b => (Alone.panicIf _ _).bind fun _ => (Alone.panicIf _ _).bind fun _ =>
    (Alone.noLock ?_).bind fun out => Alone.locked ?_ ?_
  · rw [Prog.run_makeTyped, lift_makeTyped]
  · exact Prog.noLock_doLoop hb _ _ _
  · rw [Prog.run_doLoop, lift_doLoop]
    simp only [hr]

macro "w_run" : tactic => `(tactic| (
  intro i a
  simp only [Prog.run_bind', Prog.run_idx, Prog.run_bufStore, lift_bind, lift_idx]))
macro "w_noErr" : tactic => `(tactic| (
  intro i a
  repeat' (first
    | with_reducible exact noErr_idx _ _
    | with_reducible exact noErr_bufStore _ _
    | with_reducible refine NoErr.bind ?_ fun _ => ?_)))

theorem write_typed (k : UKind) (e : Endian) (off : Int64) (data : List k.kind.Ty) :
    Leaky (Buffer.Write k e off data) (V3.Buffer.Write k.kind e off data) := by
  cases k <;> cases e
  · exact write_leaky (fun cap => off + len data * 2 > cap) _ _ (by w_run) (by w_noErr)
  · exact write_leaky (fun cap => off + len data * 2 > cap) _ _ (by w_run) (by w_noErr)
  · exact write_leaky (fun cap => off + len data * 4 > cap) _ _ (by w_run) (by w_noErr)
  · exact write_leaky (fun cap => off + len data * 4 > cap) _ _ (by w_run) (by w_noErr)
  · exact write_leaky (fun cap => off + len data * 8 > cap) _ _ (by w_run) (by w_noErr)
  · exact write_leaky (fun cap => off + len data * 8 > cap) _ _ (by w_run) (by w_noErr)

macro "r_noLock" : tactic => `(tactic| (
  intro i a
  repeat' (first
    | with_reducible exact Prog.noLock_setIdx _ _ _
    | with_reducible exact Prog.noLock_bufLoad _
    | with_reducible refine Prog.NoLock.bind' ?_ fun _ => ?_)))
macro "r_run" : tactic => `(tactic| (
  intro i a
  simp only [Prog.run_bind', Prog.run_setIdx, Prog.run_bufLoad, lift_bind, lift_setIdx]))

theorem read_typed (k : UKind) (e : Endian) (off n : Int64) :
    Alone (Buffer.Read k e off n) (V3.Buffer.Read k.kind e off n) := by
  cases k <;> cases e
  · exact read_guarded (fun cap => off + n * 2 > cap) _ _ _ (by r_noLock) (by r_run)
  · exact read_guarded (fun cap => off + n * 2 > cap) _ _ _ (by r_noLock) (by r_run)
  · exact read_guarded (fun cap => off + n * 4 > cap) _ _ _ (by r_noLock) (by r_run)
  · exact read_guarded (fun cap => off + n * 4 > cap) _ _ _ (by r_noLock) (by r_run)
  · exact read_guarded (fun cap => off + n * 8 > cap) _ _ _ (by r_noLock) (by r_run)
  · exact read_guarded (fun cap => off + n * 8 > cap) _ _ _ (by r_noLock) (by r_run)

theorem writeNext_typed (k : UKind) (e : Endian) (data : List k.kind.Ty) :
    Leaky (Buffer.WriteNext k e data) (V3.Buffer.WriteNext k.kind e data) := by
  cases k <;> cases e
  · exact Leaky.field fun b => (write_typed .u16 .le b.off data).bind (fun _ => seek_alone _ _) fun _ => noPanic_seek _ _
  · exact Leaky.field fun b => (write_typed .u16 .be b.off data).bind (fun _ => seek_alone _ _) fun _ => noPanic_seek _ _
  · exact Leaky.field fun b => (write_typed .u32 .le b.off data).bind (fun _ => seek_alone _ _) fun _ => noPanic_seek _ _
  · exact Leaky.field fun b => (write_typed .u32 .be b.off data).bind (fun _ => seek_alone _ _) fun _ => noPanic_seek _ _
  · exact Leaky.field fun b => (write_typed .u64 .le b.off data).bind (fun _ => seek_alone _ _) fun _ => noPanic_seek _ _
  · exact Leaky.field fun b => (write_typed .u64 .be b.off data).bind (fun _ => seek_alone _ _) fun _ => noPanic_seek _ _

theorem readNext_typed (k : UKind) (e : Endian) (n : Int64) :
    Alone (Buffer.ReadNext k e n) (V3.Buffer.ReadNext k.kind e n) := by
  cases k <;> cases e
  · exact Alone.field fun b => (read_typed .u16 .le b.off n).bind fun _ => (seek_alone _ _).bind fun _ => Alone.ret _
  · exact Alone.field fun b => (read_typed .u16 .be b.off n).bind fun _ => (seek_alone _ _).bind fun _ => Alone.ret _
  · exact Alone.field fun b => (read_typed .u32 .le b.off n).bind fun _ => (seek_alone _ _).bind fun _ => Alone.ret _
  · exact Alone.field fun b => (read_typed .u32 .be b.off n).bind fun _ => (seek_alone _ _).bind fun _ => Alone.ret _
  · exact Alone.field fun b => (read_typed .u64 .le b.off n).bind fun _ => (seek_alone _ _).bind fun _ => Alone.ret _
  · exact Alone.field fun b => (read_typed .u64 .be b.off n).bind fun _ => (seek_alone _ _).bind fun _ => Alone.ret _

end V2
end Crunch
