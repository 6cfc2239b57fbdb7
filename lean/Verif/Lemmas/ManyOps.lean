import Verif.Lemmas.Many
import Verif.Lemmas.TidyOps
import Verif.Footprints

/-! The methods of v2 and v1 `Buffer` that make no new array keep to the bytes of their buffer and of their argument. -/

namespace Crunch
open Prog

/-- The bytes of the slice may be read as far as it reaches, and its elements may be changed. -/
structure Own (c : Slice) (A W : Nat → Nat → Prop) : Prop where
  read : ∀ a i, c.reach a i → A a i
  write : ∀ a i, c.holds a i → W a i

/-- A part of what the slice reaches. -/
structure PartOf (s c : Slice) : Prop where
  arr : s.arr = c.arr
  off : c.off ≤ s.off
  len : s.off + s.len ≤ c.off + c.cap
  cap : s.off + s.cap ≤ c.off + c.cap

variable {c : Slice} {A W : Nat → Nat → Prop}

theorem Silent.in {p : Prog α} (h : Silent p) : p.In c A W := by
  cases p with
  | ret a => trivial
  | panic q => trivial
  | _ => exact h.elim

theorem In.ret (a : α) : (Prog.ret a).In c A W := trivial
theorem In.field (f : Field) : (Prog.field f).In c A W := fun _ => trivial
theorem In.assign (f : Field) (v : Int64) : (Prog.assign f v).In c A W := trivial
theorem In.panicIf (d : Prop) [Decidable d] (e : Panic) : (Prog.panicIf d e).In c A W := by unfold Prog.panicIf; split <;> trivial
theorem In.locked {p : Prog α} (h : p.In c A W) : (Prog.locked p).In c A W := h.deferUnlock

theorem In.doLoop {body : Int64 → α → Prog α} (h : ∀ i a, (body i a).In c A W) (n i : Int64) (a : α) : (Prog.doLoop body n i a).In c A W := by
  fun_induction Prog.doLoop body n i a with
  | case1 i a ih =>
    refine (h i a).bind fun a' => ?_
    split
    · exact ih a' ‹_›
    · trivial

theorem In.forLoop {body : Int64 → α → Prog α} (h : ∀ i a, (body i a).In c A W) (n i : Int64) (a : α) : (Prog.forLoop body n i a).In c A W := by
  fun_induction Prog.forLoop body n i a with
  | case1 i a hi ih => exact (h i a).bind ih
  | case2 i a hi => trivial

theorem In.bufLoad (o : Own c A W) (i : Int64) : (Prog.bufLoad i).In c A W := by
  show (Prog.loadAt c i).In c A W
  unfold Prog.loadAt
  split
  · exact ⟨o.read _ _ ⟨rfl, by omega, .inl (by omega)⟩, fun _ => trivial⟩
  · trivial

theorem In.bufStore (o : Own c A W) (i : Int64) (v : UInt8) : (Prog.bufStore i v).In c A W := by
  show (Prog.storeAt c i v).In c A W
  unfold Prog.storeAt
  split
  · exact ⟨o.write _ _ ⟨rfl, by omega, by omega⟩, trivial⟩
  · trivial

theorem In.loadPart (o : Own c A W) {s : Slice} (h : PartOf s c) (i : Int64) : (Prog.loadAt s i).In c A W := by
  unfold Prog.loadAt
  split
  · have := h.off; have := h.len
    exact ⟨o.read _ _ ⟨h.arr, by omega, .inr (by omega)⟩, fun _ => trivial⟩
  · trivial

theorem In.reslice {s : Slice} {f : Slice → Prog β} (h : ∀ t, t.arr = s.arr → s.off ≤ t.off → t.off + t.len ≤ s.off + s.cap → t.off + t.cap ≤ s.off + s.cap → (f t).In c A W)
    (lo hi : Int64) : ((Prog.reslice s lo hi).bind f).In c A W := by
  unfold Prog.reslice
  split
  · exact h _ rfl (by show s.off ≤ s.off + _; omega) (by show s.off + _ + (_ - _) ≤ _; omega) (by show s.off + _ + (_ - _) ≤ _; omega)
  · trivial

theorem In.srcAt {x : Src} (h : ∀ t, x = .mem t → ∀ a i, t.holds a i → A a i) (i : Int64) : (Prog.srcAt x i).In c A W := by
  cases x with
  | mem s =>
    show (Prog.loadAt s i).In c A W
    unfold Prog.loadAt
    split
    · exact ⟨h s rfl _ _ ⟨rfl, by omega, by omega⟩, fun _ => trivial⟩
    · trivial
  | lit bs =>
    unfold Prog.srcAt
    simp only []
    split <;> trivial

/-- `defer` after the section has been left is of no concern to the rest. -/
theorem In.locked_bind {p : Prog α} {f : α → Prog β} (h : (p.bind f).In c A W) : ((Prog.locked p).bind f).In c A W := by
  show (p.deferUnlock.bind f).In c A W
  induction p with
  | ret a => exact h
  | panic q => trivial
  | getI x k ih => exact fun v => ih v (h v)
  | setI x v k ih => exact ih h
  | getBuf k ih => exact ih c h
  | setBuf => exact h.elim
  | load t i k ih => exact ⟨h.1, fun v => ih v (h.2 v)⟩
  | store t i v k ih => exact ⟨h.1, ih h.2⟩
  | append => exact h.elim
  | alloc => exact h.elim
  | lock k ih => exact ih h
  | unlock k ih => exact ih h

namespace V2
open Spec
open V3 (Val)

theorem in_wrap {p : Prog α} (h : p.In c A W) (f : α → Val) : (wrapVal f p).In c A W := h.bind fun _ => In.ret _

macro "in_body" o:term : tactic => `(tactic| (
  intro i a
  repeat' (first
    | with_reducible exact (silent_idx _ _).in
    | with_reducible exact (silent_setIdx _ _ _).in
    | with_reducible exact In.bufStore $o _ _
    | with_reducible exact In.bufLoad $o _
    | with_reducible refine Prog.In.bind' ?_ fun _ => ?_)))

theorem in_write_shape (d : Int64 → Prop) [DecidablePred d] (d' : Prop) [Decidable d'] (e e' : Panic) {body : Int64 → Unit → Prog Unit} (n : Int64)
    (hb : ∀ i a, (body i a).In c A W) :
    Prog.In c A W ((Prog.field .cap).bind fun cap => (Prog.panicIf (d cap) e).bind fun _ => (Prog.panicIf d' e').bind fun _ =>
      Prog.Lock.bind fun _ => (Prog.doLoop body n 0 ()).bind fun _ => Prog.Unlock) :=
  (In.field _).bind fun _ => (In.panicIf _ _).bind fun _ => (In.panicIf _ _).bind fun _ => Prog.In.bind (p := Prog.Lock) trivial fun _ =>
    (In.doLoop hb _ _ _).bind fun _ => trivial

theorem in_guard_shape (f : Field) (d : Int64 → Prop) [DecidablePred d] (d' : Prop) [Decidable d'] (e e' : Panic) {body : Prog α} (hb : body.In c A W) :
    Prog.In c A W ((Prog.field f).bind fun x => (Prog.panicIf (d x) e).bind fun _ => (Prog.panicIf d' e').bind fun _ => Prog.locked body) :=
  (In.field _).bind fun _ => (In.panicIf _ _).bind fun _ => (In.panicIf _ _).bind fun _ => In.locked hb

theorem in_read_shape (d : Int64 → Prop) [DecidablePred d] (d' : Prop) [Decidable d'] (e e' : Panic) {z : α} (w : Nat)
    {body : Int64 → List α → Prog (List α)} (n : Int64) (hb : ∀ i a, (body i a).In c A W) :
    Prog.In c A W ((Prog.field .cap).bind fun cap => (Prog.panicIf (d cap) e).bind fun _ =>
        (Prog.panicIf d' e').bind fun _ => (Prog.makeTyped w z n).bind fun out => Prog.locked (Prog.doLoop body n 0 out)) :=
  (In.field _).bind fun _ => (In.panicIf _ _).bind fun _ => (In.panicIf _ _).bind fun _ => (silent_makeTyped _ _ _).in.bind fun _ =>
    In.locked (In.doLoop hb _ _ _)

theorem write_in (o : Own c A W) (k : UKind) (e : Endian) (off : Int64) (data : List k.kind.Ty) : (Buffer.Write k e off data).In c A W := by
  cases k <;> cases e
  · exact in_write_shape (fun cap => off + len data * 2 > cap) _ _ _ _ (by in_body o)
  · exact in_write_shape (fun cap => off + len data * 2 > cap) _ _ _ _ (by in_body o)
  · exact in_write_shape (fun cap => off + len data * 4 > cap) _ _ _ _ (by in_body o)
  · exact in_write_shape (fun cap => off + len data * 4 > cap) _ _ _ _ (by in_body o)
  · exact in_write_shape (fun cap => off + len data * 8 > cap) _ _ _ _ (by in_body o)
  · exact in_write_shape (fun cap => off + len data * 8 > cap) _ _ _ _ (by in_body o)

theorem read_in (o : Own c A W) (k : UKind) (e : Endian) (off n : Int64) : (Buffer.Read k e off n).In c A W := by
  cases k <;> cases e
  · exact in_read_shape (fun cap => off + n * 2 > cap) _ _ _ _ _ (by in_body o)
  · exact in_read_shape (fun cap => off + n * 2 > cap) _ _ _ _ _ (by in_body o)
  · exact in_read_shape (fun cap => off + n * 4 > cap) _ _ _ _ _ (by in_body o)
  · exact in_read_shape (fun cap => off + n * 4 > cap) _ _ _ _ _ (by in_body o)
  · exact in_read_shape (fun cap => off + n * 8 > cap) _ _ _ _ _ (by in_body o)
  · exact in_read_shape (fun cap => off + n * 8 > cap) _ _ _ _ _ (by in_body o)

theorem writeSrc_in (o : Own c A W) (off : Int64) {data : Src} (h : ∀ t, data = .mem t → ∀ a i, t.holds a i → A a i) : (Buffer.write off data).In c A W :=
  in_write_shape (fun cap => off + Int64.ofNat data.len > cap) _ _ _ _ fun _ _ => (In.srcAt h _).bind' fun _ => In.bufStore o _ _

theorem readRaw_bind_in (off n : Int64) {f : Slice → Prog β} (h : ∀ s, PartOf s c → (f s).In c A W) : ((Buffer.read off n).bind f).In c A W := by
  show Prog.In c A W (((Prog.field .cap).bind fun cap => (Prog.panicIf (off + n > cap) _).bind fun _ =>
        (Prog.panicIf (off < 0) _).bind fun _ => Prog.locked (Prog.buf.bind fun s => Prog.reslice s off (off + n))).bind f)
  intro cap
  show Prog.In c A W (((Prog.panicIf _ _).bind fun _ => (Prog.panicIf (off < 0) _).bind fun _ => Prog.locked _).bind f)
  rw [Prog.bind_assoc]
  refine (In.panicIf _ _).bind fun _ => ?_
  rw [Prog.bind_assoc]
  refine (In.panicIf _ _).bind fun _ => In.locked_bind ?_
  exact In.reslice (s := c) (f := f) (fun t h1 h2 h3 h4 => h t ⟨h1, h2, h3, h4⟩) off (off + n)

theorem readRaw_in (off n : Int64) : (Buffer.read off n).In c A W := by
  refine in_guard_shape .cap (fun cap => off + n > cap) _ _ _ ?_
  show (Prog.reslice c off (off + n)).In c A W
  exact (silent_reslice _ _ _).in

theorem readbit_in (o : Own c A W) (off : Int64) : (Buffer.readbit off).In c A W :=
  in_guard_shape .bcap (fun bcap => off > bcap - 1) _ _ _ ((In.bufLoad o _).bind' fun _ => In.ret _)

theorem setbit_in (o : Own c A W) (off : Int64) (v : UInt8) : (Buffer.setbit off v).In c A W := by
  refine in_guard_shape .bcap (fun bcap => off > bcap - 1) _ _ _ ?_
  split
  · exact (In.bufLoad o _).bind' fun _ => In.bufStore o _ _
  · split
    · exact (In.bufLoad o _).bind' fun _ => In.bufStore o _ _
    · trivial

theorem flipbit_in (o : Own c A W) (off : Int64) : (Buffer.flipbit off).In c A W :=
  in_guard_shape .bcap (fun bcap => off > bcap - 1) _ _ _ ((In.bufLoad o _).bind' fun _ => In.bufStore o _ _)

theorem clear_in (o : Own c A W) : Buffer.clearallbits.In c A W :=
  In.locked (p := Prog.buf.bind _) (In.doLoop (fun _ _ => In.bufStore o _ _) _ _ _)
theorem setall_in (o : Own c A W) : Buffer.setallbits.In c A W :=
  In.locked (p := Prog.buf.bind _) (In.doLoop (fun _ _ => In.bufStore o _ _) _ _ _)
theorem flipall_in (o : Own c A W) : Buffer.flipallbits.In c A W :=
  In.locked (p := Prog.buf.bind _) (In.doLoop (fun _ _ => (In.bufLoad o _).bind' fun _ => In.bufStore o _ _) _ _ _)

theorem seek_in (off : Int64) (r : Bool) : (Buffer.seek off r).In c A W := by
  cases r <;> exact In.locked (by first | exact trivial | exact fun _ => trivial)
theorem seekbit_in (off : Int64) (r : Bool) : (Buffer.seekbit off r).In c A W := by
  cases r <;> exact In.locked (by first | exact trivial | exact fun _ => trivial)
theorem alignbit_in : Buffer.alignbit.In c A W := In.locked fun _ => trivial
theorem alignbyte_in : Buffer.alignbyte.In c A W := In.locked fun _ => trivial
theorem refresh_in : Buffer.refresh.In c A W := fun _ => trivial

theorem readNext_in (o : Own c A W) (k : UKind) (e : Endian) (n : Int64) : (Buffer.ReadNext k e n).In c A W := by
  cases k <;> cases e
  · exact (In.field _).bind fun off => (read_in o .u16 .le off n).bind fun _ => (seek_in _ _).bind fun _ => In.ret _
  · exact (In.field _).bind fun off => (read_in o .u16 .be off n).bind fun _ => (seek_in _ _).bind fun _ => In.ret _
  · exact (In.field _).bind fun off => (read_in o .u32 .le off n).bind fun _ => (seek_in _ _).bind fun _ => In.ret _
  · exact (In.field _).bind fun off => (read_in o .u32 .be off n).bind fun _ => (seek_in _ _).bind fun _ => In.ret _
  · exact (In.field _).bind fun off => (read_in o .u64 .le off n).bind fun _ => (seek_in _ _).bind fun _ => In.ret _
  · exact (In.field _).bind fun off => (read_in o .u64 .be off n).bind fun _ => (seek_in _ _).bind fun _ => In.ret _

theorem writeNext_in (o : Own c A W) (k : UKind) (e : Endian) (data : List k.kind.Ty) : (Buffer.WriteNext k e data).In c A W := by
  cases k <;> cases e
  · exact (In.field _).bind fun off => (write_in o .u16 .le off data).bind fun _ => seek_in _ _
  · exact (In.field _).bind fun off => (write_in o .u16 .be off data).bind fun _ => seek_in _ _
  · exact (In.field _).bind fun off => (write_in o .u32 .le off data).bind fun _ => seek_in _ _
  · exact (In.field _).bind fun off => (write_in o .u32 .be off data).bind fun _ => seek_in _ _
  · exact (In.field _).bind fun off => (write_in o .u64 .le off data).bind fun _ => seek_in _ _
  · exact (In.field _).bind fun off => (write_in o .u64 .be off data).bind fun _ => seek_in _ _

theorem readbits_in (o : Own c A W) (off n : Int64) : (Buffer.readbits off n).In c A W :=
  In.doLoop (fun _ _ => (readbit_in o _).bind fun _ => In.ret _) _ _ _
theorem setbits_in (o : Own c A W) (off : Int64) (d : UInt64) (n : Int64) : (Buffer.setbits off d n).In c A W :=
  In.doLoop (fun _ _ => setbit_in o _ _) _ _ _

/-- The bytes a call copies from may be read. -/
theorem exec_in (o : Own c A W) (op : Op2) (hp : inPlace op = true) (hsrc : ∀ t, sourceOf op = some t → ∀ a i, t.holds a i → A a i) : (exec op).In c A W := by
  cases op with
  | write k e p d =>
    cases p with
    | none => exact in_wrap (writeNext_in o k e d) _
    | some off => exact in_wrap (write_in o k e off d) _
  | read k e p n =>
    cases p with
    | none => exact in_wrap (readNext_in o k e n) _
    | some off => exact in_wrap (read_in o k e off n) _
  | writeBytes p s =>
    have h : ∀ t, Src.mem s = .mem t → ∀ a i, t.holds a i → A a i := fun t e => by cases e; exact hsrc s rfl
    cases p with
    | none => exact in_wrap ((In.field _).bind fun off => (writeSrc_in o off h).bind fun _ => seek_in _ _) _
    | some off => exact in_wrap (writeSrc_in o off h) _
  | writeByte p v =>
    cases p with
    | none => exact in_wrap ((In.field _).bind fun off => (writeSrc_in o off (data := .lit [v]) nofun).bind fun _ => seek_in _ _) _
    | some off => exact in_wrap (writeSrc_in o off (data := .lit [v]) nofun) _
  | readBytes p n =>
    cases p with
    | none => exact in_wrap ((In.field _).bind fun off => (readRaw_in off n).bind fun _ => (seek_in _ _).bind fun _ => In.ret _) _
    | some off => exact in_wrap (readRaw_in off n) _
  | readByte p =>
    cases p with
    | none =>
      exact in_wrap ((In.field _).bind fun off => readRaw_bind_in off 1 fun s h => (In.loadPart o h 0).bind' fun _ =>
        (seek_in _ _).bind' fun _ => In.ret _) _
    | some off => exact in_wrap (readRaw_bind_in off 1 fun s h => In.loadPart o h 0) _
  | readBit p =>
    cases p with
    | none => exact in_wrap ((In.field _).bind fun _ => (readbit_in o _).bind fun _ => (seekbit_in _ _).bind fun _ => In.ret _) _
    | some off => exact in_wrap (readbit_in o off) _
  | readBits p n =>
    cases p with
    | none => exact in_wrap ((In.field _).bind fun _ => (readbits_in o _ _).bind fun _ => (seekbit_in _ _).bind fun _ => In.ret _) _
    | some off => exact in_wrap (readbits_in o off n) _
  | setBit p v =>
    cases p with
    | none => exact in_wrap ((In.field _).bind fun _ => (setbit_in o _ _).bind fun _ => seekbit_in _ _) _
    | some off => exact in_wrap (setbit_in o off v) _
  | flipBit p =>
    cases p with
    | none => exact in_wrap ((In.field _).bind fun _ => (flipbit_in o _).bind fun _ => seekbit_in _ _) _
    | some off => exact in_wrap (flipbit_in o off) _
  | setBits p d n =>
    cases p with
    | none => exact in_wrap ((In.field _).bind fun _ => (setbits_in o _ _ _).bind fun _ => seekbit_in _ _) _
    | some off => exact in_wrap (setbits_in o off d n) _
  | clearAll => exact in_wrap (clear_in o) _
  | setAll => exact in_wrap (setall_in o) _
  | flipAll => exact in_wrap (flipall_in o) _
  | seek off r => exact in_wrap (seek_in off r) _
  | seekBit off r => exact in_wrap (seekbit_in off r) _
  | after l => cases l <;> exact in_wrap (by first | exact fun _ => trivial | exact fun _ _ => trivial) _
  | afterBit l => cases l <;> exact in_wrap (by first | exact fun _ => trivial | exact fun _ _ => trivial) _
  | alignByte => exact in_wrap alignbyte_in _
  | alignBit => exact in_wrap alignbit_in _
  | refresh => exact in_wrap refresh_in _
  | bytes => trivial
  | capacity => exact fun _ => trivial
  | bitCapacity => exact fun _ => trivial
  | offset => exact fun _ => trivial
  | bitOffset => exact fun _ => trivial
  | _ => exact nomatch hp

end V2

namespace V1
open V3 (Val)

theorem in_wrap1 {p : Prog α} (h : p.In c A W) (f : α → Val) : (wrap1 f p).In c A W := h.bind fun _ => In.ret _

theorem get_in (o : ByteOrder) : o.get.In c A W := by cases o <;> trivial

theorem u16_in (o : Own c A W) (e : ByteOrder) {s : Slice} (h : PartOf s c) : (loadU16 e s).In c A W :=
  (get_in e).bind' fun _ => (In.loadPart o h _).bind' fun _ => (In.loadPart o h _).bind' fun _ => In.ret _
theorem u32_in (o : Own c A W) (e : ByteOrder) {s : Slice} (h : PartOf s c) : (loadU32 e s).In c A W :=
  (get_in e).bind' fun _ => (In.loadPart o h _).bind' fun _ => (In.loadPart o h _).bind' fun _ => (In.loadPart o h _).bind' fun _ =>
    (In.loadPart o h _).bind' fun _ => In.ret _
theorem u64_in (o : Own c A W) (e : ByteOrder) {s : Slice} (h : PartOf s c) : (loadU64 e s).In c A W :=
  (get_in e).bind' fun _ => (In.loadPart o h _).bind' fun _ => (In.loadPart o h _).bind' fun _ => (In.loadPart o h _).bind' fun _ =>
    (In.loadPart o h _).bind' fun _ => (In.loadPart o h _).bind' fun _ => (In.loadPart o h _).bind' fun _ => (In.loadPart o h _).bind' fun _ =>
    (In.loadPart o h _).bind' fun _ => In.ret _

theorem PartOf.of_reslice {s t : Slice} (h : PartOf s c) (h1 : t.arr = s.arr) (h2 : s.off ≤ t.off) (h3 : t.off + t.len ≤ s.off + s.cap)
    (h4 : t.off + t.cap ≤ s.off + s.cap) : PartOf t c := by
  have := h.off; have := h.cap
  exact ⟨h1.trans h.arr, by omega, by omega, by omega⟩

theorem readComplex_in (o : Own c A W) (off n size : Int64) (e : ByteOrder) : (Buffer.readComplex off n size e).In c A W := by
  refine V2.readRaw_bind_in off n fun s hs => ?_
  have re : ∀ {β : Type} {f : Slice → Prog β} (lo hi : Int64), (∀ t, PartOf t c → (f t).In c A W) → ((Prog.reslice s lo hi) >>= f).In c A W :=
    fun lo hi h => In.reslice (fun t h1 h2 h3 h4 => h t (PartOf.of_reslice hs h1 h2 h3 h4)) lo hi
  split
  · trivial
  · split
    · exact (silent_makeTyped _ _ _).in.bind' fun _ => (In.forLoop (fun _ _ => re _ _ fun t ht => (u16_in o e ht).bind' fun _ => (silent_setIdx _ _ _).in) _ _ _).bind' fun _ => In.ret _
    · split
      · exact (silent_makeTyped _ _ _).in.bind' fun _ => (In.forLoop (fun _ _ => re _ _ fun t ht => (u32_in o e ht).bind' fun _ => (silent_setIdx _ _ _).in) _ _ _).bind' fun _ => In.ret _
      · split
        · exact (silent_makeTyped _ _ _).in.bind' fun _ => (In.forLoop (fun _ _ => re _ _ fun t ht => (u64_in o e ht).bind' fun _ => (silent_setIdx _ _ _).in) _ _ _).bind' fun _ => In.ret _
        · trivial

theorem writeComplex_in (o : Own c A W) (off : Int64) (d : Any) (size : Int64) (e : ByteOrder) (hsrc : ∀ t, d = .bytes t → ∀ a i, t.holds a i → A a i) :
    (Buffer.writeComplex off d size e).In c A W := by
  unfold Buffer.writeComplex
  simp only []
  have lit : ∀ l, (Buffer.write off (.lit l)).In c A W := fun l => V2.writeSrc_in o off nofun
  split
  · cases d with
    | bytes s => exact V2.writeSrc_in o off fun t ht => by cases ht; exact hsrc s rfl
    | _ => trivial
  · split
    · exact (silent_toU16 d).in.bind' fun l => (silent_bytes16 e l).in.bind' fun _ => lit _
    · split
      · exact (silent_toU32 d).in.bind' fun l => (silent_bytes32 e l).in.bind' fun _ => lit _
      · split
        · exact (silent_toU64 d).in.bind' fun l => (silent_bytes64 e l).in.bind' fun _ => lit _
        · trivial

theorem writeComplexNext_in (o : Own c A W) (d : Any) (size : Int64) (e : ByteOrder) (hsrc : ∀ t, d = .bytes t → ∀ a i, t.holds a i → A a i) :
    (Buffer.WriteComplexNext d size e).In c A W := by
  refine (In.field _).bind' fun off => (writeComplex_in o off d size e hsrc).bind' fun _ => ?_
  split
  · exact (silent_toBytes d).in.bind' fun _ => V2.seek_in _ _
  · split
    · exact (silent_toU16 d).in.bind' fun _ => V2.seek_in _ _
    · split
      · exact (silent_toU32 d).in.bind' fun _ => V2.seek_in _ _
      · split
        · exact (silent_toU64 d).in.bind' fun _ => V2.seek_in _ _
        · trivial

theorem readbits_in (o : Own c A W) (off n : Int64) : (Buffer.readbits off n).In c A W :=
  In.forLoop (fun _ _ => (V2.readbit_in o _).bind fun _ => In.ret _) _ _ _
theorem setbits_in (o : Own c A W) (off : Int64) (d : UInt64) (n : Int64) : (Buffer.setbits off d n).In c A W :=
  In.forLoop (fun _ _ => V2.setbit_in o _ _) _ _ _
theorem clear_in (o : Own c A W) : Buffer.clearallbits.In c A W :=
  In.locked (p := Prog.buf.bind _) (In.forLoop (fun _ _ => In.bufStore o _ _) _ _ _)
theorem setall_in (o : Own c A W) : Buffer.setallbits.In c A W :=
  In.locked (p := Prog.buf.bind _) (In.forLoop (fun _ _ => In.bufStore o _ _) _ _ _)
theorem flipall_in (o : Own c A W) : Buffer.flipallbits.In c A W :=
  In.locked (p := Prog.buf.bind _) (In.forLoop (fun _ _ => (In.bufLoad o _).bind' fun _ => In.bufStore o _ _) _ _ _)

theorem exec1_in (o : Own c A W) (op : Op1) (hp : inPlace1 op = true) (hsrc : ∀ t, sourceOf1 op = some t → ∀ a i, t.holds a i → A a i) : (exec1 op).In c A W := by
  cases hs : Shared op with
  | true =>
    cases h : toV2 op with
    | some op2 =>
      rw [exec1_v2 op op2 h hs]
      refine (V2.exec_in o op2 ?_ fun t ht => hsrc t ?_).bind fun _ => In.ret _
      · cases op <;> cases h <;> first | rfl | exact hp
      · cases op <;> cases h <;> exact ht
    | none => cases op <;> simp [toV2, Shared] at h hs
  | false =>
    cases op with
    | writeComplex p d w e =>
      have h : ∀ t, d = .bytes t → ∀ a i, t.holds a i → A a i := fun t ht => by cases ht; exact hsrc t rfl
      cases p with
      | some off => exact in_wrap1 (writeComplex_in o off d w e h) _
      | none => exact in_wrap1 (writeComplexNext_in o d w e h) _
    | readComplex p n w e =>
      cases p with
      | some off => exact (readComplex_in o off n w e).bind fun _ => In.ret _
      | none =>
        exact Prog.In.bind ((In.field _).bind fun off => (readComplex_in o off n w e).bind fun _ => (V2.seek_in _ _).bind fun _ => In.ret _) fun _ => trivial
    | readBits p n =>
      cases p with
      | some off => exact in_wrap1 (readbits_in o off n) _
      | none => exact in_wrap1 ((In.field _).bind fun _ => (readbits_in o _ _).bind fun _ => (V2.seekbit_in _ _).bind fun _ => In.ret _) _
    | setBits p d n =>
      cases p with
      | some off => exact in_wrap1 (setbits_in o off d n) _
      | none => exact in_wrap1 ((In.field _).bind fun _ => (setbits_in o _ _ _).bind fun _ => V2.seekbit_in _ _) _
    | clearAll => exact in_wrap1 (clear_in o) _
    | setAll => exact in_wrap1 (setall_in o) _
    | flipAll => exact in_wrap1 (flipall_in o) _
    | _ => exact nomatch hs

end V1
end Crunch
