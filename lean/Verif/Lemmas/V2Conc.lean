import Verif.Lemmas.Own
import Verif.Lemmas.V2Exec

/-! The locking discipline of the v2 `Buffer` methods. -/

namespace Crunch

/-- Reads anything, changes only memory and the offsets. -/
def Plain : Prog α → Prop
  | .ret _ => True
  | .panic _ => True
  | .getI _ k => ∀ v, Plain (k v)
  | .setI f _ k => f.isOff = true ∧ Plain k
  | .getBuf k => ∀ s, Plain (k s)
  | .load _ _ k => ∀ v, Plain (k v)
  | .store _ _ _ k => Plain k
  | _ => False

/-- Reads anything but the offsets, changes only memory. -/
def Still : Prog α → Prop
  | .ret _ => True
  | .panic _ => True
  | .getI f k => f.isOff = false ∧ ∀ v, Still (k v)
  | .getBuf k => ∀ s, Still (k s)
  | .load _ _ k => ∀ v, Still (k v)
  | .store _ _ _ k => Still k
  | _ => False

/-- Does not assign field `f`. -/
def Neutral (f : Field) : Prog α → Prop
  | .ret _ => True
  | .panic _ => True
  | .getI _ k => ∀ v, Neutral f (k v)
  | .setI g _ k => g ≠ f ∧ Neutral f k
  | .getBuf k => ∀ s, Neutral f (k s)
  | .setBuf _ k => Neutral f k
  | .load _ _ k => ∀ v, Neutral f (k v)
  | .store _ _ _ k => Neutral f k
  | .append _ _ k => ∀ s, Neutral f (k s)
  | .alloc _ _ k => ∀ s, Neutral f (k s)
  | .lock k => Neutral f k
  | .unlock k => Neutral f k

theorem Still.plain {p : Prog α} (hp : Still p) : Plain p := by
  induction p with
  | ret a => trivial
  | panic q => trivial
  | getI x k ih => exact fun v => ih v (hp.2 v)
  | getBuf k ih => exact fun v => ih v (hp v)
  | load t i k ih => exact fun v => ih v (hp v)
  | store t i v k ih => exact ih hp
  | _ => exact hp.elim

theorem Still.neutral {p : Prog α} (hp : Still p) (f : Field) : Neutral f p := by
  induction p with
  | ret a => trivial
  | panic q => trivial
  | getI x k ih => exact fun v => ih v (hp.2 v)
  | getBuf k ih => exact fun v => ih v (hp v)
  | load t i k ih => exact fun v => ih v (hp v)
  | store t i v k ih => exact ih hp
  | _ => exact hp.elim

theorem Neutral.bind {f : Field} {p : Prog α} {g : α → Prog β} (hp : Neutral f p) (hg : ∀ a, Neutral f (g a)) : Neutral f (p.bind g) := by
  induction p with
  | ret a => exact hg a
  | panic q => trivial
  | getI x k ih => exact fun v => ih v (hp v)
  | setI x v k ih => exact ⟨hp.1, ih hp.2⟩
  | getBuf k ih => exact fun v => ih v (hp v)
  | setBuf t k ih => exact ih hp
  | load t i k ih => exact fun v => ih v (hp v)
  | store t i v k ih => exact ih hp
  | append t x k ih => exact fun v => ih v (hp v)
  | alloc a n k ih => exact fun v => ih v (hp v)
  | lock k ih => exact ih hp
  | unlock k ih => exact ih hp

theorem Neutral.defer {f : Field} {p : Prog α} (hp : Neutral f p) : Neutral f p.deferUnlock := by
  induction p with
  | ret a => trivial
  | panic q => trivial
  | getI x k ih => exact fun v => ih v (hp v)
  | setI x v k ih => exact ⟨hp.1, ih hp.2⟩
  | getBuf k ih => exact fun v => ih v (hp v)
  | setBuf t k ih => exact ih hp
  | load t i k ih => exact fun v => ih v (hp v)
  | store t i v k ih => exact ih hp
  | append t x k ih => exact fun v => ih v (hp v)
  | alloc a n k ih => exact fun v => ih v (hp v)
  | lock k ih => exact ih hp
  | unlock k ih => exact ih hp

theorem Neutral.locked {f : Field} {p : Prog α} (hp : Neutral f p) : Neutral f (Prog.locked p) := Neutral.defer hp

theorem Neutral.panicIf (f : Field) (c : Prop) [Decidable c] (q : Panic) : Neutral f (Prog.panicIf c q) := by
  unfold Prog.panicIf; split <;> trivial
theorem Neutral.makeTyped (f : Field) (w : Nat) (z : α) (n : Int64) : Neutral f (Prog.makeTyped w z n) := by
  unfold Prog.makeTyped; split <;> trivial
theorem Neutral.loadAt (f : Field) (s : Slice) (i : Int64) : Neutral f (Prog.loadAt s i) := by
  unfold Prog.loadAt; split
  · exact fun _ => trivial
  · trivial

theorem Neutral.doLoop {f : Field} {body : Int64 → α → Prog α} (h : ∀ i a, Neutral f (body i a)) (n i : Int64) (a : α) :
    Neutral f (Prog.doLoop body n i a) := by
  fun_induction Prog.doLoop body n i a with
  | case1 i a ih =>
    refine (h i a).bind fun a' => ?_
    split
    · rename_i hh
      exact ih a' hh
    · trivial

theorem Still.bind {p : Prog α} {f : α → Prog β} (hp : Still p) (hf : ∀ a, Still (f a)) : Still (p.bind f) := by
  induction p with
  | ret a => exact hf a
  | panic q => trivial
  | getI x k ih => exact ⟨hp.1, fun v => ih v (hp.2 v)⟩
  | getBuf k ih => exact fun v => ih v (hp v)
  | load t i k ih => exact fun v => ih v (hp v)
  | store t i v k ih => exact ih hp
  | _ => exact hp.elim

theorem Still.bind' {p : Prog α} {f : α → Prog β} (hp : Still p) (hf : ∀ a, Still (f a)) : Still (p >>= f) := Still.bind hp hf

theorem Plain.noLock {p : Prog α} (hp : Plain p) : p.NoLock := by
  induction p with
  | ret a => trivial
  | panic q => trivial
  | getI x k ih => exact fun v => ih v (hp v)
  | setI x v k ih => exact ih hp.2
  | getBuf k ih => exact fun v => ih v (hp v)
  | load t i k ih => exact fun v => ih v (hp v)
  | store t i v k ih => exact ih hp
  | _ => exact hp.elim

theorem Plain.sec_defer {p : Prog α} (hp : Plain p) : Sec p.deferUnlock := by
  induction p with
  | ret a => rfl
  | panic q => rfl
  | getI x k ih => exact fun v => ih v (hp v)
  | setI x v k ih => exact ⟨hp.1, ih hp.2⟩
  | getBuf k ih => exact fun v => ih v (hp v)
  | load t i k ih => exact fun v => ih v (hp v)
  | store t i v k ih => exact ih hp
  | _ => exact hp.elim

theorem Plain.sec_unlock {p : Prog α} (hp : Plain p) : Sec (p.bind fun _ => Prog.Unlock) := by
  induction p with
  | ret a => rfl
  | panic q => trivial
  | getI x k ih => exact fun v => ih v (hp v)
  | setI x v k ih => exact ⟨hp.1, ih hp.2⟩
  | getBuf k ih => exact fun v => ih v (hp v)
  | load t i k ih => exact fun v => ih v (hp v)
  | store t i v k ih => exact ih hp
  | _ => exact hp.elim

theorem mayGet_of {w : Field → Bool} {f : Field} (h : f.isOff = false) : mayGet w f := fun e => Bool.noConfusion (h.symm.trans e)

theorem Still.mid_defer {w : Field → Bool} {p : Prog α} (hp : Still p) : Mid w p.deferUnlock := by
  induction p with
  | ret a => show Tail w (Prog.ret a); simp only [Tail]
  | panic q => show Tail w (Prog.panic q); simp only [Tail]
  | getI x k ih => exact ⟨mayGet_of hp.1, fun v => ih v (hp.2 v)⟩
  | getBuf k ih => exact fun v => ih v (hp v)
  | load t i k ih => exact fun v => ih v (hp v)
  | store t i v k ih => exact ih hp
  | _ => exact hp.elim

theorem Still.mid_unlock {w : Field → Bool} {p : Prog α} (hp : Still p) : Mid w (p.bind fun _ => Prog.Unlock) := by
  induction p with
  | ret a => show Tail w (Prog.ret ()); simp only [Tail]
  | panic q => trivial
  | getI x k ih => exact ⟨mayGet_of hp.1, fun v => ih v (hp.2 v)⟩
  | getBuf k ih => exact fun v => ih v (hp v)
  | load t i k ih => exact fun v => ih v (hp v)
  | store t i v k ih => exact ih hp
  | _ => exact hp.elim

theorem still_doLoop {body : Int64 → α → Prog α} (h : ∀ i a, Still (body i a)) (n i : Int64) (a : α) : Still (Prog.doLoop body n i a) := by
  fun_induction Prog.doLoop body n i a with
  | case1 i a ih =>
    refine (h i a).bind fun a' => ?_
    split
    · rename_i hh
      exact ih a' hh
    · trivial

theorem still_loadAt (s : Slice) (i : Int64) : Still (Prog.loadAt s i) := by
  unfold Prog.loadAt; split
  · exact fun _ => trivial
  · trivial
theorem still_bufLoad (i : Int64) : Still (Prog.bufLoad i) := fun s => still_loadAt s i
theorem still_bufStore (i : Int64) (v : UInt8) : Still (Prog.bufStore i v) := by
  intro s; show Still (Prog.storeAt s i v); unfold Prog.storeAt; split <;> trivial
theorem still_reslice (s : Slice) (lo hi : Int64) : Still (Prog.reslice s lo hi) := by
  unfold Prog.reslice; split <;> trivial
theorem still_idx (l : List α) (i : Int64) : Still (Prog.idx l i) := by
  unfold Prog.idx; split
  · split <;> trivial
  · trivial
theorem still_setIdx (l : List α) (i : Int64) (v : α) : Still (Prog.setIdx l i v) := by
  unfold Prog.setIdx; split <;> trivial
theorem still_srcAt (x : Src) (i : Int64) : Still (Prog.srcAt x i) := by
  unfold Prog.srcAt; split
  · exact still_loadAt _ _
  · split <;> trivial

/-! ## one section -/

theorem Sec.map {p : Prog α} (h : Sec p) (f : α → β) : Sec (p.bind fun a => .ret (f a)) := by
  induction p with
  | ret a => exact h.elim
  | panic q => trivial
  | getI x k ih => exact fun v => ih v (h v)
  | setI x v k ih => exact ⟨h.1, ih h.2⟩
  | getBuf k ih => exact fun v => ih v (h v)
  | load t i k ih => exact fun v => ih v (h v)
  | store t i v k ih => exact ih h
  | unlock k ih =>
    cases k with
    | ret a => rfl
    | panic q => rfl
    | _ => exact nomatch h
  | _ => exact h.elim

theorem Once.map {p : Prog α} (h : Once p) (f : α → β) : Once (p.bind fun a => .ret (f a)) := by
  induction p with
  | ret a => trivial
  | panic q => trivial
  | getI x k ih => exact ⟨h.1, fun v => ih v (h.2 v)⟩
  | getBuf k ih => exact fun v => ih v (h v)
  | lock k ih => exact Sec.map (p := k) h f
  | _ => exact h.elim

theorem Once.field {f : Field} (hf : f.isOff = false) {k : Int64 → Prog β} (h : ∀ v, Once (k v)) : Once ((Prog.field f).bind k) := ⟨hf, h⟩
theorem Once.panicIf (c : Prop) [Decidable c] (q : Panic) {k : Unit → Prog β} (h : ∀ v, Once (k v)) : Once ((Prog.panicIf c q).bind k) := by
  unfold Prog.panicIf; split
  · trivial
  · exact h ()
theorem Once.makeTyped (w : Nat) (z : α) (n : Int64) {k : List α → Prog β} (h : ∀ v, Once (k v)) :
    Once ((Prog.makeTyped w z n).bind k) := by
  unfold Prog.makeTyped; split
  · trivial
  · exact h _
theorem Pre.field {w : Field → Bool} {f : Field} (hf : mayGet w f) {k : Int64 → Prog β} (h : ∀ v, Pre w (k v)) :
    Pre w ((Prog.field f).bind k) := ⟨hf, h⟩
theorem Pre.panicIf {w : Field → Bool} (c : Prop) [Decidable c] (q : Panic) {k : Unit → Prog β} (h : ∀ v, Pre w (k v)) :
    Pre w ((Prog.panicIf c q).bind k) := by
  unfold Prog.panicIf; split
  · trivial
  · exact h ()
theorem Pre.makeTyped {w : Field → Bool} (n : Nat) (z : α) (m : Int64) {k : List α → Prog β} (h : ∀ v, Pre w (k v)) :
    Pre w ((Prog.makeTyped n z m).bind k) := by
  unfold Prog.makeTyped; split
  · trivial
  · exact h _
theorem Once.locked {p : Prog α} (h : Plain p) : Once (Prog.locked p) := h.sec_defer
theorem Once.crit {p : Prog α} (h : Plain p) : Once (Prog.Lock.bind fun _ => p.bind fun _ => Prog.Unlock) := h.sec_unlock

/-! ## bracketed -/

theorem Brk.makeTyped (w : Nat) (z : α) (n : Int64) (b : Bool) : Brk b b (Prog.makeTyped w z n) := by
  unfold Prog.makeTyped; split
  · trivial
  · rfl
theorem Brk.loadAt (s : Slice) (i : Int64) (b : Bool) : Brk b b (Prog.loadAt s i) := by
  unfold Prog.loadAt; split
  · exact fun _ => rfl
  · trivial

namespace V2
open Spec
open V3 (Val)

theorem Brk.map {p : Prog α} (h : Brk false false p) (f : α → Val) : Brk false false (wrapVal f p) := h.bind fun _ => rfl

/-! ## the shapes of the methods -/

/-- A method with one section that assigns no field. -/
structure Good (p : Prog α) : Prop where
  brk : Brk false false p
  once : Once p
  neutral : ∀ f, Neutral f p
  pre : ∀ w, Pre w p

/-- checks, then `Lock`, a loop, `Unlock` -/
theorem write_shape (c : Int64 → Prop) [DecidablePred c] (d : Prop) [Decidable d] {body : Int64 → Unit → Prog Unit} (n : Int64)
    (hb : ∀ i a, Still (body i a)) :
    Good ((Prog.field .cap).bind fun cap => (Prog.panicIf (c cap) (.err BufferOverwriteError)).bind fun _ =>
        (Prog.panicIf d (.err BufferUnderwriteError)).bind fun _ => Prog.Lock.bind fun _ =>
          (Prog.doLoop body n 0 ()).bind fun _ => Prog.Unlock) :=
  ⟨(Brk.field _ _).bind fun _ => (Brk.panicIf _ _ _).bind fun _ => (Brk.panicIf _ _ _).bind fun _ =>
      Brk.crit (still_doLoop hb _ _ _).plain.noLock,
    Once.field rfl fun _ => Once.panicIf _ _ fun _ => Once.panicIf _ _ fun _ => Once.crit (still_doLoop hb _ _ _).plain,
    fun f => Neutral.bind (fun _ => trivial) fun _ => (Neutral.panicIf _ _ _).bind fun _ => (Neutral.panicIf _ _ _).bind fun _ =>
      ((still_doLoop hb _ _ _).neutral f).bind fun _ => trivial,
    fun _ => Pre.field (mayGet_of rfl) fun _ => Pre.panicIf _ _ fun _ => Pre.panicIf _ _ fun _ => (still_doLoop hb _ _ _).mid_unlock⟩

/-- checks, `make`, then a section released by `defer` -/
theorem read_shape (c : Int64 → Prop) [DecidablePred c] (d : Prop) [Decidable d] {z : α} (w : Nat)
    {body : Int64 → List α → Prog (List α)} (n : Int64) (hb : ∀ i a, Still (body i a)) :
    Good ((Prog.field .cap).bind fun cap => (Prog.panicIf (c cap) (.err BufferOverreadError)).bind fun _ =>
        (Prog.panicIf d (.err BufferUnderreadError)).bind fun _ => (Prog.makeTyped w z n).bind fun out =>
          Prog.locked (Prog.doLoop body n 0 out)) :=
  ⟨(Brk.field _ _).bind fun _ => (Brk.panicIf _ _ _).bind fun _ => (Brk.panicIf _ _ _).bind fun _ =>
      (Brk.makeTyped _ _ _ _).bind fun _ => Brk.locked (still_doLoop hb _ _ _).plain.noLock,
    Once.field rfl fun _ => Once.panicIf _ _ fun _ => Once.panicIf _ _ fun _ => Once.makeTyped _ _ _ fun _ =>
      Once.locked (still_doLoop hb _ _ _).plain,
    fun f => Neutral.bind (fun _ => trivial) fun _ => (Neutral.panicIf _ _ _).bind fun _ => (Neutral.panicIf _ _ _).bind fun _ =>
      (Neutral.makeTyped _ _ _ _).bind fun _ => ((still_doLoop hb _ _ _).neutral f).locked,
    fun _ => Pre.field (mayGet_of rfl) fun _ => Pre.panicIf _ _ fun _ => Pre.panicIf _ _ fun _ => Pre.makeTyped _ _ _ fun _ =>
      (still_doLoop hb _ _ _).mid_defer⟩

/-- checks, then a section released by `defer` -/
theorem guard_shape (f : Field) (hf : f.isOff = false) (c : Int64 → Prop) [DecidablePred c] (d : Prop) [Decidable d] (e e' : Panic)
    {body : Prog α} (hb : Still body) :
    Good ((Prog.field f).bind fun x => (Prog.panicIf (c x) e).bind fun _ =>
        (Prog.panicIf d e').bind fun _ => Prog.locked body) :=
  ⟨(Brk.field _ _).bind fun _ => (Brk.panicIf _ _ _).bind fun _ => (Brk.panicIf _ _ _).bind fun _ => Brk.locked hb.plain.noLock,
    Once.field hf fun _ => Once.panicIf _ _ fun _ => Once.panicIf _ _ fun _ => Once.locked hb.plain,
    fun f => Neutral.bind (fun _ => trivial) fun _ => (Neutral.panicIf _ _ _).bind fun _ => (Neutral.panicIf _ _ _).bind fun _ =>
      (hb.neutral f).locked,
    fun _ => Pre.field (mayGet_of hf) fun _ => Pre.panicIf _ _ fun _ => Pre.panicIf _ _ fun _ => hb.mid_defer⟩

macro "w_plain" : tactic => `(tactic| (
  intro i a
  repeat' (first
    | with_reducible exact still_idx _ _
    | with_reducible exact still_bufStore _ _
    | with_reducible refine Still.bind' ?_ fun _ => ?_)))
macro "r_plain" : tactic => `(tactic| (
  intro i a
  repeat' (first
    | with_reducible exact still_setIdx _ _ _
    | with_reducible exact still_bufLoad _
    | with_reducible refine Still.bind' ?_ fun _ => ?_)))

theorem write_good (k : UKind) (e : Endian) (off : Int64) (data : List k.kind.Ty) : Good (Buffer.Write k e off data) := by
  cases k <;> cases e
  · exact write_shape (fun cap => off + len data * 2 > cap) _ _ (by w_plain)
  · exact write_shape (fun cap => off + len data * 2 > cap) _ _ (by w_plain)
  · exact write_shape (fun cap => off + len data * 4 > cap) _ _ (by w_plain)
  · exact write_shape (fun cap => off + len data * 4 > cap) _ _ (by w_plain)
  · exact write_shape (fun cap => off + len data * 8 > cap) _ _ (by w_plain)
  · exact write_shape (fun cap => off + len data * 8 > cap) _ _ (by w_plain)

theorem read_good (k : UKind) (e : Endian) (off n : Int64) : Good (Buffer.Read k e off n) := by
  cases k <;> cases e
  · exact read_shape (fun cap => off + n * 2 > cap) _ _ _ (by r_plain)
  · exact read_shape (fun cap => off + n * 2 > cap) _ _ _ (by r_plain)
  · exact read_shape (fun cap => off + n * 4 > cap) _ _ _ (by r_plain)
  · exact read_shape (fun cap => off + n * 4 > cap) _ _ _ (by r_plain)
  · exact read_shape (fun cap => off + n * 8 > cap) _ _ _ (by r_plain)
  · exact read_shape (fun cap => off + n * 8 > cap) _ _ _ (by r_plain)

theorem writeSrc_good (off : Int64) (data : Src) : Good (Buffer.write off data) :=
  write_shape (fun cap => off + Int64.ofNat data.len > cap) _ _ fun _ _ => (still_srcAt _ _).bind' fun _ => still_bufStore _ _

theorem readRaw_good (off n : Int64) : Good (Buffer.read off n) :=
  guard_shape .cap rfl (fun cap => off + n > cap) _ _ _ fun _ => still_reslice _ _ _

theorem readbit_good (off : Int64) : Good (Buffer.readbit off) :=
  guard_shape .bcap rfl (fun bcap => off > bcap - 1) _ _ _ ((still_bufLoad _).bind' fun _ => trivial)

theorem setbit_good (off : Int64) (v : UInt8) : Good (Buffer.setbit off v) := by
  refine guard_shape .bcap rfl (fun bcap => off > bcap - 1) _ _ _ ?_
  split
  · exact (still_bufLoad _).bind' fun _ => still_bufStore _ _
  · split
    · exact (still_bufLoad _).bind' fun _ => still_bufStore _ _
    · trivial

theorem flipbit_good (off : Int64) : Good (Buffer.flipbit off) :=
  guard_shape .bcap rfl (fun bcap => off > bcap - 1) _ _ _ ((still_bufLoad _).bind' fun _ => still_bufStore _ _)

theorem locked_good {p : Prog α} (h : Still p) : Good (Prog.locked p) :=
  ⟨Brk.locked h.plain.noLock, Once.locked h.plain, fun f => (h.neutral f).locked, fun _ => h.mid_defer⟩
theorem locked_pair {p : Prog α} (h : Plain p) : Brk false false (Prog.locked p) ∧ Once (Prog.locked p) :=
  ⟨Brk.locked h.noLock, Once.locked h⟩

theorem clear_good : Good Buffer.clearallbits := locked_good fun _ => still_doLoop (fun _ _ => still_bufStore _ _) _ _ _
theorem setall_good : Good Buffer.setallbits := locked_good fun _ => still_doLoop (fun _ _ => still_bufStore _ _) _ _ _
theorem flipall_good : Good Buffer.flipallbits :=
  locked_good fun _ => still_doLoop (fun _ _ => (still_bufLoad _).bind' fun _ => still_bufStore _ _) _ _ _

theorem seek_good (off : Int64) (r : Bool) : Brk false false (Buffer.seek off r) ∧ Once (Buffer.seek off r) := by
  refine locked_pair ?_
  cases r
  · exact ⟨rfl, trivial⟩
  · exact fun _ => ⟨rfl, trivial⟩
theorem seekbit_good (off : Int64) (r : Bool) : Brk false false (Buffer.seekbit off r) ∧ Once (Buffer.seekbit off r) := by
  refine locked_pair ?_
  cases r
  · exact ⟨rfl, trivial⟩
  · exact fun _ => ⟨rfl, trivial⟩
theorem alignbit_good : Brk false false Buffer.alignbit ∧ Once Buffer.alignbit := locked_pair fun _ => ⟨rfl, trivial⟩
theorem alignbyte_good : Brk false false Buffer.alignbyte ∧ Once Buffer.alignbyte := locked_pair fun _ => ⟨rfl, trivial⟩
theorem refresh_brk : Brk false false Buffer.refresh := Brk.locked (fun _ _ => trivial)
theorem reset_brk : Brk false false Buffer.reset := Brk.locked (fun _ => trivial)

theorem grow_brk (n : Int64) : Brk false false (Buffer.grow n) := by
  refine ⟨rfl, fun s => ?_⟩
  refine Brk.bind (m := true) rfl fun s => Brk.bind (m := true) ?_ fun z => Brk.bind (m := true) ?_ fun r => ⟨rfl, rfl, refresh_brk⟩
  · unfold Prog.makeZero; split
    · trivial
    · rfl
  · unfold Prog.appendTo; split
    · exact ⟨rfl, fun _ => rfl⟩
    · trivial

theorem writeNext_brk (k : UKind) (e : Endian) (data : List k.kind.Ty) : Brk false false (Buffer.WriteNext k e data) := by
  cases k <;> cases e
  · exact (Brk.field _ _).bind fun o => (write_good .u16 .le o data).1.bind fun _ => (seek_good _ _).1
  · exact (Brk.field _ _).bind fun o => (write_good .u16 .be o data).1.bind fun _ => (seek_good _ _).1
  · exact (Brk.field _ _).bind fun o => (write_good .u32 .le o data).1.bind fun _ => (seek_good _ _).1
  · exact (Brk.field _ _).bind fun o => (write_good .u32 .be o data).1.bind fun _ => (seek_good _ _).1
  · exact (Brk.field _ _).bind fun o => (write_good .u64 .le o data).1.bind fun _ => (seek_good _ _).1
  · exact (Brk.field _ _).bind fun o => (write_good .u64 .be o data).1.bind fun _ => (seek_good _ _).1

theorem readNext_brk (k : UKind) (e : Endian) (n : Int64) : Brk false false (Buffer.ReadNext k e n) := by
  cases k <;> cases e
  · exact (Brk.field _ _).bind fun o => (read_good .u16 .le o n).1.bind fun _ => (seek_good _ _).1.bind fun _ => Brk.ret _ _
  · exact (Brk.field _ _).bind fun o => (read_good .u16 .be o n).1.bind fun _ => (seek_good _ _).1.bind fun _ => Brk.ret _ _
  · exact (Brk.field _ _).bind fun o => (read_good .u32 .le o n).1.bind fun _ => (seek_good _ _).1.bind fun _ => Brk.ret _ _
  · exact (Brk.field _ _).bind fun o => (read_good .u32 .be o n).1.bind fun _ => (seek_good _ _).1.bind fun _ => Brk.ret _ _
  · exact (Brk.field _ _).bind fun o => (read_good .u64 .le o n).1.bind fun _ => (seek_good _ _).1.bind fun _ => Brk.ret _ _
  · exact (Brk.field _ _).bind fun o => (read_good .u64 .be o n).1.bind fun _ => (seek_good _ _).1.bind fun _ => Brk.ret _ _

theorem readbits_brk (off n : Int64) : Brk false false (Buffer.readbits off n) :=
  Brk.doLoop (fun _ _ => (readbit_good _).1.bind fun _ => Brk.ret _ _) _ _ _
theorem setbits_brk (off : Int64) (d : UInt64) (n : Int64) : Brk false false (Buffer.setbits off d n) :=
  Brk.doLoop (fun _ _ => (setbit_good _ _).1) _ _ _

/-- Every method of v2 `Buffer` is bracketed. -/
theorem exec_brk (op : Op2) : Brk false false (exec op) := by
  cases op with
  | write k e p d =>
    cases p with
    | none => exact Brk.map (writeNext_brk k e d) _
    | some o => exact Brk.map (write_good k e o d).1 _
  | read k e p n =>
    cases p with
    | none => exact Brk.map (readNext_brk k e n) _
    | some o => exact Brk.map (read_good k e o n).1 _
  | writeBytes p s =>
    cases p with
    | none => exact Brk.map ((Brk.field _ _).bind fun _ => (writeSrc_good _ _).1.bind fun _ => (seek_good _ _).1) _
    | some o => exact Brk.map (writeSrc_good o _).1 _
  | writeByte p v =>
    cases p with
    | none => exact Brk.map ((Brk.field _ _).bind fun _ => (writeSrc_good _ _).1.bind fun _ => (seek_good _ _).1) _
    | some o => exact Brk.map (writeSrc_good o _).1 _
  | readBytes p n =>
    cases p with
    | none => exact Brk.map ((Brk.field _ _).bind fun _ => (readRaw_good _ _).1.bind fun _ => (seek_good _ _).1.bind fun _ => Brk.ret _ _) _
    | some o => exact Brk.map (readRaw_good o _).1 _
  | readByte p =>
    cases p with
    | none =>
      exact Brk.map ((Brk.field _ _).bind fun _ => (readRaw_good _ _).1.bind fun _ => (Brk.loadAt _ _ _).bind fun _ =>
        (seek_good _ _).1.bind fun _ => Brk.ret _ _) _
    | some o => exact Brk.map ((readRaw_good o _).1.bind fun _ => Brk.loadAt _ _ _) _
  | readBit p =>
    cases p with
    | none => exact Brk.map ((Brk.field _ _).bind fun _ => (readbit_good _).1.bind fun _ => (seekbit_good _ _).1.bind fun _ => Brk.ret _ _) _
    | some o => exact Brk.map (readbit_good o).1 _
  | readBits p n =>
    cases p with
    | none => exact Brk.map ((Brk.field _ _).bind fun _ => (readbits_brk _ _).bind fun _ => (seekbit_good _ _).1.bind fun _ => Brk.ret _ _) _
    | some o => exact Brk.map (readbits_brk o n) _
  | setBit p v =>
    cases p with
    | none => exact Brk.map ((Brk.field _ _).bind fun _ => (setbit_good _ _).1.bind fun _ => (seekbit_good _ _).1) _
    | some o => exact Brk.map (setbit_good o v).1 _
  | flipBit p =>
    cases p with
    | none => exact Brk.map ((Brk.field _ _).bind fun _ => (flipbit_good _).1.bind fun _ => (seekbit_good _ _).1) _
    | some o => exact Brk.map (flipbit_good o).1 _
  | setBits p d n =>
    cases p with
    | none => exact Brk.map ((Brk.field _ _).bind fun _ => (setbits_brk _ _ _).bind fun _ => (seekbit_good _ _).1) _
    | some o => exact Brk.map (setbits_brk o d n) _
  | clearAll => exact Brk.map clear_good.1 _
  | setAll => exact Brk.map setall_good.1 _
  | flipAll => exact Brk.map flipall_good.1 _
  | seek o r => exact Brk.map (seek_good o r).1 _
  | seekBit o r => exact Brk.map (seekbit_good o r).1 _
  | after o => cases o <;> exact Brk.map (by first | exact fun _ => rfl | exact fun _ _ => rfl) _
  | afterBit o => cases o <;> exact Brk.map (by first | exact fun _ => rfl | exact fun _ _ => rfl) _
  | alignByte => exact Brk.map alignbyte_good.1 _
  | alignBit => exact Brk.map alignbit_good.1 _
  | grow n => exact Brk.map (grow_brk n) _
  | refresh => exact Brk.map refresh_brk _
  | reset => exact Brk.map reset_brk _
  | bytes => exact fun _ => rfl
  | capacity => exact fun _ => rfl
  | bitCapacity => exact fun _ => rfl
  | offset => exact fun _ => rfl
  | bitOffset => exact fun _ => rfl

/-- Calls with one locked section that look at nothing but the capacities before it: positioned reads and writes,
single-bit operations, whole-buffer bit operations, seeks, aligns, and the constant observations. -/
def Atomic : Op2 → Prop
  | .write _ _ p _ => p.isSome = true
  | .read _ _ p _ => p.isSome = true
  | .writeBytes p _ => p.isSome = true
  | .writeByte p _ => p.isSome = true
  | .readBytes p _ => p.isSome = true
  | .readBit p => p.isSome = true
  | .setBit p _ => p.isSome = true
  | .flipBit p => p.isSome = true
  | .clearAll => True
  | .setAll => True
  | .flipAll => True
  | .seek .. => True
  | .seekBit .. => True
  | .alignByte => True
  | .alignBit => True
  | .after o => o ≠ []
  | .afterBit o => o ≠ []
  | .bytes => True
  | .capacity => True
  | .bitCapacity => True
  | _ => False

theorem exec_once (op : Op2) (h : Atomic op) : Once (exec op) := by
  cases op with
  | write k e p d =>
    cases p with
    | none => exact nomatch h
    | some o => exact Once.map (write_good k e o d).2 _
  | read k e p n =>
    cases p with
    | none => exact nomatch h
    | some o => exact Once.map (read_good k e o n).2 _
  | writeBytes p s =>
    cases p with
    | none => exact nomatch h
    | some o => exact Once.map (writeSrc_good o _).2 _
  | writeByte p v =>
    cases p with
    | none => exact nomatch h
    | some o => exact Once.map (writeSrc_good o _).2 _
  | readBytes p n =>
    cases p with
    | none => exact nomatch h
    | some o => exact Once.map (readRaw_good o _).2 _
  | readBit p =>
    cases p with
    | none => exact nomatch h
    | some o => exact Once.map (readbit_good o).2 _
  | setBit p v =>
    cases p with
    | none => exact nomatch h
    | some o => exact Once.map (setbit_good o v).2 _
  | flipBit p =>
    cases p with
    | none => exact nomatch h
    | some o => exact Once.map (flipbit_good o).2 _
  | clearAll => exact Once.map clear_good.2 _
  | setAll => exact Once.map setall_good.2 _
  | flipAll => exact Once.map flipall_good.2 _
  | seek o r => exact Once.map (seek_good o r).2 _
  | seekBit o r => exact Once.map (seekbit_good o r).2 _
  | after o =>
    cases o with
    | nil => exact absurd rfl h
    | cons x l => exact ⟨rfl, fun _ => trivial⟩
  | afterBit o =>
    cases o with
    | nil => exact absurd rfl h
    | cons x l => exact ⟨rfl, fun _ => trivial⟩
  | alignByte => exact Once.map alignbyte_good.2 _
  | alignBit => exact Once.map alignbit_good.2 _
  | bytes => exact fun _ => trivial
  | capacity => exact ⟨rfl, fun _ => trivial⟩
  | bitCapacity => exact ⟨rfl, fun _ => trivial⟩
  | _ => exact h.elim

end V2
end Crunch
