import Verif.Lemmas.Race
import Verif.Lemmas.V1Free

/-! Calls that touch the bytes of memory only inside their locked sections. -/

namespace Crunch

/-- Every access to a byte of memory happens while holding the lock; otherwise as `Brk`. -/
def Held : Bool → Bool → Prog α → Prop
  | b, e, .ret _ => b = e
  | _, _, .panic _ => True
  | b, e, .getI _ k => ∀ v, Held b e (k v)
  | b, e, .setI _ _ k => Held b e k
  | b, e, .getBuf k => ∀ s, Held b e (k s)
  | b, e, .setBuf _ k => Held b e k
  | b, e, .load _ _ k => b = true ∧ ∀ v, Held b e (k v)
  | b, e, .store _ _ _ k => b = true ∧ Held b e k
  | b, e, .append _ _ k => b = true ∧ ∀ s, Held b e (k s)
  | b, e, .alloc _ _ k => ∀ s, Held b e (k s)
  | _, e, .lock k => Held true e k
  | _, e, .unlock k => Held false e k

theorem Held.bind {p : Prog α} {f : α → Prog β} {b m e : Bool} (hp : Held b m p) (hf : ∀ a, Held m e (f a)) : Held b e (p.bind f) := by
  induction p generalizing b with
  | ret a => cases hp; exact hf a
  | panic q => trivial
  | getI x k ih => exact fun v => ih v (hp v)
  | setI x v k ih => exact ih hp
  | getBuf k ih => exact fun v => ih v (hp v)
  | setBuf t k ih => exact ih hp
  | load t i k ih => exact ⟨hp.1, fun v => ih v (hp.2 v)⟩
  | store t i v k ih => exact ⟨hp.1, ih hp.2⟩
  | append t x k ih => exact ⟨hp.1, fun v => ih v (hp.2 v)⟩
  | alloc a n k ih => exact fun v => ih v (hp v)
  | lock k ih => exact ih hp
  | unlock k ih => exact ih hp

theorem Sec.held {p : Prog α} (h : Sec p) (hb : Brk true false p) : Held true false p := by
  induction p with
  | ret a => exact h.elim
  | panic q => trivial
  | getI x k ih => exact fun v => ih v (h v) (hb v)
  | setI x v k ih => exact ih h.2 hb.2
  | getBuf k ih => exact fun v => ih v (h v) (hb v)
  | load t i k ih => exact ⟨rfl, fun v => ih v (h v) (hb v)⟩
  | store t i v k ih => exact ⟨rfl, ih h hb.2⟩
  | unlock k ih =>
    cases k with
    | ret a => exact rfl
    | panic q => trivial
    | _ => exact nomatch h
  | _ => exact h.elim

theorem Once.held {p : Prog α} (h : Once p) (hb : Brk false false p) : Held false false p := by
  induction p with
  | ret a => rfl
  | panic q => trivial
  | getI x k ih => exact fun v => ih v (h.2 v) (hb v)
  | getBuf k ih => exact fun v => ih v (h v) (hb v)
  | lock k ih => exact Sec.held h hb.2
  | _ => exact h.elim

theorem Held.ret (a : α) : Held false false (.ret a) := rfl
theorem Held.field (f : Field) : Held false false (Prog.field f) := fun _ => rfl

theorem Held.doLoop {body : Int64 → α → Prog α} (h : ∀ i a, Held false false (body i a)) (n i : Int64) (a : α) :
    Held false false (Prog.doLoop body n i a) := by
  fun_induction Prog.doLoop body n i a with
  | case1 i a ih =>
    refine (h i a).bind fun a' => ?_
    split
    · rename_i hh
      exact ih a' hh
    · rfl

theorem Held.forLoop {body : Int64 → α → Prog α} (h : ∀ i a, Held false false (body i a)) (n i : Int64) (a : α) :
    Held false false (Prog.forLoop body n i a) := by
  fun_induction Prog.forLoop body n i a with
  | case1 i a hi ih => exact (h i a).bind ih
  | case2 i a hi => rfl

theorem Silent.held {p : Prog α} (hp : Silent p) : Held false false p := by
  cases p with
  | ret a => rfl
  | panic q => trivial
  | _ => exact hp.elim

/-- What is left of a call agrees with where the goroutine is. -/
theorem exec_held_thr {ex : O → Prog V} {allowed : O → Prop} {c0 c : Conf O V} {τ : Trace O V}
    (hex : ∀ op, allowed op → Brk false false (ex op) ∧ Held false false (ex op)) (q : Quiet c0) (e : Exec ex allowed c0 τ c)
    {i : Nat} {op : O} {p : Prog V} (hi : c.thr i = .busy op p) : Held (inside τ i) false p ∨ inside τ i = true ∧ Held false false p := by
  induction e generalizing i op p with
  | nil => rw [q.idle i] at hi; exact nomatch hi
  | @snoc τ c c' j a e0 st ih =>
    rw [inside_snoc]
    cases st with
    | start op' hj ho =>
      simp only [enter, ite_self]
      rw [set_thr] at hi
      split at hi
      · cases hi
        cases hin : inside τ i with
        | false => exact .inl (hex _ ho).2
        | true => exact .inr ⟨rfl, (hex _ ho).2⟩
      · exact ih hi
    | finish hj hr =>
      simp only [enter, ite_self]
      rw [set_thr] at hi
      split at hi
      · exact nomatch hi
      · exact ih hi
    | @did op' p0 p' ev sh hj hs =>
      rw [set_thr] at hi
      split at hi
      · rename_i e'; subst e'
        cases hi
        simp only [enter, if_pos]
        have old := ih hj
        cases p0 with
        | ret a => exact nomatch hs
        | panic q => exact nomatch hs
        | getI x k => cases hs; exact old.imp (fun h => h _) fun h => ⟨h.1, h.2 _⟩
        | setI x v k => cases hs; exact old
        | getBuf k => cases hs; exact old.imp (fun h => h _) fun h => ⟨h.1, h.2 _⟩
        | setBuf t k => cases hs; exact old
        | load t i k => cases hs; exact old.imp (fun h => h.2 _) fun h => ⟨h.1, h.2.2 _⟩
        | store t i v k => cases hs; exact old.imp (fun h => h.2) fun h => ⟨h.1, h.2.2⟩
        | append t x k => cases hs; exact old.imp (fun h => h.2 _) fun h => ⟨h.1, h.2.2 _⟩
        | alloc a n k => cases hs; exact old.imp (fun h => h _) fun h => ⟨h.1, h.2 _⟩
        | lock k =>
          change (if c.sh.locked = true then none else some (Event.lock, k, (⟨c.sh.st, true⟩ : Sh))) = _ at hs
          split at hs
          · exact nomatch hs
          · cases hs; exact .inl (old.elim id fun h => h.2)
        | unlock k => cases hs; exact .inl (old.elim id fun h => h.2)
      · rename_i hne
        simp only [enter, if_neg (Ne.symm hne)]
        exact ih hi

/-- Whoever is about to touch a byte of memory is inside. -/
theorem shared_byte_inside {ex : O → Prog V} {allowed : O → Prop} {c0 c : Conf O V} {τ : Trace O V}
    (hex : ∀ op, allowed op → Brk false false (ex op) ∧ Held false false (ex op)) (q : Quiet c0) (e : Exec ex allowed c0 τ c)
    {i arr n : Nat} (h : c.aboutToWrite i (.byte arr n) ∨ c.aboutToRead i (.byte arr n)) : inside τ i = true := by
  have key : ∀ op p, c.thr i = .busy op p → (p.writes c.sh (.byte arr n) ∨ p.reads c.sh (.byte arr n)) → inside τ i = true := by
    intro op p hi ha
    rcases exec_held_thr hex q e hi with h | h
    · cases p with
      | load t i k => exact h.1
      | store t i v k => exact h.1
      | append t x k => exact h.1
      | setI f v k => rcases ha with ha | ha <;> exact nomatch ha
      | getI f k => rcases ha with ha | ha <;> exact nomatch ha
      | getBuf k => rcases ha with ha | ha <;> exact nomatch ha
      | setBuf t k => rcases ha with ha | ha <;> exact nomatch ha
      | _ => rcases ha with ha | ha <;> exact ha.elim
    · exact h.1
  rcases h with ⟨op, p, hi, ha⟩ | ⟨op, p, hi, ha⟩
  · exact key op p hi (.inl ha)
  · exact key op p hi (.inr ha)

theorem shared_no_byte_race {ex : O → Prog V} {allowed : O → Prop} {c0 c : Conf O V} {τ : Trace O V}
    (hex : ∀ op, allowed op → Brk false false (ex op) ∧ Held false false (ex op)) (q : Quiet c0) (e : Exec ex allowed c0 τ c)
    (arr n : Nat) : ¬ c.Race (.byte arr n) := by
  rintro ⟨i, j, hne, hi, hj⟩
  obtain ⟨k, a, v⟩ := exec_inv (fun op h => (hex op h).1) q e
  have h1 := shared_byte_inside hex q e (.inl hi)
  have h2 := shared_byte_inside hex q e hj
  rw [v.hold, decide_eq_true_eq] at h1 h2
  exact hne (Option.some.inj (h1.symm.trans h2))

namespace V2
open Spec
open V3 (Val)

theorem Held.map {p : Prog α} (h : Held false false p) (f : α → Val) : Held false false (wrapVal f p) := h.bind fun _ => rfl
theorem Good.held {p : Prog α} (h : Good p) : Held false false p := h.once.held h.brk

theorem seek_held (off : Int64) (r : Bool) : Held false false (Buffer.seek off r) := (seek_good off r).2.held (seek_good off r).1
theorem seekbit_held (off : Int64) (r : Bool) : Held false false (Buffer.seekbit off r) := (seekbit_good off r).2.held (seekbit_good off r).1
theorem alignbit_held : Held false false Buffer.alignbit := alignbit_good.2.held alignbit_good.1
theorem alignbyte_held : Held false false Buffer.alignbyte := alignbyte_good.2.held alignbyte_good.1
theorem refresh_held : Held false false Buffer.refresh := fun _ _ => rfl
theorem reset_held : Held false false Buffer.reset := fun _ => rfl

theorem grow_held (n : Int64) : Held false false (Buffer.grow n) := by
  intro s
  refine Held.bind (m := true) rfl fun s => Held.bind (m := true) ?_ fun z => Held.bind (m := true) ?_ fun r => refresh_held
  · unfold Prog.makeZero; split
    · trivial
    · rfl
  · unfold Prog.appendTo; split
    · exact ⟨rfl, fun _ => rfl⟩
    · trivial

theorem readbits_held (off n : Int64) : Held false false (Buffer.readbits off n) :=
  Held.doLoop (fun _ _ => (readbit_good _).held.bind fun _ => Held.ret _) _ _ _
theorem setbits_held (off : Int64) (d : UInt64) (n : Int64) : Held false false (Buffer.setbits off d n) :=
  Held.doLoop (fun _ _ => (setbit_good _ _).held) _ _ _

theorem writeNext_held (k : UKind) (e : Endian) (data : List k.kind.Ty) : Held false false (Buffer.WriteNext k e data) := by
  cases k <;> cases e
  · exact (Held.field _).bind fun o => (write_good .u16 .le o data).held.bind fun _ => (seek_held _ _)
  · exact (Held.field _).bind fun o => (write_good .u16 .be o data).held.bind fun _ => (seek_held _ _)
  · exact (Held.field _).bind fun o => (write_good .u32 .le o data).held.bind fun _ => (seek_held _ _)
  · exact (Held.field _).bind fun o => (write_good .u32 .be o data).held.bind fun _ => (seek_held _ _)
  · exact (Held.field _).bind fun o => (write_good .u64 .le o data).held.bind fun _ => (seek_held _ _)
  · exact (Held.field _).bind fun o => (write_good .u64 .be o data).held.bind fun _ => (seek_held _ _)

theorem readNext_held (k : UKind) (e : Endian) (n : Int64) : Held false false (Buffer.ReadNext k e n) := by
  cases k <;> cases e
  · exact (Held.field _).bind fun o => (read_good .u16 .le o n).held.bind fun _ => (seek_held _ _).bind fun _ => Held.ret _
  · exact (Held.field _).bind fun o => (read_good .u16 .be o n).held.bind fun _ => (seek_held _ _).bind fun _ => Held.ret _
  · exact (Held.field _).bind fun o => (read_good .u32 .le o n).held.bind fun _ => (seek_held _ _).bind fun _ => Held.ret _
  · exact (Held.field _).bind fun o => (read_good .u32 .be o n).held.bind fun _ => (seek_held _ _).bind fun _ => Held.ret _
  · exact (Held.field _).bind fun o => (read_good .u64 .le o n).held.bind fun _ => (seek_held _ _).bind fun _ => Held.ret _
  · exact (Held.field _).bind fun o => (read_good .u64 .be o n).held.bind fun _ => (seek_held _ _).bind fun _ => Held.ret _

theorem exec_held (op : Op2) (h : ∀ p, op ≠ .readByte p) : Held false false (exec op) := by
  cases op with
  | write k e p d =>
    cases p with
    | none => exact Held.map (writeNext_held k e d) _
    | some o => exact Held.map (write_good k e o d).held _
  | read k e p n =>
    cases p with
    | none => exact Held.map (readNext_held k e n) _
    | some o => exact Held.map (read_good k e o n).held _
  | writeBytes p s =>
    cases p with
    | none => exact Held.map ((Held.field _).bind fun _ => (writeSrc_good _ _).held.bind fun _ => (seek_held _ _)) _
    | some o => exact Held.map (writeSrc_good o _).held _
  | writeByte p v =>
    cases p with
    | none => exact Held.map ((Held.field _).bind fun _ => (writeSrc_good _ _).held.bind fun _ => (seek_held _ _)) _
    | some o => exact Held.map (writeSrc_good o _).held _
  | readBytes p n =>
    cases p with
    | none => exact Held.map ((Held.field _).bind fun _ => (readRaw_good _ _).held.bind fun _ => (seek_held _ _).bind fun _ => Held.ret _) _
    | some o => exact Held.map (readRaw_good o _).held _
  | readByte p => exact absurd rfl (h p)
  | readBit p =>
    cases p with
    | none => exact Held.map ((Held.field _).bind fun _ => (readbit_good _).held.bind fun _ => (seekbit_held _ _).bind fun _ => Held.ret _) _
    | some o => exact Held.map (readbit_good o).held _
  | readBits p n =>
    cases p with
    | none => exact Held.map ((Held.field _).bind fun _ => (readbits_held _ _).bind fun _ => (seekbit_held _ _).bind fun _ => Held.ret _) _
    | some o => exact Held.map (readbits_held o n) _
  | setBit p v =>
    cases p with
    | none => exact Held.map ((Held.field _).bind fun _ => (setbit_good _ _).held.bind fun _ => (seekbit_held _ _)) _
    | some o => exact Held.map (setbit_good o v).held _
  | flipBit p =>
    cases p with
    | none => exact Held.map ((Held.field _).bind fun _ => (flipbit_good _).held.bind fun _ => (seekbit_held _ _)) _
    | some o => exact Held.map (flipbit_good o).held _
  | setBits p d n =>
    cases p with
    | none => exact Held.map ((Held.field _).bind fun _ => (setbits_held _ _ _).bind fun _ => (seekbit_held _ _)) _
    | some o => exact Held.map (setbits_held o d n) _
  | clearAll => exact Held.map clear_good.held _
  | setAll => exact Held.map setall_good.held _
  | flipAll => exact Held.map flipall_good.held _
  | seek o r => exact Held.map (seek_held o r) _
  | seekBit o r => exact Held.map (seekbit_held o r) _
  | after o => cases o <;> exact Held.map (by first | exact fun _ => rfl | exact fun _ _ => rfl) _
  | afterBit o => cases o <;> exact Held.map (by first | exact fun _ => rfl | exact fun _ _ => rfl) _
  | alignByte => exact Held.map alignbyte_held _
  | alignBit => exact Held.map alignbit_held _
  | grow n => exact Held.map (grow_held n) _
  | refresh => exact Held.map refresh_held _
  | reset => exact Held.map reset_held _
  | bytes => exact fun _ => rfl
  | capacity => exact fun _ => rfl
  | bitCapacity => exact fun _ => rfl
  | offset => exact fun _ => rfl
  | bitOffset => exact fun _ => rfl

end V2

namespace V1
open V3 (Val)

/-- The calls that load bytes after releasing the mutex. -/
def loadsLater : Op1 → Bool
  | .readByte _ => true
  | .readComplex _ _ w _ => w != Unsigned8
  | _ => false

theorem readComplex_held (off n : Int64) (o : ByteOrder) : Held false false (Buffer.readComplex off n Unsigned8 o) :=
  (V2.readRaw_good off n).held.bind fun _ => Held.ret _

theorem held_wrap {p : Prog α} (h : Held false false p) (f : α → Val) : Held false false (wrap1 f p) := h.bind fun _ => rfl

theorem readbits_held (off n : Int64) : Held false false (Buffer.readbits off n) :=
  Held.forLoop (fun _ _ => (V2.readbit_good _).held.bind fun _ => Held.ret _) _ _ _
theorem setbits_held (off : Int64) (d : UInt64) (n : Int64) : Held false false (Buffer.setbits off d n) :=
  Held.forLoop (fun _ _ => (V2.setbit_good _ _).held) _ _ _

theorem writeComplexNext_held (d : Any) (size : Int64) (o : ByteOrder) : Held false false (Buffer.WriteComplexNext d size o) := by
  refine (Held.field _).bind fun off => (writeComplex_good off d size o).held.bind fun _ => ?_
  split
  · exact (silent_toBytes d).held.bind fun _ => V2.seek_held _ _
  · split
    · exact (silent_toU16 d).held.bind fun _ => V2.seek_held _ _
    · split
      · exact (silent_toU32 d).held.bind fun _ => V2.seek_held _ _
      · split
        · exact (silent_toU64 d).held.bind fun _ => V2.seek_held _ _
        · exact Held.ret _

theorem loads_v2 (op : Op1) (op2 : V2.Op2) (h : toV2 op = some op2) (hl : loadsLater op = false) : ∀ p, op2 ≠ .readByte p := by
  intro p e
  cases op <;> cases h <;> cases e <;> cases hl

theorem exec1_held (op : Op1) (hl : loadsLater op = false) : Held false false (exec1 op) := by
  cases hs : Shared op with
  | true =>
    cases h : toV2 op with
    | some op2 =>
      rw [exec1_v2 op op2 h hs]
      exact (V2.exec_held op2 (loads_v2 op op2 h hl)).bind fun _ => rfl
    | none => cases op <;> simp [toV2, Shared] at h hs
  | false =>
    cases op with
    | writeComplex p d w e =>
      cases p with
      | some o => exact held_wrap (writeComplex_good o d w e).held _
      | none => exact held_wrap (writeComplexNext_held d w e) _
    | readComplex p n w e =>
      have hw : w = Unsigned8 := by simpa [loadsLater] using hl
      subst hw
      cases p with
      | some o => exact (readComplex_held o n e).bind fun _ => rfl
      | none =>
        exact Held.bind ((Held.field _).bind fun o => (readComplex_held o n e).bind fun _ => (V2.seek_held _ _).bind fun _ =>
          Held.ret _) fun _ => rfl
    | readBits p n =>
      cases p with
      | some o => exact held_wrap (readbits_held o n) _
      | none => exact held_wrap ((Held.field _).bind fun _ => (readbits_held _ _).bind fun _ => (V2.seekbit_held _ _).bind fun _ => Held.ret _) _
    | setBits p d n =>
      cases p with
      | some o => exact held_wrap (setbits_held o d n) _
      | none => exact held_wrap ((Held.field _).bind fun _ => (setbits_held _ _ _).bind fun _ => V2.seekbit_held _ _) _
    | clearAll => exact held_wrap clear_good.held _
    | setAll => exact held_wrap setall_good.held _
    | flipAll => exact held_wrap flipall_good.held _
    | _ => exact nomatch hs

end V1
end Crunch
