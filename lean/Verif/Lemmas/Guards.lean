import Verif.Guards
import Verif.Lemmas.Happens
import Verif.Lemmas.HeldOps

/-! What the calls read outside their sections, and what they change. -/

namespace Crunch

/-- Outside the sections only what is in `R` is read, and only what is in `W` is changed; otherwise as `Brk`. -/
def Acc (R W : Part → Bool) : Bool → Bool → Prog α → Prop
  | b, e, .ret _ => b = e
  | _, _, .panic _ => True
  | b, e, .getI f k => (b = false → R (.field f) = true) ∧ ∀ v, Acc R W b e (k v)
  | b, e, .setI f _ k => W (.field f) = true ∧ Acc R W b e k
  | b, e, .getBuf k => (b = false → R .header = true) ∧ ∀ s, Acc R W b e (k s)
  | b, e, .setBuf _ k => W .header = true ∧ Acc R W b e k
  | b, e, .load _ _ k => (b = false → R .bytes = true) ∧ ∀ v, Acc R W b e (k v)
  | b, e, .store _ _ _ k => W .bytes = true ∧ Acc R W b e k
  | b, e, .append _ _ k => b = true ∧ W .bytes = true ∧ ∀ s, Acc R W b e (k s)
  | b, e, .alloc _ _ k => ∀ s, Acc R W b e (k s)
  | _, e, .lock k => Acc R W true e k
  | _, e, .unlock k => Acc R W false e k

variable {R W : Part → Bool} {b m e : Bool}

theorem Acc.bind {p : Prog α} {f : α → Prog β} (hp : Acc R W b m p) (hf : ∀ a, Acc R W m e (f a)) : Acc R W b e (p.bind f) := by
  induction p generalizing b with
  | ret a => cases hp; exact hf a
  | panic q => trivial
  | getI x k ih => exact ⟨hp.1, fun v => ih v (hp.2 v)⟩
  | setI x v k ih => exact ⟨hp.1, ih hp.2⟩
  | getBuf k ih => exact ⟨hp.1, fun v => ih v (hp.2 v)⟩
  | setBuf t k ih => exact ⟨hp.1, ih hp.2⟩
  | load t i k ih => exact ⟨hp.1, fun v => ih v (hp.2 v)⟩
  | store t i v k ih => exact ⟨hp.1, ih hp.2⟩
  | append t x k ih => exact ⟨hp.1, hp.2.1, fun v => ih v (hp.2.2 v)⟩
  | alloc a n k ih => exact fun v => ih v (hp v)
  | lock k ih => exact ih hp
  | unlock k ih => exact ih hp

theorem Acc.bind' {p : Prog α} {f : α → Prog β} (hp : Acc R W b m p) (hf : ∀ a, Acc R W m e (f a)) : Acc R W b e (p >>= f) := hp.bind hf

theorem Acc.deferUnlock {p : Prog α} (hp : Acc R W b true p) : Acc R W b false p.deferUnlock := by
  induction p generalizing b with
  | ret a => exact rfl
  | panic q => trivial
  | getI x k ih => exact ⟨hp.1, fun v => ih v (hp.2 v)⟩
  | setI x v k ih => exact ⟨hp.1, ih hp.2⟩
  | getBuf k ih => exact ⟨hp.1, fun v => ih v (hp.2 v)⟩
  | setBuf t k ih => exact ⟨hp.1, ih hp.2⟩
  | load t i k ih => exact ⟨hp.1, fun v => ih v (hp.2 v)⟩
  | store t i v k ih => exact ⟨hp.1, ih hp.2⟩
  | append t x k ih => exact ⟨hp.1, hp.2.1, fun v => ih v (hp.2.2 v)⟩
  | alloc a n k ih => exact fun v => ih v (hp v)
  | lock k ih => exact ih hp
  | unlock k ih => exact ih hp

theorem Acc.locked {p : Prog α} (hp : Acc R W true true p) : Acc R W b false (Prog.locked p) := Acc.deferUnlock hp

theorem Acc.ret (a : α) : Acc R W b b (.ret a) := rfl
theorem Acc.field {f : Field} (h : b = false → R (.field f) = true) : Acc R W b b (Prog.field f) := ⟨h, fun _ => rfl⟩
theorem Acc.buf (h : b = false → R .header = true) : Acc R W b b Prog.buf := ⟨h, fun _ => rfl⟩
theorem Acc.assign {f : Field} {v : Int64} (h : W (.field f) = true) : Acc R W b b (Prog.assign f v) := ⟨h, rfl⟩
theorem Acc.assignBuf {s : Slice} (h : W .header = true) : Acc R W b b (Prog.assignBuf s) := ⟨h, rfl⟩
theorem Acc.panicIf (c : Prop) [Decidable c] (q : Panic) : Acc R W b b (Prog.panicIf c q) := by
  unfold Prog.panicIf; split
  · trivial
  · rfl
theorem Acc.loadAt (s : Slice) (i : Int64) (h : b = false → R .bytes = true) : Acc R W b b (Prog.loadAt s i) := by
  unfold Prog.loadAt; split
  · exact ⟨h, fun _ => rfl⟩
  · trivial
theorem Acc.bufLoad (i : Int64) : Acc R W true true (Prog.bufLoad i) := ⟨nofun, fun _ => Acc.loadAt _ _ nofun⟩
theorem Acc.bufStore (i : Int64) (v : UInt8) (h : W .bytes = true) : Acc R W true true (Prog.bufStore i v) :=
  ⟨nofun, fun s => by
    show Acc R W true true (Prog.storeAt s i v)
    unfold Prog.storeAt; split
    · exact ⟨h, rfl⟩
    · trivial⟩

theorem Acc.of_silent {p : Prog α} (hp : Silent p) : Acc R W b b p := by
  cases p with
  | ret a => rfl
  | panic q => trivial
  | _ => exact hp.elim

theorem Acc.srcAt (x : Src) (i : Int64) : Acc R W true true (Prog.srcAt x i) := by
  cases x with
  | mem s => exact Acc.loadAt _ _ nofun
  | lit bs =>
    unfold Prog.srcAt
    dsimp only
    split
    · rfl
    · trivial

theorem Acc.doLoop {body : Int64 → α → Prog α} (h : ∀ i a, Acc R W b b (body i a)) (n i : Int64) (a : α) : Acc R W b b (Prog.doLoop body n i a) := by
  fun_induction Prog.doLoop body n i a with
  | case1 i a ih =>
    refine (h i a).bind fun a' => ?_
    split
    · rename_i hh
      exact ih a' hh
    · rfl

theorem Acc.forLoop {body : Int64 → α → Prog α} (h : ∀ i a, Acc R W b b (body i a)) (n i : Int64) (a : α) : Acc R W b b (Prog.forLoop body n i a) := by
  fun_induction Prog.forLoop body n i a with
  | case1 i a hi ih => exact (h i a).bind ih
  | case2 i a hi => rfl

theorem Acc.write_shape (hr : R (.field .cap) = true) (c : Int64 → Prop) [DecidablePred c] (d : Prop) [Decidable d] {q q' : Panic}
    {body : Int64 → Unit → Prog Unit} (n : Int64) (hb : ∀ i a, Acc R W true true (body i a)) :
    Acc R W false false ((Prog.field .cap).bind fun cap => (Prog.panicIf (c cap) q).bind fun _ =>
        (Prog.panicIf d q').bind fun _ => Prog.Lock.bind fun _ => (Prog.doLoop body n 0 ()).bind fun _ => Prog.Unlock) :=
  (Acc.field fun _ => hr).bind fun _ => (Acc.panicIf _ _).bind fun _ => (Acc.panicIf _ _).bind fun _ =>
    Acc.bind (m := true) rfl fun _ => (Acc.doLoop hb _ _ _).bind fun _ => (rfl : false = false)

theorem Acc.read_shape (hr : R (.field .cap) = true) (c : Int64 → Prop) [DecidablePred c] (d : Prop) [Decidable d] {q q' : Panic} {z : α} (w : Nat)
    {body : Int64 → List α → Prog (List α)} (n : Int64) (hb : ∀ i a, Acc R W true true (body i a)) :
    Acc R W false false ((Prog.field .cap).bind fun cap => (Prog.panicIf (c cap) q).bind fun _ =>
        (Prog.panicIf d q').bind fun _ => (Prog.makeTyped w z n).bind fun out => Prog.locked (Prog.doLoop body n 0 out)) :=
  (Acc.field fun _ => hr).bind fun _ => (Acc.panicIf _ _).bind fun _ => (Acc.panicIf _ _).bind fun _ =>
    (Acc.of_silent (silent_makeTyped _ _ _)).bind fun _ => (Acc.doLoop hb _ _ _).locked

theorem Acc.guard_shape {f : Field} (hr : R (.field f) = true) (c : Int64 → Prop) [DecidablePred c] (d : Prop) [Decidable d] {q q' : Panic}
    {body : Prog α} (hb : Acc R W true true body) :
    Acc R W false false ((Prog.field f).bind fun x => (Prog.panicIf (c x) q).bind fun _ => (Prog.panicIf d q').bind fun _ => Prog.locked body) :=
  (Acc.field fun _ => hr).bind fun _ => (Acc.panicIf _ _).bind fun _ => (Acc.panicIf _ _).bind fun _ => hb.locked

/-- What is left of a call agrees with where the goroutine is. -/
theorem exec_acc_thr {ex : O → Prog V} {allowed : O → Prop} {R W : O → Part → Bool} {c0 c : Conf O V} {τ : Trace O V}
    (hex : ∀ op, allowed op → Acc (R op) (W op) false false (ex op)) (q : Quiet c0) (e : Exec ex allowed c0 τ c)
    {i : Nat} {op : O} {p : Prog V} (hi : c.thr i = .busy op p) : op ∈ started i τ ∧
      (Acc (R op) (W op) (inside τ i) false p ∨ inside τ i = true ∧ Acc (R op) (W op) false false p) := by
  induction e generalizing i op p with
  | nil => rw [q.idle i] at hi; exact nomatch hi
  | @snoc τ c c' j a e0 st ih =>
    rw [inside_snoc, started_snoc]
    cases st with
    | start op' hj ho =>
      simp only [enter, ite_self]
      rw [set_thr] at hi
      split at hi
      · rename_i e'; subst e'
        cases hi
        refine ⟨List.mem_append_right _ (by simp [started]), ?_⟩
        cases hin : inside τ i with
        | false => exact .inl (hex _ ho)
        | true => exact .inr ⟨rfl, hex _ ho⟩
      · exact ⟨List.mem_append_left _ (ih hi).1, (ih hi).2⟩
    | finish hj hr =>
      simp only [enter, ite_self]
      rw [set_thr] at hi
      split at hi
      · exact nomatch hi
      · exact ⟨List.mem_append_left _ (ih hi).1, (ih hi).2⟩
    | @did op' p0 p' ev sh hj hs =>
      rw [set_thr] at hi
      split at hi
      · rename_i e'; subst e'
        cases hi
        refine ⟨List.mem_append_left _ (ih hj).1, ?_⟩
        simp only [enter, if_pos]
        have old := (ih hj).2
        cases p0 with
        | ret a => exact nomatch hs
        | panic q => exact nomatch hs
        | getI x k => cases hs; exact old.imp (fun h => h.2 _) fun h => ⟨h.1, h.2.2 _⟩
        | setI x v k => cases hs; exact old.imp (fun h => h.2) fun h => ⟨h.1, h.2.2⟩
        | getBuf k => cases hs; exact old.imp (fun h => h.2 _) fun h => ⟨h.1, h.2.2 _⟩
        | setBuf t k => cases hs; exact old.imp (fun h => h.2) fun h => ⟨h.1, h.2.2⟩
        | load t i k => cases hs; exact old.imp (fun h => h.2 _) fun h => ⟨h.1, h.2.2 _⟩
        | store t i v k => cases hs; exact old.imp (fun h => h.2) fun h => ⟨h.1, h.2.2⟩
        | append t x k => cases hs; exact old.imp (fun h => h.2.2 _) fun h => ⟨h.1, h.2.2.2 _⟩
        | alloc a n k => cases hs; exact old.imp (fun h => h _) fun h => ⟨h.1, h.2 _⟩
        | lock k =>
          change (if c.sh.locked = true then none else some (Event.lock, k, (⟨c.sh.st, true⟩ : Sh))) = _ at hs
          split at hs
          · exact nomatch hs
          · cases hs; exact .inl (old.elim id fun h => h.2)
        | unlock k => cases hs; exact .inl (old.elim id fun h => h.2)
      · rename_i hne
        simp only [enter, if_neg (Ne.symm hne)]
        exact ⟨List.mem_append_left _ (ih hi).1, (ih hi).2⟩

theorem Acc.reads {p : Prog α} (h : Acc R W false e p) {s : Sh} {l : Loc} (hr : p.reads s l) : R l.part = true := by
  cases p with
  | getI f k => cases hr; exact h.1 rfl
  | getBuf k => cases hr; exact h.1 rfl
  | load t i k => cases hr; exact h.1 rfl
  | append t x k => exact nomatch h.1
  | _ => exact hr.elim

theorem Acc.writes {p : Prog α} (h : Acc R W b e p) {s : Sh} {l : Loc} (hw : p.writes s l) : W l.part = true := by
  cases p with
  | setI f v k => cases hw; exact h.1
  | setBuf t k => cases hw; exact h.1
  | store t i v k => cases hw; exact h.1
  | append t x k => obtain ⟨_, i, _, rfl⟩ := hw; exact h.2.1
  | _ => exact hw.elim

theorem mem_started_take {τ : Trace O V} {n i : Nat} {op : O} (h : op ∈ started i (τ.take n)) : op ∈ started i τ := by
  induction τ generalizing n with
  | nil => rw [List.take_nil] at h; exact h
  | cons x τ ih =>
    cases n with
    | zero => exact nomatch h
    | succ n =>
      obtain ⟨j, a⟩ := x
      cases a with
      | start o =>
        simp only [List.take_succ_cons, started] at h ⊢
        split
        · rename_i hj
          rw [if_pos hj] at h
          rcases List.mem_cons.mp h with rfl | h
          · exact List.mem_cons_self
          · exact List.mem_cons_of_mem _ (ih h)
        · rename_i hj
          rw [if_neg hj] at h
          exact ih h
      | did ev p => exact ih (n := n) h
      | finish o r => exact ih (n := n) h

/-- A data race is about something the one call changes and the other one reads outside its section. -/
theorem race_table {ex : O → Prog V} {allowed : O → Prop} {R W : O → Part → Bool} {c0 c : Conf O V} {τ : Trace O V}
    (hex : ∀ op, allowed op → Brk false false (ex op) ∧ Acc (R op) (W op) false false (ex op)) (q : Quiet c0) (e : Exec ex allowed c0 τ c)
    {i j : Nat} {op op' : O} {l : Loc} (h : DataRace ex allowed c0 τ i j op op' l) :
    op ∈ started i τ ∧ op' ∈ started j τ ∧ W op l.part = true ∧ R op' l.part = true := by
  obtain ⟨m, n, ⟨c1, _, p, _, _, e1, h1, hw, _⟩, ⟨c2, _, r, _, _, e2, h2, hr, _⟩, _, ho⟩ := race_outside (fun op h => (hex op h).1) q e h
  obtain ⟨s1, a1⟩ := exec_acc_thr (fun op h => (hex op h).2) q e1 h1
  obtain ⟨s2, a2⟩ := exec_acc_thr (fun op h => (hex op h).2) q e2 h2
  refine ⟨mem_started_take s1, mem_started_take s2, a1.elim (·.writes hw) (·.2.writes hw), ?_⟩
  rw [ho] at a2
  exact a2.elim (·.reads hr) (·.2.reads hr)

/-! ## the methods of v2 `Buffer` -/

namespace V2
open Spec
open V3 (Val)

theorem Acc.map {p : Prog α} (h : Acc R W false false p) (f : α → Val) : Acc R W false false (wrapVal f p) := h.bind fun _ => rfl

macro "w_acc" : tactic => `(tactic| (
  intro i a
  repeat' (first
    | with_reducible exact Acc.of_silent (silent_idx _ _)
    | with_reducible exact Acc.bufStore _ _ (by assumption)
    | with_reducible refine Acc.bind' (m := true) ?_ fun _ => ?_)))
macro "r_acc" : tactic => `(tactic| (
  intro i a
  repeat' (first
    | with_reducible exact Acc.of_silent (silent_setIdx _ _ _)
    | with_reducible exact Acc.bufLoad _
    | with_reducible refine Acc.bind' (m := true) ?_ fun _ => ?_)))

theorem write_acc (hr : R (.field .cap) = true) (hw : W .bytes = true) (k : UKind) (e : Endian) (off : Int64) (data : List k.kind.Ty) :
    Acc R W false false (Buffer.Write k e off data) := by
  cases k <;> cases e
  · exact Acc.write_shape hr (fun cap => off + len data * 2 > cap) _ _ (by w_acc)
  · exact Acc.write_shape hr (fun cap => off + len data * 2 > cap) _ _ (by w_acc)
  · exact Acc.write_shape hr (fun cap => off + len data * 4 > cap) _ _ (by w_acc)
  · exact Acc.write_shape hr (fun cap => off + len data * 4 > cap) _ _ (by w_acc)
  · exact Acc.write_shape hr (fun cap => off + len data * 8 > cap) _ _ (by w_acc)
  · exact Acc.write_shape hr (fun cap => off + len data * 8 > cap) _ _ (by w_acc)

theorem read_acc (hr : R (.field .cap) = true) (k : UKind) (e : Endian) (off n : Int64) : Acc R W false false (Buffer.Read k e off n) := by
  cases k <;> cases e
  · exact Acc.read_shape hr (fun cap => off + n * 2 > cap) _ _ _ (by r_acc)
  · exact Acc.read_shape hr (fun cap => off + n * 2 > cap) _ _ _ (by r_acc)
  · exact Acc.read_shape hr (fun cap => off + n * 4 > cap) _ _ _ (by r_acc)
  · exact Acc.read_shape hr (fun cap => off + n * 4 > cap) _ _ _ (by r_acc)
  · exact Acc.read_shape hr (fun cap => off + n * 8 > cap) _ _ _ (by r_acc)
  · exact Acc.read_shape hr (fun cap => off + n * 8 > cap) _ _ _ (by r_acc)

theorem writeSrc_acc (hr : R (.field .cap) = true) (hw : W .bytes = true) (off : Int64) (data : Src) : Acc R W false false (Buffer.write off data) :=
  Acc.write_shape hr (fun cap => off + Int64.ofNat data.len > cap) _ _ fun _ _ => (Acc.srcAt _ _).bind' fun _ => Acc.bufStore _ _ hw

theorem readRaw_acc (hr : R (.field .cap) = true) (off n : Int64) : Acc R W false false (Buffer.read off n) :=
  Acc.guard_shape hr (fun cap => off + n > cap) _ ⟨nofun, fun _ => Acc.of_silent (silent_reslice _ _ _)⟩

theorem readbit_acc (hr : R (.field .bcap) = true) (off : Int64) : Acc R W false false (Buffer.readbit off) :=
  Acc.guard_shape hr (fun bcap => off > bcap - 1) _ ((Acc.bufLoad _).bind' fun _ => rfl)

theorem setbit_acc (hr : R (.field .bcap) = true) (hw : W .bytes = true) (off : Int64) (v : UInt8) : Acc R W false false (Buffer.setbit off v) := by
  refine Acc.guard_shape hr (fun bcap => off > bcap - 1) _ ?_
  split
  · exact (Acc.bufLoad _).bind' fun _ => Acc.bufStore _ _ hw
  · split
    · exact (Acc.bufLoad _).bind' fun _ => Acc.bufStore _ _ hw
    · trivial

theorem flipbit_acc (hr : R (.field .bcap) = true) (hw : W .bytes = true) (off : Int64) : Acc R W false false (Buffer.flipbit off) :=
  Acc.guard_shape hr (fun bcap => off > bcap - 1) _ ((Acc.bufLoad _).bind' fun _ => Acc.bufStore _ _ hw)

theorem clear_acc (hw : W .bytes = true) : Acc R W false false Buffer.clearallbits :=
  Acc.locked ⟨nofun, fun _ => Acc.doLoop (fun _ _ => Acc.bufStore _ _ hw) _ _ _⟩
theorem setall_acc (hw : W .bytes = true) : Acc R W false false Buffer.setallbits :=
  Acc.locked ⟨nofun, fun _ => Acc.doLoop (fun _ _ => Acc.bufStore _ _ hw) _ _ _⟩
theorem flipall_acc (hw : W .bytes = true) : Acc R W false false Buffer.flipallbits :=
  Acc.locked ⟨nofun, fun _ => Acc.doLoop (fun _ _ => (Acc.bufLoad _).bind' fun _ => Acc.bufStore _ _ hw) _ _ _⟩

theorem seek_acc (hw : W (.field .off) = true) (off : Int64) (r : Bool) : Acc R W false false (Buffer.seek off r) := by
  cases r
  · exact ⟨hw, rfl⟩
  · exact ⟨nofun, fun _ => ⟨hw, rfl⟩⟩
theorem seekbit_acc (hw : W (.field .boff) = true) (off : Int64) (r : Bool) : Acc R W false false (Buffer.seekbit off r) := by
  cases r
  · exact ⟨hw, rfl⟩
  · exact ⟨nofun, fun _ => ⟨hw, rfl⟩⟩
theorem alignbit_acc (hw : W (.field .boff) = true) : Acc R W false false Buffer.alignbit := ⟨nofun, fun _ => ⟨hw, rfl⟩⟩
theorem alignbyte_acc (hw : W (.field .off) = true) : Acc R W false false Buffer.alignbyte := ⟨nofun, fun _ => ⟨hw, rfl⟩⟩
theorem refresh_acc (h1 : W (.field .cap) = true) (h2 : W (.field .bcap) = true) : Acc R W false false Buffer.refresh :=
  ⟨nofun, fun _ => ⟨h1, nofun, fun _ => ⟨h2, rfl⟩⟩⟩
theorem reset_acc (h1 : W (.field .cap) = true) (h2 : W (.field .bcap) = true) (h3 : W (.field .off) = true) (h4 : W (.field .boff) = true)
    (h5 : W .header = true) : Acc R W false false Buffer.reset := fun _ => ⟨h5, h3, h4, h1, h2, rfl⟩

theorem grow_acc (h1 : W (.field .cap) = true) (h2 : W (.field .bcap) = true) (h3 : W .header = true) (h4 : W .bytes = true) (n : Int64) :
    Acc R W false false (Buffer.grow n) := by
  show Acc R W false false (Prog.Lock >>= fun _ => Prog.buf >>= fun s => Prog.makeZero n >>= fun z => Prog.appendTo s z >>= fun r =>
    Prog.assignBuf r >>= fun _ => Prog.Unlock >>= fun _ => Buffer.refresh)
  refine Acc.bind' (m := true) rfl fun _ => (Acc.buf (b := true) nofun).bind' fun s => Acc.bind' (m := true) ?_ fun z => Acc.bind' (m := true) ?_ fun r =>
    (Acc.assignBuf h3).bind' fun _ => Acc.bind' (m := false) rfl fun _ => refresh_acc h1 h2
  · unfold Prog.makeZero; split
    · trivial
    · rfl
  · unfold Prog.appendTo; split
    · exact ⟨rfl, h4, fun _ => rfl⟩
    · trivial

theorem readbits_acc (hr : R (.field .bcap) = true) (off n : Int64) : Acc R W false false (Buffer.readbits off n) :=
  Acc.doLoop (fun _ _ => (readbit_acc hr _).bind fun _ => Acc.ret _) _ _ _
theorem setbits_acc (hr : R (.field .bcap) = true) (hw : W .bytes = true) (off : Int64) (d : UInt64) (n : Int64) :
    Acc R W false false (Buffer.setbits off d n) := Acc.doLoop (fun _ _ => setbit_acc hr hw _ _) _ _ _

theorem writeNext_acc (hr : R (.field .cap) = true) (ho : R (.field .off) = true) (hw : W .bytes = true) (hs : W (.field .off) = true) (k : UKind) (e : Endian)
    (data : List k.kind.Ty) : Acc R W false false (Buffer.WriteNext k e data) := by
  cases k <;> cases e
  · exact (Acc.field fun _ => ho).bind fun o => (write_acc hr hw .u16 .le o data).bind fun _ => seek_acc hs _ _
  · exact (Acc.field fun _ => ho).bind fun o => (write_acc hr hw .u16 .be o data).bind fun _ => seek_acc hs _ _
  · exact (Acc.field fun _ => ho).bind fun o => (write_acc hr hw .u32 .le o data).bind fun _ => seek_acc hs _ _
  · exact (Acc.field fun _ => ho).bind fun o => (write_acc hr hw .u32 .be o data).bind fun _ => seek_acc hs _ _
  · exact (Acc.field fun _ => ho).bind fun o => (write_acc hr hw .u64 .le o data).bind fun _ => seek_acc hs _ _
  · exact (Acc.field fun _ => ho).bind fun o => (write_acc hr hw .u64 .be o data).bind fun _ => seek_acc hs _ _

theorem readNext_acc (hr : R (.field .cap) = true) (ho : R (.field .off) = true) (hs : W (.field .off) = true) (k : UKind) (e : Endian) (n : Int64) :
    Acc R W false false (Buffer.ReadNext k e n) := by
  cases k <;> cases e
  · exact (Acc.field fun _ => ho).bind fun o => (read_acc hr .u16 .le o n).bind fun _ => (seek_acc hs _ _).bind fun _ => Acc.ret _
  · exact (Acc.field fun _ => ho).bind fun o => (read_acc hr .u16 .be o n).bind fun _ => (seek_acc hs _ _).bind fun _ => Acc.ret _
  · exact (Acc.field fun _ => ho).bind fun o => (read_acc hr .u32 .le o n).bind fun _ => (seek_acc hs _ _).bind fun _ => Acc.ret _
  · exact (Acc.field fun _ => ho).bind fun o => (read_acc hr .u32 .be o n).bind fun _ => (seek_acc hs _ _).bind fun _ => Acc.ret _
  · exact (Acc.field fun _ => ho).bind fun o => (read_acc hr .u64 .le o n).bind fun _ => (seek_acc hs _ _).bind fun _ => Acc.ret _
  · exact (Acc.field fun _ => ho).bind fun o => (read_acc hr .u64 .be o n).bind fun _ => (seek_acc hs _ _).bind fun _ => Acc.ret _

theorem exec_acc (op : Op2) : Acc (unguarded op) (alters op) false false (exec op) := by
  cases op with
  | write k e p d =>
    cases p with
    | none => exact Acc.map (writeNext_acc rfl rfl rfl rfl k e d) _
    | some o => exact Acc.map (write_acc rfl rfl k e o d) _
  | read k e p n =>
    cases p with
    | none => exact Acc.map (readNext_acc rfl rfl rfl k e n) _
    | some o => exact Acc.map (read_acc rfl k e o n) _
  | writeBytes p s =>
    cases p with
    | none => exact Acc.map ((Acc.field fun _ => rfl).bind fun _ => (writeSrc_acc rfl rfl _ _).bind fun _ => seek_acc rfl _ _) _
    | some o => exact Acc.map (writeSrc_acc rfl rfl o _) _
  | writeByte p v =>
    cases p with
    | none => exact Acc.map ((Acc.field fun _ => rfl).bind fun _ => (writeSrc_acc rfl rfl _ _).bind fun _ => seek_acc rfl _ _) _
    | some o => exact Acc.map (writeSrc_acc rfl rfl o _) _
  | readBytes p n =>
    cases p with
    | none => exact Acc.map ((Acc.field fun _ => rfl).bind fun _ => (readRaw_acc rfl _ _).bind fun _ => (seek_acc rfl _ _).bind fun _ => Acc.ret _) _
    | some o => exact Acc.map (readRaw_acc rfl o _) _
  | readByte p =>
    cases p with
    | none =>
      exact Acc.map ((Acc.field fun _ => rfl).bind fun _ => (readRaw_acc rfl _ _).bind fun _ => (Acc.loadAt _ _ fun _ => rfl).bind fun _ =>
        (seek_acc rfl _ _).bind fun _ => Acc.ret _) _
    | some o => exact Acc.map ((readRaw_acc rfl o _).bind fun _ => Acc.loadAt _ _ fun _ => rfl) _
  | readBit p =>
    cases p with
    | none => exact Acc.map ((Acc.field fun _ => rfl).bind fun _ => (readbit_acc rfl _).bind fun _ => (seekbit_acc rfl _ _).bind fun _ => Acc.ret _) _
    | some o => exact Acc.map (readbit_acc rfl o) _
  | readBits p n =>
    cases p with
    | none => exact Acc.map ((Acc.field fun _ => rfl).bind fun _ => (readbits_acc rfl _ _).bind fun _ => (seekbit_acc rfl _ _).bind fun _ => Acc.ret _) _
    | some o => exact Acc.map (readbits_acc rfl o n) _
  | setBit p v =>
    cases p with
    | none => exact Acc.map ((Acc.field fun _ => rfl).bind fun _ => (setbit_acc rfl rfl _ _).bind fun _ => seekbit_acc rfl _ _) _
    | some o => exact Acc.map (setbit_acc rfl rfl o v) _
  | flipBit p =>
    cases p with
    | none => exact Acc.map ((Acc.field fun _ => rfl).bind fun _ => (flipbit_acc rfl rfl _).bind fun _ => seekbit_acc rfl _ _) _
    | some o => exact Acc.map (flipbit_acc rfl rfl o) _
  | setBits p d n =>
    cases p with
    | none => exact Acc.map ((Acc.field fun _ => rfl).bind fun _ => (setbits_acc rfl rfl _ _ _).bind fun _ => seekbit_acc rfl _ _) _
    | some o => exact Acc.map (setbits_acc rfl rfl o d n) _
  | clearAll => exact Acc.map (clear_acc rfl) _
  | setAll => exact Acc.map (setall_acc rfl) _
  | flipAll => exact Acc.map (flipall_acc rfl) _
  | seek o r => exact Acc.map (seek_acc rfl o r) _
  | seekBit o r => exact Acc.map (seekbit_acc rfl o r) _
  | after o =>
    cases o with
    | nil => exact Acc.map ((Acc.field fun _ => rfl).bind' fun _ => (Acc.field fun _ => rfl).bind' fun _ => Acc.ret _) _
    | cons a l => exact Acc.map ((Acc.field fun _ => rfl).bind' fun _ => Acc.ret _) _
  | afterBit o =>
    cases o with
    | nil => exact Acc.map ((Acc.field fun _ => rfl).bind' fun _ => (Acc.field fun _ => rfl).bind' fun _ => Acc.ret _) _
    | cons a l => exact Acc.map ((Acc.field fun _ => rfl).bind' fun _ => Acc.ret _) _
  | alignByte => exact Acc.map (alignbyte_acc rfl) _
  | alignBit => exact Acc.map (alignbit_acc rfl) _
  | grow n => exact Acc.map (grow_acc rfl rfl rfl rfl n) _
  | refresh => exact Acc.map (refresh_acc rfl rfl) _
  | reset => exact Acc.map (reset_acc rfl rfl rfl rfl rfl) _
  | bytes => exact Acc.map (Acc.buf fun _ => rfl) _
  | capacity => exact Acc.map (Acc.field fun _ => rfl) _
  | bitCapacity => exact Acc.map (Acc.field fun _ => rfl) _
  | offset => exact Acc.map (Acc.field fun _ => rfl) _
  | bitOffset => exact Acc.map (Acc.field fun _ => rfl) _

end V2

/-! ## the methods of v1 `Buffer` -/

namespace V1
open V3 (Val)

theorem acc_wrap {p : Prog α} (h : Acc R W false false p) (f : α → Val) : Acc R W false false (wrap1 f p) := h.bind fun _ => rfl

/-- Bytes are loaded only. -/
def Bytes : Prog α → Prop
  | .ret _ | .panic _ => True
  | .load _ _ k => ∀ v, Bytes (k v)
  | _ => False

theorem Bytes.bind' {p : Prog α} {f : α → Prog β} (hp : Bytes p) (hf : ∀ a, Bytes (f a)) : Bytes (p >>= f) := by
  show Bytes (p.bind f)
  induction p with
  | ret a => exact hf a
  | panic q => trivial
  | load t i k ih => exact fun v => ih v (hp v)
  | _ => exact hp.elim

theorem Bytes.of_silent {p : Prog α} (hp : Silent p) : Bytes p := by
  cases p with
  | ret a => trivial
  | panic q => trivial
  | _ => exact hp.elim

theorem Bytes.forLoop {body : Int64 → α → Prog α} (h : ∀ i a, Bytes (body i a)) (n i : Int64) (a : α) : Bytes (Prog.forLoop body n i a) := by
  fun_induction Prog.forLoop body n i a with
  | case1 i a hi ih => exact Bytes.bind' (h i a) ih
  | case2 i a hi => trivial

theorem Bytes.acc {p : Prog α} (hp : Bytes p) (h : R .bytes = true) : Acc R W false false p := by
  induction p with
  | ret a => rfl
  | panic q => trivial
  | load t i k ih => exact ⟨fun _ => h, fun v => ih v (hp v)⟩
  | _ => exact hp.elim

theorem Bytes.loadAt (s : Slice) (i : Int64) : Bytes (Prog.loadAt s i) := by
  unfold Prog.loadAt; split
  · exact fun _ => trivial
  · trivial

macro "b_load" : tactic => `(tactic| (
  repeat' (first
    | with_reducible exact Bytes.of_silent (silent_order _)
    | with_reducible exact Bytes.of_silent (silent_reslice _ _ _)
    | with_reducible exact Bytes.of_silent (silent_setIdx _ _ _)
    | with_reducible exact Bytes.loadAt _ _
    | with_reducible refine Bytes.bind' ?_ fun _ => ?_
    | trivial)))

theorem bytes_u16 (o : ByteOrder) (s : Slice) : Bytes (loadU16 o s) := by unfold loadU16; b_load
theorem bytes_u32 (o : ByteOrder) (s : Slice) : Bytes (loadU32 o s) := by unfold loadU32; b_load
theorem bytes_u64 (o : ByteOrder) (s : Slice) : Bytes (loadU64 o s) := by unfold loadU64; b_load

theorem readComplex_acc (hr : R (.field .cap) = true) (off n w : Int64) (o : ByteOrder) (hb : w ≠ Unsigned8 → R .bytes = true) :
    Acc R W false false (Buffer.readComplex off n w o) := by
  refine (V2.readRaw_acc hr off n).bind' fun s => ?_
  split
  · exact Acc.ret _
  · rename_i hw
    refine Bytes.acc ?_ (hb hw)
    split
    · exact (Bytes.of_silent (silent_makeTyped _ _ _)).bind' fun _ => (Bytes.forLoop (fun _ _ => (Bytes.of_silent (silent_reslice _ _ _)).bind' fun _ =>
        (bytes_u16 _ _).bind' fun _ => Bytes.of_silent (silent_setIdx _ _ _)) _ _ _).bind' fun _ => trivial
    · split
      · exact (Bytes.of_silent (silent_makeTyped _ _ _)).bind' fun _ => (Bytes.forLoop (fun _ _ => (Bytes.of_silent (silent_reslice _ _ _)).bind' fun _ =>
          (bytes_u32 _ _).bind' fun _ => Bytes.of_silent (silent_setIdx _ _ _)) _ _ _).bind' fun _ => trivial
      · split
        · exact (Bytes.of_silent (silent_makeTyped _ _ _)).bind' fun _ => (Bytes.forLoop (fun _ _ => (Bytes.of_silent (silent_reslice _ _ _)).bind' fun _ =>
            (bytes_u64 _ _).bind' fun _ => Bytes.of_silent (silent_setIdx _ _ _)) _ _ _).bind' fun _ => trivial
        · trivial

theorem writeComplex_acc (hr : R (.field .cap) = true) (hw : W .bytes = true) (off : Int64) (d : Any) (size : Int64) (o : ByteOrder) :
    Acc R W false false (Buffer.writeComplex off d size o) := by
  obtain ⟨conv, hc, e⟩ := writeComplex_split off d size o
  rw [e]
  exact (Acc.of_silent hc).bind fun a => V2.writeSrc_acc hr hw off a

theorem writeComplexNext_acc (hr : R (.field .cap) = true) (ho : R (.field .off) = true) (hw : W .bytes = true) (hs : W (.field .off) = true) (d : Any)
    (size : Int64) (o : ByteOrder) : Acc R W false false (Buffer.WriteComplexNext d size o) := by
  refine (Acc.field fun _ => ho).bind fun off => (writeComplex_acc hr hw off d size o).bind fun _ => ?_
  split
  · exact (Acc.of_silent (silent_toBytes d)).bind fun _ => V2.seek_acc hs _ _
  · split
    · exact (Acc.of_silent (silent_toU16 d)).bind fun _ => V2.seek_acc hs _ _
    · split
      · exact (Acc.of_silent (silent_toU32 d)).bind fun _ => V2.seek_acc hs _ _
      · split
        · exact (Acc.of_silent (silent_toU64 d)).bind fun _ => V2.seek_acc hs _ _
        · exact Acc.ret _

theorem acc_none {body : Int64 → α → Prog α} {n : Int64} (h : ¬ 0 < n.toInt) (a : α) : Acc R W b b (Prog.forLoop body n 0 a) := by
  rw [Prog.forLoop, if_neg (by rw [Int64.lt_iff_toInt_lt]; exact h)]
  rfl

theorem readbits_acc (off n : Int64) (hr : 0 < n.toInt → R (.field .bcap) = true) : Acc R W false false (Buffer.readbits off n) := by
  by_cases h : 0 < n.toInt
  · exact Acc.forLoop (fun _ _ => (V2.readbit_acc (hr h) _).bind fun _ => Acc.ret _) _ _ _
  · exact acc_none h _
theorem setbits_acc (hw : W .bytes = true) (off : Int64) (d : UInt64) (n : Int64) (hr : 0 < n.toInt → R (.field .bcap) = true) :
    Acc R W false false (Buffer.setbits off d n) := by
  by_cases h : 0 < n.toInt
  · exact Acc.forLoop (fun _ _ => V2.setbit_acc (hr h) hw _ _) _ _ _
  · exact acc_none h _

theorem clear_acc (hw : W .bytes = true) : Acc R W false false Buffer.clearallbits :=
  Acc.locked ⟨nofun, fun _ => Acc.forLoop (fun _ _ => Acc.bufStore _ _ hw) _ _ _⟩
theorem setall_acc (hw : W .bytes = true) : Acc R W false false Buffer.setallbits :=
  Acc.locked ⟨nofun, fun _ => Acc.forLoop (fun _ _ => Acc.bufStore _ _ hw) _ _ _⟩
theorem flipall_acc (hw : W .bytes = true) : Acc R W false false Buffer.flipallbits :=
  Acc.locked ⟨nofun, fun _ => Acc.forLoop (fun _ _ => (Acc.bufLoad _).bind' fun _ => Acc.bufStore _ _ hw) _ _ _⟩

theorem tables_v2 (op : Op1) (op2 : V2.Op2) (h : toV2 op = some op2) (hs : Shared op = true) : unguarded1 op = V2.unguarded op2 ∧ alters1 op = V2.alters op2 := by
  constructor <;> funext k <;> cases op <;> cases h <;> (rcases k with (_ | _ | _ | _) | _ | _) <;> first | rfl | (cases ‹List Int64› <;> rfl) |
    exact decide_eq_true (Int64.lt_iff_toInt_lt.mp (of_decide_eq_true hs))

theorem exec1_acc (op : Op1) : Acc (unguarded1 op) (alters1 op) false false (exec1 op) := by
  cases hs : Shared op with
  | true =>
    cases h : toV2 op with
    | some op2 =>
      rw [exec1_v2 op op2 h hs, (tables_v2 op op2 h hs).1, (tables_v2 op op2 h hs).2]
      exact (V2.exec_acc op2).bind fun _ => rfl
    | none => cases op <;> simp [toV2, Shared] at h hs
  | false =>
    cases op with
    | writeComplex p d w e =>
      cases p with
      | some o => exact acc_wrap (writeComplex_acc rfl rfl o d w e) _
      | none => exact acc_wrap (writeComplexNext_acc rfl rfl rfl rfl d w e) _
    | readComplex p n w e =>
      have hb : w ≠ Unsigned8 → unguarded1 (.readComplex p n w e) .bytes = true := fun h => bne_iff_ne.mpr h
      cases p with
      | some o => exact (readComplex_acc rfl o n w e hb).bind fun _ => rfl
      | none =>
        exact Acc.bind ((Acc.field fun _ => rfl).bind fun o => (readComplex_acc rfl o n w e hb).bind fun _ => (V2.seek_acc rfl _ _).bind fun _ =>
          Acc.ret _) fun _ => rfl
    | readBits p n =>
      have hr : 0 < n.toInt → unguarded1 (.readBits p n) (.field .bcap) = true := fun h => decide_eq_true h
      cases p with
      | some o => exact acc_wrap (readbits_acc o n hr) _
      | none => exact acc_wrap ((Acc.field fun _ => rfl).bind fun _ => (readbits_acc _ _ hr).bind fun _ => (V2.seekbit_acc rfl _ _).bind fun _ => Acc.ret _) _
    | setBits p d n =>
      have hr : 0 < n.toInt → unguarded1 (.setBits p d n) (.field .bcap) = true := fun h => decide_eq_true h
      cases p with
      | some o => exact acc_wrap (setbits_acc rfl o d n hr) _
      | none => exact acc_wrap ((Acc.field fun _ => rfl).bind fun _ => (setbits_acc rfl _ _ _ hr).bind fun _ => V2.seekbit_acc rfl _ _) _
    | clearAll => exact acc_wrap (clear_acc rfl) _
    | setAll => exact acc_wrap (setall_acc rfl) _
    | flipAll => exact acc_wrap (flipall_acc rfl) _
    | _ => exact nomatch hs

end V1
end Crunch
