import Verif.Lemmas.V1Conc

/-! When the v1 `Buffer` methods release the mutex, and which fields they leave alone. -/

namespace Crunch
open V3 (St)

/-- Releases the mutex. -/
def Free (p : Prog α) : Prop := ∀ s, (p.run ⟨s, false⟩).2.locked = false

/-- Releases the mutex unless the runtime panicked. -/
def Frees (p : Prog α) : Prop := ∀ s, (p.run ⟨s, false⟩).2.locked = true → (p.run ⟨s, false⟩).1.runtime = true

theorem Free.frees {p : Prog α} (h : Free p) : Frees p := fun s e => nomatch (h s).symm.trans e

theorem Free.ret (a : α) : Free (.ret a) := fun _ => rfl
theorem Free.panic (q : Panic) : Free (.panic q : Prog α) := fun _ => rfl

theorem sh_eta {sh : Sh} (h : sh.locked = false) : sh = ⟨sh.st, false⟩ := by cases sh; cases h; rfl

theorem Free.bind {p : Prog α} {f : α → Prog β} (hp : Free p) (hf : ∀ a, Free (f a)) : Free (p.bind f) := by
  intro s
  rw [Prog.run_bind, bind_run]
  have := hp s
  cases h : p.run ⟨s, false⟩ with
  | mk r t =>
    rw [h] at this
    cases r with
    | ok a =>
      have this : t.locked = false := this
      show ((f a).run t).2.locked = false
      rw [sh_eta this]; exact hf a _
    | panic q => exact this

theorem Frees.bind {p : Prog α} {f : α → Prog β} (hp : Frees p) (hf : ∀ a, Frees (f a)) : Frees (p.bind f) := by
  intro s
  rw [Prog.run_bind, bind_run]
  have := hp s
  cases h : p.run ⟨s, false⟩ with
  | mk r t =>
    rw [h] at this
    cases r with
    | ok a =>
      show ((f a).run t).2.locked = true → ((f a).run t).1.runtime = true
      have e : t.locked = false := by
        cases hl : t.locked with
        | false => rfl
        | true => exact nomatch this hl
      rw [sh_eta e]; exact hf a _
    | panic q => exact this

theorem Looks.same {p : Prog α} (h : Looks p) (sh : Sh) : (p.run sh).2 = sh := by
  induction p generalizing sh with
  | ret a => rfl
  | panic q => rfl
  | getI x k ih => exact ih _ (h _) sh
  | getBuf k ih => exact ih _ (h _) sh
  | load t i k ih => exact ih _ (h _) sh
  | _ => exact h.elim

theorem Looks.free {p : Prog α} (h : Looks p) : Free p := fun s => by rw [h.same]

theorem free_forLoop {body : Int64 → α → Prog α} (h : ∀ i a, Free (body i a)) (n i : Int64) (a : α) : Free (Prog.forLoop body n i a) := by
  fun_induction Prog.forLoop body n i a with
  | case1 i a hi ih => exact (h i a).bind ih
  | case2 i a hi => exact Free.ret _

theorem free_field (x : Field) : Free (Prog.field x) := fun _ => rfl

theorem Alone.free {p : Prog α} {m : GoM St α} (h : Alone p m) : Free p := fun s => by rw [h s]
theorem Leaky.frees {p : Prog α} {m : GoM St α} (h : Leaky p m) : Frees p := fun s => by rw [h s]; exact id

/-- A locked section with `defer` releases the mutex. -/
theorem free_deferUnlock (p : Prog α) (hp : p.NoLock) (sh : Sh) (hl : sh.locked = true) : (p.deferUnlock.run sh).2.locked = false := by
  induction p generalizing sh with
  | ret a => rfl
  | panic q => rfl
  | getI x k ih => exact ih _ (hp _) _ hl
  | setI x v k ih => exact ih hp _ hl
  | getBuf k ih => exact ih _ (hp _) _ hl
  | setBuf s k ih => exact ih hp _ hl
  | load s i k ih => exact ih _ (hp _) _ hl
  | store s i v k ih => exact ih hp _ hl
  | append s x k ih => exact ih _ (hp _) _ hl
  | alloc a n k ih => exact ih _ (hp _) _ hl
  | lock k ih => exact hp.elim
  | unlock k ih => exact hp.elim

theorem free_locked {p : Prog α} (hp : p.NoLock) : Free (Prog.locked p) := fun s => free_deferUnlock p hp ⟨s, true⟩ rfl

theorem noLock_forLoop {body : Int64 → α → Prog α} (h : ∀ i a, (body i a).NoLock) (n i : Int64) (a : α) : (Prog.forLoop body n i a).NoLock := by
  fun_induction Prog.forLoop body n i a with
  | case1 i a hi ih => exact (h i a).bind ih
  | case2 i a hi => trivial

/-! ## fields left alone -/

/-- Assigns no field. -/
def NoAssign : Prog α → Prop
  | .ret _ => True
  | .panic _ => True
  | .getI _ k => ∀ v, NoAssign (k v)
  | .setI .. => False
  | .getBuf k => ∀ s, NoAssign (k s)
  | .setBuf .. => False
  | .load _ _ k => ∀ v, NoAssign (k v)
  | .store _ _ _ k => NoAssign k
  | .append .. => False
  | .alloc .. => False
  | .lock k => NoAssign k
  | .unlock k => NoAssign k

theorem NoAssign.bind {p : Prog α} {f : α → Prog β} (hp : NoAssign p) (hf : ∀ a, NoAssign (f a)) : NoAssign (p.bind f) := by
  induction p with
  | ret a => exact hf a
  | panic q => trivial
  | getI x k ih => exact fun v => ih v (hp v)
  | getBuf k ih => exact fun v => ih v (hp v)
  | load t i k ih => exact fun v => ih v (hp v)
  | store t i v k ih => exact ih hp
  | lock k ih => exact ih hp
  | unlock k ih => exact ih hp
  | _ => exact hp.elim
theorem NoAssign.bind' {p : Prog α} {f : α → Prog β} (hp : NoAssign p) (hf : ∀ a, NoAssign (f a)) : NoAssign (p >>= f) := NoAssign.bind hp hf

theorem NoAssign.deferUnlock {p : Prog α} (hp : NoAssign p) : NoAssign p.deferUnlock := by
  induction p with
  | ret a => trivial
  | panic q => trivial
  | getI x k ih => exact fun v => ih v (hp v)
  | getBuf k ih => exact fun v => ih v (hp v)
  | load t i k ih => exact fun v => ih v (hp v)
  | store t i v k ih => exact ih hp
  | lock k ih => exact ih hp
  | unlock k ih => exact ih hp
  | _ => exact hp.elim

theorem NoAssign.keeps {p : Prog α} (h : NoAssign p) (sh : Sh) : (p.run sh).2.st.b = sh.st.b := by
  induction p generalizing sh with
  | ret a => rfl
  | panic q => rfl
  | getI x k ih => exact ih _ (h _) sh
  | getBuf k ih => exact ih _ (h _) sh
  | load t i k ih => exact ih _ (h _) sh
  | store t i v k ih => exact ih h _
  | lock k ih =>
    show (Prog.run (.lock k) sh).2.st.b = _
    unfold Prog.run
    split
    · rfl
    · exact ih h _
  | unlock k ih => exact ih h _
  | _ => exact h.elim

theorem Looks.noAssign {p : Prog α} (h : Looks p) : NoAssign p := by
  induction p with
  | ret a => trivial
  | panic q => trivial
  | getI x k ih => exact fun v => ih v (h v)
  | getBuf k ih => exact fun v => ih v (h v)
  | load t i k ih => exact fun v => ih v (h v)
  | _ => exact h.elim

theorem noAssign_panicIf (c : Prop) [Decidable c] (q : Panic) : NoAssign (Prog.panicIf c q) := by
  unfold Prog.panicIf; split <;> trivial
theorem noAssign_loadAt (s : Slice) (i : Int64) : NoAssign (Prog.loadAt s i) := (looks_loadAt s i).noAssign
theorem noAssign_storeAt (s : Slice) (i : Int64) (v : UInt8) : NoAssign (Prog.storeAt s i v) := by
  unfold Prog.storeAt; split <;> trivial
theorem noAssign_bufStore (i : Int64) (v : UInt8) : NoAssign (Prog.bufStore i v) :=
  NoAssign.bind' (fun _ => trivial) fun _ => noAssign_storeAt _ _ _
theorem noAssign_srcAt (x : Src) (i : Int64) : NoAssign (Prog.srcAt x i) := by
  unfold Prog.srcAt; split
  · exact noAssign_loadAt _ _
  · split <;> trivial
theorem noAssign_doLoop {body : Int64 → α → Prog α} (h : ∀ i a, NoAssign (body i a)) (n i : Int64) (a : α) : NoAssign (Prog.doLoop body n i a) := by
  fun_induction Prog.doLoop body n i a with
  | case1 i a ih =>
    refine (h i a).bind fun a' => ?_
    split
    · exact ih a' (by assumption)
    · trivial

namespace V1
open V2 (Good)
open V3 (Val)

theorem write_frees (off : Int64) (d : Src) : Frees (Buffer.write off d) := by
  cases d with
  | lit bs => exact (write_lit_leaky off bs).frees
  | mem src => exact (V2.write_mem_leaky off src).frees

theorem writeComplex_frees (off : Int64) (d : Any) (size : Int64) (o : ByteOrder) : Frees (Buffer.writeComplex off d size o) := by
  obtain ⟨conv, hc, e⟩ := writeComplex_split off d size o
  rw [e]
  exact hc.cont (fun q => (Free.panic q).frees) fun a => write_frees off a

theorem readComplex_free (off n size : Int64) (o : ByteOrder) : Free (Buffer.readComplex off n size o) := by
  obtain ⟨conv, hc, e⟩ := readComplex_split off n size o
  rw [e]
  exact (V2.read_alone off n).free.bind fun s => (hc s).free

theorem write_noAssign (off : Int64) (d : Src) : NoAssign (Buffer.write off d) := by
  refine NoAssign.bind' (fun _ => trivial) fun _ => (noAssign_panicIf _ _).bind' fun _ => (noAssign_panicIf _ _).bind' fun _ => ?_
  exact NoAssign.bind' (show NoAssign (.lock (.ret ())) from trivial) fun _ => (noAssign_doLoop (fun _ _ => (noAssign_srcAt _ _).bind' fun _ => noAssign_bufStore _ _) _ _ _).bind' fun _ => trivial

theorem writeComplex_noAssign (off : Int64) (d : Any) (size : Int64) (o : ByteOrder) : NoAssign (Buffer.writeComplex off d size o) := by
  obtain ⟨conv, hc, e⟩ := writeComplex_split off d size o
  rw [e]
  exact hc.cont (P := NoAssign) (fun q => trivial) fun a => write_noAssign off a

theorem readComplex_noAssign (off n size : Int64) (o : ByteOrder) : NoAssign (Buffer.readComplex off n size o) := by
  obtain ⟨conv, hc, e⟩ := readComplex_split off n size o
  rw [e]
  refine NoAssign.bind ?_ fun s => (hc s).noAssign
  refine NoAssign.bind' (fun _ => trivial) fun _ => (noAssign_panicIf _ _).bind' fun _ => (noAssign_panicIf _ _).bind' fun _ => ?_
  exact NoAssign.deferUnlock (p := (Prog.buf >>= fun s => Prog.reslice s off (off + n)))
    (NoAssign.bind' (fun _ => trivial) fun _ => (silent_reslice _ _ _).looks.noAssign)

/-! ## all methods -/

/-- The calls that release the mutex only at their end. -/
def leaks1 : Op1 → Bool
  | .writeComplex .. => true
  | .writeBytes .. => true
  | .writeByte .. => true
  | .grow _ => true
  | _ => false

theorem seek_free (off : Int64) (r : Bool) : Free (Buffer.seek off r) := (V2.seek_alone off r).free
theorem seekbit_free (off : Int64) (r : Bool) : Free (Buffer.seekbit off r) := (V2.seekbit_alone off r).free

theorem readbits_free (off n : Int64) : Free (Buffer.readbits off n) :=
  free_forLoop (fun i _ => (V2.readbit_alone (off + i)).free.bind fun _ => Free.ret _) _ _ _

theorem setbit_free (off : Int64) (v : UInt8) : Free (Buffer.setbit off v) := by
  refine Free.bind (free_field _) fun cap => Free.bind (Looks.free ?_) fun _ => Free.bind (Looks.free ?_) fun _ => free_locked ?_
  · unfold Prog.panicIf; split <;> trivial
  · unfold Prog.panicIf; split <;> trivial
  · split
    · exact (Prog.noLock_bufLoad _).bind' fun _ => Prog.noLock_bufStore _ _
    · split
      · exact (Prog.noLock_bufLoad _).bind' fun _ => Prog.noLock_bufStore _ _
      · trivial

theorem setbits_free (off : Int64) (d : UInt64) (n : Int64) : Free (Buffer.setbits off d n) :=
  free_forLoop (fun _ _ => setbit_free _ _) _ _ _

theorem whole_free {body : Int64 → Unit → Prog Unit} (h : ∀ i a, (body i a).NoLock) :
    Free (Prog.locked do
      let s ← Prog.buf
      Prog.forLoop body (Int64.ofNat s.len) 0 ()) :=
  free_locked fun _ => noLock_forLoop h _ _ _

theorem wrap_free {p : Prog α} (h : Free p) (f : α → Val) : Free (wrap1 f p) := h.bind fun _ => Free.ret _
theorem wrap_frees {p : Prog α} (h : Frees p) (f : α → Val) : Frees (wrap1 f p) := h.bind fun _ => (Free.ret _).frees

theorem shared_free (op : Op1) (hs : Shared op = true) (hl : leaks1 op = false) : Free (exec1 op) := by
  have key : ∀ op2, toV2 op = some op2 → V2.leaks op2 = false → Free (exec1 op) := by
    intro op2 h1 h2
    rw [exec1_v2 op op2 h1 hs]
    refine Free.bind (fun s => ?_) fun _ => Free.ret _
    rw [V2.exec_run op2 s, h2]; rfl
  cases op <;> first | exact key _ rfl rfl | simp [Shared, leaks1] at hs hl

theorem exec1_free (op : Op1) (hl : leaks1 op = false) : Free (exec1 op) := by
  cases hs : Shared op with
  | true => exact shared_free op hs hl
  | false =>
    cases op with
    | writeComplex p d w e => exact nomatch hl
    | readComplex p n w e =>
      cases p with
      | some o => exact (readComplex_free o n w e).bind fun _ => Free.ret _
      | none =>
        exact Free.bind ((free_field _).bind fun o => (readComplex_free o n w e).bind fun _ => (seek_free _ _).bind fun _ =>
          Free.ret _) fun _ => Free.ret _
    | readBits p n =>
      cases p with
      | some o => exact wrap_free (readbits_free o n) _
      | none => exact wrap_free ((free_field _).bind fun _ => (readbits_free _ _).bind fun _ => (seekbit_free _ _).bind fun _ => Free.ret _) _
    | setBits p d n =>
      cases p with
      | some o => exact wrap_free (setbits_free o d n) _
      | none => exact wrap_free ((free_field _).bind fun _ => (setbits_free _ _ _).bind fun _ => seekbit_free _ _) _
    | clearAll => exact wrap_free (whole_free fun _ _ => Prog.noLock_bufStore _ _) _
    | setAll => exact wrap_free (whole_free fun _ _ => Prog.noLock_bufStore _ _) _
    | flipAll => exact wrap_free (whole_free fun _ _ => (Prog.noLock_bufLoad _).bind' fun _ => Prog.noLock_bufStore _ _) _
    | _ => exact nomatch hs

theorem writeComplexNext_frees (d : Any) (size : Int64) (o : ByteOrder) : Frees (Buffer.WriteComplexNext d size o) := by
  refine (free_field _).frees.bind fun off => (writeComplex_frees off d size o).bind fun _ => ?_
  split
  · exact (silent_toBytes d).looks.free.frees.bind fun _ => (seek_free _ _).frees
  · split
    · exact (silent_toU16 d).looks.free.frees.bind fun _ => (seek_free _ _).frees
    · split
      · exact (silent_toU32 d).looks.free.frees.bind fun _ => (seek_free _ _).frees
      · split
        · exact (silent_toU64 d).looks.free.frees.bind fun _ => (seek_free _ _).frees
        · exact (Free.ret _).frees

theorem exec1_frees (op : Op1) : Frees (exec1 op) := by
  cases hl : leaks1 op with
  | false => exact (exec1_free op hl).frees
  | true =>
    have key : ∀ op2, toV2 op = some op2 → Shared op = true → Frees (exec1 op) := by
      intro op2 h1 h2
      rw [exec1_v2 op op2 h1 h2]
      refine Frees.bind (fun s => ?_) fun _ => (Free.ret _).frees
      rw [V2.exec_run op2 s]
      intro h
      exact (Bool.and_eq_true_iff.mp h).2
    cases op with
    | writeComplex p d w e =>
      cases p with
      | some o => exact wrap_frees (writeComplex_frees o d w e) _
      | none => exact wrap_frees (writeComplexNext_frees d w e) _
    | writeBytes p => exact key _ rfl rfl
    | writeByte p => exact key _ rfl rfl
    | grow n => exact key _ rfl rfl
    | _ => exact nomatch hl

end V1
end Crunch
