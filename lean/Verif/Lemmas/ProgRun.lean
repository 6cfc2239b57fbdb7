import Verif.Prog

/-! Running a program alone: equations relating `Prog` to the monad of the v3 model. -/

namespace Crunch
open V3 (St)

/-- Run a v3-style body on the shared state, ignoring the lock. -/
def lift (m : GoM St α) : GoM Sh α := fun s => ((m s.st).1, ⟨(m s.st).2, s.locked⟩)

theorem gom_ext {m n : GoM σ α} (h : ∀ s, m s = n s) : m = n := funext h

theorem lift_pure (a : α) : lift (pure a) = (pure a : GoM Sh α) := rfl

theorem lift_bind (m : GoM St α) (f : α → GoM St β) : lift (m >>= f) = lift m >>= fun a => lift (f a) := by
  refine gom_ext fun s => ?_
  show (((m >>= f) s.st).1, (⟨((m >>= f) s.st).2, s.locked⟩ : Sh)) = _
  simp only [bind, lift]
  cases h : m s.st with
  | mk r t => cases r <;> simp only []

theorem lift_throwP (p : Panic) : lift (throwP p : GoM St α) = throwP p := rfl

theorem lift_panicIf (c : Prop) [Decidable c] (p : Panic) : lift (panicIf c p) = panicIf c p := by
  unfold panicIf; split <;> rfl

theorem lift_idx (l : List α) (i : Int64) : lift (idx l i) = idx l i := by
  unfold idx; split
  · split <;> rfl
  · rfl

theorem lift_setIdx (l : List α) (i : Int64) (v : α) : lift (setIdx l i v) = setIdx l i v := by
  unfold setIdx; split <;> rfl

theorem lift_makeTyped (w : Nat) (z : α) (n : Int64) : lift (makeTyped w z n) = makeTyped w z n := by
  unfold makeTyped; split <;> rfl

theorem lift_doLoop (body : Int64 → α → GoM St α) (n i : Int64) (a : α) :
    lift (doLoop body n i a) = doLoop (fun i a => lift (body i a)) n i a := by
  fun_induction doLoop body n i a with
  | case1 i a ih =>
    rw [doLoop.eq_def, lift_bind]
    congr 1
    funext a'
    split
    · rename_i h
      exact ih a' h
    · rfl

namespace Prog

theorem bind_eq (p : Prog α) (f : α → Prog β) : p >>= f = p.bind f := rfl
theorem pure_eq (a : α) : (pure a : Prog α) = .ret a := rfl

theorem run_bind (p : Prog α) (f : α → Prog β) : (p.bind f).run = p.run >>= fun a => (f a).run := by
  refine gom_ext fun s => ?_
  induction p generalizing s with
  | ret a => rfl
  | panic e => rfl
  | getI x k ih => exact ih _ s
  | setI x v k ih => exact ih _
  | getBuf k ih => exact ih _ s
  | setBuf t k ih => exact ih _
  | load t i k ih => exact ih _ s
  | store t i v k ih => exact ih _
  | append t x k ih => exact ih _ _
  | alloc a n k ih => exact ih _ _
  | lock k ih =>
    obtain ⟨st, l⟩ := s
    cases l
    · exact ih ⟨st, true⟩
    · rfl
  | unlock k ih => exact ih _

theorem run_bind' (p : Prog α) (f : α → Prog β) : (p >>= f).run = p.run >>= fun a => (f a).run := run_bind p f

theorem run_pure (a : α) : (pure a : Prog α).run = pure a := rfl

theorem run_doLoop (body : Int64 → α → Prog α) (n i : Int64) (a : α) :
    (doLoop body n i a).run = Crunch.doLoop (fun i a => (body i a).run) n i a := by
  fun_induction doLoop body n i a with
  | case1 i a ih =>
    rw [Crunch.doLoop.eq_def, run_bind]
    congr 1
    funext a'
    split
    · rename_i h
      exact ih a' h
    · rfl

theorem run_forLoop (body : Int64 → α → Prog α) (n i : Int64) (a : α) :
    (forLoop body n i a).run = Crunch.forLoop (fun i a => (body i a).run) n i a := by
  fun_induction forLoop body n i a with
  | case1 i a h ih =>
    rw [Crunch.forLoop.eq_def, run_bind, if_pos h]
    congr 1
    funext a'
    exact ih a'
  | case2 i a h =>
    rw [Crunch.forLoop.eq_def, if_neg h]
    rfl

theorem run_panicIf (c : Prop) [Decidable c] (p : Panic) : (panicIf c p).run = Crunch.panicIf c p := by
  unfold panicIf Crunch.panicIf; split <;> rfl

theorem run_loadAt (s : Slice) (i : Int64) : (loadAt s i).run = lift (V3.onMem (Crunch.loadAt s i)) := by
  refine gom_ext fun t => ?_
  unfold loadAt
  split
  · rename_i h
    simp only [run, lift, V3.onMem, Crunch.loadAt, if_pos h]
  · rename_i h
    simp only [run, lift, V3.onMem, Crunch.loadAt, if_neg h]

theorem run_storeAt (s : Slice) (i : Int64) (v : UInt8) :
    (storeAt s i v).run = lift (V3.onMem (Crunch.storeAt s i v)) := by
  refine gom_ext fun t => ?_
  unfold storeAt
  split
  · rename_i h
    simp only [run, lift, V3.onMem, Crunch.storeAt, if_pos h]
  · rename_i h
    simp only [run, lift, V3.onMem, Crunch.storeAt, if_neg h]

theorem run_bufLoad (i : Int64) : (bufLoad i).run = lift (V3.bufLoad i) := by
  unfold bufLoad V3.bufLoad
  rw [run_bind', lift_bind]
  refine gom_ext fun t => ?_
  show (loadAt t.st.b.buf i).run t = _
  rw [run_loadAt]
  rfl

theorem run_bufStore (i : Int64) (v : UInt8) : (bufStore i v).run = lift (V3.bufStore i v) := by
  unfold bufStore V3.bufStore
  rw [run_bind', lift_bind]
  refine gom_ext fun t => ?_
  show (storeAt t.st.b.buf i v).run t = _
  rw [run_storeAt]
  rfl

theorem run_reslice (s : Slice) (lo hi : Int64) :
    (reslice s lo hi).run = lift (V3.onMem (Crunch.reslice s lo hi)) := by
  refine gom_ext fun t => ?_
  unfold reslice
  split
  · rename_i h
    simp only [run, lift, V3.onMem, Crunch.reslice, if_pos h]
  · rename_i h
    simp only [run, lift, V3.onMem, Crunch.reslice, if_neg h]

theorem run_idx (l : List α) (i : Int64) : (idx l i).run = Crunch.idx l i := by
  unfold idx Crunch.idx
  split
  · cases l[i.toInt.toNat]? <;> rfl
  · rfl

theorem run_setIdx (l : List α) (i : Int64) (v : α) : (setIdx l i v).run = Crunch.setIdx l i v := by
  unfold setIdx Crunch.setIdx; split <;> rfl

theorem run_makeTyped (w : Nat) (z : α) (n : Int64) : (makeTyped w z n).run = Crunch.makeTyped w z n := by
  unfold makeTyped Crunch.makeTyped; split <;> rfl

theorem run_appendTo_lit (s : Slice) (bs : List UInt8) :
    (appendTo s (.lit bs)).run = lift (V3.onMem (appendBytes s bs)) := by
  refine gom_ext fun t => ?_
  unfold appendTo
  show (if s.len + bs.length ≤ s.cap ∨ s.len + bs.length ≤ maxAlloc then _ else _ : Prog Slice).run t = _
  simp only [lift, V3.onMem, appendBytes]
  split
  · rename_i h
    by_cases hc : s.len + bs.length ≤ s.cap
    · have e : appendMem s (.lit bs) t.st.mem = _ := if_pos hc
      rw [if_pos hc]
      show (Res.ok (appendMem s (.lit bs) t.st.mem).1, (⟨⟨(appendMem s (.lit bs) t.st.mem).2, t.st.b⟩, t.locked⟩ : Sh)) = _
      rw [e]
      rfl
    · have e : appendMem s (.lit bs) t.st.mem = _ := if_neg hc
      rw [if_neg hc, if_neg (by omega : ¬ s.len + bs.length > maxAlloc)]
      show (Res.ok (appendMem s (.lit bs) t.st.mem).1, (⟨⟨(appendMem s (.lit bs) t.st.mem).2, t.st.b⟩, t.locked⟩ : Sh)) = _
      rw [e]
      rfl
  · rename_i h
    rw [if_neg (by omega), if_pos (by omega)]
    rfl

/-! ## programs that leave the lock alone -/

/-- No step takes or releases the lock. -/
def NoLock : Prog α → Prop
  | .ret _ => True
  | .panic _ => True
  | .getI _ k => ∀ v, (k v).NoLock
  | .setI _ _ k => k.NoLock
  | .getBuf k => ∀ s, (k s).NoLock
  | .setBuf _ k => k.NoLock
  | .load _ _ k => ∀ v, (k v).NoLock
  | .store _ _ _ k => k.NoLock
  | .append _ _ k => ∀ s, (k s).NoLock
  | .alloc _ _ k => ∀ s, (k s).NoLock
  | .lock _ => False
  | .unlock _ => False

theorem NoLock.bind {p : Prog α} {f : α → Prog β} (hp : p.NoLock) (hf : ∀ a, (f a).NoLock) : (p.bind f).NoLock := by
  induction p with
  | ret a => exact hf a
  | panic e => trivial
  | getI x k ih => exact fun v => ih v (hp v)
  | setI x v k ih => exact ih hp
  | getBuf k ih => exact fun v => ih v (hp v)
  | setBuf t k ih => exact ih hp
  | load t i k ih => exact fun v => ih v (hp v)
  | store t i v k ih => exact ih hp
  | append t x k ih => exact fun v => ih v (hp v)
  | alloc a n k ih => exact fun v => ih v (hp v)
  | lock k ih => exact hp
  | unlock k ih => exact hp

theorem NoLock.bind' {p : Prog α} {f : α → Prog β} (hp : p.NoLock) (hf : ∀ a, (f a).NoLock) : (p >>= f).NoLock :=
  NoLock.bind hp hf

theorem noLock_doLoop {body : Int64 → α → Prog α} (h : ∀ i a, (body i a).NoLock) (n i : Int64) (a : α) :
    (doLoop body n i a).NoLock := by
  fun_induction doLoop body n i a with
  | case1 i a ih =>
    refine (h i a).bind fun a' => ?_
    split
    · rename_i hh
      exact ih a' hh
    · trivial

theorem noLock_bufLoad (i : Int64) : (bufLoad i).NoLock := by
  intro s; show (loadAt s i).NoLock; unfold loadAt; split
  · intro v; trivial
  · trivial

theorem noLock_bufStore (i : Int64) (v : UInt8) : (bufStore i v).NoLock := by
  intro s; show (storeAt s i v).NoLock; unfold storeAt; split <;> trivial

theorem noLock_loadAt (s : Slice) (i : Int64) : (loadAt s i).NoLock := by
  unfold loadAt; split
  · intro v; trivial
  · trivial

theorem noLock_reslice (s : Slice) (lo hi : Int64) : (reslice s lo hi).NoLock := by
  unfold reslice; split <;> trivial

theorem noLock_idx (l : List α) (i : Int64) : (idx l i).NoLock := by
  unfold idx
  split
  · cases l[i.toInt.toNat]? <;> trivial
  · trivial

theorem noLock_setIdx (l : List α) (i : Int64) (v : α) : (setIdx l i v).NoLock := by
  unfold setIdx; split <;> trivial

theorem noLock_srcAt (x : Src) (i : Int64) : (srcAt x i).NoLock := by
  cases x with
  | mem s => exact noLock_loadAt s i
  | lit bs => unfold srcAt; simp only []; split <;> trivial

/-- A program that leaves the lock alone runs the same whoever holds it. -/
theorem NoLock.run_locked {p : Prog α} (hp : p.NoLock) (st : St) (l : Bool) :
    p.run ⟨st, l⟩ = ((p.run ⟨st, false⟩).1, ⟨(p.run ⟨st, false⟩).2.st, l⟩) := by
  induction p generalizing st with
  | ret a => rfl
  | panic e => rfl
  | getI x k ih => exact ih _ (hp _) st
  | setI x v k ih => exact ih hp _
  | getBuf k ih => exact ih _ (hp _) st
  | setBuf t k ih => exact ih hp _
  | load t i k ih => exact ih _ (hp _) st
  | store t i v k ih => exact ih hp _
  | append t x k ih => exact ih _ (hp _) _
  | alloc a n k ih => exact ih _ (hp _) _
  | lock k ih => exact hp.elim
  | unlock k ih => exact hp.elim

/-- `defer b.Unlock()`: the same outcome, with the lock released. -/
theorem NoLock.run_deferUnlock {p : Prog α} (hp : p.NoLock) (s : Sh) :
    p.deferUnlock.run s = ((p.run s).1, ⟨(p.run s).2.st, false⟩) := by
  induction p generalizing s with
  | ret a => rfl
  | panic e => rfl
  | getI x k ih => exact ih _ (hp _) s
  | setI x v k ih => exact ih hp _
  | getBuf k ih => exact ih _ (hp _) s
  | setBuf t k ih => exact ih hp _
  | load t i k ih => exact ih _ (hp _) s
  | store t i v k ih => exact ih hp _
  | append t x k ih => exact ih _ (hp _) _
  | alloc a n k ih => exact ih _ (hp _) _
  | lock k ih => exact hp.elim
  | unlock k ih => exact hp.elim

end Prog
end Crunch
