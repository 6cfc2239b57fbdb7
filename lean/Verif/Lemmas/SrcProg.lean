import Verif.Lemmas.Src

/-! Equations of the interpreter of `Verif/Src/Sem.lean` for the v1 and v2 `Buffer`s, whose methods are programs of single steps. -/

namespace Crunch.Src

section
variable {β : Type}

theorem prog_fail (p : Panic) : (Sem.fail p : Prog β) = .panic p := rfl
theorem prog_field (f : Field) : (Sem.field f : Prog Int64) = Prog.field f := rfl
theorem prog_assign (f : Field) (v : Int64) : (Sem.assign f v : Prog Unit) = Prog.assign f v := rfl
theorem prog_buf : (Sem.buf : Prog Slice) = Prog.buf := rfl
theorem prog_assignBuf (s : Slice) : (Sem.assignBuf s : Prog Unit) = Prog.assignBuf s := rfl
theorem prog_load (x : Crunch.Src) (i : Int64) : (Sem.load x i : Prog UInt8) = Prog.srcAt x i := rfl
theorem prog_store (s : Slice) (i : Int64) (v : UInt8) : (Sem.store s i v : Prog Unit) = Prog.storeAt s i v := rfl
theorem prog_idx (l : List α) (i : Int64) : (Sem.idx l i : Prog α) = Prog.idx l i := rfl
theorem prog_setIdx (l : List α) (i : Int64) (v : α) : (Sem.setIdx l i v : Prog (List α)) = Prog.setIdx l i v := rfl
theorem prog_reslice (s : Slice) (lo hi : Int64) : (Sem.reslice s lo hi : Prog Slice) = Prog.reslice s lo hi := rfl
theorem prog_make (n : Int64) : (Sem.make n : Prog Crunch.Src) = Prog.makeZero n := rfl
theorem prog_makeTyped (w : Nat) (z : α) (n : Int64) : (Sem.makeTyped w z n : Prog (List α)) = Prog.makeTyped w z n := rfl
theorem prog_append (s : Slice) (x : Crunch.Src) : (Sem.append s x : Prog Slice) = Prog.appendTo s x := rfl
theorem prog_lock : (Sem.lock : Prog Unit) = Prog.Lock := rfl
theorem prog_unlock : (Sem.unlock : Prog Unit) = Prog.Unlock := rfl
theorem prog_lit_nil (k : Crunch.Src → Prog β) : Sem.lit [].reverse >>= k = (Prog.alloc [] 0 .ret : Prog Slice) >>= fun s => k (.mem s) := rfl
theorem prog_lit_one (x : UInt8) (k : Crunch.Src → Prog β) : Sem.lit [x].reverse >>= k = k (.lit [x]) := rfl
theorem prog_make_bind (n : Int64) (k : Crunch.Src → Prog β) : Sem.make n >>= k =
    if n.toInt < 0 ∨ n.toInt > maxAlloc then .panic .makeSlice else k (.lit (List.replicate n.toInt.toNat 0)) := by
  show Prog.makeZero n >>= k = _
  unfold Prog.makeZero
  split <;> rfl

theorem prog_makeZero (n : Int64) (k : Crunch.Src → Prog β) : Prog.makeZero n >>= k =
    if n.toInt < 0 ∨ n.toInt > maxAlloc then .panic .makeSlice else k (.lit (List.replicate n.toInt.toNat 0)) := prog_make_bind n k
theorem prog_srcAt (s : Slice) (i : Int64) : Prog.srcAt (.mem s) i = Prog.loadAt s i := rfl
theorem prog_panic (p : Panic) (k : α → Prog β) : (Prog.panic p >>= k) = .panic p := rfl
theorem prog_panicIf (c : Prop) [Decidable c] (p : Panic) (k : Unit → Prog β) :
    Prog.panicIf c p >>= k = if c then .panic p else k () := by
  unfold Prog.panicIf; split <;> rfl
end

/-- Releasing the lock at the end commutes with what does not touch the shared state. -/
theorem deferUnlock_bind (p : Prog α) (f : α → Prog β) (h : ∀ a, (∃ b, f a = .ret b) ∨ ∃ e, f a = .panic e) :
    p.deferUnlock >>= f = (p >>= f).deferUnlock := by
  show p.deferUnlock.bind f = (p.bind f).deferUnlock
  induction p with
  | ret a =>
    rcases h a with ⟨b, hb⟩ | ⟨e, he⟩
    · simp only [Prog.bind, Prog.deferUnlock, hb]
    · simp only [Prog.bind, Prog.deferUnlock, he]
  | panic e => rfl
  | getI x k ih => simp only [Prog.bind, Prog.deferUnlock, ih]
  | setI x v k ih => simp only [Prog.bind, Prog.deferUnlock, ih]
  | getBuf k ih => simp only [Prog.bind, Prog.deferUnlock, ih]
  | setBuf s k ih => simp only [Prog.bind, Prog.deferUnlock, ih]
  | load s i k ih => simp only [Prog.bind, Prog.deferUnlock, ih]
  | store s i v k ih => simp only [Prog.bind, Prog.deferUnlock, ih]
  | append s x k ih => simp only [Prog.bind, Prog.deferUnlock, ih]
  | alloc a n k ih => simp only [Prog.bind, Prog.deferUnlock, ih]
  | lock k ih => simp only [Prog.bind, Prog.deferUnlock, ih]
  | unlock k ih => simp only [Prog.bind, Prog.deferUnlock, ih]

theorem prog_defer (cx : Ctx Prog) (env : Env) (k : Option K) (r : S) :
    execBody cx (.cons .deferUnlock r) env >>= fin k = Prog.deferUnlock (execBody cx r env >>= fin k) := by
  rw [execBody]
  refine deferUnlock_bind _ _ fun o => ?_
  unfold fin
  split
  · exact .inl ⟨_, rfl⟩
  · exact .inl ⟨_, rfl⟩
  · exact .inr ⟨_, rfl⟩

theorem prog_locked (p : Prog α) (f : α → β) :
    (Prog.locked p >>= fun x => (pure (f x) : Prog β)) = Prog.Lock >>= fun _ => Prog.deferUnlock (p >>= fun x => pure (f x)) := by
  exact congrArg Prog.lock (deferUnlock_bind p (fun x => pure (f x)) fun a => .inl ⟨f a, rfl⟩)

theorem prog_doLoop (body : Int64 → A → Prog A) (n i : Int64) (a : A) :
    Prog.doLoop body n i a = body i a >>= fun a' => if i + 1 < n then Prog.doLoop body n (i + 1) a' else pure a' := by
  rw [Prog.doLoop.eq_def]; rfl
theorem prog_forLoop (body : Int64 → A → Prog A) (n i : Int64) (a : A) :
    Prog.forLoop body n i a = if i < n then body i a >>= fun a' => Prog.forLoop body n (i + 1) a' else pure a := by
  rw [Prog.forLoop.eq_def]; rfl

end Crunch.Src
