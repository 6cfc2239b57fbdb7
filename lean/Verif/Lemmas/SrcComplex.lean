import Verif.Lemmas.SrcOut
import Verif.Lemmas.SrcProg
import Verif.V1.Mini

/-! Equations of the interpreter of `Verif/Src/Sem.lean` for the expressions and statements that only v1's `writeComplex`,
`readComplex` and `WriteComplexNext` have. -/

set_option linter.unusedSectionVars false

namespace Crunch.Src

/-- A value of type `interface{}`. -/
def goAny : V1.Any → V
  | .bytes s => .bytes (.mem s)
  | .u16 l => .lu16 l
  | .u32 l => .lu32 l
  | .u64 l => .lu64 l
  | .other => .unit

section
variable {M : Type → Type} [Monad M] [LawfulMonad M] [Sem M] (cx : Ctx M) (env : Env)

section
variable (k : V → M β)

theorem eval_assert (t a) : eval cx env (.assert t a) >>= k = eval cx env a >>= fun x => assertK t x >>= k := by
  simp only [eval, bind_assoc]
theorem eval_uint (t o a) : eval cx env (.uint t o a) >>= k =
    eval cx env o >>= fun o => eval cx env a >>= fun x => orderOf o >>= fun e => ofOpt x.src >>= fun x => uintAt t e x >>= k := by
  simp only [eval, bind_assoc]
theorem eval_own (l) : eval cx env (.own l) >>= k =
    eval.evals cx env l >>= fun l => ofOpt (l.mapM V.byte) >>= fun l => k (.bytes (.lit l)) := by
  simp only [eval, bind_assoc, pure_bind]

theorem assert_u8 (s : Slice) : assertK .u8 (goAny (.bytes s)) >>= k = k (.bytes (.mem s)) := by simp only [goAny, assertK, pure_bind]
theorem assert_u16 (l) : assertK .u16 (goAny (.u16 l)) >>= k = k (.lu16 l) := by simp only [goAny, assertK, pure_bind]
theorem assert_u32 (l) : assertK .u32 (goAny (.u32 l)) >>= k = k (.lu32 l) := by simp only [goAny, assertK, pure_bind]
theorem assert_u64 (l) : assertK .u64 (goAny (.u64 l)) >>= k = k (.lu64 l) := by simp only [goAny, assertK, pure_bind]
theorem assert_lu16 (l) : assertK .u16 (.lu16 l) >>= k = k (.lu16 l) := by simp only [assertK, pure_bind]
theorem assert_lu32 (l) : assertK .u32 (.lu32 l) >>= k = k (.lu32 l) := by simp only [assertK, pure_bind]
theorem assert_lu64 (l) : assertK .u64 (.lu64 l) >>= k = k (.lu64 l) := by simp only [assertK, pure_bind]

theorem setIndex_bytes (l : List UInt8) (i) (v : UInt8) : setIndex (.bytes (.lit l)) i (.u8 v) >>= k =
    Sem.setIdx l i v >>= fun l => k (.bytes (.lit l)) := by
  simp only [setIndex, bind_assoc, pure_bind]

theorem uintAt_u16 (e : Spec.Endian) (x : Crunch.Src) : uintAt .u16 e x >>= k =
    Sem.load x 1 >>= fun b1 => Sem.load x 0 >>= fun b0 => k (.u16 (V1.get16 e b0 b1)) := by
  simp only [uintAt, bind_assoc, pure_bind]
theorem uintAt_u32 (e : Spec.Endian) (x : Crunch.Src) : uintAt .u32 e x >>= k =
    Sem.load x 3 >>= fun b3 => Sem.load x 2 >>= fun b2 => Sem.load x 1 >>= fun b1 => Sem.load x 0 >>= fun b0 =>
      k (.u32 (V1.get32 e b0 b1 b2 b3)) := by
  simp only [uintAt, bind_assoc, pure_bind]
theorem uintAt_u64 (e : Spec.Endian) (x : Crunch.Src) : uintAt .u64 e x >>= k =
    Sem.load x 7 >>= fun b7 => Sem.load x 6 >>= fun b6 => Sem.load x 5 >>= fun b5 => Sem.load x 4 >>= fun b4 =>
    Sem.load x 3 >>= fun b3 => Sem.load x 2 >>= fun b2 => Sem.load x 1 >>= fun b1 => Sem.load x 0 >>= fun b0 =>
      k (.u64 (V1.get64 e b0 b1 b2 b3 b4 b5 b6 b7)) := by
  simp only [uintAt, bind_assoc, pure_bind]

theorem putInto_16 (e : Spec.Endian) (v : UInt16) : ofOpt (putInto (.bytes (.lit [0, 0].reverse)) (V1.put16 e v)) >>= k =
    k (.bytes (.lit (V1.put16 e v))) := by
  cases e <;> exact ofOpt_of rfl k
theorem putInto_32 (e : Spec.Endian) (v : UInt32) : ofOpt (putInto (.bytes (.lit [0, 0, 0, 0].reverse)) (V1.put32 e v)) >>= k =
    k (.bytes (.lit (V1.put32 e v))) := by
  cases e <;> exact ofOpt_of rfl k
theorem putInto_64 (e : Spec.Endian) (v : UInt64) : ofOpt (putInto (.bytes (.lit [0, 0, 0, 0, 0, 0, 0, 0].reverse)) (V1.put64 e v)) >>= k =
    k (.bytes (.lit (V1.put64 e v))) := by
  cases e <;> exact ofOpt_of rfl k
end

section
variable (k : Out × Env → M β)

theorem exec_nilBytes (i) : exec cx (.nilBytes i) env >>= k =
    withEnv (env.set i (.bytes (.mem ⟨0, 0, 0, 0⟩))) fun env => k (.next, env) := by
  simp only [exec, pure_bind, withEnv]
theorem exec_setOutAs (t i e) : exec cx (.setOutAs t i e) env >>= k =
    Sem.getOut >>= fun l => assertK t l >>= fun l => eval cx env i >>= fun i => eval cx env e >>= fun v => ofOpt i.int >>= fun i =>
      setIndex l i v >>= fun l => Sem.putOut l >>= fun _ => k (.next, env) := by
  simp only [exec, bind_assoc, pure_bind]
theorem exec_put (t o x e) : exec cx (.put t o x e) env >>= k =
    eval cx env o >>= fun o => eval cx env e >>= fun v => orderOf o >>= fun o => ofOpt (putBytes t o v) >>= fun l =>
      ofOpt env[x]? >>= fun old => ofOpt (putInto old l) >>= fun v => withEnv (env.set x v) fun env => k (.next, env) := by
  simp only [exec, bind_assoc, pure_bind, withEnv]
theorem unbrk_ret (v : V) : unbrk (.ret v, env) = (.ret v, env) := rfl
theorem clauses_nil (v : V) : exec.clauses cx v .nil env >>= k = k (.next, env) := by
  rw [exec.clauses, pure_bind]
  all_goals (intros; rename_i h; cases h)
end
end

/-! ## `Prog` -/

section
variable {β : Type}

theorem prog_order (o : V1.ByteOrder) : (orderOf (.order o) : Prog Spec.Endian) = o.get := by cases o <;> rfl
theorem prog_assert_u8 (x : V1.Any) (k : V → Prog β) : assertK .u8 (goAny x) >>= k = x.toBytes >>= fun s => k (.bytes (.mem s)) := by
  cases x <;> rfl
theorem prog_assert_u16 (x : V1.Any) (k : V → Prog β) : assertK .u16 (goAny x) >>= k = x.toU16 >>= fun l => k (.lu16 l) := by
  cases x <;> rfl
theorem prog_assert_u32 (x : V1.Any) (k : V → Prog β) : assertK .u32 (goAny x) >>= k = x.toU32 >>= fun l => k (.lu32 l) := by
  cases x <;> rfl
theorem prog_assert_u64 (x : V1.Any) (k : V → Prog β) : assertK .u64 (goAny x) >>= k = x.toU64 >>= fun l => k (.lu64 l) := by
  cases x <;> rfl

theorem prog_srcLit (l : List UInt8) (i : Int64) : Prog.srcAt (.lit l) i = Prog.idx l i := by
  unfold Prog.srcAt Prog.idx
  by_cases h : 0 ≤ i.toInt
  · by_cases h' : i.toInt.toNat < l.length
    · have h2 : i.toInt < l.length := by omega
      simp only [h, h2, and_self, if_true, List.getD_eq_getElem?_getD, List.getElem?_eq_getElem h', Option.getD_some]
    · have h2 : ¬ i.toInt < l.length := by omega
      have h3 : l[i.toInt.toNat]? = none := List.getElem?_eq_none (by omega)
      simp only [h, h2, h3, and_false, if_true, if_false]
  · simp only [h, false_and, if_false]

theorem prog_makeTyped1 (n : Int64) (k : List UInt8 → Prog β) : Prog.makeTyped 1 (0 : UInt8) n >>= k =
    if n.toInt < 0 ∨ n.toInt > maxAlloc then .panic .makeSlice else k (List.replicate n.toInt.toNat 0) := by
  unfold Prog.makeTyped
  have : (n.toInt * ((1 : Nat) : Int) > (maxAlloc : Int)) = (n.toInt > (maxAlloc : Int)) := by simp
  simp only [this]
  split <;> rfl
end

/-! ## `GoM` -/

section
open V1.Mini (plain)
open V3.Mini (onB)

theorem gom_loadLit (l : List UInt8) (i : Int64) : (Sem.load (.lit l) i : GoM (V3.St × V) UInt8) = idx l i := rfl
theorem gom_order (o : V1.ByteOrder) : (orderOf (.order o) : GoM (V3.St × V) Spec.Endian) = onB (plain o.get) := by cases o <;> rfl
theorem gom_assert_u8 (x : V1.Any) (k : V → GoM (V3.St × V) β) :
    assertK .u8 (goAny x) >>= k = onB (plain x.toBytes) >>= fun s => k (.bytes (.mem s)) := by
  cases x <;> (unfold goAny; rfl)
theorem gom_assert_u16 (x : V1.Any) (k : V → GoM (V3.St × V) β) :
    assertK .u16 (goAny x) >>= k = onB (plain x.toU16) >>= fun l => k (.lu16 l) := by
  cases x <;> (unfold goAny; rfl)
theorem gom_assert_u32 (x : V1.Any) (k : V → GoM (V3.St × V) β) :
    assertK .u32 (goAny x) >>= k = onB (plain x.toU32) >>= fun l => k (.lu32 l) := by
  cases x <;> (unfold goAny; rfl)
theorem gom_assert_u64 (x : V1.Any) (k : V → GoM (V3.St × V) β) :
    assertK .u64 (goAny x) >>= k = onB (plain x.toU64) >>= fun l => k (.lu64 l) := by
  cases x <;> (unfold goAny; rfl)

/-- The lock is free after the program if it was before. -/
def Frees (p : Prog α) : Prop := ∀ s, (p.run ⟨s, false⟩).2.locked = false

theorem Prog.run_bind' (p : Prog α) (f : α → Prog β) (s : Sh) : (p.bind f).run s =
    match p.run s with
    | (.ok a, s') => (f a).run s'
    | (.panic e, s') => (.panic e, s') := by
  induction p generalizing s with
  | ret a => rfl
  | panic e => rfl
  | getI x k ih => exact ih _ _
  | setI x v k ih => exact ih _
  | getBuf k ih => exact ih _ _
  | setBuf t k ih => exact ih _
  | load t i k ih => exact ih _ _
  | store t i v k ih => exact ih _
  | append t x k ih => exact ih _ _
  | alloc a n k ih => exact ih _ _
  | lock k ih =>
    simp only [Prog.bind, Prog.run]
    split
    · rfl
    · exact ih _
  | unlock k ih => exact ih _

theorem plain_bind {p : Prog α} (hp : Frees p) (f : α → Prog β) : plain (p >>= f) = plain p >>= fun a => plain (f a) := by
  funext s
  have h := hp s
  show ((Prog.run (p.bind f) ⟨s, false⟩).1, (Prog.run (p.bind f) ⟨s, false⟩).2.st) = _
  rw [Prog.run_bind', bind_run]
  unfold plain
  rcases hr : p.run ⟨s, false⟩ with ⟨r | e, t, l⟩
  · rw [hr] at h
    cases (h : l = false)
    rfl
  · rfl

theorem Frees.bind {p : Prog α} (hp : Frees p) {f : α → Prog β} (hf : ∀ a, Frees (f a)) : Frees (p >>= f) := by
  intro s
  have h := hp s
  show (Prog.run (p.bind f) ⟨s, false⟩).2.locked = false
  rw [Prog.run_bind']
  rcases hr : p.run ⟨s, false⟩ with ⟨r | e, t, l⟩
  · rw [hr] at h
    cases (h : l = false)
    exact hf r t
  · rw [hr] at h
    exact h

theorem frees_ret (a : α) : Frees (.ret a) := fun _ => rfl
theorem frees_panic (e : Panic) : Frees (.panic e : Prog α) := fun _ => rfl
theorem frees_idx (l : List α) (i : Int64) : Frees (Prog.idx l i) := by
  unfold Prog.idx
  split
  · split
    · exact frees_ret _
    · exact frees_panic _
  · exact frees_panic _
theorem frees_setIdx (l : List α) (i : Int64) (v : α) : Frees (Prog.setIdx l i v) := by
  unfold Prog.setIdx; split
  · exact frees_ret _
  · exact frees_panic _
theorem frees_makeTyped (w : Nat) (z : α) (n : Int64) : Frees (Prog.makeTyped w z n) := by
  unfold Prog.makeTyped; split
  · exact frees_panic _
  · exact frees_ret _
theorem frees_get (o : V1.ByteOrder) : Frees o.get := by
  cases o
  · exact frees_panic _
  · exact frees_ret _
theorem frees_loadAt (s : Slice) (i : Int64) : Frees (Prog.loadAt s i) := by
  unfold Prog.loadAt; split
  · exact fun _ => rfl
  · exact frees_panic _

theorem plain_idx (l : List α) (i : Int64) : plain (Prog.idx l i) = idx l i := by
  unfold Prog.idx idx
  split
  · cases l[i.toInt.toNat]? <;> rfl
  · rfl
theorem plain_setIdx (l : List α) (i : Int64) (v : α) : plain (Prog.setIdx l i v) = setIdx l i v := by
  unfold Prog.setIdx setIdx; split <;> rfl
theorem plain_makeTyped (w : Nat) (z : α) (n : Int64) : plain (Prog.makeTyped w z n) = makeTyped w z n := by
  unfold Prog.makeTyped makeTyped; split <;> rfl
theorem plain_loadAt (s : Slice) (i : Int64) : plain (Prog.loadAt s i) = V3.onMem (loadAt s i) := by
  unfold Prog.loadAt loadAt
  split <;> rfl
theorem plain_pure (a : α) : plain (pure a) = pure a := rfl

theorem plain_forLoop (body : Int64 → α → Prog α) (hb : ∀ i a, Frees (body i a)) (n i : Int64) (a : α) :
    plain (Prog.forLoop body n i a) = forLoop (fun i a => plain (body i a)) n i a := by
  fun_induction Prog.forLoop body n i a with
  | case1 i a h ih =>
    rw [forLoop.eq_def, if_pos h, show Prog.bind (body i a) _ = (body i a >>= _) from rfl, plain_bind (hb i a)]
    exact bind_congr fun a' => ih a'
  | case2 i a h => rw [forLoop.eq_def, if_neg h]; rfl

/-- `makeTyped` of bytes and `make` -/
theorem makeTyped1 (n : Int64) (k : List UInt8 → GoM σ β) : makeTyped 1 (0 : UInt8) n >>= k =
    if n.toInt < 0 ∨ n.toInt > maxAlloc then throwP .makeSlice else k (List.replicate n.toInt.toNat 0) := by
  unfold makeTyped
  have : (n.toInt * ((1 : Nat) : Int) > (maxAlloc : Int)) = (n.toInt > (maxAlloc : Int)) := by simp
  simp only [this]
  split <;> rfl

/-- The loops of `bytes16`, `bytes32` and `bytes64` as those of `MiniBuffer.writeComplex`. -/
theorem plain_bytes16 (o : V1.ByteOrder) (l : List UInt16) : plain (V1.bytes16 o l) =
    (makeTyped 1 0 (2 * Int64.ofNat l.length) >>= fun data => forLoop (fun i data => do
      let v ← idx l i
      let e ← plain o.get
      let t0 ← idx (V1.put16 e v) 0
      let data ← setIdx data (0 + i * 2) t0
      let t1 ← idx (V1.put16 e v) 1
      setIdx data (1 + i * 2) t1) (Int64.ofNat l.length) 0 data) := by
  unfold V1.bytes16
  rw [plain_bind (frees_makeTyped _ _ _), plain_makeTyped]
  refine bind_congr fun data => ?_
  rw [plain_forLoop]
  · simp only [plain_bind (frees_idx _ _), plain_bind (frees_setIdx _ _ _), plain_bind (frees_get _), plain_idx, plain_setIdx]
  · intro i a
    exact (frees_idx _ _).bind fun _ => (frees_get _).bind fun _ => (frees_idx _ _).bind fun _ => (frees_setIdx _ _ _).bind fun _ =>
      (frees_idx _ _).bind fun _ => frees_setIdx _ _ _
theorem plain_bytes32 (o : V1.ByteOrder) (l : List UInt32) : plain (V1.bytes32 o l) =
    (makeTyped 1 0 (4 * Int64.ofNat l.length) >>= fun data => forLoop (fun i data => do
      let v ← idx l i
      let e ← plain o.get
      let t0 ← idx (V1.put32 e v) 0
      let data ← setIdx data (0 + i * 4) t0
      let t1 ← idx (V1.put32 e v) 1
      let data ← setIdx data (1 + i * 4) t1
      let t2 ← idx (V1.put32 e v) 2
      let data ← setIdx data (2 + i * 4) t2
      let t3 ← idx (V1.put32 e v) 3
      setIdx data (3 + i * 4) t3) (Int64.ofNat l.length) 0 data) := by
  unfold V1.bytes32
  rw [plain_bind (frees_makeTyped _ _ _), plain_makeTyped]
  refine bind_congr fun data => ?_
  rw [plain_forLoop]
  · simp only [plain_bind (frees_idx _ _), plain_bind (frees_setIdx _ _ _), plain_bind (frees_get _), plain_idx, plain_setIdx]
  · intro i a
    exact (frees_idx _ _).bind fun _ => (frees_get _).bind fun _ => (frees_idx _ _).bind fun _ => (frees_setIdx _ _ _).bind fun _ =>
      (frees_idx _ _).bind fun _ => (frees_setIdx _ _ _).bind fun _ => (frees_idx _ _).bind fun _ => (frees_setIdx _ _ _).bind fun _ =>
      (frees_idx _ _).bind fun _ => frees_setIdx _ _ _
theorem plain_bytes64 (o : V1.ByteOrder) (l : List UInt64) : plain (V1.bytes64 o l) =
    (makeTyped 1 0 (8 * Int64.ofNat l.length) >>= fun data => forLoop (fun i data => do
      let v ← idx l i
      let e ← plain o.get
      let t0 ← idx (V1.put64 e v) 0
      let data ← setIdx data (0 + i * 8) t0
      let t1 ← idx (V1.put64 e v) 1
      let data ← setIdx data (1 + i * 8) t1
      let t2 ← idx (V1.put64 e v) 2
      let data ← setIdx data (2 + i * 8) t2
      let t3 ← idx (V1.put64 e v) 3
      let data ← setIdx data (3 + i * 8) t3
      let t4 ← idx (V1.put64 e v) 4
      let data ← setIdx data (4 + i * 8) t4
      let t5 ← idx (V1.put64 e v) 5
      let data ← setIdx data (5 + i * 8) t5
      let t6 ← idx (V1.put64 e v) 6
      let data ← setIdx data (6 + i * 8) t6
      let t7 ← idx (V1.put64 e v) 7
      setIdx data (7 + i * 8) t7) (Int64.ofNat l.length) 0 data) := by
  unfold V1.bytes64
  rw [plain_bind (frees_makeTyped _ _ _), plain_makeTyped]
  refine bind_congr fun data => ?_
  rw [plain_forLoop]
  · simp only [plain_bind (frees_idx _ _), plain_bind (frees_setIdx _ _ _), plain_bind (frees_get _), plain_idx, plain_setIdx]
  · intro i a
    exact (frees_idx _ _).bind fun _ => (frees_get _).bind fun _ => (frees_idx _ _).bind fun _ => (frees_setIdx _ _ _).bind fun _ =>
      (frees_idx _ _).bind fun _ => (frees_setIdx _ _ _).bind fun _ => (frees_idx _ _).bind fun _ => (frees_setIdx _ _ _).bind fun _ =>
      (frees_idx _ _).bind fun _ => (frees_setIdx _ _ _).bind fun _ => (frees_idx _ _).bind fun _ => (frees_setIdx _ _ _).bind fun _ =>
      (frees_idx _ _).bind fun _ => (frees_setIdx _ _ _).bind fun _ => (frees_idx _ _).bind fun _ => (frees_setIdx _ _ _).bind fun _ =>
      (frees_idx _ _).bind fun _ => frees_setIdx _ _ _

theorem plain_loadU16 (o : V1.ByteOrder) (s : Slice) : plain (V1.loadU16 o s) =
    plain o.get >>= fun e => V3.onMem (loadAt s 1) >>= fun b1 => V3.onMem (loadAt s 0) >>= fun b0 => pure (V1.get16 e b0 b1) := by
  unfold V1.loadU16
  simp only [plain_bind (frees_get _), plain_bind (frees_loadAt _ _), plain_loadAt, plain_pure]
theorem plain_loadU32 (o : V1.ByteOrder) (s : Slice) : plain (V1.loadU32 o s) =
    plain o.get >>= fun e => V3.onMem (loadAt s 3) >>= fun b3 => V3.onMem (loadAt s 2) >>= fun b2 =>
      V3.onMem (loadAt s 1) >>= fun b1 => V3.onMem (loadAt s 0) >>= fun b0 => pure (V1.get32 e b0 b1 b2 b3) := by
  unfold V1.loadU32
  simp only [plain_bind (frees_get _), plain_bind (frees_loadAt _ _), plain_loadAt, plain_pure]
theorem plain_loadU64 (o : V1.ByteOrder) (s : Slice) : plain (V1.loadU64 o s) =
    plain o.get >>= fun e => V3.onMem (loadAt s 7) >>= fun b7 => V3.onMem (loadAt s 6) >>= fun b6 =>
      V3.onMem (loadAt s 5) >>= fun b5 => V3.onMem (loadAt s 4) >>= fun b4 => V3.onMem (loadAt s 3) >>= fun b3 =>
      V3.onMem (loadAt s 2) >>= fun b2 => V3.onMem (loadAt s 1) >>= fun b1 => V3.onMem (loadAt s 0) >>= fun b0 =>
      pure (V1.get64 e b0 b1 b2 b3 b4 b5 b6 b7) := by
  unfold V1.loadU64
  simp only [plain_bind (frees_get _), plain_bind (frees_loadAt _ _), plain_loadAt, plain_pure]
end

theorem goAny_bytes (s : Slice) : goAny (.bytes s) = .bytes (.mem s) := rfl
theorem goAny_u16 (l : List UInt16) : goAny (.u16 l) = .lu16 l := rfl
theorem goAny_u32 (l : List UInt32) : goAny (.u32 l) = .lu32 l := rfl
theorem goAny_u64 (l : List UInt64) : goAny (.u64 l) = .lu64 l := rfl

theorem at_makeTyped (v : V) (w : Nat) (z : α) (n : Int64) (k : List α → GoM (V3.St × V) β) :
    atOut v (makeTyped w z n >>= k) = ob v (makeTyped w z n) fun a => atOut v (k a) := by
  rw [← at_onB, onB_makeTyped]
theorem thru_makeTyped (inj : O → V) (x : O) (w : Nat) (z : α) (n : Int64) (f : List α → O → Tgt β) :
    through inj (makeTyped w z n) x f = ob (inj x) (makeTyped w z n) fun a => f a x := by
  rw [← thru_onB, onB_makeTyped]

attribute [irreducible] goAny

end Crunch.Src
