import Verif.Lemmas.Basic
import Verif.Src.Sem

/-! Equations of the interpreter of `Verif/Src/Sem.lean`. -/

set_option linter.unusedSectionVars false

namespace Crunch

theorem Prog.bind_assoc' (p : Prog α) (f : α → Prog β) (g : β → Prog γ) :
    (p.bind f).bind g = p.bind fun a => (f a).bind g := by
  induction p with
  | ret a => rfl
  | panic e => rfl
  | getI x k ih => simp only [Prog.bind, ih]
  | setI x v k ih => simp only [Prog.bind, ih]
  | getBuf k ih => simp only [Prog.bind, ih]
  | setBuf s k ih => simp only [Prog.bind, ih]
  | load s i k ih => simp only [Prog.bind, ih]
  | store s i v k ih => simp only [Prog.bind, ih]
  | append s x k ih => simp only [Prog.bind, ih]
  | alloc a n k ih => simp only [Prog.bind, ih]
  | lock k ih => simp only [Prog.bind, ih]
  | unlock k ih => simp only [Prog.bind, ih]

theorem Prog.bind_ret' (p : Prog α) : p.bind .ret = p := by
  induction p with
  | ret a => rfl
  | panic e => rfl
  | getI x k ih => simp only [Prog.bind, ih]
  | setI x v k ih => simp only [Prog.bind, ih]
  | getBuf k ih => simp only [Prog.bind, ih]
  | setBuf s k ih => simp only [Prog.bind, ih]
  | load s i k ih => simp only [Prog.bind, ih]
  | store s i v k ih => simp only [Prog.bind, ih]
  | append s x k ih => simp only [Prog.bind, ih]
  | alloc a n k ih => simp only [Prog.bind, ih]
  | lock k ih => simp only [Prog.bind, ih]
  | unlock k ih => simp only [Prog.bind, ih]

instance : LawfulMonad Prog := LawfulMonad.mk'
  (id_map := fun x => Prog.bind_ret' x)
  (pure_bind := fun _ _ => rfl)
  (bind_assoc := fun x f g => Prog.bind_assoc' x f g)

namespace Src
open V3 V3.Mini

/-! ## `onB` -/

theorem onB_pure (a : α) : (onB (pure a) : GoM (V3.St × O) α) = pure a := rfl

theorem onB_bind (m : GoM V3.St α) (f : α → GoM V3.St β) : (onB (m >>= f) : GoM (V3.St × O) β) = onB m >>= fun a => onB (f a) := by
  funext s
  simp only [bind, onB]
  cases h : m s.1 with
  | mk r t => cases r <;> simp only []

theorem onB_throwP (p : Panic) : (onB (throwP p) : GoM (V3.St × O) α) = throwP p := rfl

theorem onB_panicIf (c : Prop) [Decidable c] (p : Panic) : (onB (panicIf c p) : GoM (V3.St × O) Unit) = panicIf c p := by
  unfold panicIf; split <;> rfl

theorem onB_ite (c : Prop) [Decidable c] (a b : GoM V3.St α) : (onB (if c then a else b) : GoM (V3.St × O) α) = if c then onB a else onB b := by
  split <;> rfl

theorem onB_idx (l : List α) (i : Int64) : (onB (idx l i) : GoM (V3.St × O) α) = idx l i := by
  unfold idx; split
  · split <;> rfl
  · rfl

theorem onB_setIdx (l : List α) (i : Int64) (v : α) : (onB (setIdx l i v) : GoM (V3.St × O) (List α)) = setIdx l i v := by
  unfold setIdx; split <;> rfl

theorem onB_makeTyped (w : Nat) (z : α) (n : Int64) : (onB (makeTyped w z n) : GoM (V3.St × O) (List α)) = makeTyped w z n := by
  unfold makeTyped; split <;> rfl

theorem onB_doLoop (body : Int64 → α → GoM V3.St α) (n i : Int64) (a : α) :
    (onB (doLoop body n i a) : GoM (V3.St × O) α) = doLoop (fun i a => onB (body i a)) n i a := by
  fun_induction doLoop body n i a with
  | case1 i a ih =>
    rw [doLoop.eq_def, onB_bind]
    congr 1
    funext a'
    split
    · rename_i h
      exact ih a' h
    · rfl

theorem onB_forLoop (body : Int64 → α → GoM V3.St α) (n i : Int64) (a : α) :
    (onB (forLoop body n i a) : GoM (V3.St × O) α) = forLoop (fun i a => onB (body i a)) n i a := by
  fun_induction forLoop body n i a with
  | case1 i a h ih =>
    rw [forLoop.eq_def, if_pos h, onB_bind]
    congr 1
    funext a'
    exact ih a'
  | case2 i a h => rw [forLoop.eq_def, if_neg h]; rfl

/-! ## shifts by literals and conversions, as the models write them -/

section
theorem shl16_8 (x : UInt16) : shl16 x 8 = x <<< 8 := rfl
theorem shr16_8 (x : UInt16) : shr16 x 8 = x >>> 8 := rfl
theorem shl32_8 (x : UInt32) : shl32 x 8 = x <<< 8 := rfl
theorem shr32_8 (x : UInt32) : shr32 x 8 = x >>> 8 := rfl
theorem shl32_16 (x : UInt32) : shl32 x 16 = x <<< 16 := rfl
theorem shr32_16 (x : UInt32) : shr32 x 16 = x >>> 16 := rfl
theorem shl32_24 (x : UInt32) : shl32 x 24 = x <<< 24 := rfl
theorem shr32_24 (x : UInt32) : shr32 x 24 = x >>> 24 := rfl
theorem shl64_1 (x : UInt64) : shl64 x 1 = x <<< 1 := rfl
theorem shl64_8 (x : UInt64) : shl64 x 8 = x <<< 8 := rfl
theorem shr64_8 (x : UInt64) : shr64 x 8 = x >>> 8 := rfl
theorem shl64_16 (x : UInt64) : shl64 x 16 = x <<< 16 := rfl
theorem shr64_16 (x : UInt64) : shr64 x 16 = x >>> 16 := rfl
theorem shl64_24 (x : UInt64) : shl64 x 24 = x <<< 24 := rfl
theorem shr64_24 (x : UInt64) : shr64 x 24 = x >>> 24 := rfl
theorem shl64_32 (x : UInt64) : shl64 x 32 = x <<< 32 := rfl
theorem shr64_32 (x : UInt64) : shr64 x 32 = x >>> 32 := rfl
theorem shl64_40 (x : UInt64) : shl64 x 40 = x <<< 40 := rfl
theorem shr64_40 (x : UInt64) : shr64 x 40 = x >>> 40 := rfl
theorem shl64_48 (x : UInt64) : shl64 x 48 = x <<< 48 := rfl
theorem shr64_48 (x : UInt64) : shr64 x 48 = x >>> 48 := rfl
theorem shl64_56 (x : UInt64) : shl64 x 56 = x <<< 56 := rfl
theorem shr64_56 (x : UInt64) : shr64 x 56 = x >>> 56 := rfl
theorem shlI16_8 (x : Int16) : shlI16 x 8 = x <<< 8 := rfl
theorem shrI16_8 (x : Int16) : shrI16 x 8 = x >>> 8 := rfl
theorem shlI32_8 (x : Int32) : shlI32 x 8 = x <<< 8 := rfl
theorem shrI32_8 (x : Int32) : shrI32 x 8 = x >>> 8 := rfl
theorem shlI32_16 (x : Int32) : shlI32 x 16 = x <<< 16 := rfl
theorem shrI32_16 (x : Int32) : shrI32 x 16 = x >>> 16 := rfl
theorem shlI32_24 (x : Int32) : shlI32 x 24 = x <<< 24 := rfl
theorem shrI32_24 (x : Int32) : shrI32 x 24 = x >>> 24 := rfl
theorem shlI64_8 (x : Int64) : shlI64 x 8 = x <<< 8 := rfl
theorem shrI64_8 (x : Int64) : shrI64 x 8 = x >>> 8 := rfl
theorem shlI64_16 (x : Int64) : shlI64 x 16 = x <<< 16 := rfl
theorem shrI64_16 (x : Int64) : shrI64 x 16 = x >>> 16 := rfl
theorem shlI64_24 (x : Int64) : shlI64 x 24 = x <<< 24 := rfl
theorem shrI64_24 (x : Int64) : shrI64 x 24 = x >>> 24 := rfl
theorem shlI64_32 (x : Int64) : shlI64 x 32 = x <<< 32 := rfl
theorem shrI64_32 (x : Int64) : shrI64 x 32 = x >>> 32 := rfl
theorem shlI64_40 (x : Int64) : shlI64 x 40 = x <<< 40 := rfl
theorem shrI64_40 (x : Int64) : shrI64 x 40 = x >>> 40 := rfl
theorem shlI64_48 (x : Int64) : shlI64 x 48 = x <<< 48 := rfl
theorem shrI64_48 (x : Int64) : shrI64 x 48 = x >>> 48 := rfl
theorem shlI64_56 (x : Int64) : shlI64 x 56 = x <<< 56 := rfl
theorem shrI64_56 (x : Int64) : shrI64 x 56 = x >>> 56 := rfl
theorem byte_UInt16 (x : UInt16) : Elem.byte x = x.toUInt8 := rfl
theorem byte_UInt32 (x : UInt32) : Elem.byte x = x.toUInt8 := rfl
theorem byte_UInt64 (x : UInt64) : Elem.byte x = x.toUInt8 := rfl
theorem byte_Int16 (x : Int16) : Elem.byte x = x.toUInt16.toUInt8 := rfl
theorem byte_Int32 (x : Int32) : Elem.byte x = x.toUInt32.toUInt8 := rfl
theorem byte_Int64 (x : Int64) : Elem.byte x = x.toUInt64.toUInt8 := rfl
theorem ofByte_UInt16 (x : UInt8) : (Elem.ofByte x : UInt16) = x.toUInt16 := rfl
theorem ofByte_UInt32 (x : UInt8) : (Elem.ofByte x : UInt32) = x.toUInt32 := rfl
theorem ofByte_UInt64 (x : UInt8) : (Elem.ofByte x : UInt64) = x.toUInt64 := rfl
theorem ofByte_Int16 (x : UInt8) : (Elem.ofByte x : Int16) = x.toUInt16.toInt16 := rfl
theorem ofByte_Int32 (x : UInt8) : (Elem.ofByte x : Int32) = x.toUInt32.toInt32 := rfl
theorem ofByte_Int64 (x : UInt8) : (Elem.ofByte x : Int64) = x.toUInt64.toInt64 := rfl

end

theorem len_mem (s : Slice) : (Src.mem s).len = s.len := rfl

theorem len_cons_ne {o : α} {l : List α} (h : (o :: l).length < 2 ^ 63) : ¬ Crunch.len (o :: l) = 0 := by
  intro e
  have e := congrArg Int64.toInt e
  simp only [Crunch.len, List.length_cons] at e h
  rw [Int64.toInt_ofNat_of_lt h] at e
  simp at e
  omega

theorem len_cons_cons_ne {o p : α} {l : List α} (h : (o :: p :: l).length < 2 ^ 63) : ¬ Crunch.len (o :: p :: l) = 1 := by
  intro e
  have e := congrArg Int64.toInt e
  simp only [Crunch.len, List.length_cons] at e h
  rw [Int64.toInt_ofNat_of_lt h] at e
  simp at e
  omega

theorem doLoop_eq {σ : Type} (body : Int64 → A → GoM σ A) (n i : Int64) (a : A) :
    doLoop body n i a = body i a >>= fun a' => if i + 1 < n then doLoop body n (i + 1) a' else pure a' := by
  rw [doLoop.eq_def]

/-! ## loops -/

section
variable {M : Type → Type} [Monad M] [LawfulMonad M] [Sem M]

/-- Rounds that `do … while (++i < n)` can have. -/
def rounds (n i : Int64) : Nat := if i.toInt = 2 ^ 63 - 1 then 2 ^ 64 + 1 else (n.toInt - i.toInt).toNat + 1

theorem rounds_le (n i : Int64) : rounds n i ≤ 2 ^ 64 + 1 := by
  unfold rounds
  have := i.toInt_lt; have := i.le_toInt; have := n.toInt_lt; have := n.le_toInt
  split <;> omega

theorem rounds_succ {n i : Int64} (h : i + 1 < n) : rounds n (i + 1) < rounds n i := by
  unfold rounds
  have e : (i + 1).toInt = (i.toInt + 1 + 2 ^ 63) % 2 ^ 64 - 2 ^ 63 := by
    rw [Int64.toInt_add]; unfold Int.bmod; simp; omega
  rw [Int64.lt_iff_toInt_lt] at h
  have := i.toInt_lt; have := i.le_toInt; have := n.toInt_lt; have := n.le_toInt
  rw [e] at h ⊢
  split <;> split <;> omega

theorem rounds_pos (n i : Int64) : 0 < rounds n i := by unfold rounds; split <;> omega

/-- A block with `goto`, as a counted loop.  `u` stands for local variables that every round sets before it uses them. -/
theorem loopGoto_bind {l : Crunch.Gen.Str} {step : Env → M (Out × Env)} {D : Int64 → A → M A} {n : Int64} {body : Int64 → A → M A}
    (hD : ∀ i a, D i a = body i a >>= fun a' => if i + 1 < n then D (i + 1) a' else pure a')
    (g : A → U → Int64 → Env)
    (hstep : ∀ i a u (k : Out × Env → M B) (k' : A → M B),
      (∀ a u, (if i + 1 < n then k (.goto l, g a u (i + 1)) else k (.next, g a u (i + 1))) = k' a) →
      step (g a u i) >>= k = body i a >>= k')
    {k : Out × Env → M B} {k' : A → M B} (hk : ∀ a u i, k (.next, g a u i) = k' a)
    (fuel : Nat) (i : Int64) (a : A) (u : U) (hf : rounds n i ≤ fuel) :
    loopGoto l step fuel (g a u i) >>= k = D i a >>= k' := by
  induction fuel generalizing i a u with
  | zero => have := rounds_pos n i; omega
  | succ fuel ih =>
    rw [loopGoto, hD]
    simp only [bind_assoc]
    apply hstep
    intro a u
    by_cases h : i + 1 < n
    · have hr := rounds_succ h
      simp only [h, if_true]
      exact ih _ _ _ (by omega)
    · simp only [h, if_false, pure_bind, hk]

theorem left_succ {n i : Int64} (h : i < n) : (n.toInt - (i + 1).toInt).toNat < (n.toInt - i.toInt).toNat := by
  have e : (i + 1).toInt = (i.toInt + 1 + 2 ^ 63) % 2 ^ 64 - 2 ^ 63 := by
    rw [Int64.toInt_add]; unfold Int.bmod; simp; omega
  rw [Int64.lt_iff_toInt_lt] at h
  have := i.toInt_lt; have := i.le_toInt; have := n.toInt_lt; have := n.le_toInt
  rw [e]; omega

theorem left_le (n i : Int64) : (n.toInt - i.toInt).toNat ≤ 2 ^ 64 := by
  have := i.toInt_lt; have := i.le_toInt; have := n.toInt_lt; have := n.le_toInt
  omega

/-- `range`, as a counted loop. -/
theorem loopRange_bind {step : Int64 → Env → M (Out × Env)} {D : Int64 → A → M A} {n : Int64} {body : Int64 → A → M A}
    (hD : ∀ i a, D i a = if i < n then body i a >>= fun a' => D (i + 1) a' else pure a)
    (g : A → U → Env)
    (hstep : ∀ i a u (k : Out × Env → M B) (k' : A → M B), (∀ a u, k (.next, g a u) = k' a) → step i (g a u) >>= k = body i a >>= k')
    {k : Out × Env → M B} {k' : A → M B} (hk : ∀ a u, k (.next, g a u) = k' a)
    (fuel : Nat) (i : Int64) (a : A) (u : U) (hf : (n.toInt - i.toInt).toNat < fuel) :
    loopRange step n fuel i (g a u) >>= k = D i a >>= k' := by
  induction fuel generalizing i a u with
  | zero => omega
  | succ fuel ih =>
    rw [loopRange, hD]
    by_cases h : i < n
    · have hl := left_succ h
      simp only [h, if_true, bind_assoc]
      apply hstep
      intro a u
      exact ih _ _ _ (by omega)
    · simp only [h, if_false, pure_bind, hk]

/-- `for`, as a counted loop. -/
theorem loopFor_bind {c : Env → M V} {step post : Env → M (Out × Env)} {D : Int64 → A → M A} {n : Int64} {body : Int64 → A → M A}
    (hD : ∀ i a, D i a = if i < n then body i a >>= fun a' => D (i + 1) a' else pure a)
    (g : A → U → Int64 → Env)
    (hc : ∀ i a u (k : V → M B), c (g a u i) >>= k = k (.bool (decide (i < n))))
    (hp : ∀ i a u (k : Out × Env → M B), post (g a u i) >>= k = k (.next, g a u (i + 1)))
    (hstep : ∀ i a u (k : Out × Env → M B) (k' : A → M B), (∀ a u, k (.next, g a u i) = k' a) → step (g a u i) >>= k = body i a >>= k')
    {k : Out × Env → M B} {k' : A → M B} (hk : ∀ a u i, k (.next, g a u i) = k' a)
    (fuel : Nat) (i : Int64) (a : A) (u : U) (hf : (n.toInt - i.toInt).toNat < fuel) :
    loopFor c step post fuel (g a u i) >>= k = D i a >>= k' := by
  induction fuel generalizing i a u with
  | zero => omega
  | succ fuel ih =>
    rw [loopFor, hD, bind_assoc, hc]
    by_cases h : i < n
    · have hl := left_succ h
      simp only [h, if_true, decide_true, bind_assoc]
      apply hstep
      intro a u
      simp only [bind_assoc, hp]
      exact ih _ _ _ (by omega)
    · simp only [h, if_false, decide_false, pure_bind, hk]

theorem forLoop_eq {σ : Type} (body : Int64 → A → GoM σ A) (n i : Int64) (a : A) :
    forLoop body n i a = if i < n then body i a >>= fun a' => forLoop body n (i + 1) a' else pure a := by
  rw [forLoop.eq_def]

end

/-! ## execution, in continuation-passing style -/

/-- A failure ends the program. -/
class LawfulSem (M : Type → Type) [Monad M] [Sem M] : Prop where
  fail_bind : ∀ {α β : Type} (p : Panic) (k : α → M β), (Sem.fail p : M α) >>= k = Sem.fail p

instance : LawfulSem Prog := ⟨fun _ _ => rfl⟩
instance : LawfulSem (GoM (V3.St × V)) := ⟨fun _ _ => rfl⟩

section
variable {M : Type → Type} [Monad M] [Sem M]

/-- Go on if the statement ended normally. -/
def onNext (o : Out × Env) (f : Env → M β) (g : Out × Env → M β) : M β :=
  match o.1 with
  | .next => f o.2
  | _ => g o

theorem onNext_next (env : Env) (f : Env → M β) (g : Out × Env → M β) : onNext (.next, env) f g = f env := rfl
theorem onNext_ret (v : V) (env : Env) (f : Env → M β) (g : Out × Env → M β) : onNext (.ret v, env) f g = g (.ret v, env) := rfl
theorem onNext_goto (l) (env : Env) (f : Env → M β) (g : Out × Env → M β) : onNext (.goto l, env) f g = g (.goto l, env) := rfl
theorem onNext_brk (env : Env) (f : Env → M β) (g : Out × Env → M β) : onNext (.brk, env) f g = g (.brk, env) := rfl

/-- Branch on a Boolean. -/
def onBool (v : V) (f g : M β) : M β :=
  match v with
  | .bool b => if b then f else g
  | _ => stuck

theorem onBool_bool (b : Bool) (f g : M β) : onBool (.bool b) f g = if b then f else g := rfl
theorem onBool_decide (c : Prop) [Decidable c] (f g : M β) : onBool (.bool (decide c)) f g = if c then f else g := by
  rw [onBool_bool]; simp only [decide_eq_true_eq]

/-- A list of variables to be written out. -/
def withEnv (env : Env) (f : Env → M β) : M β := f env

/-- A value to be written out. -/
def withV (v : V) (f : V → M β) : M β := f v

/-- The end of a function. -/
def fin (k : Option K) (o : Out × Env) : M V :=
  match o.1 with
  | .next => pure .unit
  | .ret v => pure (v.to k)
  | _ => stuck

theorem fin_next (k) (env : Env) : (fin k (.next, env) : M V) = pure .unit := rfl
theorem fin_ret (k) (v : V) (env : Env) : (fin k (.ret v, env) : M V) = withV (v.to k) pure := rfl

/-- The end of a `switch`. -/
def unbrk (o : Out × Env) : Out × Env :=
  match o.1 with
  | .brk => (.next, o.2)
  | _ => o

theorem call_of {p : Pkg} {name : Gen.Str} {f : Fun} {args : List V}
    (h : p.funs.find? (·.name == name) = some f) (hl : args.length = f.params.length) (fuel d : Nat) :
    (p.call fuel (d + 1) name args : M V) =
      withEnv (List.zipWith V.to args f.params ++ List.replicate (f.vars - f.params.length) .unit) fun env =>
        execBody ⟨p.call fuel d, (p.errs.lookup ·), fuel⟩ f.body env >>= fin f.result := by
  rw [Pkg.call, h]
  simp only [Fun.run, if_pos hl]
  rfl

/-- Use of a theorem about a function in a caller. -/
theorem use {c : M V} {m : M α} {f : α → V} [LawfulMonad M] (h : c = m >>= fun x => pure (f x)) (k : V → M β) :
    c >>= k = m >>= fun x => k (f x) := by
  rw [h]; simp only [bind_assoc, pure_bind]

/-- A call that only computes. -/
theorem use_pure {c : M V} {v : V} [LawfulMonad M] (h : c = pure v) (k : V → M β) : c >>= k = k v := by
  rw [h]; simp only [pure_bind]

theorem bne_decide {α : Type} [BEq α] [LawfulBEq α] [DecidableEq α] (a b : α) : (a != b) = decide (¬a = b) := by
  by_cases h : a = b
  · subst h; simp
  · simp [h]

variable [LawfulMonad M] (cx : Ctx M) (env : Env)

theorem ofOpt_of {x : Option α} {v : α} (h : x = some v) (k : α → M β) : ofOpt x >>= k = k v := by
  rw [h]; simp only [ofOpt, pure_bind]
theorem ofOpt_some (v : α) (k : α → M β) : ofOpt (some v) >>= k = k v := by simp only [ofOpt, pure_bind]

section
variable (k : V → M β)

theorem eval_nil : eval cx env .nil >>= k = k .unit := by simp only [eval, pure_bind]
theorem eval_lit (n) : eval cx env (.lit n) >>= k = k (.num n) := by simp only [eval, pure_bind]
theorem eval_bool (b) : eval cx env (.bool b) >>= k = k (.bool b) := by simp only [eval, pure_bind]
theorem eval_var (i) : eval cx env (.var i) >>= k = ofOpt env[i]? >>= k := by simp only [eval]
theorem eval_field (f) : eval cx env (.field f) >>= k = Sem.field f >>= fun x => k (.i64 x) := by
  simp only [eval, bind_assoc, pure_bind]
theorem eval_buf : eval cx env .buf >>= k = Sem.buf >>= fun s => k (.bytes (.mem s)) := by
  simp only [eval, bind_assoc, pure_bind]
theorem eval_out : eval cx env .out >>= k = Sem.getOut >>= k := by simp only [eval]
theorem eval_outPtr : eval cx env .outPtr >>= k = k .ptr := by simp only [eval, pure_bind]
theorem eval_bin (o a b) : eval cx env (.bin o a b) >>= k =
    eval cx env a >>= fun x => eval cx env b >>= fun y => ofOpt (binop o x y) >>= k := by simp only [eval, bind_assoc]
theorem eval_compl (a) : eval cx env (.compl a) >>= k = eval cx env a >>= fun x => ofOpt (compl x) >>= k := by
  simp only [eval, bind_assoc]
theorem eval_conv (t a) : eval cx env (.conv t a) >>= k = eval cx env a >>= fun x => ofOpt (conv t x) >>= k := by
  simp only [eval, bind_assoc]
theorem eval_bits (t a) : eval cx env (.bits t a) >>= k = eval cx env a >>= fun x => ofOpt (rebits t x) >>= k := by
  simp only [eval, bind_assoc]
theorem eval_len (a) : eval cx env (.len a) >>= k = eval cx env a >>= fun x => ofOpt x.len >>= fun n => k (.i64 n) := by
  simp only [eval, bind_assoc, pure_bind]
theorem eval_cap (a) : eval cx env (.cap a) >>= k =
    eval cx env a >>= fun x => ofOpt x.slice >>= fun s => k (.i64 (Int64.ofNat s.cap)) := by
  simp only [eval, bind_assoc, pure_bind]
theorem eval_index (a i) : eval cx env (.index a i) >>= k =
    eval cx env a >>= fun x => eval cx env i >>= fun j => ofOpt j.int >>= fun j => index x j >>= k := by
  simp only [eval, bind_assoc]
theorem eval_sliceFrom (a lo) : eval cx env (.sliceFrom a lo) >>= k =
    eval cx env a >>= fun x => eval cx env lo >>= fun l => ofOpt x.slice >>= fun s => ofOpt l.int >>= fun l =>
      Sem.resliceFrom s l >>= fun t => k (.bytes (.mem t)) := by
  simp only [eval, bind_assoc, pure_bind]
theorem eval_slice (a lo hi) : eval cx env (.slice a lo hi) >>= k =
    eval cx env a >>= fun x => eval cx env lo >>= fun l => eval cx env hi >>= fun h =>
      ofOpt x.slice >>= fun s => ofOpt l.int >>= fun l => ofOpt h.int >>= fun h =>
      Sem.reslice s l h >>= fun t => k (.bytes (.mem t)) := by
  simp only [eval, bind_assoc, pure_bind]
theorem eval_make (n) : eval cx env (.make n) >>= k =
    eval cx env n >>= fun n => ofOpt n.int >>= fun n => Sem.make n >>= fun t => k (.bytes t) := by
  simp only [eval, bind_assoc, pure_bind]
theorem eval_makeCap (n c) : eval cx env (.makeCap n c) >>= k =
    eval cx env n >>= fun n => eval cx env c >>= fun c => ofOpt n.int >>= fun n => ofOpt c.int >>= fun c =>
      Sem.makeCap n c >>= fun t => k (.bytes t) := by
  simp only [eval, bind_assoc, pure_bind]
theorem eval_makeT (t n) : eval cx env (.makeT t n) >>= k =
    eval cx env n >>= fun n => ofOpt n.int >>= fun n => makeT t n >>= k := by
  simp only [eval, bind_assoc]
theorem eval_append (a b) : eval cx env (.append a b) >>= k =
    eval cx env a >>= fun x => eval cx env b >>= fun y => ofOpt x.slice >>= fun s => ofOpt y.src >>= fun t =>
      Sem.append s t >>= fun r => k (.bytes (.mem r)) := by
  simp only [eval, bind_assoc, pure_bind]
theorem eval_call (f args) : eval cx env (.call f args) >>= k = eval.evals cx env args >>= fun l => cx.call f l >>= k := by
  simp only [eval, bind_assoc]
theorem eval_bytes (l) : eval cx env (.bytes l) >>= k =
    eval.evals cx env l >>= fun l => ofOpt (l.mapM V.byte) >>= fun l => Sem.lit l >>= fun t => k (.bytes t) := by
  simp only [eval, bind_assoc, pure_bind]

theorem index_bytes (x : Crunch.Src) (i) : index (.bytes x) i >>= k = Sem.load x i >>= fun v => k (.u8 v) := by
  simp only [index, bind_assoc, pure_bind]
theorem index_li16 (x) (i) : index (.li16 x) i >>= k = Sem.idx x i >>= fun v => k (.i16 v) := by
  simp only [index, bind_assoc, pure_bind]
theorem index_li32 (x) (i) : index (.li32 x) i >>= k = Sem.idx x i >>= fun v => k (.i32 v) := by
  simp only [index, bind_assoc, pure_bind]
theorem index_li64 (x) (i) : index (.li64 x) i >>= k = Sem.idx x i >>= fun v => k (.i64 v) := by
  simp only [index, bind_assoc, pure_bind]
theorem index_lu16 (x) (i) : index (.lu16 x) i >>= k = Sem.idx x i >>= fun v => k (.u16 v) := by
  simp only [index, bind_assoc, pure_bind]
theorem index_lu32 (x) (i) : index (.lu32 x) i >>= k = Sem.idx x i >>= fun v => k (.u32 v) := by
  simp only [index, bind_assoc, pure_bind]
theorem index_lu64 (x) (i) : index (.lu64 x) i >>= k = Sem.idx x i >>= fun v => k (.u64 v) := by
  simp only [index, bind_assoc, pure_bind]
theorem index_lf32 (x) (i) : index (.lf32 x) i >>= k = Sem.idx x i >>= fun v => k (.f32 v) := by
  simp only [index, bind_assoc, pure_bind]
theorem index_lf64 (x) (i) : index (.lf64 x) i >>= k = Sem.idx x i >>= fun v => k (.f64 v) := by
  simp only [index, bind_assoc, pure_bind]
theorem index_slices (x) (i) : index (.slices x) i >>= k = Sem.idx x i >>= fun v => k (.bytes (.mem v)) := by
  simp only [index, bind_assoc, pure_bind]

theorem setIndex_li16 (x) (i) (v) : setIndex (.li16 x) i (.i16 v) >>= k = Sem.setIdx x i v >>= fun v => k (.li16 v) := by
  simp only [setIndex, bind_assoc, pure_bind]
theorem setIndex_li32 (x) (i) (v) : setIndex (.li32 x) i (.i32 v) >>= k = Sem.setIdx x i v >>= fun v => k (.li32 v) := by
  simp only [setIndex, bind_assoc, pure_bind]
theorem setIndex_li64 (x) (i) (v) : setIndex (.li64 x) i (.i64 v) >>= k = Sem.setIdx x i v >>= fun v => k (.li64 v) := by
  simp only [setIndex, bind_assoc, pure_bind]
theorem setIndex_lu16 (x) (i) (v) : setIndex (.lu16 x) i (.u16 v) >>= k = Sem.setIdx x i v >>= fun v => k (.lu16 v) := by
  simp only [setIndex, bind_assoc, pure_bind]
theorem setIndex_lu32 (x) (i) (v) : setIndex (.lu32 x) i (.u32 v) >>= k = Sem.setIdx x i v >>= fun v => k (.lu32 v) := by
  simp only [setIndex, bind_assoc, pure_bind]
theorem setIndex_lu64 (x) (i) (v) : setIndex (.lu64 x) i (.u64 v) >>= k = Sem.setIdx x i v >>= fun v => k (.lu64 v) := by
  simp only [setIndex, bind_assoc, pure_bind]
theorem setIndex_lf32 (x) (i) (v) : setIndex (.lf32 x) i (.f32 v) >>= k = Sem.setIdx x i v >>= fun v => k (.lf32 v) := by
  simp only [setIndex, bind_assoc, pure_bind]
theorem setIndex_lf64 (x) (i) (v) : setIndex (.lf64 x) i (.f64 v) >>= k = Sem.setIdx x i v >>= fun v => k (.lf64 v) := by
  simp only [setIndex, bind_assoc, pure_bind]

theorem makeT_i16 (n) : makeT .i16 n >>= k = Sem.makeTyped 2 0 n >>= fun l => k (.li16 l) := by
  simp only [makeT, bind_assoc, pure_bind]
theorem makeT_i32 (n) : makeT .i32 n >>= k = Sem.makeTyped 4 0 n >>= fun l => k (.li32 l) := by
  simp only [makeT, bind_assoc, pure_bind]
theorem makeT_i64 (n) : makeT .i64 n >>= k = Sem.makeTyped 8 0 n >>= fun l => k (.li64 l) := by
  simp only [makeT, bind_assoc, pure_bind]
theorem makeT_u16 (n) : makeT .u16 n >>= k = Sem.makeTyped 2 0 n >>= fun l => k (.lu16 l) := by
  simp only [makeT, bind_assoc, pure_bind]
theorem makeT_u32 (n) : makeT .u32 n >>= k = Sem.makeTyped 4 0 n >>= fun l => k (.lu32 l) := by
  simp only [makeT, bind_assoc, pure_bind]
theorem makeT_u64 (n) : makeT .u64 n >>= k = Sem.makeTyped 8 0 n >>= fun l => k (.lu64 l) := by
  simp only [makeT, bind_assoc, pure_bind]
theorem makeT_f32 (n) : makeT .f32 n >>= k = Sem.makeTyped 4 ⟨0⟩ n >>= fun l => k (.lf32 l) := by
  simp only [makeT, bind_assoc, pure_bind]
theorem makeT_f64 (n) : makeT .f64 n >>= k = Sem.makeTyped 8 ⟨0⟩ n >>= fun l => k (.lf64 l) := by
  simp only [makeT, bind_assoc, pure_bind]
end

theorem evals_cons (e r) (k : List V → M β) : eval.evals cx env (.cons e r) >>= k =
    eval cx env e >>= fun x => eval.evals cx env r >>= fun l => k (x :: l) := by
  simp only [eval.evals, bind_assoc, pure_bind]
theorem evals_nil (k : List V → M β) : eval.evals cx env .nil >>= k = k [] := by
  simp only [eval.evals, pure_bind]

section
variable (k : Out × Env → M β)

theorem exec_nil : exec cx .nil env >>= k = k (.next, env) := by simp only [exec, pure_bind]
theorem exec_cons (s r) : exec cx (.cons s r) env >>= k = exec cx s env >>= fun o => onNext o (fun env => exec cx r env >>= k) k := by
  simp only [exec, bind_assoc]
  congr 1; funext o; unfold onNext; split <;> simp only [pure_bind, *]
theorem exec_set (i e) : exec cx (.set i e) env >>= k = eval cx env e >>= fun v => ofOpt env[i]? >>= fun old =>
    withEnv (env.set i (v.into old)) fun env => k (.next, env) := by
  simp only [exec, bind_assoc, pure_bind, withEnv]
theorem exec_zero (i t) : exec cx (.zero i t) env >>= k = withEnv (env.set i (zero t)) fun env => k (.next, env) := by
  simp only [exec, pure_bind, withEnv]
theorem exec_setField (f e) : exec cx (.setField f e) env >>= k =
    eval cx env e >>= fun v => ofOpt v.int >>= fun v => Sem.assign f v >>= fun _ => k (.next, env) := by
  simp only [exec, bind_assoc, pure_bind]
theorem exec_setBuf (e) : exec cx (.setBuf e) env >>= k =
    eval cx env e >>= fun v => ofOpt v.slice >>= fun v => Sem.assignBuf v >>= fun _ => k (.next, env) := by
  simp only [exec, bind_assoc, pure_bind]
theorem exec_setBufAt (i e) : exec cx (.setBufAt i e) env >>= k =
    eval cx env i >>= fun i => eval cx env e >>= fun v => ofOpt i.int >>= fun i => ofOpt v.byte >>= fun v =>
      Sem.buf >>= fun s => Sem.store s i v >>= fun _ => k (.next, env) := by
  simp only [exec, bind_assoc, pure_bind]
theorem exec_setAt (x i e) : exec cx (.setAt x i e) env >>= k =
    eval cx env i >>= fun i => eval cx env e >>= fun v => ofOpt i.int >>= fun i => ofOpt env[x]? >>= fun l =>
      setIndex l i v >>= fun l => withEnv (env.set x l) fun env => k (.next, env) := by
  simp only [exec, bind_assoc, pure_bind, withEnv]
theorem exec_setOut (e) : exec cx (.setOut e) env >>= k =
    eval cx env e >>= fun v => Sem.getOut >>= fun old => withV (v.into old) fun v => Sem.putOut v >>= fun _ => k (.next, env) := by
  simp only [exec, bind_assoc, pure_bind, withV]
theorem exec_setOutAt (i e) : exec cx (.setOutAt i e) env >>= k =
    eval cx env i >>= fun i => eval cx env e >>= fun v => ofOpt i.int >>= fun i => Sem.getOut >>= fun l =>
      setIndex l i v >>= fun l => Sem.putOut l >>= fun _ => k (.next, env) := by
  simp only [exec, bind_assoc, pure_bind]
theorem exec_new (b off cap boff bcap) : exec cx (.new b off cap boff bcap) env >>= k =
    eval cx env b >>= fun b => eval cx env off >>= fun off => eval cx env cap >>= fun cap =>
    eval cx env boff >>= fun boff => eval cx env bcap >>= fun bcap =>
    ofOpt b.slice >>= fun b => ofOpt off.int >>= fun off => ofOpt cap.int >>= fun cap =>
    ofOpt boff.int >>= fun boff => ofOpt bcap.int >>= fun bcap =>
    Sem.assignBuf b >>= fun _ => Sem.assign .off off >>= fun _ => Sem.assign .cap cap >>= fun _ =>
    Sem.assign .boff boff >>= fun _ => Sem.assign .bcap bcap >>= fun _ => k (.next, env) := by
  simp only [exec, bind_assoc, pure_bind]
theorem exec_copy (a b) : exec cx (.copy a b) env >>= k =
    eval cx env a >>= fun a => eval cx env b >>= fun b => ofOpt a.slice >>= fun a => ofOpt b.src >>= fun b =>
      Sem.copy a b >>= fun _ => k (.next, env) := by
  simp only [exec, bind_assoc, pure_bind]
theorem exec_expr (e) : exec cx (.expr e) env >>= k = eval cx env e >>= fun _ => k (.next, env) := by
  simp only [exec, bind_assoc, pure_bind]
theorem exec_callAddr (f x args) : exec cx (.callAddr f x args) env >>= k =
    eval.evals cx env args >>= fun args => ofOpt env[x]? >>= fun v =>
      Sem.withOut v (cx.call f (.ptr :: args) >>= fun _ => pure ()) >>= fun v => withEnv (env.set x v) fun env => k (.next, env) := by
  simp only [exec, bind_assoc, pure_bind, withEnv]
theorem exec_ret (e) : exec cx (.ret e) env >>= k = eval cx env e >>= fun v => k (.ret v, env) := by
  simp only [exec, bind_assoc, pure_bind]
theorem exec_retNone : exec cx .retNone env >>= k = k (.ret .unit, env) := by simp only [exec, pure_bind]
theorem exec_panic [LawfulSem M] (e) : exec cx (.panic e) env >>= k = ofOpt (cx.err e) >>= fun e => Sem.fail (.err e) := by
  simp only [exec, bind_assoc, LawfulSem.fail_bind]
theorem exec_ifs [LawfulSem M] (c a b) : exec cx (.ifs c a b) env >>= k =
    eval cx env c >>= fun v => onBool v (exec cx a env >>= k) (exec cx b env >>= k) := by
  simp only [exec, bind_assoc]
  congr 1; funext v
  cases v <;> simp only [onBool, stuck, LawfulSem.fail_bind]
  split <;> rfl
theorem exec_block (l b) : exec cx (.block l b) env >>= k = loopGoto l (exec cx b) cx.fuel env >>= k := by simp only [exec]
theorem exec_goto (l) : exec cx (.goto l) env >>= k = k (.goto l, env) := by simp only [exec, pure_bind]
theorem exec_brk : exec cx .brk env >>= k = k (.brk, env) := by simp only [exec, pure_bind]
theorem exec_switch (e cl) : exec cx (.switch e cl) env >>= k =
    eval cx env e >>= fun v => exec.clauses cx v cl env >>= fun r => k (unbrk r) := by
  simp only [exec, bind_assoc]
  congr 1; funext o; congr 1; funext o
  rcases o with ⟨_ | _ | _ | _, _⟩ <;> simp only [pure_bind, unbrk]
theorem clauses_case (v : Int64) (n b r) : exec.clauses cx (.i64 v) (.cons (.case n b) r) env >>= k =
    if v = Int64.ofNat n then exec cx b env >>= k else exec.clauses cx (.i64 v) r env >>= k := by
  rw [exec.clauses]
  show (if _ then _ else _) >>= k = _
  split <;> rfl
theorem clauses_case8 (v : UInt8) (n b r) : exec.clauses cx (.u8 v) (.cons (.case n b) r) env >>= k =
    if v = UInt8.ofNat n then exec cx b env >>= k else exec.clauses cx (.u8 v) r env >>= k := by
  rw [exec.clauses]
  show (if _ then _ else _) >>= k = _
  split <;> rfl
theorem clauses_default (v : V) (b r) : exec.clauses cx v (.cons (.default b) r) env >>= k = exec cx b env >>= k := by
  rw [exec.clauses]
theorem unbrk_next : unbrk (.next, env) = (.next, env) := rfl
theorem unbrk_brk : unbrk (.brk, env) = (.next, env) := rfl
theorem exec_lock : exec cx .lock env >>= k = Sem.lock >>= fun _ => k (.next, env) := by simp only [exec, bind_assoc, pure_bind]
theorem exec_unlock : exec cx .unlock env >>= k = Sem.unlock >>= fun _ => k (.next, env) := by
  simp only [exec, bind_assoc, pure_bind]
theorem exec_rangeVal (x e b) : exec cx (.rangeVal x e b) env >>= k =
    eval cx env e >>= fun v => ofOpt v.len >>= fun n => loopRange (fun i env => do
      let v ← index v i
      exec cx b (env.set x v)) n cx.fuel 0 env >>= k := by simp only [exec, bind_assoc]
theorem exec_rangeIdx (x e b) : exec cx (.rangeIdx x e b) env >>= k =
    eval cx env e >>= fun v => ofOpt v.len >>= fun n =>
      loopRange (fun i env => exec cx b (env.set x (.i64 i))) n cx.fuel 0 env >>= k := by simp only [exec, bind_assoc]
theorem exec_for (a c p b) : exec cx (.for a c p b) env >>= k =
    exec cx a env >>= fun r => loopFor (fun env => eval cx env c) (exec cx b) (exec cx p) cx.fuel r.2 >>= k := by
  simp only [exec, bind_assoc]

theorem execBody_defer (r) : execBody cx (.cons .deferUnlock r) env >>= k = Sem.deferUnlock (execBody cx r env) >>= k := by
  rw [execBody]
theorem execBody_cons (s r) (h : s ≠ .deferUnlock) : execBody cx (.cons s r) env >>= k =
    exec cx s env >>= fun o => onNext o (fun env => execBody cx r env >>= k) k := by
  rw [execBody, bind_assoc]
  · congr 1; funext o; unfold onNext; split <;> simp only [pure_bind, *]
  · exact h
theorem execBody_nil : execBody cx .nil env >>= k = k (.next, env) := by simp only [execBody, exec, pure_bind]
end

end

/-! ## literals -/

theorem i64_lit (n : Nat) : Int64.ofNat (OfNat.ofNat n) = OfNat.ofNat n := rfl
theorem u64_lit (n : Nat) : UInt64.ofNat (OfNat.ofNat n) = OfNat.ofNat n := rfl
theorem u8_lit (n : Nat) : UInt8.ofNat (OfNat.ofNat n) = OfNat.ofNat n := rfl

/-! ## the primitives of `GoM` -/

section
variable {β : Type}

theorem gom_fail (p : Panic) : (Sem.fail p : GoM (V3.St × V) β) = throwP p := rfl
theorem gom_off (k : Int64 → GoM (V3.St × V) β) : Sem.field .off >>= k = onB getB >>= fun b => k b.off := rfl
theorem gom_cap (k : Int64 → GoM (V3.St × V) β) : Sem.field .cap >>= k = onB getB >>= fun b => k b.cap := rfl
theorem gom_boff (k : Int64 → GoM (V3.St × V) β) : Sem.field .boff >>= k = onB getB >>= fun b => k b.boff := rfl
theorem gom_bcap (k : Int64 → GoM (V3.St × V) β) : Sem.field .bcap >>= k = onB getB >>= fun b => k b.bcap := rfl
theorem gom_set_off (v : Int64) :
    (Sem.assign .off v : GoM (V3.St × V) Unit) = onB (modB fun b => { b with off := v }) := rfl
theorem gom_set_cap (v : Int64) :
    (Sem.assign .cap v : GoM (V3.St × V) Unit) = onB (modB fun b => { b with cap := v }) := rfl
theorem gom_set_boff (v : Int64) :
    (Sem.assign .boff v : GoM (V3.St × V) Unit) = onB (modB fun b => { b with boff := v }) := rfl
theorem gom_set_bcap (v : Int64) :
    (Sem.assign .bcap v : GoM (V3.St × V) Unit) = onB (modB fun b => { b with bcap := v }) := rfl
theorem gom_buf (k : Slice → GoM (V3.St × V) β) : Sem.buf >>= k = onB getB >>= fun b => k b.buf := rfl
theorem gom_assignBuf (s : Slice) : (Sem.assignBuf s : GoM (V3.St × V) Unit) = onB (modB fun b => { b with buf := s }) := rfl
theorem gom_load (s : Slice) (i : Int64) : (Sem.load (.mem s) i : GoM (V3.St × V) UInt8) = onB (onMem (loadAt s i)) := rfl
theorem gom_store (s : Slice) (i : Int64) (v : UInt8) : (Sem.store s i v : GoM (V3.St × V) Unit) = onB (onMem (storeAt s i v)) := rfl
theorem gom_idx (l : List α) (i : Int64) : (Sem.idx l i : GoM (V3.St × V) α) = idx l i := rfl
theorem gom_setIdx (l : List α) (i : Int64) (v : α) : (Sem.setIdx l i v : GoM (V3.St × V) (List α)) = setIdx l i v := rfl
theorem gom_reslice (s : Slice) (lo hi : Int64) : (Sem.reslice s lo hi : GoM (V3.St × V) Slice) = onB (onMem (reslice s lo hi)) := rfl
theorem gom_resliceFrom (s : Slice) (lo : Int64) : (Sem.resliceFrom s lo : GoM (V3.St × V) Slice) = onB (onMem (resliceFrom s lo)) := rfl
theorem gom_lit (l : List UInt8) (k : Crunch.Src → GoM (V3.St × V) β) :
    Sem.lit l >>= k = onB (onMem (litBytes l)) >>= fun s => k (.mem s) := rfl
theorem onMem_bind_mem (m : GoM Heap Slice) (k : Crunch.Src → GoM (V3.St × V) β) :
    onB (onMem (m >>= fun s => pure (.mem s))) >>= k = onB (onMem m) >>= fun s => k (.mem s) := by
  funext s
  simp only [bind, onB, onMem]
  cases h : m s.1.mem with
  | mk r t => cases r <;> rfl
theorem gom_make (n : Int64) (k : Crunch.Src → GoM (V3.St × V) β) :
    Sem.make n >>= k = onB (panicIf (n.toInt < 0 ∨ n.toInt > maxAlloc) .makeSlice) >>= fun _ =>
      k (.lit (List.replicate n.toInt.toNat 0)) := by
  show onB (_ >>= fun _ => pure _) >>= k = _
  rw [onB_bind, bind_assoc]
  rfl
theorem gom_appendLit (s : Slice) (l : List UInt8) : (Sem.append s (.lit l) : GoM (V3.St × V) Slice) = onB (onMem (appendBytes s l)) := rfl
theorem gom_makeCap (n c : Int64) (k : Crunch.Src → GoM (V3.St × V) β) :
    Sem.makeCap n c >>= k = onB (onMem (makeBytes n c)) >>= fun s => k (.mem s) := onMem_bind_mem _ _
theorem gom_makeTyped (w : Nat) (z : α) (n : Int64) : (Sem.makeTyped w z n : GoM (V3.St × V) (List α)) = makeTyped w z n := rfl
theorem gom_append (s x : Slice) : (Sem.append s (.mem x) : GoM (V3.St × V) Slice) =
    onB (onMem (fun h => (.ok (h.view x), h)) >>= fun data => onMem (appendBytes s data)) := rfl
theorem gom_copy (s x : Slice) : (Sem.copy s (.mem x) : GoM (V3.St × V) Unit) = onB (onMem (copyBytes s x)) := rfl
theorem gom_getOut : (Sem.getOut : GoM (V3.St × V) V) = getOut := rfl
theorem gom_putOut (v : V) : (Sem.putOut v : GoM (V3.St × V) Unit) = putOut v := rfl
end

theorem gom_panicIf (c : Prop) [Decidable c] (p : Panic) (k : Unit → GoM σ β) :
    panicIf c p >>= k = if c then throwP p else k () := by
  unfold panicIf; split <;> rfl

theorem ite_bind' {M : Type → Type} [Monad M] (c : Prop) [Decidable c] (a b : M α) (k : α → M β) :
    (if c then a else b) >>= k = if c then a >>= k else b >>= k := by split <;> rfl

/-! ## runs -/

theorem run_getB (k : V3.Buf → GoM (V3.St × O) β) (s : V3.St × O) : (onB getB >>= k) s = k s.1.b s := rfl
theorem run_modB (f : V3.Buf → V3.Buf) (k : Unit → GoM (V3.St × O) β) (s : V3.St × O) :
    (onB (modB f) >>= k) s = k () ({ s.1 with b := f s.1.b }, s.2) := rfl
/-- Goes on after an operation on the memory. -/
def bindMem (m : GoM Heap α) (s : V3.St × O) (k : α → Heap → Res β × (V3.St × O)) : Res β × (V3.St × O) :=
  match m s.1.mem with
  | (.ok a, h) => k a h
  | (.panic p, h) => (.panic p, ({ s.1 with mem := h }, s.2))
theorem run_onMem (m : GoM Heap α) (k : α → GoM (V3.St × O) β) (s : V3.St × O) :
    (onB (V3.onMem m) >>= k) s = bindMem m s fun a h => k a ({ mem := h, b := s.1.b }, s.2) := by
  rw [bind_run]
  unfold onB V3.onMem bindMem
  dsimp only
  generalize m s.1.mem = r
  rcases r with ⟨r | p, h⟩ <;> rfl
theorem modB_modB (f g : V3.Buf → V3.Buf) (k : Unit → GoM (V3.St × V) β) :
    (onB (modB f) >>= fun _ => onB (modB g) >>= k) = onB (modB fun b => g (f b)) >>= k := rfl
theorem run_ite (c : Prop) [Decidable c] (a b : GoM σ α) (s : σ) : (if c then a else b) s = if c then a s else b s := by
  split <;> rfl
theorem run_getOut (k : O → GoM (V3.St × O) β) (s : V3.St × O) : (getOut >>= k) s = k s.2 s := rfl
theorem run_putOut (v : O) (k : Unit → GoM (V3.St × O) β) (s : V3.St × O) : (putOut v >>= k) s = k () (s.1, v) := rfl

end Src
end Crunch
