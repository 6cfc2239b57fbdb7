import Verif.Src.Micro

/-!
# Two monads under the interpreter

If a relation between programs of two monads is kept by sequencing and by the primitives, the interpretations of any tree are
related.  The primitives a tree can reach are those its syntax shows, so the relation need not be kept by others.
-/

set_option linter.unusedSimpArgs false

namespace Crunch.Src

open Crunch.Gen (Str)

/-- The relation is kept by everything but the primitives not in `A`. -/
structure SemRel (M N : Type → Type) [Monad M] [Sem M] [Monad N] [Sem N] (A : Action → Bool)
    (R : ∀ {α : Type}, M α → N α → Prop) : Prop where
  pure : ∀ {α : Type} (a : α), R (pure a) (pure a)
  bind : ∀ {α β : Type} {m : M α} {n : N α} {f : α → M β} {g : α → N β}, R m n → (∀ a, R (f a) (g a)) → R (m >>= f) (n >>= g)
  fail : ∀ {α : Type} (p : Panic), R (Sem.fail (α := α) p) (Sem.fail p)
  field : ∀ f, A (.get f) = true → R (Sem.field f) (Sem.field f)
  assign : ∀ f v, A (.set f) = true → R (Sem.assign f v) (Sem.assign f v)
  buf : A .getBuf = true → R Sem.buf Sem.buf
  assignBuf : ∀ s, A .setBuf = true → R (Sem.assignBuf s) (Sem.assignBuf s)
  load : ∀ x i, A .load = true → R (Sem.load x i) (Sem.load x i)
  store : ∀ s i v, A .store = true → R (Sem.store s i v) (Sem.store s i v)
  idx : ∀ {α : Type} (l : List α) i, R (Sem.idx l i) (Sem.idx l i)
  setIdx : ∀ {α : Type} (l : List α) i v, R (Sem.setIdx l i v) (Sem.setIdx l i v)
  reslice : ∀ s lo hi, R (Sem.reslice s lo hi) (Sem.reslice s lo hi)
  resliceFrom : ∀ s lo, R (Sem.resliceFrom s lo) (Sem.resliceFrom s lo)
  lit : ∀ l, A .alloc = true → R (Sem.lit l) (Sem.lit l)
  make : ∀ n, R (Sem.make n) (Sem.make n)
  makeCap : ∀ n c, A .alloc = true → R (Sem.makeCap n c) (Sem.makeCap n c)
  makeTyped : ∀ {α : Type} w (z : α) n, R (Sem.makeTyped w z n) (Sem.makeTyped w z n)
  /-- `append(x, make([]byte, n)...)` -/
  append : ∀ x n, A .append = true →
    R (do let z ← Sem.make n; let s ← ofOpt (V.slice x); Sem.append s z) (do let z ← Sem.make n; let s ← ofOpt (V.slice x); Sem.append s z)
  copy : ∀ s x, A .copy = true → R (Sem.copy s x) (Sem.copy s x)
  lock : R Sem.lock Sem.lock
  unlock : R Sem.unlock Sem.unlock
  deferUnlock : ∀ {α : Type} {m : M α} {n : N α}, R m n → R (Sem.deferUnlock m) (Sem.deferUnlock n)
  getOut : R Sem.getOut Sem.getOut
  putOut : ∀ v, R (Sem.putOut v) (Sem.putOut v)
  withOut : ∀ v {m : M Unit} {n : N Unit}, R m n → R (Sem.withOut v m) (Sem.withOut v n)

/-- An expression stays within `A`, and calls only functions in `F`. -/
def E.within (A : Action → Bool) (F : Str → Bool) : E → Bool
  | .nil => true
  | .cons e r => e.within A F && r.within A F
  | .lit _ => true
  | .bool _ => true
  | .var _ => true
  | .field f => A (.get f)
  | .buf => A .getBuf
  | .out => true
  | .outPtr => true
  | .bin _ a b => a.within A F && b.within A F
  | .compl e => e.within A F
  | .conv _ e => e.within A F
  | .bits _ e => e.within A F
  | .len e => e.within A F
  | .cap e => e.within A F
  | .index e i => A .load && e.within A F && i.within A F
  | .sliceFrom e lo => e.within A F && lo.within A F
  | .slice e lo hi => e.within A F && lo.within A F && hi.within A F
  | .make n => n.within A F
  | .makeCap n c => A .alloc && n.within A F && c.within A F
  | .makeT _ n => n.within A F
  | .bytes l => A .alloc && l.within A F
  | .append a (.make n) => A .append && a.within A F && n.within A F
  | .append _ _ => false
  | .call f args => F f && args.within A F
  | .assert _ e => e.within A F
  | .uint _ o e => A .load && o.within A F && e.within A F
  | .own l => l.within A F

/-- The same for statements. -/
def S.within (A : Action → Bool) (F : Str → Bool) : S → Bool
  | .nil => true
  | .cons s r => s.within A F && r.within A F
  | .set _ e => e.within A F
  | .zero _ _ => true
  | .nilBytes _ => true
  | .setField f e => A (.set f) && e.within A F
  | .setBuf e => A .setBuf && e.within A F
  | .setBufAt i e => A .getBuf && A .store && i.within A F && e.within A F
  | .setAt _ i e => i.within A F && e.within A F
  | .setOut e => e.within A F
  | .setOutAt i e => i.within A F && e.within A F
  | .setOutAs _ i e => i.within A F && e.within A F
  | .put _ o _ e => o.within A F && e.within A F
  | .new b off cap boff bcap =>
    A .setBuf && A (.set .off) && A (.set .cap) && A (.set .boff) && A (.set .bcap) &&
      b.within A F && off.within A F && cap.within A F && boff.within A F && bcap.within A F
  | .copy a b => A .copy && a.within A F && b.within A F
  | .expr e => e.within A F
  | .callAddr f _ args => F f && args.within A F
  | .ret e => e.within A F
  | .retNone => true
  | .panic _ => true
  | .ifs c thn els => c.within A F && thn.within A F && els.within A F
  | .block _ body => body.within A F
  | .goto _ => true
  | .brk => true
  | .switch e cl => e.within A F && cl.within A F
  | .case _ body => body.within A F
  | .default body => body.within A F
  | .lock => true
  | .unlock => true
  | .deferUnlock => true
  | .rangeVal _ e body => A .load && e.within A F && body.within A F
  | .rangeIdx _ e body => e.within A F && body.within A F
  | .for init c post body => init.within A F && c.within A F && post.within A F && body.within A F

/-- The functions in `F` stay within `A` and call only one another. -/
def Pkg.within (p : Pkg) (A : Action → Bool) (F : Str → Bool) : Bool := p.funs.all fun g => !F g.name || g.body.within A F

section
variable {M N : Type → Type} [Monad M] [Sem M] [Monad N] [Sem N] {A : Action → Bool}
  {R : ∀ {α : Type}, M α → N α → Prop}

namespace SemRel

theorem stuck (h : SemRel M N A @R) {α : Type} : R (stuck (α := α) : M α) (Src.stuck : N α) := h.fail _

theorem ofOpt (h : SemRel M N A @R) {α : Type} : ∀ o : Option α, R (ofOpt o : M α) (Src.ofOpt o : N α)
  | some a => h.pure a
  | none => h.stuck

theorem index (h : SemRel M N A @R) (ha : A .load = true) (x : V) (i : Int64) : R (index x i : M V) (Src.index x i : N V) := by
  cases x <;> first
    | exact h.stuck
    | exact h.bind (h.idx _ _) fun _ => h.pure _
    | exact h.bind (h.load _ _ ha) fun _ => h.pure _

theorem setIndex (h : SemRel M N A @R) (x : V) (i : Int64) (v : V) : R (setIndex x i v : M V) (Src.setIndex x i v : N V) := by
  unfold Src.setIndex
  split <;> first
    | exact h.stuck
    | exact h.bind (h.setIdx _ _ _) fun _ => h.pure _

theorem makeT (h : SemRel M N A @R) (k : K) (n : Int64) : R (makeT k n : M V) (Src.makeT k n : N V) := by
  cases k <;> first
    | exact h.stuck
    | exact h.bind (h.makeTyped _ _ _) fun _ => h.pure _

theorem assertK (h : SemRel M N A @R) (k : K) (x : V) : R (assertK k x : M V) (Src.assertK k x : N V) := by
  unfold Src.assertK
  split <;> first
    | exact h.fail _
    | exact h.pure _

theorem orderOf (h : SemRel M N A @R) (x : V) : R (orderOf x : M _) (Src.orderOf x : N _) := by
  unfold Src.orderOf
  split <;> first
    | exact h.pure _
    | exact h.fail _
    | exact h.stuck

theorem uintAt (h : SemRel M N A @R) (ha : A .load = true) (k : K) (e : Spec.Endian) (x : Crunch.Src) : R (uintAt k e x : M V) (Src.uintAt k e x : N V) := by
  cases k <;> first
    | exact h.stuck
    | (unfold Src.uintAt; repeat' first | exact h.pure _ | refine h.bind (h.load _ _ ha) fun _ => ?_)

theorem loopGoto (h : SemRel M N A @R) (l : Str) {body : Env → M (Out × Env)} {body' : Env → N (Out × Env)} (hb : ∀ env, R (body env) (body' env)) :
    ∀ n env, R (loopGoto l body n env) (Src.loopGoto l body' n env)
  | 0, _ => h.stuck
  | n + 1, env => by
    unfold Src.loopGoto
    refine h.bind (hb env) fun r => ?_
    split
    · split
      · exact h.loopGoto l hb n _
      · exact h.pure _
    · exact h.pure _

theorem loopFor (h : SemRel M N A @R) {c : Env → M V} {c' : Env → N V} {body post : Env → M (Out × Env)} {body' post' : Env → N (Out × Env)}
    (hc : ∀ env, R (c env) (c' env)) (hb : ∀ env, R (body env) (body' env)) (hp : ∀ env, R (post env) (post' env)) :
    ∀ n env, R (loopFor c body post n env) (Src.loopFor c' body' post' n env)
  | 0, _ => h.stuck
  | n + 1, env => by
    unfold Src.loopFor
    refine h.bind (hc env) fun v => ?_
    split
    · refine h.bind (hb env) fun r => ?_
      split
      · exact h.bind (hp _) fun _ => h.loopFor hc hb hp n _
      · exact h.pure _
      · exact h.pure _
    · exact h.pure _
    · exact h.stuck

theorem loopRange (h : SemRel M N A @R) {body : Int64 → Env → M (Out × Env)} {body' : Int64 → Env → N (Out × Env)} (hb : ∀ i env, R (body i env) (body' i env))
    (len : Int64) : ∀ n i env, R (loopRange body len n i env) (Src.loopRange body' len n i env)
  | 0, _, _ => h.stuck
  | n + 1, i, env => by
    unfold Src.loopRange
    split
    · refine h.bind (hb i env) fun r => ?_
      split
      · exact h.loopRange hb len n _ _
      · exact h.pure _
      · exact h.pure _
    · exact h.pure _

variable [LawfulMonad M] [LawfulMonad N] {F : Str → Bool} {cx : Ctx M} {cx' : Ctx N}

theorem eval_evals (h : SemRel M N A @R) (hc : ∀ f, F f = true → ∀ l, R (cx.call f l) (cx'.call f l)) (env : Env) (e : E) :
    (e.within A F = true → R (eval cx env e) (eval cx' env e) ∧ R (eval.evals cx env e) (eval.evals cx' env e)) ∧
    ∀ n, e = .make n → n.within A F = true → R (eval cx env n) (eval cx' env n) := by
  have o {α : Type} (x : Option α) : R (Src.ofOpt x : M α) (Src.ofOpt x : N α) := h.ofOpt x
  induction e with
  | nil => exact ⟨fun _ => ⟨by simp only [eval]; exact h.pure _, by simp only [eval.evals]; exact h.pure _⟩, nofun⟩
  | cons e r ihe ihr =>
    refine ⟨fun he => ?_, nofun⟩
    simp only [E.within, Bool.and_eq_true] at he
    refine ⟨by simp only [eval]; exact h.stuck, ?_⟩
    simp only [eval.evals]
    exact h.bind (ihe.1 he.1).1 fun _ => h.bind (ihr.1 he.2).2 fun _ => h.pure _
  | make n ih =>
    refine ⟨fun he => ⟨?_, by simp only [eval.evals]; exact h.pure _⟩, fun m hm hn => ?_⟩
    · simp only [eval]
      exact h.bind (ih.1 he).1 fun _ => h.bind (o _) fun _ => h.bind (h.make _) fun _ => h.pure _
    · cases hm
      exact (ih.1 hn).1
  | append a b iha ihb =>
    refine ⟨fun he => ⟨?_, by simp only [eval.evals]; exact h.pure _⟩, nofun⟩
    cases b <;> try (simp [E.within] at he; done)
    rename_i n
    simp only [E.within, Bool.and_eq_true] at he
    have e1 : ∀ {M : Type → Type} [Monad M] [Sem M] [LawfulMonad M] (cx : Ctx M), eval cx env (.append a (.make n)) = (do
        let x ← eval cx env a
        let n ← eval cx env n
        let n ← Src.ofOpt n.int
        let r ← (do let z ← Sem.make n; let s ← Src.ofOpt (V.slice x); Sem.append s z)
        return .bytes (.mem r)) := by
      intro M _ _ _ cx
      simp only [eval, bind_assoc, pure_bind, V.src, Src.ofOpt]
    rw [e1, e1]
    exact h.bind (iha.1 he.1.2).1 fun _ => h.bind (ihb.2 n rfl he.2) fun _ => h.bind (o _) fun _ => h.bind (h.append _ _ he.1.1) fun _ => h.pure _
  | lit n => exact ⟨fun _ => ⟨by simp only [eval]; exact h.pure _, by simp only [eval.evals]; exact h.pure _⟩, nofun⟩
  | bool b => exact ⟨fun _ => ⟨by simp only [eval]; exact h.pure _, by simp only [eval.evals]; exact h.pure _⟩, nofun⟩
  | var i => exact ⟨fun _ => ⟨by simp only [eval]; exact o _, by simp only [eval.evals]; exact h.pure _⟩, nofun⟩
  | field f =>
    exact ⟨fun he => ⟨by simp only [eval]; exact h.bind (h.field f he) fun _ => h.pure _, by simp only [eval.evals]; exact h.pure _⟩, nofun⟩
  | buf => exact ⟨fun he => ⟨by simp only [eval]; exact h.bind (h.buf he) fun _ => h.pure _, by simp only [eval.evals]; exact h.pure _⟩, nofun⟩
  | out => exact ⟨fun _ => ⟨by simp only [eval]; exact h.getOut, by simp only [eval.evals]; exact h.pure _⟩, nofun⟩
  | outPtr => exact ⟨fun _ => ⟨by simp only [eval]; exact h.pure _, by simp only [eval.evals]; exact h.pure _⟩, nofun⟩
  | bin p a b iha ihb =>
    refine ⟨fun he => ⟨?_, by simp only [eval.evals]; exact h.pure _⟩, nofun⟩
    simp only [E.within, Bool.and_eq_true] at he
    simp only [eval]
    exact h.bind (iha.1 he.1).1 fun _ => h.bind (ihb.1 he.2).1 fun _ => o _
  | compl e ih =>
    refine ⟨fun he => ⟨?_, by simp only [eval.evals]; exact h.pure _⟩, nofun⟩
    simp only [E.within, Bool.and_eq_true] at he
    simp only [eval]
    exact h.bind (ih.1 he).1 fun _ => o _
  | conv k e ih =>
    refine ⟨fun he => ⟨?_, by simp only [eval.evals]; exact h.pure _⟩, nofun⟩
    simp only [E.within, Bool.and_eq_true] at he
    simp only [eval]
    exact h.bind (ih.1 he).1 fun _ => o _
  | bits k e ih =>
    refine ⟨fun he => ⟨?_, by simp only [eval.evals]; exact h.pure _⟩, nofun⟩
    simp only [E.within, Bool.and_eq_true] at he
    simp only [eval]
    exact h.bind (ih.1 he).1 fun _ => o _
  | len e ih =>
    refine ⟨fun he => ⟨?_, by simp only [eval.evals]; exact h.pure _⟩, nofun⟩
    simp only [E.within, Bool.and_eq_true] at he
    simp only [eval]
    exact h.bind (ih.1 he).1 fun _ => h.bind (o _) fun _ => h.pure _
  | cap e ih =>
    refine ⟨fun he => ⟨?_, by simp only [eval.evals]; exact h.pure _⟩, nofun⟩
    simp only [E.within, Bool.and_eq_true] at he
    simp only [eval]
    exact h.bind (ih.1 he).1 fun _ => h.bind (o _) fun _ => h.pure _
  | index e i ihe ihi =>
    refine ⟨fun he => ⟨?_, by simp only [eval.evals]; exact h.pure _⟩, nofun⟩
    simp only [E.within, Bool.and_eq_true] at he
    simp only [eval]
    exact h.bind (ihe.1 he.1.2).1 fun _ => h.bind (ihi.1 he.2).1 fun _ => h.bind (o _) fun _ => h.index he.1.1 _ _
  | sliceFrom e lo ihe ihl =>
    refine ⟨fun he => ⟨?_, by simp only [eval.evals]; exact h.pure _⟩, nofun⟩
    simp only [E.within, Bool.and_eq_true] at he
    simp only [eval]
    exact h.bind (ihe.1 he.1).1 fun _ => h.bind (ihl.1 he.2).1 fun _ => h.bind (o _) fun _ => h.bind (o _) fun _ => h.bind (h.resliceFrom _ _) fun _ => h.pure _
  | slice e lo hi ihe ihl ihh =>
    refine ⟨fun he => ⟨?_, by simp only [eval.evals]; exact h.pure _⟩, nofun⟩
    simp only [E.within, Bool.and_eq_true] at he
    simp only [eval]
    exact h.bind (ihe.1 he.1.1).1 fun _ => h.bind (ihl.1 he.1.2).1 fun _ => h.bind (ihh.1 he.2).1 fun _ => h.bind (o _) fun _ => h.bind (o _) fun _ => h.bind (o _) fun _ => h.bind (h.reslice _ _ _) fun _ => h.pure _
  | makeCap n c ihn ihc =>
    refine ⟨fun he => ⟨?_, by simp only [eval.evals]; exact h.pure _⟩, nofun⟩
    simp only [E.within, Bool.and_eq_true] at he
    simp only [eval]
    exact h.bind (ihn.1 he.1.2).1 fun _ => h.bind (ihc.1 he.2).1 fun _ => h.bind (o _) fun _ => h.bind (o _) fun _ => h.bind (h.makeCap _ _ he.1.1) fun _ => h.pure _
  | makeT k n ih =>
    refine ⟨fun he => ⟨?_, by simp only [eval.evals]; exact h.pure _⟩, nofun⟩
    simp only [E.within, Bool.and_eq_true] at he
    simp only [eval]
    exact h.bind (ih.1 he).1 fun _ => h.bind (o _) fun _ => h.makeT _ _
  | bytes l ih =>
    refine ⟨fun he => ⟨?_, by simp only [eval.evals]; exact h.pure _⟩, nofun⟩
    simp only [E.within, Bool.and_eq_true] at he
    simp only [eval]
    exact h.bind (ih.1 he.2).2 fun _ => h.bind (o _) fun _ => h.bind (h.lit _ he.1) fun _ => h.pure _
  | call f args ih =>
    refine ⟨fun he => ⟨?_, by simp only [eval.evals]; exact h.pure _⟩, nofun⟩
    simp only [E.within, Bool.and_eq_true] at he
    simp only [eval]
    exact h.bind (ih.1 he.2).2 fun _ => hc _ he.1 _
  | assert k e ih =>
    refine ⟨fun he => ⟨?_, by simp only [eval.evals]; exact h.pure _⟩, nofun⟩
    simp only [E.within, Bool.and_eq_true] at he
    simp only [eval]
    exact h.bind (ih.1 he).1 fun _ => h.assertK _ _
  | uint k p e ihp ihe =>
    refine ⟨fun he => ⟨?_, by simp only [eval.evals]; exact h.pure _⟩, nofun⟩
    simp only [E.within, Bool.and_eq_true] at he
    simp only [eval]
    exact h.bind (ihp.1 he.1.2).1 fun _ => h.bind (ihe.1 he.2).1 fun _ => h.bind (h.orderOf _) fun _ => h.bind (o _) fun _ => h.uintAt he.1.1 _ _ _
  | own l ih =>
    refine ⟨fun he => ⟨?_, by simp only [eval.evals]; exact h.pure _⟩, nofun⟩
    simp only [E.within, Bool.and_eq_true] at he
    simp only [eval]
    exact h.bind (ih.1 he).2 fun _ => h.bind (o _) fun _ => h.pure _

theorem eval (h : SemRel M N A @R) (hc : ∀ f, F f = true → ∀ l, R (cx.call f l) (cx'.call f l)) (env : Env) {e : E} (he : e.within A F = true) :
    R (eval cx env e) (Src.eval cx' env e) := ((h.eval_evals hc env e).1 he).1

theorem evals (h : SemRel M N A @R) (hc : ∀ f, F f = true → ∀ l, R (cx.call f l) (cx'.call f l)) (env : Env) {e : E} (he : e.within A F = true) :
    R (eval.evals cx env e) (eval.evals cx' env e) := ((h.eval_evals hc env e).1 he).2

/-- The body of a clause. -/
def clauseBody : S → S
  | .case _ b => b
  | .default b => b
  | s => s

theorem exec_clauses (h : SemRel M N A @R) (hc : ∀ f, F f = true → ∀ l, R (cx.call f l) (cx'.call f l)) (hf : cx.fuel = cx'.fuel) (herr : cx.err = cx'.err)
    (s : S) (hs : s.within A F = true) :
    (∀ env, R (exec cx s env) (exec cx' s env)) ∧ (∀ v env, R (exec.clauses cx v s env) (exec.clauses cx' v s env)) ∧
    ∀ env, R (exec cx (clauseBody s) env) (exec cx' (clauseBody s) env) := by
  have o {α : Type} (x : Option α) : R (Src.ofOpt x : M α) (Src.ofOpt x : N α) := h.ofOpt x
  have e (env : Env) {e : E} (he : e.within A F = true) : R (Src.eval cx env e) (Src.eval cx' env e) := h.eval hc env he
  have es (env : Env) {e : E} (he : e.within A F = true) : R (eval.evals cx env e) (eval.evals cx' env e) := h.evals hc env he
  have cl (t : S) (ht : ∀ a b, t ≠ .cons a b) (ht' : t ≠ .nil) (v : V) (env : Env) : R (exec.clauses cx v t env) (exec.clauses cx' v t env) := by
    cases t with
    | nil => exact absurd rfl ht'
    | cons a b => exact absurd rfl (ht a b)
    | _ => simp only [exec.clauses]; exact h.stuck
  have one (t : S) (ht : ∀ a b, t ≠ .cons a b) (ht' : t ≠ .nil) (hb : clauseBody t = t) (hx : ∀ env, R (exec cx t env) (exec cx' t env)) :
      (∀ env, R (exec cx t env) (exec cx' t env)) ∧ (∀ v env, R (exec.clauses cx v t env) (exec.clauses cx' v t env)) ∧
      ∀ env, R (exec cx (clauseBody t) env) (exec cx' (clauseBody t) env) := ⟨hx, cl t ht ht', by rw [hb]; exact hx⟩
  induction s with
  | nil =>
    refine ⟨fun env => ?_, fun v env => ?_, fun env => ?_⟩
    · simp only [exec]; exact h.pure _
    · simp only [exec.clauses]; exact h.pure _
    · simp only [clauseBody, exec]; exact h.pure _
  | cons s r ihs ihr =>
    simp only [S.within, Bool.and_eq_true] at hs
    have h1 : ∀ env, R (exec cx (.cons s r) env) (exec cx' (.cons s r) env) := fun env => by
      simp only [exec]
      refine h.bind ((ihs hs.1).1 env) fun o => ?_
      split
      · exact (ihr hs.2).1 _
      · exact h.pure _
    refine ⟨h1, fun v env => ?_, h1⟩
    cases s with
    | case n body =>
      simp only [exec.clauses]
      split
      · split
        · exact (ihs hs.1).2.2 env
        · exact (ihr hs.2).2.1 _ _
      · split
        · exact (ihs hs.1).2.2 env
        · exact (ihr hs.2).2.1 _ _
      · exact h.stuck
    | default body => simp only [exec.clauses]; exact (ihs hs.1).2.2 env
    | _ => simp only [exec.clauses]; exact h.stuck
  | case n body ih =>
    exact ⟨fun env => by simp only [exec]; exact h.stuck, cl _ nofun nofun, (ih hs).1⟩
  | default body ih =>
    exact ⟨fun env => by simp only [exec]; exact h.stuck, cl _ nofun nofun, (ih hs).1⟩
  | set i x  =>
    refine one _ nofun nofun rfl fun env => ?_
    simp only [S.within, Bool.and_eq_true] at hs
    simp only [exec]
    exact h.bind (e _ hs) fun _ => h.bind (o _) fun _ => h.pure _
  | zero i k  =>
    refine one _ nofun nofun rfl fun env => ?_
    simp only [S.within, Bool.and_eq_true] at hs
    simp only [exec]
    exact h.pure _
  | nilBytes i  =>
    refine one _ nofun nofun rfl fun env => ?_
    simp only [S.within, Bool.and_eq_true] at hs
    simp only [exec]
    exact h.pure _
  | setField f x  =>
    refine one _ nofun nofun rfl fun env => ?_
    simp only [S.within, Bool.and_eq_true] at hs
    simp only [exec]
    exact h.bind (e _ hs.2) fun _ => h.bind (o _) fun _ => h.bind (h.assign _ _ hs.1) fun _ => h.pure _
  | setBuf x  =>
    refine one _ nofun nofun rfl fun env => ?_
    simp only [S.within, Bool.and_eq_true] at hs
    simp only [exec]
    exact h.bind (e _ hs.2) fun _ => h.bind (o _) fun _ => h.bind (h.assignBuf _ hs.1) fun _ => h.pure _
  | setBufAt i x  =>
    refine one _ nofun nofun rfl fun env => ?_
    simp only [S.within, Bool.and_eq_true] at hs
    simp only [exec]
    exact h.bind (e _ hs.1.2) fun _ => h.bind (e _ hs.2) fun _ => h.bind (o _) fun _ => h.bind (o _) fun _ => h.bind (h.buf hs.1.1.1) fun _ => h.bind (h.store _ _ _ hs.1.1.2) fun _ => h.pure _
  | setAt x i y  =>
    refine one _ nofun nofun rfl fun env => ?_
    simp only [S.within, Bool.and_eq_true] at hs
    simp only [exec]
    exact h.bind (e _ hs.1) fun _ => h.bind (e _ hs.2) fun _ => h.bind (o _) fun _ => h.bind (o _) fun _ => h.bind (h.setIndex _ _ _) fun _ => h.pure _
  | setOut x  =>
    refine one _ nofun nofun rfl fun env => ?_
    simp only [S.within, Bool.and_eq_true] at hs
    simp only [exec]
    exact h.bind (e _ hs) fun _ => h.bind h.getOut fun _ => h.bind (h.putOut _) fun _ => h.pure _
  | setOutAt i x  =>
    refine one _ nofun nofun rfl fun env => ?_
    simp only [S.within, Bool.and_eq_true] at hs
    simp only [exec]
    exact h.bind (e _ hs.1) fun _ => h.bind (e _ hs.2) fun _ => h.bind (o _) fun _ => h.bind h.getOut fun _ => h.bind (h.setIndex _ _ _) fun _ => h.bind (h.putOut _) fun _ => h.pure _
  | setOutAs k i x  =>
    refine one _ nofun nofun rfl fun env => ?_
    simp only [S.within, Bool.and_eq_true] at hs
    simp only [exec]
    exact h.bind h.getOut fun _ => h.bind (h.assertK _ _) fun _ => h.bind (e _ hs.1) fun _ => h.bind (e _ hs.2) fun _ => h.bind (o _) fun _ => h.bind (h.setIndex _ _ _) fun _ => h.bind (h.putOut _) fun _ => h.pure _
  | put k p x y  =>
    refine one _ nofun nofun rfl fun env => ?_
    simp only [S.within, Bool.and_eq_true] at hs
    simp only [exec]
    exact h.bind (e _ hs.1) fun _ => h.bind (e _ hs.2) fun _ => h.bind (h.orderOf _) fun _ => h.bind (o _) fun _ => h.bind (o _) fun _ => h.bind (o _) fun _ => h.pure _
  | new b x1 x2 x3 x4  =>
    refine one _ nofun nofun rfl fun env => ?_
    simp only [S.within, Bool.and_eq_true] at hs
    simp only [exec]
    obtain ⟨⟨⟨⟨⟨⟨⟨⟨⟨a0, a1⟩, a2⟩, a3⟩, a4⟩, w0⟩, w1⟩, w2⟩, w3⟩, w4⟩ := hs
    exact h.bind (e _ w0) fun _ => h.bind (e _ w1) fun _ => h.bind (e _ w2) fun _ => h.bind (e _ w3) fun _ => h.bind (e _ w4) fun _ => h.bind (o _) fun _ => h.bind (o _) fun _ => h.bind (o _) fun _ => h.bind (o _) fun _ => h.bind (o _) fun _ => h.bind (h.assignBuf _ a0) fun _ => h.bind (h.assign _ _ a1) fun _ => h.bind (h.assign _ _ a2) fun _ => h.bind (h.assign _ _ a3) fun _ => h.bind (h.assign _ _ a4) fun _ => h.pure _
  | copy a b  =>
    refine one _ nofun nofun rfl fun env => ?_
    simp only [S.within, Bool.and_eq_true] at hs
    simp only [exec]
    exact h.bind (e _ hs.1.2) fun _ => h.bind (e _ hs.2) fun _ => h.bind (o _) fun _ => h.bind (o _) fun _ => h.bind (h.copy _ _ hs.1.1) fun _ => h.pure _
  | expr x  =>
    refine one _ nofun nofun rfl fun env => ?_
    simp only [S.within, Bool.and_eq_true] at hs
    simp only [exec]
    exact h.bind (e _ hs) fun _ => h.pure _
  | callAddr f x args  =>
    refine one _ nofun nofun rfl fun env => ?_
    simp only [S.within, Bool.and_eq_true] at hs
    simp only [exec]
    exact h.bind (es _ hs.2) fun _ => h.bind (o _) fun _ => h.bind (h.withOut _ (h.bind (hc _ hs.1 _) fun _ => h.pure _)) fun _ => h.pure _
  | ret x  =>
    refine one _ nofun nofun rfl fun env => ?_
    simp only [S.within, Bool.and_eq_true] at hs
    simp only [exec]
    exact h.bind (e _ hs) fun _ => h.pure _
  | retNone  =>
    refine one _ nofun nofun rfl fun env => ?_
    simp only [S.within, Bool.and_eq_true] at hs
    simp only [exec]
    exact h.pure _
  | panic x  =>
    refine one _ nofun nofun rfl fun env => ?_
    simp only [S.within, Bool.and_eq_true] at hs
    simp only [exec]
    rw [herr]
    exact h.bind (o _) fun _ => h.fail _
  | ifs c thn els iht ihe =>
    refine one _ nofun nofun rfl fun env => ?_
    simp only [S.within, Bool.and_eq_true] at hs
    simp only [exec]
    refine h.bind (e _ hs.1.1) fun v => ?_
    split
    · split
      · exact (iht hs.1.2).1 env
      · exact (ihe hs.2).1 env
    · exact h.stuck
  | block l body ih =>
    refine one _ nofun nofun rfl fun env => ?_
    simp only [S.within, Bool.and_eq_true] at hs
    simp only [exec]
    rw [hf]
    exact h.loopGoto l (ih hs).1 _ _
  | goto l  =>
    refine one _ nofun nofun rfl fun env => ?_
    simp only [S.within, Bool.and_eq_true] at hs
    simp only [exec]
    exact h.pure _
  | brk  =>
    refine one _ nofun nofun rfl fun env => ?_
    simp only [S.within, Bool.and_eq_true] at hs
    simp only [exec]
    exact h.pure _
  | switch x c ih =>
    refine one _ nofun nofun rfl fun env => ?_
    simp only [S.within, Bool.and_eq_true] at hs
    simp only [exec]
    refine h.bind (e _ hs.1) fun v => h.bind ((ih hs.2).2.1 v env) fun r => ?_
    split <;> exact h.pure _
  | lock  =>
    refine one _ nofun nofun rfl fun env => ?_
    simp only [S.within, Bool.and_eq_true] at hs
    simp only [exec]
    exact h.bind h.lock fun _ => h.pure _
  | unlock  =>
    refine one _ nofun nofun rfl fun env => ?_
    simp only [S.within, Bool.and_eq_true] at hs
    simp only [exec]
    exact h.bind h.unlock fun _ => h.pure _
  | deferUnlock  =>
    refine one _ nofun nofun rfl fun env => ?_
    simp only [S.within, Bool.and_eq_true] at hs
    simp only [exec]
    exact h.stuck
  | rangeVal x y body ih =>
    refine one _ nofun nofun rfl fun env => ?_
    simp only [S.within, Bool.and_eq_true] at hs
    simp only [exec]
    rw [hf]
    exact h.bind (e _ hs.1.2) fun v => h.bind (o _) fun _ => h.loopRange (fun i env => h.bind (h.index hs.1.1 _ _) fun _ => (ih hs.2).1 _) _ _ _ _
  | rangeIdx x y body ih =>
    refine one _ nofun nofun rfl fun env => ?_
    simp only [S.within, Bool.and_eq_true] at hs
    simp only [exec]
    rw [hf]
    exact h.bind (e _ hs.1) fun v => h.bind (o _) fun _ => h.loopRange (fun i env => (ih hs.2).1 _) _ _ _ _
  | «for» init c post body ihi ihp ihb =>
    refine one _ nofun nofun rfl fun env => ?_
    simp only [S.within, Bool.and_eq_true] at hs
    simp only [exec]
    rw [hf]
    exact h.bind ((ihi hs.1.1.1).1 env) fun r => h.loopFor (fun env => e env hs.1.1.2) (ihb hs.2).1 (ihp hs.1.2).1 _ _

theorem execBody (h : SemRel M N A @R) (hc : ∀ f, F f = true → ∀ l, R (cx.call f l) (cx'.call f l)) (hf : cx.fuel = cx'.fuel) (herr : cx.err = cx'.err)
    (s : S) (hs : s.within A F = true) (env : Env) : R (execBody cx s env) (Src.execBody cx' s env) := by
  have x {s : S} (hs : s.within A F = true) (env : Env) := (h.exec_clauses hc hf herr s hs).1 env
  induction s generalizing env with
  | cons s r ihs ihr =>
    simp only [S.within, Bool.and_eq_true] at hs
    have plain : R (do let o ← exec cx s env; match o.1 with | .next => Src.execBody cx r o.2 | _ => Pure.pure o)
        (do let o ← exec cx' s env; match o.1 with | .next => Src.execBody cx' r o.2 | _ => Pure.pure o) := by
      refine h.bind (x hs.1 env) fun o => ?_
      split
      · exact ihr hs.2 _
      · exact h.pure _
    cases s with
    | deferUnlock => simp only [Src.execBody]; exact h.deferUnlock (ihr hs.2 env)
    | _ => simp only [Src.execBody]; exact plain
  | _ => simp only [Src.execBody]; exact x hs env

theorem run (h : SemRel M N A @R) (hc : ∀ f, F f = true → ∀ l, R (cx.call f l) (cx'.call f l)) (hf : cx.fuel = cx'.fuel) (herr : cx.err = cx'.err)
    (g : Fun) (hs : g.body.within A F = true) (args : List V) : R (g.run cx args) (g.run cx' args) := by
  unfold Fun.run
  split
  · refine h.bind (h.execBody hc hf herr _ hs _) fun r => ?_
    split
    · exact h.pure _
    · exact h.pure _
    · exact h.stuck
  · exact h.stuck

/-- Calls of a package are related when the functions they reach stay within `A`. -/
theorem call (h : SemRel M N A @R) {p : Pkg} (hp : p.within A F = true) (fuel : Nat) :
    ∀ depth f, F f = true → ∀ args, R (p.call fuel depth f args : M V) (p.call fuel depth f args : N V)
  | 0, _, _, _ => h.stuck
  | depth + 1, f, hf, args => by
    unfold Pkg.call
    split
    · rename_i g hg
      have hb := List.all_eq_true.mp hp g (List.mem_of_find?_eq_some hg)
      have hn : g.name = f := by simpa using List.find?_some hg
      rw [hn, hf] at hb
      exact h.run (fun f hf l => h.call hp fuel depth f hf l) rfl rfl g hb args
    · exact h.stuck

end SemRel
end
end Crunch.Src
