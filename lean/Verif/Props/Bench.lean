import Verif.Props.TestsNew
import Verif.Src.Bench
import Verif.Src.Text.Benches

/-!
# C137: the benchmarks of the project come to their end

What it means, and the part of the proof that does not depend on the version: the loop of a benchmark keeps an invariant.
-/

namespace Crunch.Src.Tests

open Crunch.Gen Crunch.V3

/-- The text is a benchmark function, and for every `b.N` it comes to its end without a panic, whatever `append` allocates ahead. -/
def Finishes (ty : Str) (p : Pkg) (r : Runner) (l : List Str) : Prop :=
  ∃ b, parseBench ty l = some b ∧ ∀ n slack, passes p r slack (b.rounds n) = true

variable {p : Pkg} {r : Runner}

/-- The state before the first statement. -/
def start (slack : Nat → Nat → Nat) : V3.St := ⟨⟨[], slack⟩, ⟨⟨0, 0, 0, 0⟩, 0, 0, 0, 0⟩⟩

/-- The statements come to their end from any state with `I`, and keep it. -/
def Keeps (p : Pkg) (r : Runner) (I : Env → V3.St → Prop) (body : List Stmt) : Prop :=
  ∀ env s, I env s → ∃ env' s', I env' s' ∧ ∀ l, runStmts p r none (body ++ l) env s = runStmts p r none l env' s'

theorem Keeps.loop {I : Env → V3.St → Prop} {body : List Stmt} (h : Keeps p r I body) (n : Nat) :
    Keeps p r I (List.replicate n body).flatten := by
  induction n with
  | zero => exact fun env s hI => ⟨env, s, hI, fun _ => rfl⟩
  | succ n ih =>
    intro env s hI
    obtain ⟨env1, s1, h1, e1⟩ := h env s hI
    obtain ⟨env2, s2, h2, e2⟩ := ih env1 s1 h1
    refine ⟨env2, s2, h2, fun l => ?_⟩
    rw [List.replicate_succ, List.flatten_cons, List.append_assoc, e1, e2]

/-- A benchmark comes to its end if its loop keeps what holds before it. -/
theorem finishes_of {ty : Str} {l : List Str} {b : Bench} (hp : parseBench ty l = some b) {I : Env → V3.St → Prop}
    (hb : ∀ slack, ∃ env s, I env s ∧ ∀ l, runStmts p r none (b.before ++ l) [] (start slack) = runStmts p r none l env s)
    (hk : Keeps p r I b.body) (ha : ∀ env s, I env s → runStmts p r none b.after env s = .done none) :
    Finishes ty p r l := by
  refine ⟨b, hp, fun n slack => ?_⟩
  obtain ⟨env, s, hI, hb⟩ := hb slack
  obtain ⟨env', s', hI, e⟩ := hk.loop n env s hI
  have : runStmts p r none (b.rounds n).body [] (start slack) = .done none := by
    show runStmts p r none (b.before ++ ((List.replicate n b.body).flatten ++ b.after)) [] (start slack) = _
    rw [hb, e, ha env' s' hI]
  unfold passes
  rw [show (⟨⟨[], slack⟩, ⟨⟨0, 0, 0, 0⟩, 0, 0, 0, 0⟩⟩ : V3.St) = start slack from rfl, this]

/-! ## a call in the loop -/

/-- A call without a result variable succeeds from any state with `S` and keeps it. -/
def Calls (p : Pkg) (r : Runner) (S S' : V3.St → Prop) (c : MCall) : Prop :=
  c.out = none ∧ c.as = none ∧ ∀ env s, S s → ∃ args m v s', callArgs p env s c = some (args, m) ∧
    r c.name args none { s with mem := m } = some (.ok v, s') ∧ S' s'

/-- A call with a result variable that holds a value with `Q` succeeds from any state with `S`; both are kept. -/
def CallsOut (p : Pkg) (r : Runner) (S : V3.St → Prop) (Q : V → Prop) (c : MCall) (x : Str) : Prop :=
  c.out = some x ∧ c.as = none ∧ ∀ env s o, S s → Q o → ∃ args m v s', callArgs p env s c = some (args, m) ∧
    r c.name args (some o) { s with mem := m } = some (.ok v, s') ∧ S s' ∧ Q v

/-- The buffer is there, and `S` holds. -/
def Has (x : Str) (S : V3.St → Prop) (env : Env) (s : V3.St) : Prop := env.lookup x = some .buf ∧ S s

/-- The variable is there, too, and `Q` holds of its value. -/
def HasOut (x y : Str) (S : V3.St → Prop) (Q : V → Prop) (env : Env) (s : V3.St) : Prop :=
  env.lookup x = some .buf ∧ (∃ v, env.val y = some v ∧ Q v) ∧ S s

theorem Calls.run {S S' : V3.St → Prop} {c : MCall} (h : Calls p r S S' c) {env : Env} {s : V3.St} (hx : env.lookup c.x = some .buf) (hs : S s) :
    ∃ v s', runCall p r env s c = some (.ok v, env, s') ∧ S' s' := by
  obtain ⟨h1, h2, h3⟩ := h
  obtain ⟨args, m, v, s', ha, hr, hs'⟩ := h3 env s hs
  refine ⟨v, s', ?_, hs'⟩
  simp [runCall, hx, ha, h1, h2, hr]

theorem CallsOut.run {S : V3.St → Prop} {Q : V → Prop} {c : MCall} {y : Str} (h : CallsOut p r S Q c y) {env : Env} {s : V3.St}
    (hx : env.lookup c.x = some .buf) {o : V} (ho : env.val y = some o) (hq : Q o) (hs : S s) :
    ∃ v s', runCall p r env s c = some (.ok .unit, (y, .val v) :: env, s') ∧ S s' ∧ Q v := by
  obtain ⟨h1, h2, h3⟩ := h
  obtain ⟨args, m, v, s', ha, hr, hs', hv⟩ := h3 env s o hs hq
  refine ⟨v, s', ?_, hs', hv⟩
  simp [runCall, hx, ha, h1, h2, ho, hr]

/-- `x.f(…)` -/
theorem keeps_call {S : V3.St → Prop} {c : MCall} (h : Calls p r S S c) : Keeps p r (Has c.x S) [.call c] := by
  rintro env s ⟨hx, hs⟩
  obtain ⟨v, s', e, hs'⟩ := h.run hx hs
  refine ⟨env, s', ⟨hx, hs'⟩, fun l => ?_⟩
  simp only [List.cons_append, List.nil_append, runStmts, e]

/-- `x.f(…)` and then `x.g(…)` -/
theorem keeps_calls {S S' : V3.St → Prop} {c d : MCall} (hxy : d.x = c.x) (h : Calls p r S S' c) (h' : Calls p r S' S d) :
    Keeps p r (Has c.x S) [.call c, .call d] := by
  rintro env s ⟨hx, hs⟩
  obtain ⟨v, s1, e1, hs1⟩ := h.run hx hs
  obtain ⟨v, s2, e2, hs2⟩ := h'.run (env := env) (by rw [hxy]; exact hx) hs1
  refine ⟨env, s2, ⟨hx, hs2⟩, fun l => ?_⟩
  simp only [List.cons_append, List.nil_append, runStmts, e1, e2]

/-- `y = x.f(…)` -/
theorem keeps_put {S : V3.St → Prop} {c : MCall} {y : Str} (hy : (c.x == y) = false) (h : Calls p r S S c) :
    Keeps p r (HasOut c.x y S fun _ => True) [.put y none (.call c)] := by
  rintro env s ⟨hx, _, hs⟩
  obtain ⟨v, s', e, hs'⟩ := h.run hx hs
  refine ⟨(y, .val v) :: env, s', ⟨?_, ⟨v, ?_, trivial⟩, hs'⟩, fun l => ?_⟩
  · rw [List.lookup_cons, hy]; exact hx
  · simp [Env.val, List.lookup_cons]
  · simp only [List.cons_append, List.nil_append, runStmts, e]

/-- `_ = x.f(…)` -/
theorem keeps_drop {S : V3.St → Prop} {c : MCall} {y : Str} (hy : (c.x == y) = false) (h : Calls p r S S c) :
    Keeps p r (Has c.x S) [.put y none (.call c)] := by
  rintro env s ⟨hx, hs⟩
  obtain ⟨v, s', e, hs'⟩ := h.run hx hs
  refine ⟨(y, .val v) :: env, s', ⟨?_, hs'⟩, fun l => ?_⟩
  · rw [List.lookup_cons, hy]; exact hx
  · simp only [List.cons_append, List.nil_append, runStmts, e]

/-- `x.f(&y, …)` -/
theorem keeps_out {S : V3.St → Prop} {Q : V → Prop} {c : MCall} {y : Str} (hy : (c.x == y) = false) (h : CallsOut p r S Q c y) :
    Keeps p r (HasOut c.x y S Q) [.call c] := by
  rintro env s ⟨hx, ⟨o, ho, hq⟩, hs⟩
  obtain ⟨v, s', e, hs', hv⟩ := h.run hx ho hq hs
  refine ⟨(y, .val v) :: env, s', ⟨?_, ⟨v, ?_, hv⟩, hs'⟩, fun l => ?_⟩
  · rw [List.lookup_cons, hy]; exact hx
  · simp [Env.val, List.lookup_cons]
  · simp only [List.cons_append, List.nil_append, runStmts, e]

/-- Nothing behind the loop. -/
theorem after_nil {I : Env → V3.St → Prop} : ∀ env s, I env s → runStmts p r none [] env s = .done none := fun _ _ _ => by rw [runStmts]

/-- `_ = y` behind the loop. -/
theorem after_use {x y : Str} {S : V3.St → Prop} {Q : V → Prop} :
    ∀ env s, HasOut x y S Q env s → runStmts p r none [.put (str% "_") none (.tm (.var y))] env s = .done none := by
  rintro env s ⟨_, ⟨v, hv, _⟩, _⟩
  simp [runStmts, eval, hv]

end Crunch.Src.Tests
