import Verif.Race

/-!
# Happens-before

The order of the Go memory model on the steps of an execution, and data races as accesses that it does not order.  The steps of a goroutine
are ordered as they are made; an unlock of the mutex is before every later lock.  `Verif/Race.lean` says when two goroutines are about to race; here
the two accesses may be far apart.
-/

namespace Crunch

/-- Step `m` of `τ` happens before step `n`. -/
inductive HB (τ : Trace O V) : Nat → Nat → Prop
  | order {m n i : Nat} {a b : Act O V} : m < n → τ[m]? = some (i, a) → τ[n]? = some (i, b) → HB τ m n
  | sync {m n i j : Nat} {p q : Prog V} : m < n → τ[m]? = some (i, .did .unlock p) → τ[n]? = some (j, .did .lock q) → HB τ m n
  | trans {m k n : Nat} : HB τ m k → HB τ k n → HB τ m n

/-- Step `n` of `τ` is one of goroutine `i`, in the call `op`, and reads `l`. -/
def ReadsAt (ex : O → Prog V) (allowed : O → Prop) (c0 : Conf O V) (τ : Trace O V) (n i : Nat) (op : O) (l : Loc) : Prop :=
  ∃ c c' p e p', Exec ex allowed c0 (τ.take n) c ∧ c.thr i = .busy op p ∧ p.reads c.sh l ∧ Step ex allowed c i (.did e p') c' ∧
    τ[n]? = some (i, .did e p')

/-- Step `n` of `τ` is one of goroutine `i`, in the call `op`, and changes `l`. -/
def WritesAt (ex : O → Prog V) (allowed : O → Prop) (c0 : Conf O V) (τ : Trace O V) (n i : Nat) (op : O) (l : Loc) : Prop :=
  ∃ c c' p e p', Exec ex allowed c0 (τ.take n) c ∧ c.thr i = .busy op p ∧ p.writes c.sh l ∧ Step ex allowed c i (.did e p') c' ∧
    τ[n]? = some (i, .did e p')

/-- A data race between a call `op` of goroutine `i`, which changes `l` in some step, and a call `op'` of another goroutine `j`, which reads `l` in some
step, or changes it: neither step happens before the other one. -/
def DataRace (ex : O → Prog V) (allowed : O → Prop) (c0 : Conf O V) (τ : Trace O V) (i j : Nat) (op op' : O) (l : Loc) : Prop :=
  i ≠ j ∧ ∃ m n, WritesAt ex allowed c0 τ m i op l ∧ (ReadsAt ex allowed c0 τ n j op' l ∨ WritesAt ex allowed c0 τ n j op' l) ∧
    ¬ HB τ m n ∧ ¬ HB τ n m

end Crunch
