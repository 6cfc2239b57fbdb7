import Verif.Lemmas.Progress

/-!
# Fair schedules

Infinite runs of goroutines that share one buffer, and what it means for the scheduler (and the mutex) to be fair.
-/

namespace Crunch

/-- An infinite run: at each moment one goroutine takes a step, or nobody does. -/
structure Run (ex : O → Prog V) (allowed : O → Prop) (c0 : Conf O V) where
  conf : Nat → Conf O V
  sched : Nat → Option (Nat × Act O V)
  init : conf 0 = c0
  rest : ∀ n, sched n = none → conf (n + 1) = conf n
  step : ∀ n i a, sched n = some (i, a) → Step ex allowed (conf n) i a (conf (n + 1))

/-- What has been done before moment `n`. -/
def Run.trace {ex : O → Prog V} {allowed : O → Prop} {c0 : Conf O V} (r : Run ex allowed c0) : Nat → Trace O V
  | 0 => []
  | n + 1 => r.trace n ++ (r.sched n).toList

/-- At moment `n` goroutine `i` is in a call and could go on with it. -/
def Run.Ready {ex : O → Prog V} {allowed : O → Prop} {c0 : Conf O V} (r : Run ex allowed c0) (i n : Nat) : Prop :=
  ∃ a c', Step ex noCall (r.conf n) i a c'

/-- At moment `n` goroutine `i` takes a step. -/
def Run.Moves {ex : O → Prog V} {allowed : O → Prop} {c0 : Conf O V} (r : Run ex allowed c0) (i n : Nat) : Prop :=
  ∃ a, r.sched n = some (i, a)

/-- A goroutine that could go on with a call again and again takes steps again and again.  For a goroutine that waits for the mutex
this says that the mutex is not always given to others. -/
def Run.Fair {ex : O → Prog V} {allowed : O → Prop} {c0 : Conf O V} (r : Run ex allowed c0) : Prop :=
  ∀ i, (∀ n, ∃ m, n ≤ m ∧ r.Ready i m) → ∀ n, ∃ m, n ≤ m ∧ r.Moves i m

end Crunch
