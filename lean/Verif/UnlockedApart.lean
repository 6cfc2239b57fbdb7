import Verif.Foot
import Verif.Unlocked

/-!
# Goroutines that use different parts of a buffer without a mutex

What goroutines get from a buffer that they share without a mutex when no call of one changes a part that a call of another one accesses.
-/

namespace Crunch

/-- Calls one after another, each doing what `m` says. -/
def inTurn (m : O → V3.St → Res V × V3.St) : List O → V3.St → List (O × Res V) × V3.St
  | [], s => ([], s)
  | op :: l, s => ((op, (m op s).1) :: (inTurn m l (m op s).2).1, (inTurn m l (m op s).2).2)

/-- The calls `i` has finished, made one after another by nobody else. -/
def byItself (m : O → V3.St → Res V × V3.St) (i : Nat) (τ : Trace O V) (s : V3.St) : List (O × Res V) × V3.St :=
  inTurn m ((finished i τ).map (·.1)) s

/-- No goroutine notices another one. -/
structure Unnoticed (m : O → V3.St → Res V × V3.St) (changes : O → Part → Bool) (c0 : Conf O V) (τ : Trace O V) (c : Conf O V) : Prop where
  /-- every call has the outcome it has when its goroutine is the only one -/
  outcomes : ∀ i, finished i τ = (byItself m i τ c0.sh.st).1
  /-- between its calls, a goroutine finds the parts that the calls of the others do not change as if it were the only one -/
  places : ∀ i, c.thr i = .idle → ∀ l : Loc, (∀ j, j ≠ i → ∀ op ∈ started j τ, changes op l.part = false) → l.same c.sh.st (byItself m i τ c0.sh.st).2
  /-- what no call changes is as before -/
  rest : ∀ l : Loc, (∀ i, ∀ op ∈ started i τ, changes op l.part = false) → l.same c.sh.st c0.sh.st

end Crunch
