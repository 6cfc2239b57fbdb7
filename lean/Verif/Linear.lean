import Verif.Conc

/-!
# Linearizability

The calls of a trace can be put in an order such that, executed one at a time in it, they have the same outcomes; and the order keeps
every call that ended before another one was started in front of it.
-/

namespace Crunch

/-- `τ`, from `c0` to `c`, is linearizable.  `L` is the order: of each goroutine it has the calls it finished, and perhaps the one it is
in, which was started last.  The last condition is about real time: cut the execution anywhere, into `τ1` and what comes later; then the order can be
cut so that the first part has every call that ended in `τ1` and no call that was started later. -/
def Linear (exe : O → Prog V) (c0 : Conf O V) (τ : Trace O V) (c : Conf O V) : Prop :=
  ∃ L : List (Nat × O),
    (∀ i, ∃ pending, ofThread i (seqRun exe L c0.sh).1 = finished i τ ++ pending ∧ pending.length ≤ 1 ∧ (c.thr i = .idle → pending = [])) ∧
    (∀ i, ∃ waiting, started i τ = ofThread i L ++ waiting ∧ waiting.length ≤ 1 ∧ (c.thr i = .idle → waiting = [])) ∧
    ((∀ i, c.thr i = .idle) → c.sh = (seqRun exe L c0.sh).2) ∧
    ∀ τ1 τ2, τ = τ1 ++ τ2 → ∃ L1 L2, L = L1 ++ L2 ∧
      ∀ i, (finished i τ1).length ≤ (ofThread i L1).length ∧ (ofThread i L1).length ≤ (started i τ1).length

end Crunch
