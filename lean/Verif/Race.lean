import Verif.Conc

/-!
# Data races

Two goroutines race when both are about to access the same place and at least one of them to change it.  For programs that are
synchronized only by a mutex this is the Go memory model's notion of a data race (two accesses not ordered by
happens-before), stated on the sequentially consistent executions of `Verif/Conc.lean`.

Simplification: what `append` copies into an array of its own is not counted, since nobody else can refer to that array yet.
-/

namespace Crunch

/-- A place of the shared state: a field, the slice header, one byte of an array. -/
inductive Loc where
  | field (f : Field)
  | header
  | byte (arr i : Nat)
deriving DecidableEq

/-- The places the next step reads. -/
def Prog.reads : Prog α → Sh → Loc → Prop
  | .getI f _, _, l => l = .field f
  | .getBuf _, _, l => l = .header
  | .load s i _, _, l => l = .byte s.arr (s.off + i)
  | .append s x _, _, l =>
    (∃ t, x = .mem t ∧ ∃ i, i < t.len ∧ l = .byte t.arr (t.off + i)) ∨
      (s.cap < s.len + x.len ∧ ∃ i, i < s.len ∧ l = .byte s.arr (s.off + i))
  | _, _, _ => False

/-- The places the next step changes. -/
def Prog.writes : Prog α → Sh → Loc → Prop
  | .setI f _ _, _, l => l = .field f
  | .setBuf _ _, _, l => l = .header
  | .store s i _ _, _, l => l = .byte s.arr (s.off + i)
  | .append s x _, _, l => s.len + x.len ≤ s.cap ∧ ∃ i, i < x.len ∧ l = .byte s.arr (s.off + s.len + i)
  | _, _, _ => False

/-- Goroutine `i` is about to change `l`. -/
def Conf.aboutToWrite (c : Conf O V) (i : Nat) (l : Loc) : Prop := ∃ op p, c.thr i = .busy op p ∧ p.writes c.sh l

/-- Goroutine `i` is about to read `l`. -/
def Conf.aboutToRead (c : Conf O V) (i : Nat) (l : Loc) : Prop := ∃ op p, c.thr i = .busy op p ∧ p.reads c.sh l

/-- Two goroutines race for `l`. -/
def Conf.Race (c : Conf O V) (l : Loc) : Prop :=
  ∃ i j, i ≠ j ∧ c.aboutToWrite i l ∧ (c.aboutToWrite j l ∨ c.aboutToRead j l)

end Crunch
