import Verif.Src.Tests

/-!
# C134: what it means that a test of the project passes

The text of a test function is parsed and its calls are run from the texts of the package (`Verif/Src/Tests.lean`); the tests of the six test
files are in the modules `TestsV1Buffer` to `TestsV3Mini`.
-/

namespace Crunch.Src.Tests

open Crunch.Gen

/-- The text is a test function, and it passes whatever `append` allocates ahead. -/
def Passes (ty : Str) (p : Pkg) (r : Runner) (l : List Str) : Prop :=
  ∃ t, parseTest ty l = some t ∧ ∀ slack, passes p r slack t = true

/-- The same as a computation. -/
def check (ty : Str) (p : Pkg) (r : Runner) (slack : Nat → Nat → Nat) (l : List Str) : Bool :=
  match parseTest ty l with
  | some t => passes p r slack t
  | none => false

variable {ty : Str} {p : Pkg} {r : Runner} {l : List Str} {ls : List (List Str)}

theorem of_check (h : ∀ slack, check ty p r slack l = true) : Passes ty p r l := by
  unfold check at h
  cases ht : parseTest ty l with
  | none => rw [ht] at h; exact Bool.noConfusion (h fun _ _ => 0)
  | some t => rw [ht] at h; exact ⟨t, ht, h⟩

theorem all_nil : ∀ l ∈ [], Passes ty p r l := fun _ h => absurd h List.not_mem_nil

theorem all_cons (h : Passes ty p r l) (hs : ∀ l ∈ ls, Passes ty p r l) : ∀ l' ∈ l :: ls, Passes ty p r l' :=
  List.forall_mem_cons.mpr ⟨h, hs⟩

end Crunch.Src.Tests
