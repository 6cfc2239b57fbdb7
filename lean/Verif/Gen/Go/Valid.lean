import Lean.Elab.Tactic
import Verif.Gen.Go.Sem
import Verif.Gen.Go.ComplexSyntax

/-!
# The function literal of generation/complex.go on valid arguments

`rest` is the literal after its checks.  `Verif/Gen/Go/Valid1.lean` to `Valid4.lean` run it for the 72 combinations of arguments
that pass the checks: whatever the state, the world, the other functions and the comment are, it returns the model's
`accessors` and changes nothing else.
-/

namespace Crunch.Gen.Go.Complex

/-- The literal given to `ReplaceAllFunc` after its checks, generation/complex.go:116-460. -/
def rest : T :=
  .cons g2r1f7 (.cons g2r1f8 (.cons g2r1f9 (.cons g2r1f10 (.cons g2r1f11 (.cons g2r1f12 (.cons g2r1f13 (.cons g2r1f14
  (.cons g2r1f15 (.cons g2r1f16 (.cons g2r1f17 (.cons g2r1f18 (.cons g2r1f19 (.cons g2r1f20 (.cons g2r1f21 (.cons g2r1f22
  (.cons g2r1f23 (.cons g2r1f24 (.cons g2r1f25 (.cons g2r1f26 (.cons g2r1f27 (.cons g2r1f28 (.cons g2r1f29 (.cons g2r1f30
  (.cons g2r1f31 (.cons g2r1f32 (.cons g2r1f33 .nil))))))))))))))))))))))))))

theorem literal_eq : g2r1f =
    .cons g2r1f0 (.cons g2r1f1 (.cons g2r1f2 (.cons g2r1f3 (.cons g2r1f4 (.cons g2r1f5 (.cons g2r1f6 rest)))))) := rfl

/-- The state after a return of these bytes, without the variables and objects of the literal. -/
def returned (b : Str) (r : Option (Ctl × S)) : Option S :=
  match r with
  | some (.ret (.bytes b'), s) => if b' == b then some { s with env := [], objs := [], nobj := 0 } else none
  | _ => none

/-- `exact` where only the kernel compares the type of the term with the goal. -/
elab "by_kernel " e:term : tactic => Lean.Elab.Tactic.withMainContext do
  let g ← Lean.Elab.Tactic.getMainGoal
  g.assign (← Lean.Elab.Tactic.elabTerm e none)

/-- What `rest` has to do for these arguments. -/
def Right (a0 a1 a2 a3 a4 : Str) : Prop :=
  ∀ F w c ro globals maps flags out time cwd fs handles nhandle defers,
    returned (accessors a0 a1 a2 a3 a4) (exec F w rest ⟨[[(str% "arguments", .strs [a0, a1, a2, a3, a4]), (str% "comment", .bytes c)]],
      ro, globals, [], 0, maps, flags, out, time, cwd, fs, handles, nhandle, defers⟩) =
    some ⟨[], ro, globals, [], 0, maps, flags, out, time, cwd, fs, handles, nhandle, defers⟩

/-- All types, sizes and orders. -/
def RightFor (a0 a1 : Str) : Prop :=
  ∀ a2 a3 a4, (a2 = str% "I" ∨ a2 = str% "U" ∨ a2 = str% "F") → (a3 = str% "16" ∨ a3 = str% "32" ∨ a3 = str% "64") →
    (a4 = str% "BE" ∨ a4 = str% "LE") → Right a0 a1 a2 a3 a4

theorem RightFor.intro {a0 a1 : Str}
    (_ : Right a0 a1 (str% "I") (str% "16") (str% "BE"))
    (_ : Right a0 a1 (str% "I") (str% "16") (str% "LE"))
    (_ : Right a0 a1 (str% "I") (str% "32") (str% "BE"))
    (_ : Right a0 a1 (str% "I") (str% "32") (str% "LE"))
    (_ : Right a0 a1 (str% "I") (str% "64") (str% "BE"))
    (_ : Right a0 a1 (str% "I") (str% "64") (str% "LE"))
    (_ : Right a0 a1 (str% "U") (str% "16") (str% "BE"))
    (_ : Right a0 a1 (str% "U") (str% "16") (str% "LE"))
    (_ : Right a0 a1 (str% "U") (str% "32") (str% "BE"))
    (_ : Right a0 a1 (str% "U") (str% "32") (str% "LE"))
    (_ : Right a0 a1 (str% "U") (str% "64") (str% "BE"))
    (_ : Right a0 a1 (str% "U") (str% "64") (str% "LE"))
    (_ : Right a0 a1 (str% "F") (str% "16") (str% "BE"))
    (_ : Right a0 a1 (str% "F") (str% "16") (str% "LE"))
    (_ : Right a0 a1 (str% "F") (str% "32") (str% "BE"))
    (_ : Right a0 a1 (str% "F") (str% "32") (str% "LE"))
    (_ : Right a0 a1 (str% "F") (str% "64") (str% "BE"))
    (_ : Right a0 a1 (str% "F") (str% "64") (str% "LE")) :
    RightFor a0 a1 := by
  rintro a2 a3 a4 (rfl | rfl | rfl) (rfl | rfl | rfl) (rfl | rfl) <;> with_reducible assumption

/-- Runs the text. -/
macro "run_text" : tactic => `(tactic|
   by_kernel (fun (_ : Str → List V → M V) (_ : World) (_ : Str) (ro : List Scope) (globals : Scope) (maps : List (List (Str × Str)))
     (flags : List (Str × Str)) (out : List Str) (time : Nat) (cwd : Str) (fs : Fs) (handles : Nat → Handle) (nhandle : Nat)
     (defers : List (V × Str)) => Eq.refl (some (S.mk [] ro globals [] 0 maps flags out time cwd fs handles nhandle defers))))

end Crunch.Gen.Go.Complex
