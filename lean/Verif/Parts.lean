import Verif.Conc

/-!
# Calls made of other calls

Some methods take the mutex several times: `ReadBits` and `SetBits` call the method for one bit in a loop.
-/

namespace Crunch

/-- A sequence of calls, in which each may depend on the results of those before, and a result at the end. -/
inductive Script (E W V : Type) where
  | done (v : V)
  | call (e : E) (k : W → Script E W V)

/-- Make the calls of a script one after another. -/
def Prog.script (ex : E → Prog W) : Script E W V → Prog V
  | .done v => .ret v
  | .call e k => (ex e).bind fun w => script ex (k w)

/-- Make the calls of a list one after another, then return `g` of their results (`ws` are those of the calls made before). -/
def Script.all (g : List W → V) : List E → List W → Script E W V
  | [], ws => .done (g ws)
  | e :: l, ws => .call e fun w => Script.all g l (ws ++ [w])

/-- Go on with another script, which may depend on the result. -/
def Script.andThen : Script E W V → (V → Script E W V') → Script E W V'
  | .done v, f => f v
  | .call e k, f => .call e fun w => (k w).andThen f

/-- The call `e` may be made in the course of a script. -/
inductive Script.Uses (e : E) : Script E W V → Prop
  | here {k : W → Script E W V} : Uses e (.call e k)
  | later {e' : E} {k : W → Script E W V} {w : W} : Uses e (k w) → Uses e (.call e' k)

/-- `Piece s es r`: the calls of `s` have the outcomes `es` (none is made after one that panics), and the outcome of the whole
is `r`. -/
inductive Piece : Script E W V → List (E × Res W) → Res V → Prop
  | done {v : V} : Piece (.done v) [] (.ok v)
  | more {e : E} {k : W → Script E W V} {w : W} {es : List (E × Res W)} {r : Res V} : Piece (k w) es r →
      Piece (.call e k) ((e, .ok w) :: es) r
  | fails {e : E} {k : W → Script E W V} {p : Panic} : Piece (.call e k) [(e, .panic p)] (.panic p)

/-- The outcomes of calls and those of the calls they are made of. -/
inductive Pieces (script : O → Script E W V) : List (O × Res V) → List (E × Res W) → Prop
  | nil : Pieces script [] []
  | snoc {fs : List (O × Res V)} {es es' : List (E × Res W)} {op : O} {r : Res V} : Pieces script fs es → Piece (script op) es' r →
      Pieces script (fs ++ [(op, r)]) (es ++ es')

/-- `L` explains `τ`: the calls of `L`, made one after another, have outcomes of which those of the calls finished in `τ` are put
together; and only parts of calls started in `τ` are in `L`. -/
structure Explains (exE : E → Prog W) (script : O → Script E W V) (s0 : Sh) (τ : Trace O V) (L : List (Nat × E)) : Prop where
  results : ∀ i, ∃ es more, ofThread i (seqRun exE L s0).1 = es ++ more ∧ Pieces script (finished i τ) es
  origin : ∀ i, ∀ e ∈ ofThread i L, ∃ op ∈ started i τ, (script op).Uses e

end Crunch
