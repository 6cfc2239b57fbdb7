import Verif.Src.Wrap
import Verif.Lemmas.SrcComplex
import Verif.V1.MiniApi

/-!
How a call of the v1 model is written in Go; see `Verif/Src/Calls.lean`.
-/

namespace Crunch.Src

open Crunch.Gen (Str)
open V3.Mini (onB)

namespace One

open V1 (Op1 Any)

/-- The name of the v1 method: that of the v2 method where there is one. -/
def goName (op : Op1) : Str :=
  match V1.toV2 op with
  | some op => Two.goName op
  | none =>
    match op with
    | .writeComplex p .. => nextName (str% "WriteComplex") p
    | .readComplex p .. => nextName (str% "ReadComplex") p
    | _ => []

/-- The arguments of the call, other than a result variable. -/
def goArgs (op : Op1) : List V :=
  match V1.toV2 op with
  | some op => Two.goArgs op
  | none =>
    match op with
    | .writeComplex p data size endian => atPos p [goAny data, .i64 size, .order endian]
    | .readComplex p n size endian => atPos p [.i64 n, .i64 size, .order endian]
    | _ => []

/-- The variadic arguments are a slice that Go can have. -/
def Fits (op : Op1) : Prop := ∀ op2, V1.toV2 op = some op2 → Two.Fits op2

/-- What the result variable of a `MiniBuffer` method holds before the call, for the methods that have one. -/
def goOut (o : V3.Outs) (any : Any) (op : Op1) : Option V :=
  match V1.toV2 op with
  | some op => Two.goOut o op
  | none =>
    match op with
    | .readComplex .. => some (goAny any)
    | _ => none

end One

/-- The result of a v1 call as a value. -/
def goVal1 : V1.Val1 → V
  | .val v => goVal v
  | .any a => goAny a

/-- The outcome with the result as a value. -/
def goRes1 : Res V1.Val1 → Res V
  | .ok v => .ok (goVal1 v)
  | .panic p => .panic p

theorem run_wrap1 (m : GoM V3.St V1.Val1) (s : V3.St) (v : V) :
    (onB m >>= fun x => pure (goVal1 x) : GoM (V3.St × V) V) (s, v) = (goRes1 (m s).1, ((m s).2, v)) := by
  show (onB m >>= fun x => (pure (goVal1 x) : GoM (V3.St × V) V)) (s, v) = _
  rw [bind_run]
  unfold onB
  rcases m s with ⟨r | p, s'⟩ <;> rfl

theorem wrap_eq1 (f : α → V1.Val1) (g : α → V) (hg : ∀ x, g x = goVal1 (f x)) (m : GoM V3.St α) :
    (onB m >>= fun x => pure (g x) : GoM (V3.St × V) V) = onB (V1.wrapG f m) >>= fun x => pure (goVal1 x) := by
  funext s
  show (onB m >>= fun x => (pure (g x) : GoM (V3.St × V) V)) s = (onB (V1.wrapG f m) >>= fun x => (pure (goVal1 x) : GoM (V3.St × V) V)) s
  rw [bind_run, bind_run]
  unfold onB V1.wrapG
  rw [bind_run]
  rcases m s.1 with ⟨r | p, s'⟩
  · show (Res.ok (g r), _) = _
    rw [hg]; rfl
  · rfl

end Crunch.Src
