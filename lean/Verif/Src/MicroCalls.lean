import Verif.Src.Micro
import Verif.V1.MiniApi

/-!
The public methods of the v3 `Buffer` and of the `MiniBuffer`s, as programs of single steps that run the text.  A call on a `MiniBuffer` is given
with what its result variable holds before.
-/

namespace Crunch.Src

/-- A call on a v3 `Buffer`. -/
def microBuf (p : Pkg) (fuel depth : Nat) (op : V3.Op) : Prog V := p.micro fuel depth (goName op) (goArgs op) none

/-- A call on a v3 `MiniBuffer`. -/
def microMini (p : Pkg) (fuel depth : Nat) (x : V3.Outs × V3.Op) : Prog V := p.micro fuel depth (goName x.2) (goArgs x.2) (goOut x.1 x.2)

/-- A call on a v2 `MiniBuffer`. -/
def microMini2 (p : Pkg) (fuel depth : Nat) (x : V3.Outs × V2.Op2) : Prog V := p.micro fuel depth (Two.goName x.2) (Two.goArgs x.2) (Two.goOut x.1 x.2)

/-- A call on a v1 `MiniBuffer`. -/
def microMini1 (p : Pkg) (fuel depth : Nat) (x : V3.Outs × V1.Any × V1.Op1) : Prog V :=
  p.micro fuel depth (One.goName x.2.2) (One.goArgs x.2.2) (One.goOut x.1 x.2.1 x.2.2)

/-- A call that v3 `MiniBuffer` has. -/
def HasMini (x : V3.Outs × V3.Op) : Prop := Fits x.2 ∧ (V3.miniCall x.1 x.2).isSome = true

/-- A call that v2 `MiniBuffer` has. -/
def HasMini2 (x : V3.Outs × V2.Op2) : Prop := Two.Fits x.2 ∧ (V2.miniCall x.1 x.2).isSome = true

/-- A call that v1 `MiniBuffer` has. -/
def HasMini1 (x : V3.Outs × V1.Any × V1.Op1) : Prop := One.Fits x.2.2 ∧ (V1.miniCall1 x.1 x.2.1 x.2.2).isSome = true

end Crunch.Src
