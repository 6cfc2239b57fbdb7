import Verif.Src.V1MiniCalls
import Verif.Src.Link.V1Mini
import Verif.Src.Link.V1Utils
import Verif.Props.V1Mini

/-!
# The model of the v1 `MiniBuffer` is the text of v1

The texts of v1/minibuf.go and v1/utils.go are parsed (`compileAll`) and run by the interpreter of Verif/Src/Sem.lean.
-/

namespace Crunch.Src
open V3.Mini (onB)

/-! ## C85 -/

/-- C85: the text of v1/minibuf.go and v1/utils.go parses to a package, and running any public method of `MiniBuffer` gives the
contents of the result variable, the panic and the state of the model, whatever the arguments, the state and the previous contents
are. -/
theorem C85_mini_text :
    ∃ funs, compileAll (V1Utils.text ++ V1Mini.text) = some funs ∧
    ∀ (fuel depth : Nat), 2 ^ 64 < fuel → 4 ≤ depth → ∀ (o : V3.Outs) (any : V1.Any) (op : V1.Op1), One.Fits op →
    ∀ (m : GoM V3.St V1.Val1), V1.miniCall1 o any op = some m → ∀ (s : V3.St) (v : V),
    (⟨funs, V1Mini.errs⟩ : Pkg).callMini fuel depth (One.goName op) (One.goArgs op) (One.goOut o any op) (s, v) =
      (goRes1 (m s).1, ((m s).2, v)) := by
  refine ⟨_, compileAll_append V1Utils.link V1Mini.link, fun fuel depth hf hd o any op ho m hm s v => ?_⟩
  obtain ⟨d, rfl⟩ := Nat.exists_eq_add_of_le' hd
  have h := V1Mini.calls fuel d hf o any op ho
  rw [hm] at h
  show V1Mini.P.callMini fuel (d + 4) (One.goName op) (One.goArgs op) (One.goOut o any op) (s, v) = _
  rw [h]
  exact run_wrap1 _ s v

/-- C85: the same for the constructor, which is given the `MiniBuffer` to fill. -/
theorem C85_constructor_text :
    ∃ funs, compileAll (V1Utils.text ++ V1Mini.text) = some funs ∧
    ∀ (fuel depth : Nat), 2 ^ 64 < fuel → 4 ≤ depth → ∀ (l : List Slice), l.length < 2 ^ 63 → ∀ (s : V3.St) (v : V),
    (⟨funs, V1Mini.errs⟩ : Pkg).callBuf fuel depth (str% "NewMiniBuffer") [.ptr, .slices l] (s, v) =
      (goRes (V3.wrapVal (fun _ => .unit) (V1.Mini.NewMiniBuffer l) s).1, ((V1.Mini.NewMiniBuffer l s).2, v)) := by
  refine ⟨_, compileAll_append V1Utils.link V1Mini.link, fun fuel depth hf hd l hl s v => ?_⟩
  obtain ⟨d, rfl⟩ := Nat.exists_eq_add_of_le' hd
  show (V1Mini.P.call fuel (d + 2 + 2) (str% "NewMiniBuffer") [.ptr, .slices l] : GoM (V3.St × V) V) (s, v) = _
  rw [V1Mini.NewMiniBuffer fuel (d + 2) hf l hl, wrap_eq (fun _ => .unit) (fun _ => .unit) (fun _ => rfl)]
  refine (run_wrap _ s v).trans ?_
  unfold V3.wrapVal
  rw [bind_run]
  rcases V1.Mini.NewMiniBuffer l s with ⟨r | p, s'⟩ <;> rfl

/-- The interpreter does run the text: a read of 0 bits leaves the variable, unlike in v2. -/
example : (V1Mini.P.callMini 20 4 (str% "ReadBits") [.i64 4, .i64 0] (some (.u64 1)) : GoM (V3.St × V) V) (V3.demo, .unit) =
    (.ok (.u64 1), (V3.demo, .unit)) := by
  kexact (Eq.refl (Res.ok (V.u64 1), (V3.demo, V.unit)))

/-- Two 16-bit integers are read in the order asked for. -/
example : (V1Mini.P.callMini 20 4 (str% "ReadComplex") [.i64 0, .i64 2, .i64 2, .order (some .be)] (some .unit) : GoM (V3.St × V) V) (V3.demo, .unit) =
    (.ok (.lu16 [0x0304, 0x0506]), (V3.demo, .unit)) := by
  kexact (Eq.refl (Res.ok (V.lu16 [0x0304, 0x0506]), (V3.demo, V.unit)))

example : One.Fits (.readComplex none 3 2 (some .le)) ∧ One.Fits (.after [1, 2]) := ⟨nofun, fun _ h => by cases h; exact (by decide : 2 < 2 ^ 63)⟩

end Crunch.Src
