import Verif.Src.V2MiniCalls
import Verif.Src.Link.V2Mini
import Verif.Src.Link.V2Utils
import Verif.Props.V2Mini

/-!
# The model of v2 is the text of v2

The texts of v2/minibuf.go and v2/utils.go are parsed (`compileAll`) and run by the interpreter of Verif/Src/Sem.lean.  For every
public method and all arguments and states, that gives what the model of Verif/V2 gives.
-/

namespace Crunch.Src
open V3.Mini (onB)

/-! ## C84 -/

/-- C84: the text of v2/minibuf.go and v2/utils.go parses to a package, and running any method of `MiniBuffer` gives the contents of
the result variable, the panic and the state of the model, whatever the arguments, the state and the previous contents are.
Loops get more rounds than there are `int64` values, calls a depth of 4. -/
theorem C84_mini_text :
    ∃ funs, compileAll (V2Utils.text ++ V2Mini.text) = some funs ∧
    ∀ (fuel depth : Nat), 2 ^ 64 < fuel → 4 ≤ depth → ∀ (o : V3.Outs) (op : V2.Op2), Two.Fits op →
    ∀ (m : GoM V3.St V3.Val), V2.miniCall o op = some m → ∀ (s : V3.St) (v : V),
    (⟨funs, V2Mini.errs⟩ : Pkg).callMini fuel depth (Two.goName op) (Two.goArgs op) (Two.goOut o op) (s, v) =
      (goRes (m s).1, ((m s).2, v)) := by
  refine ⟨_, compileAll_append V2Utils.link V2Mini.link, fun fuel depth hf hd o op ho m hm s v => ?_⟩
  obtain ⟨d, rfl⟩ := Nat.exists_eq_add_of_le' hd
  have h := V2Mini.calls fuel d hf o op ho
  rw [hm] at h
  show V2Mini.P.callMini fuel (d + 4) (Two.goName op) (Two.goArgs op) (Two.goOut o op) (s, v) = _
  rw [h]
  exact run_wrap _ s v

/-- C84: the same for the constructor, which is given the `MiniBuffer` to fill. -/
theorem C84_constructor_text :
    ∃ funs, compileAll (V2Utils.text ++ V2Mini.text) = some funs ∧
    ∀ (fuel depth : Nat), 2 ^ 64 < fuel → 4 ≤ depth → ∀ (l : List Slice), l.length < 2 ^ 63 → ∀ (s : V3.St) (v : V),
    (⟨funs, V2Mini.errs⟩ : Pkg).callBuf fuel depth (str% "NewMiniBuffer") [.ptr, .slices l] (s, v) =
      (goRes (V3.wrapVal (fun _ => .unit) (V2.Mini.NewMiniBuffer l) s).1, ((V2.Mini.NewMiniBuffer l s).2, v)) := by
  refine ⟨_, compileAll_append V2Utils.link V2Mini.link, fun fuel depth hf hd l hl s v => ?_⟩
  obtain ⟨d, rfl⟩ := Nat.exists_eq_add_of_le' hd
  show (V2Mini.P.call fuel (d + 2 + 2) (str% "NewMiniBuffer") [.ptr, .slices l] : GoM (V3.St × V) V) (s, v) = _
  rw [V2Mini.NewMiniBuffer fuel (d + 2) hf l hl, wrap_eq (fun _ => .unit) (fun _ => .unit) (fun _ => rfl)]
  refine (run_wrap _ s v).trans ?_
  unfold V3.wrapVal
  rw [bind_run]
  rcases V2.Mini.NewMiniBuffer l s with ⟨r | p, s'⟩ <;> rfl

/-- The interpreter does run the text: bits 4 to 15 of `demo`, appended to what the result variable held. -/
example : (V2Mini.P.callMini 20 4 (str% "ReadBits") [.i64 4, .i64 12] (some (.u64 1)) : GoM (V3.St × V) V) (V3.demo, .unit) =
    (.ok (.u64 0x1304), (V3.demo, .unit)) := by
  kexact (Eq.refl (Res.ok (V.u64 0x1304), (V3.demo, V.unit)))

example : Two.Fits (.after [3, 4]) := by show 2 < 2 ^ 63; decide

/-- The calls of a history on a v2 `MiniBuffer`, each run from the text; a panic is recovered by the caller.  Calls that
`MiniBuffer` does not have are left out. -/
def textMiniAll (p : Pkg) (fuel depth : Nat) : List (V3.Outs × V2.Op2) → V3.St → List (Res V) × V3.St
  | [], s => ([], s)
  | (o, op) :: ops, s =>
    match V2.miniCall o op with
    | none => textMiniAll p fuel depth ops s
    | some _ =>
      let r := p.callMini fuel depth (Two.goName op) (Two.goArgs op) (Two.goOut o op) (s, .unit)
      (r.1 :: (textMiniAll p fuel depth ops r.2.1).1, (textMiniAll p fuel depth ops r.2.1).2)

/-- C84: any history of calls, run from the text, gives the results and ends in the state of the same history of the model, which is
what C79 is about. -/
theorem C84_mini_history_text :
    ∃ funs, compileAll (V2Utils.text ++ V2Mini.text) = some funs ∧
    ∀ (fuel depth : Nat), 2 ^ 64 < fuel → 4 ≤ depth → ∀ (ops : List (V3.Outs × V2.Op2)), (∀ x ∈ ops, Two.Fits x.2) → ∀ (s : V3.St),
    textMiniAll ⟨funs, V2Mini.errs⟩ fuel depth ops s = ((V2.miniAll ops s).1.map goRes, (V2.miniAll ops s).2) := by
  obtain ⟨funs, hc, hcall⟩ := C84_mini_text
  refine ⟨funs, hc, fun fuel depth hf hd ops => ?_⟩
  induction ops with
  | nil => intros; rfl
  | cons x ops ih =>
    obtain ⟨o, op⟩ := x
    intro ho s
    have ih' := ih fun x h => ho x (List.mem_cons_of_mem _ h)
    unfold textMiniAll V2.miniAll
    cases hm : V2.miniCall o op with
    | none => exact ih' s
    | some m =>
      simp only [hcall fuel depth hf hd o op (ho _ (List.mem_cons_self ..)) m hm, ih', List.map_cons]

example : (textMiniAll V2Mini.P 20 4 [(V3.demoOuts 5 1, .setBit (some 0) 1), (V3.demoOuts 5 1, .readBits (some 0) 4)] V3.demo).1 =
    [.ok .unit, .ok (.u64 (5 * 16 + 8))] := by
  kexact (Eq.refl [Res.ok V.unit, Res.ok (V.u64 (5 * 16 + 8))])

end Crunch.Src
