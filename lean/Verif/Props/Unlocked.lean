import Verif.Src.MicroCalls
import Verif.Lemmas.Unlocked
import Verif.Props.Bits
import Verif.Props.Happens
import Verif.Props.SourceV3
import Verif.Props.SourceV2
import Verif.Props.SourceV1

/-!
# Buffers without a mutex, shared by goroutines (C120, C121)

The v3 `Buffer` and the `MiniBuffer`s have no mutex.  Their texts, executed in single steps (`Verif/Src/Micro.lean`), alone do what their models do
(C120); and the tables of `Verif/Unlocked.lean` tell which calls of different goroutines can be in a data race (C121).
-/

namespace Crunch.Src

/-! ## C120: alone -/

/-- All functions but the constructor. -/
def methods (f : Gen.Str) : Bool := f != (str% "NewBuffer") && f != (str% "NewMiniBuffer")

theorem V3Buffer.methods_within : V3Buffer.P.within (fun _ => true) methods = true := by decide +kernel
theorem V3Mini.methods_within : V3Mini.P.within (fun _ => true) methods = true := by decide +kernel
theorem V2Mini.methods_within : V2Mini.P.within (fun _ => true) methods = true := by decide +kernel
theorem V1Mini.methods_within : V1Mini.P.within (fun _ => true) methods = true := by decide +kernel

theorem V3.method (op : V3.Op) : methods (goName op) = true := by
  cases op
  case write k e pos data => cases k <;> cases e <;> cases pos <;> rfl
  case read k e pos n => cases k <;> cases e <;> cases pos <;> rfl
  all_goals first | rfl | (rename_i pos; cases pos <;> rfl) | (rename_i pos _; cases pos <;> rfl) | (rename_i pos _ _; cases pos <;> rfl)

theorem V2.method (op : V2.Op2) : methods (Two.goName op) = true := by
  cases op
  case write k e pos data => cases k <;> cases e <;> cases pos <;> rfl
  case read k e pos n => cases k <;> cases e <;> cases pos <;> rfl
  all_goals first | rfl | (rename_i pos; cases pos <;> rfl) | (rename_i pos _; cases pos <;> rfl) | (rename_i pos _ _; cases pos <;> rfl)

theorem V1.method (op : V1.Op1) : methods (One.goName op) = true := by
  cases op
  case writeComplex pos _ _ _ => cases pos <;> rfl
  case readComplex pos _ _ _ => cases pos <;> rfl
  all_goals first | rfl | (rename_i pos; cases pos <;> rfl) | (rename_i pos _; cases pos <;> rfl) | (rename_i pos _ _; cases pos <;> rfl)

/-- C120: run alone, the steps of the text of v3/buffer.generated.go have the outcome of the model and leave the state of the model. -/
theorem C120_buffer_alone :
    ∃ funs, compileAll V3Buffer.text = some funs ∧
    ∀ (fuel depth : Nat), 2 ^ 64 < fuel → 3 ≤ depth → ∀ (op : V3.Op), Fits op → ∀ (s : V3.St) (l : Bool),
    (microBuf ⟨funs, V3Buffer.errs⟩ fuel depth op).run ⟨s, l⟩ = (goRes (V3.exec op s).1, ⟨(V3.exec op s).2, l⟩) := by
  refine ⟨_, V3Buffer.link, fun fuel depth hf hd op ho s l => ?_⟩
  obtain ⟨d, rfl⟩ := Nat.exists_eq_add_of_le' hd
  refine (micro_call V3Buffer.methods_within fuel (d + 3) (V3.method op) (goArgs op) none s l).trans ?_
  show ((V3Buffer.P.call fuel (d + 3) (goName op) (goArgs op) : GoM (V3.St × V) V) (s, .unit) |> fun r => (r.1, (⟨r.2.1, l⟩ : Sh))) = _
  rw [bufferCalls fuel d hf op ho, run_wrap]

/-- C120: the same for v3/minibuf.generated.go; the value is that of the result variable afterwards. -/
theorem C120_mini_alone :
    ∃ funs, compileAll V3Mini.text = some funs ∧
    ∀ (fuel depth : Nat), 2 ^ 64 < fuel → 3 ≤ depth → ∀ (o : V3.Outs) (op : V3.Op), Fits op → ∀ (m : GoM V3.St V3.Val), V3.miniCall o op = some m →
    ∀ (s : V3.St) (l : Bool), (microMini ⟨funs, V3Mini.errs⟩ fuel depth (o, op)).run ⟨s, l⟩ = (goRes (m s).1, ⟨(m s).2, l⟩) := by
  refine ⟨_, V3Mini.link, fun fuel depth hf hd o op ho m hm s l => ?_⟩
  obtain ⟨d, rfl⟩ := Nat.exists_eq_add_of_le' hd
  have h := miniCalls fuel d hf o op ho
  rw [hm] at h
  refine (micro_call V3Mini.methods_within fuel (d + 3) (V3.method op) (goArgs op) (goOut o op) s l).trans ?_
  rw [h, run_wrap]

/-- C120: the same for v2/minibuf.go; the value is that of the result variable afterwards. -/
theorem C120_v2_mini_alone :
    ∃ funs, compileAll (V2Utils.text ++ V2Mini.text) = some funs ∧
    ∀ (fuel depth : Nat), 2 ^ 64 < fuel → 4 ≤ depth → ∀ (o : V3.Outs) (op : V2.Op2), Two.Fits op → ∀ (m : GoM V3.St V3.Val), V2.miniCall o op = some m →
    ∀ (s : V3.St) (l : Bool), (microMini2 ⟨funs, V2Mini.errs⟩ fuel depth (o, op)).run ⟨s, l⟩ = (goRes (m s).1, ⟨(m s).2, l⟩) := by
  refine ⟨_, compileAll_append V2Utils.link V2Mini.link, fun fuel depth hf hd o op ho m hm s l => ?_⟩
  obtain ⟨d, rfl⟩ := Nat.exists_eq_add_of_le' hd
  have h := V2Mini.calls fuel d hf o op ho
  rw [hm] at h
  refine (micro_call V2Mini.methods_within fuel (d + 4) (V2.method op) (Two.goArgs op) (Two.goOut o op) s l).trans ?_
  rw [h, run_wrap]

/-- C120: the same for v1/minibuf.go; the value is that of the result variable afterwards. -/
theorem C120_v1_mini_alone :
    ∃ funs, compileAll (V1Utils.text ++ V1Mini.text) = some funs ∧
    ∀ (fuel depth : Nat), 2 ^ 64 < fuel → 4 ≤ depth → ∀ (o : V3.Outs) (any : V1.Any) (op : V1.Op1), One.Fits op → ∀ (m : GoM V3.St V1.Val1), V1.miniCall1 o any op = some m →
    ∀ (s : V3.St) (l : Bool), (microMini1 ⟨funs, V1Mini.errs⟩ fuel depth (o, any, op)).run ⟨s, l⟩ = (goRes1 (m s).1, ⟨(m s).2, l⟩) := by
  refine ⟨_, compileAll_append V1Utils.link V1Mini.link, fun fuel depth hf hd o any op ho m hm s l => ?_⟩
  obtain ⟨d, rfl⟩ := Nat.exists_eq_add_of_le' hd
  have h := V1Mini.calls fuel d hf o any op ho
  rw [hm] at h
  refine (micro_call V1Mini.methods_within fuel (d + 4) (V1.method op) (One.goArgs op) (One.goOut o any op) s l).trans ?_
  rw [h, run_wrap1]

/-! ## C121: data races -/

theorem V3Buffer.kinds (fuel depth : Nat) (op : V3.Op) (h : Fits op) :
    (microBuf V3Buffer.P fuel depth op).Only (Action.of (V3.accesses op) (V3.changes op) (V3.copies op)) := V3Buffer.only fuel depth op h

theorem V3Mini.kinds (fuel depth : Nat) (x : V3.Outs × V3.Op) (h : HasMini x) :
    (microMini V3Mini.P fuel depth x).Only (Action.of (V3.accessesMini x.2) (V3.changes x.2) (V3.copies x.2)) := V3Mini.only fuel depth x.1 x.2 h.1

theorem V2Mini.kinds (fuel depth : Nat) (x : V3.Outs × V2.Op2) (h : HasMini2 x) :
    (microMini2 V2Mini.P fuel depth x).Only (Action.of (V2.accessesMini x.2) (V2.alters x.2) (V2.copiesMini x.2)) := V2Mini.only fuel depth x.1 x.2 h.1

theorem V1Mini.kinds (fuel depth : Nat) (x : V3.Outs × V1.Any × V1.Op1) (h : HasMini1 x) :
    (microMini1 V1Mini.P fuel depth x).Only (Action.of (V1.accessesMini1 x.2.2) (V1.alters1 x.2.2) (V1.copiesMini1 x.2.2)) := V1Mini.only fuel depth x.1 x.2.1 x.2.2 h.1

theorem V3.accesses_of_changes {op : V3.Op} {k : Part} (h : V3.changes op k = true) : V3.accessesMini op k = true := by
  rcases k with (_ | _ | _ | _) | _ | _ <;> simp only [V3.accessesMini, h, Bool.true_or] <;> revert h <;> cases op <;> first | exact fun _ => rfl | exact nofun

theorem V2.accesses_of_alters {op : V2.Op2} {k : Part} (h : V2.alters op k = true) : V2.accessesMini op k = true := by
  rcases k with (_ | _ | _ | _) | _ | _ <;> simp only [V2.accessesMini, h, Bool.true_or] <;> revert h <;> cases op <;> first | exact fun _ => rfl | exact nofun

theorem V1.accesses_of_alters {op : V1.Op1} {k : Part} (h : V1.alters1 op k = true) : V1.accessesMini1 op k = true := by
  rcases k with (_ | _ | _ | _) | _ | _ <;> simp only [V1.accessesMini1, h, Bool.true_or] <;> revert h <;> cases op <;> first | exact fun _ => rfl | exact nofun

/-- No data race where no call changes a part that a call of another goroutine accesses. -/
theorem open_apart {ex : O → Prog V} {allowed : O → Prop} {accs chgs : O → Part → Bool} {c0 : Conf O V} {τ : Trace O V}
    (h : ∀ {i j op op' l}, DataRace ex allowed c0 τ i j op op' l → op ∈ started i τ ∧ op' ∈ started j τ ∧ chgs op l.part = true ∧ accs op' l.part = true)
    (ap : ∀ i j, i < j → ∀ op ∈ started i τ, ∀ op' ∈ started j τ, PartsApart accs chgs op op') (i j : Nat) (op op' : O) (l : Loc) :
    ¬ DataRace ex allowed c0 τ i j op op' l := fun d => by
  obtain ⟨h1, h2, h3, h4⟩ := h d
  rcases Nat.lt_or_gt_of_ne d.1 with hij | hij
  · exact (ap i j hij op h1 op' h2 l.part).1 ⟨h3, h4⟩
  · exact (ap j i hij op' h2 op h1 l.part).2 ⟨h3, h4⟩

/-- C121: a data race between calls on a buffer shared by goroutines that run the text of v3/buffer.generated.go is for a part that the one call changes and
the other one accesses. -/
theorem C121_buffer_table :
    ∃ funs, compileAll V3Buffer.text = some funs ∧
    ∀ (fuel depth : Nat) {c0 : Conf V3.Op V} {τ : Trace V3.Op V}, Quiet c0 → ∀ {i j : Nat} {op op' : V3.Op} {l : Loc},
    DataRace (microBuf ⟨funs, V3Buffer.errs⟩ fuel depth) Fits c0 τ i j op op' l →
    op ∈ started i τ ∧ op' ∈ started j τ ∧ V3.changes op l.part = true ∧ V3.accesses op' l.part = true := by
  refine ⟨_, V3Buffer.link, fun fuel depth c0 τ q i j op op' l d => ?_⟩
  obtain ⟨h1, h2, h3, h4⟩ := open_race (V3Buffer.kinds fuel depth) q d
  exact ⟨h1, h2, h3, h4.elim id (fun h => by unfold V3.accesses; rw [V3.accesses_of_changes h]; rfl)⟩

/-- C121: so there is none where no call changes a part that a call of another goroutine accesses. -/
theorem C121_buffer_apart :
    ∃ funs, compileAll V3Buffer.text = some funs ∧
    ∀ (fuel depth : Nat) {c0 : Conf V3.Op V} {τ : Trace V3.Op V}, Quiet c0 →
    (∀ i j, i < j → ∀ op ∈ started i τ, ∀ op' ∈ started j τ, PartsApart (V3.accesses) (V3.changes) op op') →
    ∀ i j op op' l, ¬ DataRace (microBuf ⟨funs, V3Buffer.errs⟩ fuel depth) Fits c0 τ i j op op' l := by
  obtain ⟨funs, hc, h⟩ := C121_buffer_table
  exact ⟨funs, hc, fun fuel depth c0 τ q ap => open_apart (h fuel depth q) ap⟩

/-- C121: where all calls only look, nothing is changed, every call has the outcome the model has at the start, and there is no data race. -/
theorem C121_buffer_readers :
    ∃ funs, compileAll V3Buffer.text = some funs ∧
    ∀ (fuel depth : Nat), 2 ^ 64 < fuel → 3 ≤ depth → ∀ {c0 c : Conf V3.Op V} {τ : Trace V3.Op V}, Quiet c0 →
    Exec (microBuf ⟨funs, V3Buffer.errs⟩ fuel depth) Fits c0 τ c →
    (∀ i, ∀ op ∈ started i τ, ChangesNothing (V3.changes) op) →
    c.sh.st = c0.sh.st ∧ (∀ i, ∀ x ∈ finished i τ, x.2 = goRes (V3.exec x.1 c0.sh.st).1) ∧
    ∀ i j op op' l, ¬ DataRace (microBuf ⟨funs, V3Buffer.errs⟩ fuel depth) Fits c0 τ i j op op' l := by
  obtain ⟨funs, hc, h⟩ := C120_buffer_alone
  cases (V3Buffer.link).symm.trans hc
  refine ⟨_, hc, fun fuel depth hf hd c0 c τ q e rd => ?_⟩
  have r := reading (R := fun _ => True) q e fun i op ho => (V3Buffer.kinds fuel depth op (e.allowed_of_started ho)).looks (rd i op ho) c0.sh
  refine ⟨r.state, fun i x hx => ?_, fun i j op op' l d => ?_⟩
  · rw [r.outcomes i x hx]
    exact congrArg Prod.fst (h fuel depth hf hd x.1 ((exec_allowed q e).2 i x hx) c0.sh.st c0.sh.locked)
  · obtain ⟨h1, _, h3, _⟩ := open_race (V3Buffer.kinds fuel depth) q d
    exact nomatch (rd i op h1 l.part).symm.trans h3

/-- C121: a data race between calls on a buffer shared by goroutines that run the text of v3/minibuf.generated.go is for a part that the one call changes and
the other one accesses. -/
theorem C121_mini_table :
    ∃ funs, compileAll V3Mini.text = some funs ∧
    ∀ (fuel depth : Nat) {c0 : Conf (V3.Outs × V3.Op) V} {τ : Trace (V3.Outs × V3.Op) V}, Quiet c0 → ∀ {i j : Nat} {op op' : (V3.Outs × V3.Op)} {l : Loc},
    DataRace (microMini ⟨funs, V3Mini.errs⟩ fuel depth) HasMini c0 τ i j op op' l →
    op ∈ started i τ ∧ op' ∈ started j τ ∧ V3.changes op.2 l.part = true ∧ V3.accessesMini op'.2 l.part = true := by
  refine ⟨_, V3Mini.link, fun fuel depth c0 τ q i j op op' l d => ?_⟩
  obtain ⟨h1, h2, h3, h4⟩ := open_race (V3Mini.kinds fuel depth) q d
  exact ⟨h1, h2, h3, h4.elim id (V3.accesses_of_changes)⟩

/-- C121: so there is none where no call changes a part that a call of another goroutine accesses. -/
theorem C121_mini_apart :
    ∃ funs, compileAll V3Mini.text = some funs ∧
    ∀ (fuel depth : Nat) {c0 : Conf (V3.Outs × V3.Op) V} {τ : Trace (V3.Outs × V3.Op) V}, Quiet c0 →
    (∀ i j, i < j → ∀ op ∈ started i τ, ∀ op' ∈ started j τ, PartsApart (fun x => V3.accessesMini x.2) (fun x => V3.changes x.2) op op') →
    ∀ i j op op' l, ¬ DataRace (microMini ⟨funs, V3Mini.errs⟩ fuel depth) HasMini c0 τ i j op op' l := by
  obtain ⟨funs, hc, h⟩ := C121_mini_table
  exact ⟨funs, hc, fun fuel depth c0 τ q ap => open_apart (h fuel depth q) ap⟩

/-- C121: where all calls only look, nothing is changed, every call has the outcome the model has at the start, and there is no data race. -/
theorem C121_mini_readers :
    ∃ funs, compileAll V3Mini.text = some funs ∧
    ∀ (fuel depth : Nat), 2 ^ 64 < fuel → 3 ≤ depth → ∀ {c0 c : Conf (V3.Outs × V3.Op) V} {τ : Trace (V3.Outs × V3.Op) V}, Quiet c0 →
    Exec (microMini ⟨funs, V3Mini.errs⟩ fuel depth) HasMini c0 τ c →
    (∀ i, ∀ op ∈ started i τ, ChangesNothing (fun x => V3.changes x.2) op) →
    c.sh.st = c0.sh.st ∧ (∀ i, ∀ x ∈ finished i τ, ∃ m, V3.miniCall x.1.1 x.1.2 = some m ∧ x.2 = goRes (m c0.sh.st).1) ∧
    ∀ i j op op' l, ¬ DataRace (microMini ⟨funs, V3Mini.errs⟩ fuel depth) HasMini c0 τ i j op op' l := by
  obtain ⟨funs, hc, h⟩ := C120_mini_alone
  cases (V3Mini.link).symm.trans hc
  refine ⟨_, hc, fun fuel depth hf hd c0 c τ q e rd => ?_⟩
  have r := reading (R := fun _ => True) q e fun i op ho => (V3Mini.kinds fuel depth op (e.allowed_of_started ho)).looks (rd i op ho) c0.sh
  refine ⟨r.state, fun i x hx => ?_, fun i j op op' l d => ?_⟩
  · have ha := (exec_allowed q e).2 i x hx
    obtain ⟨m, hm⟩ := Option.isSome_iff_exists.mp ha.2
    refine ⟨m, hm, ?_⟩
    rw [r.outcomes i x hx]
    exact congrArg Prod.fst (h fuel depth hf hd x.1.1 x.1.2 ha.1 m hm c0.sh.st c0.sh.locked)
  · obtain ⟨h1, _, h3, _⟩ := open_race (V3Mini.kinds fuel depth) q d
    exact nomatch (rd i op h1 l.part).symm.trans h3

/-- C121: a data race between calls on a buffer shared by goroutines that run the text of v2/minibuf.go is for a part that the one call changes and
the other one accesses. -/
theorem C121_v2_mini_table :
    ∃ funs, compileAll (V2Utils.text ++ V2Mini.text) = some funs ∧
    ∀ (fuel depth : Nat) {c0 : Conf (V3.Outs × V2.Op2) V} {τ : Trace (V3.Outs × V2.Op2) V}, Quiet c0 → ∀ {i j : Nat} {op op' : (V3.Outs × V2.Op2)} {l : Loc},
    DataRace (microMini2 ⟨funs, V2Mini.errs⟩ fuel depth) HasMini2 c0 τ i j op op' l →
    op ∈ started i τ ∧ op' ∈ started j τ ∧ V2.alters op.2 l.part = true ∧ V2.accessesMini op'.2 l.part = true := by
  refine ⟨_, (compileAll_append V2Utils.link V2Mini.link), fun fuel depth c0 τ q i j op op' l d => ?_⟩
  obtain ⟨h1, h2, h3, h4⟩ := open_race (V2Mini.kinds fuel depth) q d
  exact ⟨h1, h2, h3, h4.elim id (V2.accesses_of_alters)⟩

/-- C121: so there is none where no call changes a part that a call of another goroutine accesses. -/
theorem C121_v2_mini_apart :
    ∃ funs, compileAll (V2Utils.text ++ V2Mini.text) = some funs ∧
    ∀ (fuel depth : Nat) {c0 : Conf (V3.Outs × V2.Op2) V} {τ : Trace (V3.Outs × V2.Op2) V}, Quiet c0 →
    (∀ i j, i < j → ∀ op ∈ started i τ, ∀ op' ∈ started j τ, PartsApart (fun x => V2.accessesMini x.2) (fun x => V2.alters x.2) op op') →
    ∀ i j op op' l, ¬ DataRace (microMini2 ⟨funs, V2Mini.errs⟩ fuel depth) HasMini2 c0 τ i j op op' l := by
  obtain ⟨funs, hc, h⟩ := C121_v2_mini_table
  exact ⟨funs, hc, fun fuel depth c0 τ q ap => open_apart (h fuel depth q) ap⟩

/-- C121: where all calls only look, nothing is changed, every call has the outcome the model has at the start, and there is no data race. -/
theorem C121_v2_mini_readers :
    ∃ funs, compileAll (V2Utils.text ++ V2Mini.text) = some funs ∧
    ∀ (fuel depth : Nat), 2 ^ 64 < fuel → 4 ≤ depth → ∀ {c0 c : Conf (V3.Outs × V2.Op2) V} {τ : Trace (V3.Outs × V2.Op2) V}, Quiet c0 →
    Exec (microMini2 ⟨funs, V2Mini.errs⟩ fuel depth) HasMini2 c0 τ c →
    (∀ i, ∀ op ∈ started i τ, ChangesNothing (fun x => V2.alters x.2) op) →
    c.sh.st = c0.sh.st ∧ (∀ i, ∀ x ∈ finished i τ, ∃ m, V2.miniCall x.1.1 x.1.2 = some m ∧ x.2 = goRes (m c0.sh.st).1) ∧
    ∀ i j op op' l, ¬ DataRace (microMini2 ⟨funs, V2Mini.errs⟩ fuel depth) HasMini2 c0 τ i j op op' l := by
  obtain ⟨funs, hc, h⟩ := C120_v2_mini_alone
  cases ((compileAll_append V2Utils.link V2Mini.link)).symm.trans hc
  refine ⟨_, hc, fun fuel depth hf hd c0 c τ q e rd => ?_⟩
  have r := reading (R := fun _ => True) q e fun i op ho => (V2Mini.kinds fuel depth op (e.allowed_of_started ho)).looks (rd i op ho) c0.sh
  refine ⟨r.state, fun i x hx => ?_, fun i j op op' l d => ?_⟩
  · have ha := (exec_allowed q e).2 i x hx
    obtain ⟨m, hm⟩ := Option.isSome_iff_exists.mp ha.2
    refine ⟨m, hm, ?_⟩
    rw [r.outcomes i x hx]
    exact congrArg Prod.fst (h fuel depth hf hd x.1.1 x.1.2 ha.1 m hm c0.sh.st c0.sh.locked)
  · obtain ⟨h1, _, h3, _⟩ := open_race (V2Mini.kinds fuel depth) q d
    exact nomatch (rd i op h1 l.part).symm.trans h3

/-- C121: a data race between calls on a buffer shared by goroutines that run the text of v1/minibuf.go is for a part that the one call changes and
the other one accesses. -/
theorem C121_v1_mini_table :
    ∃ funs, compileAll (V1Utils.text ++ V1Mini.text) = some funs ∧
    ∀ (fuel depth : Nat) {c0 : Conf (V3.Outs × V1.Any × V1.Op1) V} {τ : Trace (V3.Outs × V1.Any × V1.Op1) V}, Quiet c0 → ∀ {i j : Nat} {op op' : (V3.Outs × V1.Any × V1.Op1)} {l : Loc},
    DataRace (microMini1 ⟨funs, V1Mini.errs⟩ fuel depth) HasMini1 c0 τ i j op op' l →
    op ∈ started i τ ∧ op' ∈ started j τ ∧ V1.alters1 op.2.2 l.part = true ∧ V1.accessesMini1 op'.2.2 l.part = true := by
  refine ⟨_, (compileAll_append V1Utils.link V1Mini.link), fun fuel depth c0 τ q i j op op' l d => ?_⟩
  obtain ⟨h1, h2, h3, h4⟩ := open_race (V1Mini.kinds fuel depth) q d
  exact ⟨h1, h2, h3, h4.elim id (V1.accesses_of_alters)⟩

/-- C121: so there is none where no call changes a part that a call of another goroutine accesses. -/
theorem C121_v1_mini_apart :
    ∃ funs, compileAll (V1Utils.text ++ V1Mini.text) = some funs ∧
    ∀ (fuel depth : Nat) {c0 : Conf (V3.Outs × V1.Any × V1.Op1) V} {τ : Trace (V3.Outs × V1.Any × V1.Op1) V}, Quiet c0 →
    (∀ i j, i < j → ∀ op ∈ started i τ, ∀ op' ∈ started j τ, PartsApart (fun x => V1.accessesMini1 x.2.2) (fun x => V1.alters1 x.2.2) op op') →
    ∀ i j op op' l, ¬ DataRace (microMini1 ⟨funs, V1Mini.errs⟩ fuel depth) HasMini1 c0 τ i j op op' l := by
  obtain ⟨funs, hc, h⟩ := C121_v1_mini_table
  exact ⟨funs, hc, fun fuel depth c0 τ q ap => open_apart (h fuel depth q) ap⟩

/-- C121: where all calls only look, nothing is changed, every call has the outcome the model has at the start, and there is no data race. -/
theorem C121_v1_mini_readers :
    ∃ funs, compileAll (V1Utils.text ++ V1Mini.text) = some funs ∧
    ∀ (fuel depth : Nat), 2 ^ 64 < fuel → 4 ≤ depth → ∀ {c0 c : Conf (V3.Outs × V1.Any × V1.Op1) V} {τ : Trace (V3.Outs × V1.Any × V1.Op1) V}, Quiet c0 →
    Exec (microMini1 ⟨funs, V1Mini.errs⟩ fuel depth) HasMini1 c0 τ c →
    (∀ i, ∀ op ∈ started i τ, ChangesNothing (fun x => V1.alters1 x.2.2) op) →
    c.sh.st = c0.sh.st ∧ (∀ i, ∀ x ∈ finished i τ, ∃ m, V1.miniCall1 x.1.1 x.1.2.1 x.1.2.2 = some m ∧ x.2 = goRes1 (m c0.sh.st).1) ∧
    ∀ i j op op' l, ¬ DataRace (microMini1 ⟨funs, V1Mini.errs⟩ fuel depth) HasMini1 c0 τ i j op op' l := by
  obtain ⟨funs, hc, h⟩ := C120_v1_mini_alone
  cases ((compileAll_append V1Utils.link V1Mini.link)).symm.trans hc
  refine ⟨_, hc, fun fuel depth hf hd c0 c τ q e rd => ?_⟩
  have r := reading (R := fun _ => True) q e fun i op ho => (V1Mini.kinds fuel depth op (e.allowed_of_started ho)).looks (rd i op ho) c0.sh
  refine ⟨r.state, fun i x hx => ?_, fun i j op op' l d => ?_⟩
  · have ha := (exec_allowed q e).2 i x hx
    obtain ⟨m, hm⟩ := Option.isSome_iff_exists.mp ha.2
    refine ⟨m, hm, ?_⟩
    rw [r.outcomes i x hx]
    exact congrArg Prod.fst (h fuel depth hf hd x.1.1 x.1.2.1 x.1.2.2 ha.1 m hm c0.sh.st c0.sh.locked)
  · obtain ⟨h1, _, h3, _⟩ := open_race (V1Mini.kinds fuel depth) q d
    exact nomatch (rd i op h1 l.part).symm.trans h3

/-- Reading and asking change nothing; seeking a bit and reading a byte are about different parts. -/
example : ChangesNothing V3.changes (.readByte (some 1)) ∧ ChangesNothing V3.changes .byteCapacity ∧ ¬ ChangesNothing V3.changes (.readByte none) ∧
    PartsApart V3.accesses V3.changes (.readByte (some 1)) (.seekBit 3 true) ∧ ¬ PartsApart V3.accesses V3.changes (.readByte none) (.seekByte 3 true) := by
  refine ⟨?_, ?_, fun h => Bool.noConfusion (h (.field .off)), ?_, fun h => (h (.field .off)).1 ⟨rfl, rfl⟩⟩ <;>
    (intro k; rcases k with (_ | _ | _ | _) | _ | _) <;> first | rfl | exact ⟨fun h => Bool.noConfusion h.1, fun h => Bool.noConfusion h.1⟩ | exact ⟨fun h => Bool.noConfusion h.1, fun h => Bool.noConfusion h.2⟩

/-! ### There are data races, and what comes of them -/

/-- A schedule that ends where two goroutines are about to access one place gives a data race. -/
theorem meet {ex : O → Prog V} {allowed : O → Prop} {c0 : Conf O V} (sc : List (Nat × Option O)) (l : Loc) (hl : ∀ op ∈ sc.filterMap (·.2), allowed op)
    (h : ((sched ex [] c0 sc).any fun x => clash (fun _ => true) (fun _ => true) l x.2) = true) :
    ∃ τ c op op', Exec ex allowed c0 τ c ∧ DataRace ex allowed c0 τ 0 1 op op' l := by
  obtain ⟨τ, c, op, op', p, r, e, _, _, h1, h2, hw, hr⟩ := clash_at sc _ _ l hl h
  obtain ⟨τ', c', e', _, d⟩ := race_happens e (by decide) h1 hw h2 (.inl hr)
  exact ⟨_, c', op, op', e', d⟩

/-- The variables of a call. -/
def noOuts : V3.Outs := ⟨0, 0, 0, ⟨0, 0, 0, 0⟩, fun _ => []⟩

/-- C121: for each part there are calls that are in a data race for it, in the text of v3/buffer.generated.go. -/
theorem C121_buffer_races :
    ∃ funs, compileAll V3Buffer.text = some funs ∧
    ∀ (fuel depth : Nat), 2 ^ 64 < fuel → 3 ≤ depth → ∀ k : Part, ∃ (τ : Trace V3.Op V) (c : Conf V3.Op V) (op op' : V3.Op) (l : Loc),
    Exec (microBuf ⟨funs, V3Buffer.errs⟩ fuel depth) Fits (rest _ _ V3.demo) τ c ∧
    DataRace (microBuf ⟨funs, V3Buffer.errs⟩ fuel depth) Fits (rest _ _ V3.demo) τ 0 1 op op' l ∧ l.part = k := by
  refine ⟨_, V3Buffer.link, fun fuel depth hf hd k => ?_⟩
  obtain ⟨d, rfl⟩ := Nat.exists_eq_add_of_le' hd
  obtain ⟨f, rfl⟩ := Nat.exists_eq_add_of_le' (Nat.le_of_lt (Nat.lt_trans (by decide : 100 < 2 ^ 64) hf))
  have two : ∀ {a b : V3.Op}, Fits a → Fits b → ∀ op ∈ [a, b], Fits op := fun ha hb op ho => by
    rcases List.mem_cons.mp ho with rfl | ho
    · exact ha
    · rw [List.mem_singleton.mp ho]; exact hb
  rcases k with (_ | _ | _ | _) | _ | _
  · obtain ⟨τ, c, op, op', e, h⟩ := meet (ex := microBuf V3Buffer.P (f + 100) (d + 3)) (allowed := Fits) (c0 := rest _ _ V3.demo) ((0, some (.seekByte 1 false)) :: steps 0 0 ++ (1, some .byteOffset) :: steps 1 0)
      (.field .off) (by exact two (a := (.seekByte 1 false)) (b := .byteOffset) trivial trivial) (by compute)
    exact ⟨τ, c, op, op', _, e, h, rfl⟩
  · obtain ⟨τ, c, op, op', e, h⟩ := meet (ex := microBuf V3Buffer.P (f + 100) (d + 3)) (allowed := Fits) (c0 := rest _ _ V3.demo) ((0, some .refresh) :: steps 0 1 ++ (1, some .byteCapacity) :: steps 1 0)
      (.field .cap) (by exact two (a := .refresh) (b := .byteCapacity) trivial trivial) (by compute)
    exact ⟨τ, c, op, op', _, e, h, rfl⟩
  · obtain ⟨τ, c, op, op', e, h⟩ := meet (ex := microBuf V3Buffer.P (f + 100) (d + 3)) (allowed := Fits) (c0 := rest _ _ V3.demo) ((0, some (.seekBit 1 false)) :: steps 0 0 ++ (1, some .bitOffset) :: steps 1 0)
      (.field .boff) (by exact two (a := (.seekBit 1 false)) (b := .bitOffset) trivial trivial) (by compute)
    exact ⟨τ, c, op, op', _, e, h, rfl⟩
  · obtain ⟨τ, c, op, op', e, h⟩ := meet (ex := microBuf V3Buffer.P (f + 100) (d + 3)) (allowed := Fits) (c0 := rest _ _ V3.demo) ((0, some .refresh) :: steps 0 3 ++ (1, some .bitCapacity) :: steps 1 0)
      (.field .bcap) (by exact two (a := .refresh) (b := .bitCapacity) trivial trivial) (by compute)
    exact ⟨τ, c, op, op', _, e, h, rfl⟩
  · obtain ⟨τ, c, op, op', e, h⟩ := meet (ex := microBuf V3Buffer.P (f + 100) (d + 3)) (allowed := Fits) (c0 := rest _ _ V3.demo) ((0, some .reset) :: steps 0 1 ++ (1, some .bytes) :: steps 1 0)
      (.header) (by exact two (a := .reset) (b := .bytes) trivial trivial) (by compute)
    exact ⟨τ, c, op, op', _, e, h, rfl⟩
  · obtain ⟨τ, c, op, op', e, h⟩ := meet (ex := microBuf V3Buffer.P (f + 100) (d + 3)) (allowed := Fits) (c0 := rest _ _ V3.demo) ((0, some (.setBit (some 0))) :: steps 0 4 ++ (1, some (.readBit (some 0))) :: steps 1 2)
      (.byte 0 2) (by exact two (a := (.setBit (some 0))) (b := (.readBit (some 0))) trivial trivial) (by compute)
    exact ⟨τ, c, op, op', _, e, h, rfl⟩

/-- C121: for each part there are calls that are in a data race for it, in the text of v3/minibuf.generated.go. -/
theorem C121_mini_races :
    ∃ funs, compileAll V3Mini.text = some funs ∧
    ∀ (fuel depth : Nat), 2 ^ 64 < fuel → 3 ≤ depth → ∀ k : Part, ∃ (τ : Trace (V3.Outs × V3.Op) V) (c : Conf (V3.Outs × V3.Op) V) (op op' : (V3.Outs × V3.Op)) (l : Loc),
    Exec (microMini ⟨funs, V3Mini.errs⟩ fuel depth) HasMini (rest _ _ V3.demo) τ c ∧
    DataRace (microMini ⟨funs, V3Mini.errs⟩ fuel depth) HasMini (rest _ _ V3.demo) τ 0 1 op op' l ∧ l.part = k := by
  refine ⟨_, V3Mini.link, fun fuel depth hf hd k => ?_⟩
  obtain ⟨d, rfl⟩ := Nat.exists_eq_add_of_le' hd
  obtain ⟨f, rfl⟩ := Nat.exists_eq_add_of_le' (Nat.le_of_lt (Nat.lt_trans (by decide : 100 < 2 ^ 64) hf))
  have two : ∀ {a b : (V3.Outs × V3.Op)}, HasMini a → HasMini b → ∀ op ∈ [a, b], HasMini op := fun ha hb op ho => by
    rcases List.mem_cons.mp ho with rfl | ho
    · exact ha
    · rw [List.mem_singleton.mp ho]; exact hb
  rcases k with (_ | _ | _ | _) | _ | _
  · obtain ⟨τ, c, op, op', e, h⟩ := meet (ex := microMini V3Mini.P (f + 100) (d + 3)) (allowed := HasMini) (c0 := rest _ _ V3.demo) ((0, some (noOuts, (.seekByte 1 false))) :: steps 0 0 ++ (1, some (noOuts, .byteOffset)) :: steps 1 0)
      (.field .off) (by exact two (a := (noOuts, (.seekByte 1 false))) (b := (noOuts, .byteOffset)) ⟨trivial, rfl⟩ ⟨trivial, rfl⟩) (by compute)
    exact ⟨τ, c, op, op', _, e, h, rfl⟩
  · obtain ⟨τ, c, op, op', e, h⟩ := meet (ex := microMini V3Mini.P (f + 100) (d + 3)) (allowed := HasMini) (c0 := rest _ _ V3.demo) ((0, some (noOuts, .refresh)) :: steps 0 1 ++ (1, some (noOuts, .byteCapacity)) :: steps 1 0)
      (.field .cap) (by exact two (a := (noOuts, .refresh)) (b := (noOuts, .byteCapacity)) ⟨trivial, rfl⟩ ⟨trivial, rfl⟩) (by compute)
    exact ⟨τ, c, op, op', _, e, h, rfl⟩
  · obtain ⟨τ, c, op, op', e, h⟩ := meet (ex := microMini V3Mini.P (f + 100) (d + 3)) (allowed := HasMini) (c0 := rest _ _ V3.demo) ((0, some (noOuts, (.seekBit 1 false))) :: steps 0 0 ++ (1, some (noOuts, .bitOffset)) :: steps 1 0)
      (.field .boff) (by exact two (a := (noOuts, (.seekBit 1 false))) (b := (noOuts, .bitOffset)) ⟨trivial, rfl⟩ ⟨trivial, rfl⟩) (by compute)
    exact ⟨τ, c, op, op', _, e, h, rfl⟩
  · obtain ⟨τ, c, op, op', e, h⟩ := meet (ex := microMini V3Mini.P (f + 100) (d + 3)) (allowed := HasMini) (c0 := rest _ _ V3.demo) ((0, some (noOuts, .refresh)) :: steps 0 3 ++ (1, some (noOuts, .bitCapacity)) :: steps 1 0)
      (.field .bcap) (by exact two (a := (noOuts, .refresh)) (b := (noOuts, .bitCapacity)) ⟨trivial, rfl⟩ ⟨trivial, rfl⟩) (by compute)
    exact ⟨τ, c, op, op', _, e, h, rfl⟩
  · obtain ⟨τ, c, op, op', e, h⟩ := meet (ex := microMini V3Mini.P (f + 100) (d + 3)) (allowed := HasMini) (c0 := rest _ _ V3.demo) ((0, some (noOuts, .reset)) :: steps 0 1 ++ (1, some (noOuts, .bytes)) :: steps 1 0)
      (.header) (by exact two (a := (noOuts, .reset)) (b := (noOuts, .bytes)) ⟨trivial, rfl⟩ ⟨trivial, rfl⟩) (by compute)
    exact ⟨τ, c, op, op', _, e, h, rfl⟩
  · obtain ⟨τ, c, op, op', e, h⟩ := meet (ex := microMini V3Mini.P (f + 100) (d + 3)) (allowed := HasMini) (c0 := rest _ _ V3.demo) ((0, some (noOuts, (.setBit (some 0)))) :: steps 0 3 ++ (1, some (noOuts, (.readBit (some 0)))) :: steps 1 1)
      (.byte 0 2) (by exact two (a := (noOuts, (.setBit (some 0)))) (b := (noOuts, (.readBit (some 0)))) ⟨trivial, rfl⟩ ⟨trivial, rfl⟩) (by compute)
    exact ⟨τ, c, op, op', _, e, h, rfl⟩

/-- C121: for each part there are calls that are in a data race for it, in the text of v2/minibuf.go. -/
theorem C121_v2_mini_races :
    ∃ funs, compileAll (V2Utils.text ++ V2Mini.text) = some funs ∧
    ∀ (fuel depth : Nat), 2 ^ 64 < fuel → 4 ≤ depth → ∀ k : Part, ∃ (τ : Trace (V3.Outs × V2.Op2) V) (c : Conf (V3.Outs × V2.Op2) V) (op op' : (V3.Outs × V2.Op2)) (l : Loc),
    Exec (microMini2 ⟨funs, V2Mini.errs⟩ fuel depth) HasMini2 (rest _ _ V3.demo) τ c ∧
    DataRace (microMini2 ⟨funs, V2Mini.errs⟩ fuel depth) HasMini2 (rest _ _ V3.demo) τ 0 1 op op' l ∧ l.part = k := by
  refine ⟨_, compileAll_append V2Utils.link V2Mini.link, fun fuel depth hf hd k => ?_⟩
  obtain ⟨d, rfl⟩ := Nat.exists_eq_add_of_le' hd
  obtain ⟨f, rfl⟩ := Nat.exists_eq_add_of_le' (Nat.le_of_lt (Nat.lt_trans (by decide : 100 < 2 ^ 64) hf))
  have two : ∀ {a b : (V3.Outs × V2.Op2)}, HasMini2 a → HasMini2 b → ∀ op ∈ [a, b], HasMini2 op := fun ha hb op ho => by
    rcases List.mem_cons.mp ho with rfl | ho
    · exact ha
    · rw [List.mem_singleton.mp ho]; exact hb
  rcases k with (_ | _ | _ | _) | _ | _
  · obtain ⟨τ, c, op, op', e, h⟩ := meet (ex := microMini2 V2Mini.P (f + 100) (d + 4)) (allowed := HasMini2) (c0 := rest _ _ V3.demo) ((0, some (noOuts, (.seek 1 false))) :: steps 0 0 ++ (1, some (noOuts, .offset)) :: steps 1 0)
      (.field .off) (by exact two (a := (noOuts, (.seek 1 false))) (b := (noOuts, .offset)) ⟨trivial, rfl⟩ ⟨trivial, rfl⟩) (by compute)
    exact ⟨τ, c, op, op', _, e, h, rfl⟩
  · obtain ⟨τ, c, op, op', e, h⟩ := meet (ex := microMini2 V2Mini.P (f + 100) (d + 4)) (allowed := HasMini2) (c0 := rest _ _ V3.demo) ((0, some (noOuts, .refresh)) :: steps 0 1 ++ (1, some (noOuts, .capacity)) :: steps 1 0)
      (.field .cap) (by exact two (a := (noOuts, .refresh)) (b := (noOuts, .capacity)) ⟨trivial, rfl⟩ ⟨trivial, rfl⟩) (by compute)
    exact ⟨τ, c, op, op', _, e, h, rfl⟩
  · obtain ⟨τ, c, op, op', e, h⟩ := meet (ex := microMini2 V2Mini.P (f + 100) (d + 4)) (allowed := HasMini2) (c0 := rest _ _ V3.demo) ((0, some (noOuts, (.seekBit 1 false))) :: steps 0 0 ++ (1, some (noOuts, .bitOffset)) :: steps 1 0)
      (.field .boff) (by exact two (a := (noOuts, (.seekBit 1 false))) (b := (noOuts, .bitOffset)) ⟨trivial, rfl⟩ ⟨trivial, rfl⟩) (by compute)
    exact ⟨τ, c, op, op', _, e, h, rfl⟩
  · obtain ⟨τ, c, op, op', e, h⟩ := meet (ex := microMini2 V2Mini.P (f + 100) (d + 4)) (allowed := HasMini2) (c0 := rest _ _ V3.demo) ((0, some (noOuts, .refresh)) :: steps 0 3 ++ (1, some (noOuts, .bitCapacity)) :: steps 1 0)
      (.field .bcap) (by exact two (a := (noOuts, .refresh)) (b := (noOuts, .bitCapacity)) ⟨trivial, rfl⟩ ⟨trivial, rfl⟩) (by compute)
    exact ⟨τ, c, op, op', _, e, h, rfl⟩
  · obtain ⟨τ, c, op, op', e, h⟩ := meet (ex := microMini2 V2Mini.P (f + 100) (d + 4)) (allowed := HasMini2) (c0 := rest _ _ V3.demo) ((0, some (noOuts, .reset)) :: steps 0 1 ++ (1, some (noOuts, .bytes)) :: steps 1 0)
      (.header) (by exact two (a := (noOuts, .reset)) (b := (noOuts, .bytes)) ⟨trivial, rfl⟩ ⟨trivial, rfl⟩) (by compute)
    exact ⟨τ, c, op, op', _, e, h, rfl⟩
  · obtain ⟨τ, c, op, op', e, h⟩ := meet (ex := microMini2 V2Mini.P (f + 100) (d + 4)) (allowed := HasMini2) (c0 := rest _ _ V3.demo) ((0, some (noOuts, (.setBit (some 0) 1))) :: steps 0 3 ++ (1, some (noOuts, (.readBit (some 0)))) :: steps 1 1)
      (.byte 0 2) (by exact two (a := (noOuts, (.setBit (some 0) 1))) (b := (noOuts, (.readBit (some 0)))) ⟨trivial, rfl⟩ ⟨trivial, rfl⟩) (by compute)
    exact ⟨τ, c, op, op', _, e, h, rfl⟩

/-- C121: for each part there are calls that are in a data race for it, in the text of v1/minibuf.go. -/
theorem C121_v1_mini_races :
    ∃ funs, compileAll (V1Utils.text ++ V1Mini.text) = some funs ∧
    ∀ (fuel depth : Nat), 2 ^ 64 < fuel → 4 ≤ depth → ∀ k : Part, ∃ (τ : Trace (V3.Outs × V1.Any × V1.Op1) V) (c : Conf (V3.Outs × V1.Any × V1.Op1) V) (op op' : (V3.Outs × V1.Any × V1.Op1)) (l : Loc),
    Exec (microMini1 ⟨funs, V1Mini.errs⟩ fuel depth) HasMini1 (rest _ _ V3.demo) τ c ∧
    DataRace (microMini1 ⟨funs, V1Mini.errs⟩ fuel depth) HasMini1 (rest _ _ V3.demo) τ 0 1 op op' l ∧ l.part = k := by
  refine ⟨_, compileAll_append V1Utils.link V1Mini.link, fun fuel depth hf hd k => ?_⟩
  obtain ⟨d, rfl⟩ := Nat.exists_eq_add_of_le' hd
  obtain ⟨f, rfl⟩ := Nat.exists_eq_add_of_le' (Nat.le_of_lt (Nat.lt_trans (by decide : 100 < 2 ^ 64) hf))
  have two : ∀ {a b : (V3.Outs × V1.Any × V1.Op1)}, HasMini1 a → HasMini1 b → ∀ op ∈ [a, b], HasMini1 op := fun ha hb op ho => by
    rcases List.mem_cons.mp ho with rfl | ho
    · exact ha
    · rw [List.mem_singleton.mp ho]; exact hb
  rcases k with (_ | _ | _ | _) | _ | _
  · obtain ⟨τ, c, op, op', e, h⟩ := meet (ex := microMini1 V1Mini.P (f + 100) (d + 4)) (allowed := HasMini1) (c0 := rest _ _ V3.demo) ((0, some (noOuts, .u16 [], (.seek 1 false))) :: steps 0 0 ++ (1, some (noOuts, .u16 [], .offset)) :: steps 1 0)
      (.field .off) (by exact two (a := (noOuts, .u16 [], (.seek 1 false))) (b := (noOuts, .u16 [], .offset)) ⟨fun _ e => (by cases e; trivial), rfl⟩ ⟨fun _ e => (by cases e; trivial), rfl⟩) (by compute)
    exact ⟨τ, c, op, op', _, e, h, rfl⟩
  · obtain ⟨τ, c, op, op', e, h⟩ := meet (ex := microMini1 V1Mini.P (f + 100) (d + 4)) (allowed := HasMini1) (c0 := rest _ _ V3.demo) ((0, some (noOuts, .u16 [], .refresh)) :: steps 0 1 ++ (1, some (noOuts, .u16 [], .capacity)) :: steps 1 0)
      (.field .cap) (by exact two (a := (noOuts, .u16 [], .refresh)) (b := (noOuts, .u16 [], .capacity)) ⟨fun _ e => (by cases e; trivial), rfl⟩ ⟨fun _ e => (by cases e; trivial), rfl⟩) (by compute)
    exact ⟨τ, c, op, op', _, e, h, rfl⟩
  · obtain ⟨τ, c, op, op', e, h⟩ := meet (ex := microMini1 V1Mini.P (f + 100) (d + 4)) (allowed := HasMini1) (c0 := rest _ _ V3.demo) ((0, some (noOuts, .u16 [], (.seekBit 1 false))) :: steps 0 0 ++ (1, some (noOuts, .u16 [], .bitOffset)) :: steps 1 0)
      (.field .boff) (by exact two (a := (noOuts, .u16 [], (.seekBit 1 false))) (b := (noOuts, .u16 [], .bitOffset)) ⟨fun _ e => (by cases e; trivial), rfl⟩ ⟨fun _ e => (by cases e; trivial), rfl⟩) (by compute)
    exact ⟨τ, c, op, op', _, e, h, rfl⟩
  · obtain ⟨τ, c, op, op', e, h⟩ := meet (ex := microMini1 V1Mini.P (f + 100) (d + 4)) (allowed := HasMini1) (c0 := rest _ _ V3.demo) ((0, some (noOuts, .u16 [], .refresh)) :: steps 0 3 ++ (1, some (noOuts, .u16 [], .bitCapacity)) :: steps 1 0)
      (.field .bcap) (by exact two (a := (noOuts, .u16 [], .refresh)) (b := (noOuts, .u16 [], .bitCapacity)) ⟨fun _ e => (by cases e; trivial), rfl⟩ ⟨fun _ e => (by cases e; trivial), rfl⟩) (by compute)
    exact ⟨τ, c, op, op', _, e, h, rfl⟩
  · obtain ⟨τ, c, op, op', e, h⟩ := meet (ex := microMini1 V1Mini.P (f + 100) (d + 4)) (allowed := HasMini1) (c0 := rest _ _ V3.demo) ((0, some (noOuts, .u16 [], (.grow 4))) :: steps 0 2 ++ (1, some (noOuts, .u16 [], .bytes)) :: steps 1 0)
      (.header) (by exact two (a := (noOuts, .u16 [], (.grow 4))) (b := (noOuts, .u16 [], .bytes)) ⟨fun _ e => (by cases e; trivial), rfl⟩ ⟨fun _ e => (by cases e; trivial), rfl⟩) (by compute)
    exact ⟨τ, c, op, op', _, e, h, rfl⟩
  · obtain ⟨τ, c, op, op', e, h⟩ := meet (ex := microMini1 V1Mini.P (f + 100) (d + 4)) (allowed := HasMini1) (c0 := rest _ _ V3.demo) ((0, some (noOuts, .u16 [], (.setBit (some 0) 1))) :: steps 0 3 ++ (1, some (noOuts, .u16 [], (.readBit (some 0)))) :: steps 1 1)
      (.byte 0 2) (by exact two (a := (noOuts, .u16 [], (.setBit (some 0) 1))) (b := (noOuts, .u16 [], (.readBit (some 0)))) ⟨fun _ e => (by cases e; trivial), rfl⟩ ⟨fun _ e => (by cases e; trivial), rfl⟩) (by compute)
    exact ⟨τ, c, op, op', _, e, h, rfl⟩

/-- One outcome, this byte. -/
def isU8 (v : UInt8) : List (V3.Op × Res V) → Bool
  | [(_, .ok (.u8 x))] => x == v
  | _ => false

theorem isU8_eq {v : UInt8} {l : List (V3.Op × Res V)} (h : isU8 v l = true) : l.map (·.2) = [.ok (.u8 v)] := by
  unfold isU8 at h
  split at h
  · rw [eq_of_beq h]; rfl
  · exact nomatch h

/-- One outcome, a panic for an index. -/
def isIndex : List (V3.Op × Res V) → Bool
  | [(_, .panic .index)] => true
  | _ => false

theorem isIndex_eq {l : List (V3.Op × Res V)} (h : isIndex l = true) : l.map (·.2) = [.panic .index] := by
  unfold isIndex at h
  split at h
  · rfl
  · exact nomatch h

/-- One call, this one. -/
def isRead90 : List V3.Op → Bool
  | [.readBit (some o)] => o == 90
  | _ => false

theorem isRead90_eq {l : List V3.Op} (h : isRead90 l = true) : l = [.readBit (some 90)] := by
  unfold isRead90 at h
  split at h
  · rw [eq_of_beq h]
  · exact nomatch h

/-- C121: what two goroutines read with Next calls need not be different, and the offset may move once for both: goroutines 0 and 1 both get the byte
at the offset. -/
theorem C121_buffer_next_twice :
    ∃ funs, compileAll V3Buffer.text = some funs ∧
    ∀ (fuel depth : Nat), 2 ^ 64 < fuel → 3 ≤ depth → ∃ (τ : Trace V3.Op V) (c : Conf V3.Op V),
    Exec (microBuf ⟨funs, V3Buffer.errs⟩ fuel depth) Fits (rest _ _ V3.demo) τ c ∧ (finished 0 τ).map (·.2) = [.ok (.u8 6)] ∧
    (finished 1 τ).map (·.2) = [.ok (.u8 6)] ∧ V3.demo.b.off = 3 ∧ c.sh.st.b.off = 4 := by
  refine ⟨_, V3Buffer.link, fun fuel depth hf hd => ?_⟩
  obtain ⟨d, rfl⟩ := Nat.exists_eq_add_of_le' hd
  obtain ⟨f, rfl⟩ := Nat.exists_eq_add_of_le' (Nat.le_of_lt (Nat.lt_trans (by decide : 100 < 2 ^ 64) hf))
  obtain ⟨τ, c, e, h⟩ := sched_ex (ex := microBuf V3Buffer.P (f + 100) (d + 3)) (allowed := Fits) (c0 := rest _ _ V3.demo)
    ((0, some (.readByte none)) :: (1, some (.readByte none)) :: steps 0 5 ++ steps 1 5 ++ steps 0 2 ++ steps 1 2)
    (fun τ c => isU8 6 (finished 0 τ) && isU8 6 (finished 1 τ) && c.sh.st.b.off == 4)
    (allowed_of fun op ho => by rcases List.mem_cons.mp ho with rfl | ho <;> first | trivial | (rw [List.mem_singleton.mp ho]; trivial)) (by compute)
  simp only [Bool.and_eq_true, beq_iff_eq] at h
  exact ⟨τ, c, e, isU8_eq h.1.1, isU8_eq h.1.2, rfl, h.2⟩

/-- C121: a call may panic with a run-time error after its position has passed the check, where the call alone never does: goroutine 1 truncates the
buffer between the check of goroutine 0 and its access. -/
theorem C121_buffer_check_passed :
    ∃ funs, compileAll V3Buffer.text = some funs ∧
    ∀ (fuel depth : Nat), 2 ^ 64 < fuel → 3 ≤ depth → ∃ (τ : Trace V3.Op V) (c : Conf V3.Op V),
    Exec (microBuf ⟨funs, V3Buffer.errs⟩ fuel depth) Fits (rest _ _ V3.demo) τ c ∧ (finished 0 τ).map (·.2) = [.panic .index] ∧
    started 0 τ = [.readBit (some 90)] ∧ (∀ s, V3.WF s → (V3.exec (.readBit (some 90)) s).1 ≠ .panic .index) := by
  refine ⟨_, V3Buffer.link, fun fuel depth hf hd => ?_⟩
  obtain ⟨d, rfl⟩ := Nat.exists_eq_add_of_le' hd
  obtain ⟨f, rfl⟩ := Nat.exists_eq_add_of_le' (Nat.le_of_lt (Nat.lt_trans (by decide : 100 < 2 ^ 64) hf))
  obtain ⟨τ, c, e, h⟩ := sched_ex (ex := microBuf V3Buffer.P (f + 100) (d + 3)) (allowed := Fits) (c0 := rest _ _ V3.demo)
    ((0, some (.readBit (some 90))) :: (1, some (.truncateRight 4)) :: steps 0 1 ++ steps 1 3 ++ steps 0 2)
    (fun τ _ => isIndex (finished 0 τ) && isRead90 (started 0 τ))
    (allowed_of fun op ho => by rcases List.mem_cons.mp ho with rfl | ho <;> first | trivial | (rw [List.mem_singleton.mp ho]; trivial)) (by compute)
  simp only [Bool.and_eq_true] at h
  refine ⟨τ, c, e, isIndex_eq h.1, isRead90_eq h.2, fun s w => ?_⟩
  obtain ⟨h1, h2, _⟩ := V3.C19_bit_bounds w 90
  show (V3.wrapVal .u8 (V3.Buffer.ReadBit 90) s).1 ≠ _
  unfold V3.wrapVal
  rw [bind_run]
  by_cases hl : (90 : Int64).toInt < 8 * s.bytes.length
  · obtain ⟨r, hr⟩ := h1.2 ⟨by decide, hl⟩
    rw [hr]; exact nofun
  · rw [h2 (by omega)]; exact nofun

/-- Two goroutines that only look, step by step in turn. -/
example (f d : Nat) : ∃ τ c, Exec (microBuf V3Buffer.P (f + 100) (d + 3)) Fits (rest _ _ V3.demo) τ c ∧
    (finished 0 τ).map (·.2) = [.ok (.u8 4)] ∧ (finished 1 τ).map (·.2) = [.ok (.u8 5)] := by
  obtain ⟨τ, c, e, h⟩ := sched_ex (ex := microBuf V3Buffer.P (f + 100) (d + 3)) (allowed := Fits) (c0 := rest _ _ V3.demo)
    ((0, some (.readByte (some 1))) :: (1, some (.readByte (some 2))) :: steps 0 1 ++ steps 1 2 ++ steps 0 3 ++ steps 1 2)
    (fun τ _ => isU8 4 (finished 0 τ) && isU8 5 (finished 1 τ))
    (allowed_of fun op ho => by rcases List.mem_cons.mp ho with rfl | ho <;> first | trivial | (rw [List.mem_singleton.mp ho]; trivial)) (by compute)
  simp only [Bool.and_eq_true] at h
  exact ⟨τ, c, e, isU8_eq h.1, isU8_eq h.2⟩

end Crunch.Src
