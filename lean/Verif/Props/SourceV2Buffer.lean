import Verif.Src.V2BufferCalls
import Verif.Src.Link.V2Buffer
import Verif.Src.Link.V2Utils
import Verif.Lemmas.ConcMap
import Verif.Props.Conc

/-!
# The model of the v2 `Buffer` is the text of v2

The texts of v2/buffer.go and v2/utils.go are parsed (`compileAll`) and run by the interpreter of Verif/Src/Sem.lean, here as sequences
of atomic steps (`Prog`): each access to a field of the receiver, each byte loaded or stored, each `Lock` and `Unlock` is a step, so
that what is proved holds for a goroutine among others, not only for calls made one at a time.
-/

namespace Crunch.Src

/-! ## C86 -/

/-- The program of a call: the text of the method, run by the interpreter. -/
def textCall (p : Pkg) (fuel depth : Nat) (op : V2.Op2) : Prog V := p.call fuel depth (Two.goName op) (Two.goArgs op)

/-- C86: the text of v2/buffer.go and v2/utils.go parses to a package, and the steps of any method, with any arguments, are those of
the model, with the result of the model: not the same effect, the same steps in the same order.  Loops get more rounds than there
are `int64` values, calls a depth of 4. -/
theorem C86_buffer_text :
    ∃ funs, compileAll (V2Utils.text ++ V2Buffer.text) = some funs ∧
    ∀ (fuel depth : Nat), 2 ^ 64 < fuel → 4 ≤ depth → ∀ (op : V2.Op2), Two.Fits op →
    textCall ⟨funs, V2Buffer.errs⟩ fuel depth op = (V2.exec op).map goVal := by
  refine ⟨_, compileAll_append V2Utils.link V2Buffer.link, fun fuel depth hf hd op ho => ?_⟩
  obtain ⟨d, rfl⟩ := Nat.exists_eq_add_of_le' hd
  exact V2Buffer.calls fuel d hf op ho

/-- C86: in particular a call made while nobody else is there gives the result, the panic, the state and the mutex of the model. -/
theorem C86_alone_text :
    ∃ funs, compileAll (V2Utils.text ++ V2Buffer.text) = some funs ∧
    ∀ (fuel depth : Nat), 2 ^ 64 < fuel → 4 ≤ depth → ∀ (op : V2.Op2), Two.Fits op → ∀ (s : Sh),
    (textCall ⟨funs, V2Buffer.errs⟩ fuel depth op).run s = (goRes ((V2.exec op).run s).1, ((V2.exec op).run s).2) := by
  obtain ⟨funs, hc, h⟩ := C86_buffer_text
  refine ⟨funs, hc, fun fuel depth hf hd op ho s => ?_⟩
  rw [h fuel depth hf hd op ho, Prog.run_map]
  rcases ((V2.exec op).run s) with ⟨r | p, s'⟩ <;> rfl

/-- C86: the constructor fills the new struct as the model does. -/
theorem C86_constructor_text :
    ∃ funs, compileAll (V2Utils.text ++ V2Buffer.text) = some funs ∧
    ∀ (fuel depth : Nat), 2 ^ 64 < fuel → 4 ≤ depth → ∀ (l : List Slice), l.length < 2 ^ 63 →
    ((⟨funs, V2Buffer.errs⟩ : Pkg).call fuel depth (str% "NewBuffer") [.slices l] : Prog V) = (V2.Buffer.NewBuffer l).map fun _ => .unit := by
  refine ⟨_, compileAll_append V2Utils.link V2Buffer.link, fun fuel depth hf hd l hl => ?_⟩
  obtain ⟨d, rfl⟩ := Nat.exists_eq_add_of_le' hd
  exact V2Buffer.NewBuffer fuel (d + 2) hf l hl

/-- C86: whatever goroutines that run the text do, goroutines of the model can do, and the other way round: the same goroutines take the
same steps and reach the same state with the same results. -/
theorem C86_goroutines_text :
    ∃ funs, compileAll (V2Utils.text ++ V2Buffer.text) = some funs ∧
    ∀ (fuel depth : Nat), 2 ^ 64 < fuel → 4 ≤ depth → ∀ (allowed : V2.Op2 → Prop), (∀ op, allowed op → Two.Fits op) →
    ∀ (c0 : Conf V2.Op2 V3.Val) (τ' : Trace V2.Op2 V) (c' : Conf V2.Op2 V),
    Exec (textCall ⟨funs, V2Buffer.errs⟩ fuel depth) allowed (c0.map goVal) τ' c' ↔
      ∃ τ c, Exec V2.exec allowed c0 τ c ∧ τ' = Trace.map goVal τ ∧ c' = c.map goVal := by
  obtain ⟨funs, hc, h⟩ := C86_buffer_text
  refine ⟨funs, hc, fun fuel depth hf hd allowed ha c0 τ' c' => ?_⟩
  have hx := fun op (o : allowed op) => h fuel depth hf hd op (ha op o)
  constructor
  · exact fun e => e.of_map hx
  · rintro ⟨τ, c, e, rfl, rfl⟩
    exact e.map hx

/-- C86: goroutines that run the text exclude each other as in C52: at most one is between `Lock` and `Unlock`, and only that one
changes the buffer or memory. -/
theorem C86_exclusion_text :
    ∃ funs, compileAll (V2Utils.text ++ V2Buffer.text) = some funs ∧
    ∀ (fuel depth : Nat), 2 ^ 64 < fuel → 4 ≤ depth → ∀ {c0 c : Conf V2.Op2 V} {τ : Trace V2.Op2 V}, Quiet c0 →
    Exec (textCall ⟨funs, V2Buffer.errs⟩ fuel depth) Two.Fits c0 τ c →
    (∀ i j, inside τ i = true → inside τ j = true → i = j) ∧ (c.sh.locked = true ↔ ∃ i, inside τ i = true) ∧
    ∀ (i : Nat) (a : Act V2.Op2 V) (c' : Conf V2.Op2 V), Step (textCall ⟨funs, V2Buffer.errs⟩ fuel depth) Two.Fits c i a c' →
      c'.sh.st ≠ c.sh.st → inside τ i = true := by
  obtain ⟨funs, hc, h⟩ := C86_buffer_text
  refine ⟨funs, hc, fun fuel depth hf hd c0 c τ q e => ?_⟩
  have hb : ∀ op, Two.Fits op → Brk false false (textCall ⟨funs, V2Buffer.errs⟩ fuel depth op) := fun op ho => by
    rw [h fuel depth hf hd op ho]
    exact (V2.exec_brk op).bind fun _ => rfl
  exact ⟨(shared_exclusion hb q e).1, (shared_exclusion hb q e).2, fun i a c' st hne => shared_changes hb q e st hne⟩

/-- C86: goroutines that run the text of the methods C67 is about are linearizable as in C67, where the sequential execution also runs
the text. -/
theorem C86_linearizable_text :
    ∃ funs, compileAll (V2Utils.text ++ V2Buffer.text) = some funs ∧
    ∀ (fuel depth : Nat), 2 ^ 64 < fuel → 4 ≤ depth → ∀ {c0 c : Conf V2.Op2 V} {τ : Trace V2.Op2 V}, Quiet c0 →
    Exec (textCall ⟨funs, V2Buffer.errs⟩ fuel depth) (fun op => V2.Atomic op ∧ Two.Fits op) c0 τ c →
    (∀ i, ∃ pending, ofThread i (seqRun (textCall ⟨funs, V2Buffer.errs⟩ fuel depth) (points τ) c0.sh).1 = finished i τ ++ pending ∧
      pending.length ≤ 1 ∧ (c.thr i = .idle → pending = [])) ∧
    (∀ i, ∃ waiting, started i τ = ofThread i (points τ) ++ waiting ∧ waiting.length ≤ 1 ∧ (c.thr i = .idle → waiting = [])) ∧
    ((∀ i, c.thr i = .idle) → c.sh = (seqRun (textCall ⟨funs, V2Buffer.errs⟩ fuel depth) (points τ) c0.sh).2) := by
  obtain ⟨funs, hc, h⟩ := C86_buffer_text
  refine ⟨funs, hc, fun fuel depth hf hd c0 c τ q e => shared_linearizable (fun op ho => ?_) q e⟩
  rw [h fuel depth hf hd op ho.2]
  exact Once.map (V2.exec_once op ho.1) goVal

/-- The interpreter does run the text: a byte goes to position 1, and the mutex is free again. -/
example : ((textCall V2Buffer.P 20 4 (.writeByte (some 1) 9)).run ⟨V3.demo, false⟩).2.st.bytes = [3, 9, 5, 6, 7, 8, 9, 10, 11, 12, 13, 14] ∧
    ((textCall V2Buffer.P 20 4 (.writeByte (some 1) 9)).run ⟨V3.demo, false⟩).2.locked = false := by decide +kernel

/-- A goroutine that has taken two steps of the text of `FlipBit` has read the bit capacity and taken the lock. -/
example : ∃ τ c, Exec (textCall V2Buffer.P 20 4) Two.Fits (rest _ _ V3.demo) τ c ∧ inside τ 0 = true ∧ c.sh.locked = true := by
  obtain ⟨τ, c, e, h⟩ := sched_ex (allowed := Two.Fits) (ex := textCall V2Buffer.P 20 4) (c0 := rest _ _ V3.demo)
    ((0, some (.flipBit (some 8))) :: steps 0 2) (fun τ c => inside τ 0 && c.sh.locked)
    (allowed_of fun op ho => by
      cases (by simpa [steps, List.filterMap_cons, List.filterMap_replicate_of_none] using ho : op = _); trivial)
    (by decide +kernel)
  simp only [Bool.and_eq_true] at h
  exact ⟨τ, c, e, h⟩

end Crunch.Src
