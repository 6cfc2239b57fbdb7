import Verif.Src.V1BufferCalls
import Verif.Src.Link.V1Buffer
import Verif.Src.Link.V1Utils
import Verif.Lemmas.ConcMap
import Verif.Props.V1Seq

/-!
# The model of the v1 `Buffer` is the text of v1

The texts of v1/buffer.go and v1/utils.go are parsed (`compileAll`) and run by the interpreter of Verif/Src/Sem.lean, here as sequences
of atomic steps (`Prog`): each access to a field of the receiver, each byte loaded or stored, each `Lock` and `Unlock` is a step, so
that what is proved holds for a goroutine among others, not only for calls made one at a time.
-/

namespace Crunch.Src

/-! ## C87 -/

/-- The program of a call: the text of the method, run by the interpreter. -/
def textCall1 (p : Pkg) (fuel depth : Nat) (op : V1.Op1) : Prog V := p.call fuel depth (One.goName op) (One.goArgs op)

/-- C87: the text of v1/buffer.go and v1/utils.go parses to a package, and the steps of any method, with any arguments, are those of
the model, with the result of the model: not the same effect, the same steps in the same order.  Loops get more rounds than there
are `int64` values, calls a depth of 4. -/
theorem C87_buffer_text :
    ∃ funs, compileAll (V1Utils.text ++ V1Buffer.text) = some funs ∧
    ∀ (fuel depth : Nat), 2 ^ 64 < fuel → 4 ≤ depth → ∀ (op : V1.Op1), One.Fits op →
    textCall1 ⟨funs, V1Buffer.errs⟩ fuel depth op = (V1.exec1 op).map goVal1 := by
  refine ⟨_, compileAll_append V1Utils.link V1Buffer.link, fun fuel depth hf hd op ho => ?_⟩
  obtain ⟨d, rfl⟩ := Nat.exists_eq_add_of_le' hd
  exact V1Buffer.calls fuel d hf op ho

/-- C87: in particular a call made while nobody else is there gives the result, the panic, the state and the mutex of the model. -/
theorem C87_alone_text :
    ∃ funs, compileAll (V1Utils.text ++ V1Buffer.text) = some funs ∧
    ∀ (fuel depth : Nat), 2 ^ 64 < fuel → 4 ≤ depth → ∀ (op : V1.Op1), One.Fits op → ∀ (s : Sh),
    (textCall1 ⟨funs, V1Buffer.errs⟩ fuel depth op).run s = (goRes1 ((V1.exec1 op).run s).1, ((V1.exec1 op).run s).2) := by
  obtain ⟨funs, hc, h⟩ := C87_buffer_text
  refine ⟨funs, hc, fun fuel depth hf hd op ho s => ?_⟩
  rw [h fuel depth hf hd op ho, Prog.run_map]
  rcases ((V1.exec1 op).run s) with ⟨r | p, s'⟩ <;> rfl

/-- C87: the constructor fills the new struct as the model does. -/
theorem C87_constructor_text :
    ∃ funs, compileAll (V1Utils.text ++ V1Buffer.text) = some funs ∧
    ∀ (fuel depth : Nat), 2 ^ 64 < fuel → 4 ≤ depth → ∀ (l : List Slice), l.length < 2 ^ 63 →
    ((⟨funs, V1Buffer.errs⟩ : Pkg).call fuel depth (str% "NewBuffer") [.slices l] : Prog V) = (V1.Buffer.NewBuffer l).map fun _ => .unit := by
  refine ⟨_, compileAll_append V1Utils.link V1Buffer.link, fun fuel depth hf hd l hl => ?_⟩
  obtain ⟨d, rfl⟩ := Nat.exists_eq_add_of_le' hd
  exact V1Buffer.NewBuffer fuel (d + 2) hf l hl

/-- C87: whatever goroutines that run the text do, goroutines of the model can do, and the other way round: the same goroutines take the
same steps and reach the same state with the same results. -/
theorem C87_goroutines_text :
    ∃ funs, compileAll (V1Utils.text ++ V1Buffer.text) = some funs ∧
    ∀ (fuel depth : Nat), 2 ^ 64 < fuel → 4 ≤ depth → ∀ (allowed : V1.Op1 → Prop), (∀ op, allowed op → One.Fits op) →
    ∀ (c0 : Conf V1.Op1 V1.Val1) (τ' : Trace V1.Op1 V) (c' : Conf V1.Op1 V),
    Exec (textCall1 ⟨funs, V1Buffer.errs⟩ fuel depth) allowed (c0.map goVal1) τ' c' ↔
      ∃ τ c, Exec V1.exec1 allowed c0 τ c ∧ τ' = Trace.map goVal1 τ ∧ c' = c.map goVal1 := by
  obtain ⟨funs, hc, h⟩ := C87_buffer_text
  refine ⟨funs, hc, fun fuel depth hf hd allowed ha c0 τ' c' => ?_⟩
  have hx := fun op (o : allowed op) => h fuel depth hf hd op (ha op o)
  constructor
  · exact fun e => e.of_map hx
  · rintro ⟨τ, c, e, rfl, rfl⟩
    exact e.map hx

/-- C87: goroutines that run the text exclude each other as in C72: at most one is between `Lock` and `Unlock`, and only that one
changes the buffer or memory. -/
theorem C87_exclusion_text :
    ∃ funs, compileAll (V1Utils.text ++ V1Buffer.text) = some funs ∧
    ∀ (fuel depth : Nat), 2 ^ 64 < fuel → 4 ≤ depth → ∀ {c0 c : Conf V1.Op1 V} {τ : Trace V1.Op1 V}, Quiet c0 →
    Exec (textCall1 ⟨funs, V1Buffer.errs⟩ fuel depth) One.Fits c0 τ c →
    (∀ i j, inside τ i = true → inside τ j = true → i = j) ∧ (c.sh.locked = true ↔ ∃ i, inside τ i = true) ∧
    ∀ (i : Nat) (a : Act V1.Op1 V) (c' : Conf V1.Op1 V), Step (textCall1 ⟨funs, V1Buffer.errs⟩ fuel depth) One.Fits c i a c' →
      c'.sh.st ≠ c.sh.st → inside τ i = true := by
  obtain ⟨funs, hc, h⟩ := C87_buffer_text
  refine ⟨funs, hc, fun fuel depth hf hd c0 c τ q e => ?_⟩
  have hb : ∀ op, One.Fits op → Brk false false (textCall1 ⟨funs, V1Buffer.errs⟩ fuel depth op) := fun op ho => by
    rw [h fuel depth hf hd op ho]
    exact (V1.exec1_brk op).bind fun _ => rfl
  exact ⟨(shared_exclusion hb q e).1, (shared_exclusion hb q e).2, fun i a c' st hne => shared_changes hb q e st hne⟩

/-- C87: goroutines that run the text of the methods C72 is about are linearizable as there, where the sequential execution also runs
the text. -/
theorem C87_linearizable_text :
    ∃ funs, compileAll (V1Utils.text ++ V1Buffer.text) = some funs ∧
    ∀ (fuel depth : Nat), 2 ^ 64 < fuel → 4 ≤ depth → ∀ {c0 c : Conf V1.Op1 V} {τ : Trace V1.Op1 V}, Quiet c0 →
    Exec (textCall1 ⟨funs, V1Buffer.errs⟩ fuel depth) (fun op => V1.Atomic1 op ∧ One.Fits op) c0 τ c →
    (∀ i, ∃ pending, ofThread i (seqRun (textCall1 ⟨funs, V1Buffer.errs⟩ fuel depth) (points τ) c0.sh).1 = finished i τ ++ pending ∧
      pending.length ≤ 1 ∧ (c.thr i = .idle → pending = [])) ∧
    (∀ i, ∃ waiting, started i τ = ofThread i (points τ) ++ waiting ∧ waiting.length ≤ 1 ∧ (c.thr i = .idle → waiting = [])) ∧
    ((∀ i, c.thr i = .idle) → c.sh = (seqRun (textCall1 ⟨funs, V1Buffer.errs⟩ fuel depth) (points τ) c0.sh).2) := by
  obtain ⟨funs, hc, h⟩ := C87_buffer_text
  refine ⟨funs, hc, fun fuel depth hf hd c0 c τ q e => shared_linearizable (fun op ho => ?_) q e⟩
  rw [h fuel depth hf hd op ho.2]
  exact Once.map (V1.exec1_once op ho.1) goVal1

/-- C87: the integers that `ReadComplex` decodes after it has released the mutex can be half overwritten, as in C75, when goroutines run
the text. -/
theorem C87_torn_read_text :
    ∃ funs, compileAll (V1Utils.text ++ V1Buffer.text) = some funs ∧
    ∀ (fuel depth : Nat), 2 ^ 64 < fuel → 4 ≤ depth →
    ∃ (τ : Trace V1.Op1 V) (c : Conf V1.Op1 V), Exec (textCall1 ⟨funs, V1Buffer.errs⟩ fuel depth) One.Fits (rest _ _ V3.demo) τ c ∧
      started 0 τ = [.readComplex (some 0) 1 2 (some .be)] ∧ started 1 τ = [.writeComplex (some 0) (.u16 [0xAABB]) 2 (some .be)] ∧
      (∀ i, c.thr i = .idle) ∧ (finished 0 τ).map (·.2) = [.ok (.lu16 [0xAA04])] := by
  obtain ⟨funs, hc, h⟩ := C87_goroutines_text
  refine ⟨funs, hc, fun fuel depth hf hd => ?_⟩
  obtain ⟨τ, c, e, hi, hτ⟩ := sched_ex_done (allowed := One.Fits) (ex := V1.exec1) (rest_quiet V3.demo) 2 V1.demoTorn
    (fun τ _ => (started 0 τ matches [.readComplex (some 0) 1 2 (some .be)]) &&
      (started 1 τ matches [.writeComplex (some 0) (.u16 [0xAABB]) 2 (some .be)]) &&
      (finished 0 τ matches [(_, .ok (.any (.u16 [0xAA04])))]))
    (allowed_of fun op ho => by
      rcases (by simpa [V1.demoTorn, steps, List.filterMap_cons, List.filterMap_append, List.filterMap_replicate_of_none] using ho :
        op = _ ∨ op = _) with rfl | rfl <;> exact nofun) (by decide) (by decide +kernel)
  simp only [Bool.and_eq_true] at hτ
  obtain ⟨⟨h0, h1⟩, h2⟩ := hτ
  refine ⟨Trace.map goVal1 τ, c.map goVal1, (h fuel depth hf hd One.Fits (fun _ h => h) (rest _ _ V3.demo) _ _).2 ⟨τ, c, e, rfl, rfl⟩,
    ?_, ?_, fun i => ?_, ?_⟩
  · rw [started_map]
    split at h0
    · assumption
    · exact nomatch h0
  · rw [started_map]
    split at h1
    · assumption
    · exact nomatch h1
  · show (c.thr i).map goVal1 = .idle
    rw [hi]; rfl
  · rw [finished_map]
    split at h2
    · rename_i e; rw [e]; exact congrArg (fun v => [Res.ok v]) (goAny_u16 _)
    · exact nomatch h2

/-- The interpreter does run the text: a 16-bit integer goes to position 1, and the mutex is free again. -/
example : ((textCall1 V1Buffer.P 20 4 (.writeComplex (some 1) (.u16 [0x0102]) 2 (some .be))).run ⟨V3.demo, false⟩).2.st.bytes =
      [3, 1, 2, 6, 7, 8, 9, 10, 11, 12, 13, 14] ∧
    ((textCall1 V1Buffer.P 20 4 (.writeComplex (some 1) (.u16 [0x0102]) 2 (some .be))).run ⟨V3.demo, false⟩).2.locked = false := by
  decide +kernel

/-- A goroutine that has taken two steps of the text of `FlipBit` has read the bit capacity and taken the lock. -/
example : ∃ τ c, Exec (textCall1 V1Buffer.P 20 4) One.Fits (rest _ _ V3.demo) τ c ∧ inside τ 0 = true ∧ c.sh.locked = true := by
  obtain ⟨τ, c, e, h⟩ := sched_ex (allowed := One.Fits) (ex := textCall1 V1Buffer.P 20 4) (c0 := rest _ _ V3.demo)
    ((0, some (.flipBit (some 8))) :: steps 0 2) (fun τ c => inside τ 0 && c.sh.locked)
    (allowed_of fun op ho => by
      cases (by simpa [steps, List.filterMap_cons, List.filterMap_replicate_of_none] using ho : op = _)
      exact fun _ h => by cases h; trivial)
    (by decide +kernel)
  simp only [Bool.and_eq_true] at h
  exact ⟨τ, c, e, h⟩

end Crunch.Src
