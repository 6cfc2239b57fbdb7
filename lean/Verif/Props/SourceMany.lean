import Verif.Props.Many
import Verif.Props.SourceNexts

/-! # Several buffers in one program, from the text (C131) -/

namespace Crunch.Src

/-! ## v2 -/

/-- C131: `C131_composition` for goroutines that run the text of v2/buffer.go. -/
theorem C131_composition_text :
    ∃ funs, compileAll (V2Utils.text ++ V2Buffer.text) = some funs ∧
    ∀ (fuel depth : Nat), 2 ^ 64 < fuel → 4 ≤ depth → ∀ {allowed : Nat → V2.Op2 → Prop} {S : Nat → Nat → Nat → Prop} {c0 c : Confs V2.Op2 V}
      {τ : Trace (Nat × V2.Op2) V}, Apart c0.sh.b S → (∀ i, c0.thr i = .idle) →
    (∀ k op, allowed k op → V2.inPlace op = true ∧ Among (S k) (V2.sourceOf op) ∧ Two.Fits op) →
    Execs (textCall ⟨funs, V2Buffer.errs⟩ fuel depth) allowed c0 τ c →
    (∀ k, ∃ d, OneBuffer (textCall ⟨funs, V2Buffer.errs⟩ fuel depth) (allowed k) (S k) c0 τ c k d) ∧
    (∀ k i, finished i (onBuf k τ) = donesOn k (finished i τ)) ∧
    (∀ k, (c.sh.b k).buf = (c0.sh.b k).buf) ∧
    (∀ a i, (∀ k, ¬ (c0.sh.b k).buf.holds a i) → (c.sh.mem.array a)[i]? = (c0.sh.mem.array a)[i]?) := by
  obtain ⟨funs, hc, h⟩ := C86_buffer_text
  refine ⟨funs, hc, fun fuel depth hf hd allowed S c0 c τ sep idle hall x => composition sep idle (fun k op ho => ?_) x⟩
  obtain ⟨h1, h2, h3⟩ := hall k op ho
  rw [h fuel depth hf hd op h3]
  exact (V2.exec_in (own_of ..) op h1 fun t ht a i hi => .inr (h2 t ht a i hi)).bind fun _ => trivial

/-- C131: `C131_linearizable` for goroutines that run the text of v2/buffer.go; the calls made one at a time also run the text. -/
theorem C131_linearizable_text :
    ∃ funs, compileAll (V2Utils.text ++ V2Buffer.text) = some funs ∧
    ∀ (fuel depth : Nat), 2 ^ 64 < fuel → 4 ≤ depth → ∀ {S : Nat → Nat → Nat → Prop} {c0 c : Confs V2.Op2 V} {τ : Trace (Nat × V2.Op2) V},
    Apart c0.sh.b S → (∀ i, c0.thr i = .idle) → (∀ k, c0.sh.locked k = false) →
    ∀ {own : Nat → Nat → Field → Bool}, (∀ k i j f, own k i f = true → own k j f = true → i = j) →
    Execs (textCall ⟨funs, V2Buffer.errs⟩ fuel depth) (fun k op => (V2.Whole op ∧ Among (S k) (V2.sourceOf op)) ∧ Two.Fits op) c0 τ c →
    (∀ i, ∀ y ∈ started i τ, ∀ f, V2.uses y.2 f = true → own y.1 i f = true) → (∀ i, c.thr i = .idle) →
    (∀ i, started i τ = ofThread i (points τ)) ∧
    (∀ i, finished i τ = ofThread i (seqRuns (textCall ⟨funs, V2Buffer.errs⟩ fuel depth) (points τ) c0.sh).1) ∧
    c.sh.b = (seqRuns (textCall ⟨funs, V2Buffer.errs⟩ fuel depth) (points τ) c0.sh).2.b ∧
    c.sh.locked = (seqRuns (textCall ⟨funs, V2Buffer.errs⟩ fuel depth) (points τ) c0.sh).2.locked ∧
    (∀ a, c.sh.mem.array a = (seqRuns (textCall ⟨funs, V2Buffer.errs⟩ fuel depth) (points τ) c0.sh).2.mem.array a) := by
  obtain ⟨funs, hc, h⟩ := C86_buffer_text
  refine ⟨funs, hc, fun fuel depth hf hd S c0 c τ sep idle free own disj x hu done =>
    linear sep idle free (fun k op ho => ?_) x disj (fun i y hy => ?_) done⟩
  · rw [h fuel depth hf hd op ho.2]
    exact (V2.exec_in (own_of ..) op (V2.whole_inPlace ho.1.1) fun t ht a i hi => .inr (ho.1.2 t ht a i hi)).bind fun _ => trivial
  · have ha := x.allowed_of_started hy
    rw [h fuel depth hf hd y.2 ha.2]
    exact ((V2.exec_pre y.2 ha.1.1).map goVal).mono (hu i y hy)

/-- Both theorems apply to two goroutines that use two buffers at the same time, from the text. -/
example : ∃ funs, compileAll (V2Utils.text ++ V2Buffer.text) = some funs ∧ ∀ (fuel depth : Nat), 2 ^ 64 < fuel → 4 ≤ depth →
    ∃ (τ : Trace (Nat × V2.Op2) V) (c : Confs V2.Op2 V),
      Execs (textCall ⟨funs, V2Buffer.errs⟩ fuel depth) (fun k op => (V2.Whole op ∧ Among (V2.demoFrom k) (V2.sourceOf op)) ∧ Two.Fits op)
        (rests _ _ V2.demoHeap V2.demoBufs) τ c ∧ (∀ i, c.thr i = .idle) ∧
      (∀ i, ∀ y ∈ started i τ, ∀ f, V2.uses y.2 f = true → V2.demoManyOwn y.1 i f = true) ∧ c.sh.mem.array 0 = [1, 2, 3, 0xAA, 0xBB, 9, 7, 8] := by
  obtain ⟨funs, hc, h⟩ := C86_buffer_text
  refine ⟨funs, hc, fun fuel depth hf hd => ?_⟩
  obtain ⟨τ, c, e, hi, hu, _, hb⟩ := V2.demoMany_runs Two.Fits True.intro True.intro
  exact ⟨Trace.map goVal τ, c.map goVal, e.map fun _ op o => h fuel depth hf hd op o.2, fun i => by show (c.thr i).map goVal = _; rw [hi i]; rfl,
    fun i => by rw [started_map]; exact hu i, hb⟩

/-! ## v1 -/

/-- C131: `C131_v1_composition` for goroutines that run the text of v1/buffer.go. -/
theorem C131_v1_composition_text :
    ∃ funs, compileAll (V1Utils.text ++ V1Buffer.text) = some funs ∧
    ∀ (fuel depth : Nat), 2 ^ 64 < fuel → 4 ≤ depth → ∀ {allowed : Nat → V1.Op1 → Prop} {S : Nat → Nat → Nat → Prop} {c0 c : Confs V1.Op1 V}
      {τ : Trace (Nat × V1.Op1) V}, Apart c0.sh.b S → (∀ i, c0.thr i = .idle) →
    (∀ k op, allowed k op → V1.inPlace1 op = true ∧ Among (S k) (V1.sourceOf1 op) ∧ One.Fits op) →
    Execs (textCall1 ⟨funs, V1Buffer.errs⟩ fuel depth) allowed c0 τ c →
    (∀ k, ∃ d, OneBuffer (textCall1 ⟨funs, V1Buffer.errs⟩ fuel depth) (allowed k) (S k) c0 τ c k d) ∧
    (∀ k i, finished i (onBuf k τ) = donesOn k (finished i τ)) ∧
    (∀ k, (c.sh.b k).buf = (c0.sh.b k).buf) ∧
    (∀ a i, (∀ k, ¬ (c0.sh.b k).buf.holds a i) → (c.sh.mem.array a)[i]? = (c0.sh.mem.array a)[i]?) := by
  obtain ⟨funs, hc, h⟩ := C87_buffer_text
  refine ⟨funs, hc, fun fuel depth hf hd allowed S c0 c τ sep idle hall x => composition sep idle (fun k op ho => ?_) x⟩
  obtain ⟨h1, h2, h3⟩ := hall k op ho
  rw [h fuel depth hf hd op h3]
  exact (V1.exec1_in (own_of ..) op h1 fun t ht a i hi => .inr (h2 t ht a i hi)).bind fun _ => trivial

/-- C131: `C131_v1_linearizable` for goroutines that run the text of v1/buffer.go; the calls made one at a time also run the text. -/
theorem C131_v1_linearizable_text :
    ∃ funs, compileAll (V1Utils.text ++ V1Buffer.text) = some funs ∧
    ∀ (fuel depth : Nat), 2 ^ 64 < fuel → 4 ≤ depth → ∀ {S : Nat → Nat → Nat → Prop} {c0 c : Confs V1.Op1 V} {τ : Trace (Nat × V1.Op1) V},
    Apart c0.sh.b S → (∀ i, c0.thr i = .idle) → (∀ k, c0.sh.locked k = false) →
    ∀ {own : Nat → Nat → Field → Bool}, (∀ k i j f, own k i f = true → own k j f = true → i = j) →
    Execs (textCall1 ⟨funs, V1Buffer.errs⟩ fuel depth) (fun k op => (V1.Whole1 op ∧ Among (S k) (V1.sourceOf1 op)) ∧ One.Fits op) c0 τ c →
    (∀ i, ∀ y ∈ started i τ, ∀ f, V1.uses1 y.2 f = true → own y.1 i f = true) → (∀ i, c.thr i = .idle) →
    (∀ i, started i τ = ofThread i (points τ)) ∧
    (∀ i, finished i τ = ofThread i (seqRuns (textCall1 ⟨funs, V1Buffer.errs⟩ fuel depth) (points τ) c0.sh).1) ∧
    c.sh.b = (seqRuns (textCall1 ⟨funs, V1Buffer.errs⟩ fuel depth) (points τ) c0.sh).2.b ∧
    c.sh.locked = (seqRuns (textCall1 ⟨funs, V1Buffer.errs⟩ fuel depth) (points τ) c0.sh).2.locked ∧
    (∀ a, c.sh.mem.array a = (seqRuns (textCall1 ⟨funs, V1Buffer.errs⟩ fuel depth) (points τ) c0.sh).2.mem.array a) := by
  obtain ⟨funs, hc, h⟩ := C87_buffer_text
  refine ⟨funs, hc, fun fuel depth hf hd S c0 c τ sep idle free own disj x hu done =>
    linear sep idle free (fun k op ho => ?_) x disj (fun i y hy => ?_) done⟩
  · rw [h fuel depth hf hd op ho.2]
    exact (V1.exec1_in (own_of ..) op (V1.whole1_inPlace ho.1.1) fun t ht a i hi => .inr (ho.1.2 t ht a i hi)).bind fun _ => trivial
  · have ha := x.allowed_of_started hy
    rw [h fuel depth hf hd y.2 ha.2]
    exact ((V1.exec1_pre y.2 ha.1.1).map goVal1).mono (hu i y hy)

/-- Both theorems apply to two goroutines that use two buffers at the same time, from the text. -/
example : ∃ funs, compileAll (V1Utils.text ++ V1Buffer.text) = some funs ∧ ∀ (fuel depth : Nat), 2 ^ 64 < fuel → 4 ≤ depth →
    ∃ (τ : Trace (Nat × V1.Op1) V) (c : Confs V1.Op1 V),
      Execs (textCall1 ⟨funs, V1Buffer.errs⟩ fuel depth) (fun k op => (V1.Whole1 op ∧ Among (V2.demoFrom k) (V1.sourceOf1 op)) ∧ One.Fits op)
        (rests _ _ V2.demoHeap V2.demoBufs) τ c ∧ (∀ i, c.thr i = .idle) ∧
      (∀ i, ∀ y ∈ started i τ, ∀ f, V1.uses1 y.2 f = true → V2.demoManyOwn y.1 i f = true) ∧ c.sh.mem.array 0 = [1, 2, 3, 0x11, 0x22, 6, 0xCC, 8] := by
  obtain ⟨funs, hc, h⟩ := C87_buffer_text
  refine ⟨funs, hc, fun fuel depth hf hd => ?_⟩
  obtain ⟨τ, c, e, hi, hu, _, hb⟩ := V1.demoMany1_runs One.Fits nofun (fun _ h => by cases h; trivial)
  exact ⟨Trace.map goVal1 τ, c.map goVal1, e.map fun _ op o => h fuel depth hf hd op o.2, fun i => by show (c.thr i).map goVal1 = _; rw [hi i]; rfl,
    fun i => by rw [started_map]; exact hu i, hb⟩

end Crunch.Src
