import Verif.Props.SourceNexts
import Verif.Props.Footprints

/-!
# Goroutines that run the text: footprints (C116)

C113 – C115 for the text of v2/buffer.go and v1/buffer.go, run by the interpreter.
-/

namespace Crunch.Src
open V3 (WF)

theorem _root_.Crunch.Prog.Uses.map {R W : Loc → Prop} {p : Prog α} {s : Sh} (g : α → β) (u : p.Uses R W s) : (p.map g).Uses R W s := by
  induction p generalizing s with
  | ret a => exact True.intro
  | panic q => exact True.intro
  | getI f k ih => exact ⟨u.1, ih _ u.2⟩
  | setI f v k ih => exact ⟨u.1, ih u.2⟩
  | getBuf k ih => exact ⟨u.1, ih _ u.2⟩
  | setBuf t k ih => exact ⟨u.1, ih u.2⟩
  | load t i k ih => exact ⟨u.1, ih _ u.2⟩
  | store t i v k ih => exact ⟨u.1, ih u.2⟩
  | append t x k ih => exact ⟨u.1, ih _ u.2⟩
  | alloc a n k ih => exact u.elim
  | lock k ih => exact fun h => ih (u h)
  | unlock k ih => exact ⟨u.1, ih u.2⟩

theorem stays_map {O V W : Type} {ex : O → Prog V} {ex' : O → Prog W} {g : V → W} {rd wr : V3.Buf → O → Loc → Prop} {ok : O → Bool} {R W' : Loc → Prop}
    {l : List O} {s : Sh} (hx : ∀ op ∈ l, ex' op = (ex op).map g) (h : Stays ex rd wr ok R W' l s) : Stays ex' rd wr ok R W' l s := by
  induction l generalizing s with
  | nil => trivial
  | cons op l ih =>
    refine ⟨h.1, ?_⟩
    rw [hx op List.mem_cons_self, Prog.run_map]
    exact ih (fun o ho => hx o (List.mem_cons_of_mem _ ho)) h.2

/-! ## v2 -/

/-- C116: C113 for the text of v2/buffer.go. -/
theorem C116_footprint_text :
    ∃ funs, compileAll (V2Utils.text ++ V2Buffer.text) = some funs ∧
    ∀ (fuel depth : Nat), 2 ^ 64 < fuel → 4 ≤ depth → ∀ (op : V2.Op2), Two.Fits op → V2.inPlace op = true → ∀ {s : Sh}, WF s.st →
    (textCall ⟨funs, V2Buffer.errs⟩ fuel depth op).Uses (V2.mayRead s.st.b op) (V2.mayWrite s.st.b op) s := by
  obtain ⟨funs, hc, h⟩ := C86_buffer_text
  refine ⟨funs, hc, fun fuel depth hf hd op ho hp s hs => ?_⟩
  rw [h fuel depth hf hd op ho]
  exact (V2.C113_footprint hs op hp).map goVal

/-- C116: C114 for goroutines that run the text of v2/buffer.go; what a goroutine would do alone is also run from the text. -/
theorem C116_separate_text :
    ∃ funs, compileAll (V2Utils.text ++ V2Buffer.text) = some funs ∧
    ∀ (fuel depth : Nat), 2 ^ 64 < fuel → 4 ≤ depth → ∀ {c0 c : Conf V2.Op2 V} {τ : Trace V2.Op2 V} {R W : Nat → Loc → Prop}, Quiet c0 → WF c0.sh.st →
    Exec (textCall ⟨funs, V2Buffer.errs⟩ fuel depth) Two.Fits c0 τ c → Separate R W →
    (∀ i, Stays (textCall ⟨funs, V2Buffer.errs⟩ fuel depth) V2.mayRead V2.mayWrite V2.inPlace (R i) (W i) (started i τ) c0.sh) →
    AsAlone (textCall ⟨funs, V2Buffer.errs⟩ fuel depth) R W c0 τ c := by
  obtain ⟨funs, hc, h⟩ := C86_buffer_text
  refine ⟨funs, hc, fun fuel depth hf hd c0 c τ R W q h0 e ap st => separate q ap e fun i => ?_⟩
  refine (st i).keeping' (A := Two.Fits) (Inv := Sized) (fun op ho hp s hi => ?_) (fun op ho hp s hi => ?_)
    (fun op ho => e.allowed_of_started ho) h0.sized
  · rw [h fuel depth hf hd op ho]
    exact (V2.uses_footprint op hp s hi).map goVal
  · rw [h fuel depth hf hd op ho, Prog.run_map]
    exact V2.keeps_sized op hp s hi

/-- C116: C115 for goroutines that run the text of v2/buffer.go. -/
theorem C116_readers_text :
    ∃ funs, compileAll (V2Utils.text ++ V2Buffer.text) = some funs ∧
    ∀ (fuel depth : Nat), 2 ^ 64 < fuel → 4 ≤ depth → ∀ {c0 c : Conf V2.Op2 V} {τ : Trace V2.Op2 V}, Quiet c0 → WF c0.sh.st →
    Exec (textCall ⟨funs, V2Buffer.errs⟩ fuel depth) Two.Fits c0 τ c → (∀ i, ∀ op ∈ started i τ, V2.onlyReads op = true) →
    Reading (textCall ⟨funs, V2Buffer.errs⟩ fuel depth) c0 τ c := by
  obtain ⟨funs, hc, h⟩ := C86_buffer_text
  refine ⟨funs, hc, fun fuel depth hf hd c0 c τ q h0 e rd => reading (R := fun _ => True) q e fun i op ho => ?_⟩
  rw [h fuel depth hf hd op (e.allowed_of_started ho)]
  have hr := rd i op ho
  have hp : V2.inPlace op = true := by
    simp only [V2.onlyReads, Bool.and_eq_true] at hr
    exact hr.1.1.1.1
  exact ((V2.C113_footprint h0 op hp).mono (fun _ _ => trivial) fun l hl => V2.onlyReads_none op hr _ l hl).map goVal

/-- C114's case from the text. -/
example :
    ∃ funs, compileAll (V2Utils.text ++ V2Buffer.text) = some funs ∧
    ∀ (fuel depth : Nat), 2 ^ 64 < fuel → 4 ≤ depth → ∃ (τ : Trace V2.Op2 V) (c : Conf V2.Op2 V), Exec (textCall ⟨funs, V2Buffer.errs⟩ fuel depth) Two.Fits (rest _ _ V3.demo) τ c ∧ (∀ i, c.thr i = .idle) ∧
    Separate V2.demoSepR V2.demoSepW ∧
    (∀ i, Stays (textCall ⟨funs, V2Buffer.errs⟩ fuel depth) V2.mayRead V2.mayWrite V2.inPlace (V2.demoSepR i) (V2.demoSepW i) (started i τ)
      (rest V2.Op2 V V3.demo).sh) ∧ c.sh.st.b.off = 5 := by
  obtain ⟨funs, hc, h⟩ := C86_buffer_text
  refine ⟨funs, hc, fun fuel depth hf hd => ?_⟩
  obtain ⟨τ, c, e, hi, hs, hk, ho, _, _, hb⟩ := V2.demoSep_runs
  have fits : ∀ i, ∀ op ∈ started i τ, Two.Fits op := fun i op h => by
    rcases ho i op h with rfl | rfl | rfl <;> first | exact True.intro | (intro op2 h2; cases h2; done) | (intro op2 h2; cases h2; exact True.intro)
  refine ⟨Trace.map goVal τ, c.map goVal, (e.restrict fits).map fun op ho => h fuel depth hf hd op ho, (idle_map _ _).2 hi, hs, fun i => ?_, hb⟩
  rw [started_map]
  exact stays_map (fun op ho => h fuel depth hf hd op (fits i op ho)) (hk i)

/-- C115's case from the text. -/
example :
    ∃ funs, compileAll (V2Utils.text ++ V2Buffer.text) = some funs ∧
    ∀ (fuel depth : Nat), 2 ^ 64 < fuel → 4 ≤ depth → ∃ (τ : Trace V2.Op2 V) (c : Conf V2.Op2 V), Exec (textCall ⟨funs, V2Buffer.errs⟩ fuel depth) Two.Fits (rest _ _ V3.demo) τ c ∧ (∀ i, c.thr i = .idle) ∧
    (∀ i, ∀ op ∈ started i τ, V2.onlyReads op = true) ∧ (finished 1 τ).length = 1 := by
  obtain ⟨funs, hc, h⟩ := C86_buffer_text
  refine ⟨funs, hc, fun fuel depth hf hd => ?_⟩
  obtain ⟨τ, c, e, hi, hr, ho, _, hl⟩ := V2.demoReaders_runs
  have fits : ∀ i, ∀ op ∈ started i τ, Two.Fits op := fun i op h => by
    rcases ho i op h with rfl | rfl <;> first | exact True.intro | (intro op2 h2; cases h2; done) | (intro op2 h2; cases h2; exact True.intro)
  refine ⟨Trace.map goVal τ, c.map goVal, (e.restrict fits).map fun op ho => h fuel depth hf hd op ho, (idle_map _ _).2 hi, fun i => ?_, ?_⟩
  · rw [started_map]; exact hr i
  · rw [finished_map, List.length_map]; exact hl

/-! ## v1 -/

/-- C116: C113 for the text of v1/buffer.go. -/
theorem C116_v1_footprint_text :
    ∃ funs, compileAll (V1Utils.text ++ V1Buffer.text) = some funs ∧
    ∀ (fuel depth : Nat), 2 ^ 64 < fuel → 4 ≤ depth → ∀ (op : V1.Op1), One.Fits op → V1.inPlace1 op = true → ∀ {s : Sh}, WF s.st →
    (textCall1 ⟨funs, V1Buffer.errs⟩ fuel depth op).Uses (V1.mayRead1 s.st.b op) (V1.mayWrite1 s.st.b op) s := by
  obtain ⟨funs, hc, h⟩ := C87_buffer_text
  refine ⟨funs, hc, fun fuel depth hf hd op ho hp s hs => ?_⟩
  rw [h fuel depth hf hd op ho]
  exact (V1.C113_v1_footprint hs op hp).map goVal1

/-- C116: C114 for goroutines that run the text of v1/buffer.go; what a goroutine would do alone is also run from the text. -/
theorem C116_v1_separate_text :
    ∃ funs, compileAll (V1Utils.text ++ V1Buffer.text) = some funs ∧
    ∀ (fuel depth : Nat), 2 ^ 64 < fuel → 4 ≤ depth → ∀ {c0 c : Conf V1.Op1 V} {τ : Trace V1.Op1 V} {R W : Nat → Loc → Prop}, Quiet c0 → WF c0.sh.st →
    Exec (textCall1 ⟨funs, V1Buffer.errs⟩ fuel depth) One.Fits c0 τ c → Separate R W →
    (∀ i, Stays (textCall1 ⟨funs, V1Buffer.errs⟩ fuel depth) V1.mayRead1 V1.mayWrite1 V1.inPlace1 (R i) (W i) (started i τ) c0.sh) →
    AsAlone (textCall1 ⟨funs, V1Buffer.errs⟩ fuel depth) R W c0 τ c := by
  obtain ⟨funs, hc, h⟩ := C87_buffer_text
  refine ⟨funs, hc, fun fuel depth hf hd c0 c τ R W q h0 e ap st => separate q ap e fun i => ?_⟩
  refine (st i).keeping' (A := One.Fits) (Inv := fun b : V3.Buf => Sized b ∧ b.buf.cap < 2 ^ 50) (fun op ho hp s hi => ?_) (fun op ho hp s hi => ?_)
    (fun op ho => e.allowed_of_started ho) ⟨h0.sized, h0.cap_lt⟩
  · rw [h fuel depth hf hd op ho]
    exact (V1.uses_footprint op hp s hi).map goVal1
  · rw [h fuel depth hf hd op ho, Prog.run_map]
    exact V1.keeps_sized op hp s hi

/-- C116: C115 for goroutines that run the text of v1/buffer.go. -/
theorem C116_v1_readers_text :
    ∃ funs, compileAll (V1Utils.text ++ V1Buffer.text) = some funs ∧
    ∀ (fuel depth : Nat), 2 ^ 64 < fuel → 4 ≤ depth → ∀ {c0 c : Conf V1.Op1 V} {τ : Trace V1.Op1 V}, Quiet c0 → WF c0.sh.st →
    Exec (textCall1 ⟨funs, V1Buffer.errs⟩ fuel depth) One.Fits c0 τ c → (∀ i, ∀ op ∈ started i τ, V1.onlyReads1 op = true) →
    Reading (textCall1 ⟨funs, V1Buffer.errs⟩ fuel depth) c0 τ c := by
  obtain ⟨funs, hc, h⟩ := C87_buffer_text
  refine ⟨funs, hc, fun fuel depth hf hd c0 c τ q h0 e rd => reading (R := fun _ => True) q e fun i op ho => ?_⟩
  rw [h fuel depth hf hd op (e.allowed_of_started ho)]
  have hr := rd i op ho
  have hp : V1.inPlace1 op = true := by
    simp only [V1.onlyReads1, Bool.and_eq_true] at hr
    exact hr.1.1.1.1
  exact ((V1.C113_v1_footprint h0 op hp).mono (fun _ _ => trivial) fun l hl => V1.onlyReads_none op hr _ l hl).map goVal1

/-- C114's case from the text. -/
example :
    ∃ funs, compileAll (V1Utils.text ++ V1Buffer.text) = some funs ∧
    ∀ (fuel depth : Nat), 2 ^ 64 < fuel → 4 ≤ depth → ∃ (τ : Trace V1.Op1 V) (c : Conf V1.Op1 V), Exec (textCall1 ⟨funs, V1Buffer.errs⟩ fuel depth) One.Fits (rest _ _ V3.demo) τ c ∧ (∀ i, c.thr i = .idle) ∧
    Separate V1.demoSepR V1.demoSepW ∧
    (∀ i, Stays (textCall1 ⟨funs, V1Buffer.errs⟩ fuel depth) V1.mayRead1 V1.mayWrite1 V1.inPlace1 (V1.demoSepR i) (V1.demoSepW i) (started i τ)
      (rest V1.Op1 V V3.demo).sh) ∧ c.sh.st.b.off = 7 := by
  obtain ⟨funs, hc, h⟩ := C87_buffer_text
  refine ⟨funs, hc, fun fuel depth hf hd => ?_⟩
  obtain ⟨τ, c, e, hi, hs, hk, ho, _, _, hb⟩ := V1.demoSep_runs
  have fits : ∀ i, ∀ op ∈ started i τ, One.Fits op := fun i op h => by
    rcases ho i op h with rfl | rfl <;> first | exact True.intro | (intro op2 h2; cases h2; done) | (intro op2 h2; cases h2; exact True.intro)
  refine ⟨Trace.map goVal1 τ, c.map goVal1, (e.restrict fits).map fun op ho => h fuel depth hf hd op ho, (idle_map _ _).2 hi, hs, fun i => ?_, hb⟩
  rw [started_map]
  exact stays_map (fun op ho => h fuel depth hf hd op (fits i op ho)) (hk i)

/-- C115's case from the text. -/
example :
    ∃ funs, compileAll (V1Utils.text ++ V1Buffer.text) = some funs ∧
    ∀ (fuel depth : Nat), 2 ^ 64 < fuel → 4 ≤ depth → ∃ (τ : Trace V1.Op1 V) (c : Conf V1.Op1 V), Exec (textCall1 ⟨funs, V1Buffer.errs⟩ fuel depth) One.Fits (rest _ _ V3.demo) τ c ∧ (∀ i, c.thr i = .idle) ∧
    (∀ i, ∀ op ∈ started i τ, V1.onlyReads1 op = true) ∧ (finished 1 τ).length = 1 := by
  obtain ⟨funs, hc, h⟩ := C87_buffer_text
  refine ⟨funs, hc, fun fuel depth hf hd => ?_⟩
  obtain ⟨τ, c, e, hi, hr, ho, _, hl⟩ := V1.demoReaders_runs
  have fits : ∀ i, ∀ op ∈ started i τ, One.Fits op := fun i op h => by
    rcases ho i op h with rfl | rfl <;> first | exact True.intro | (intro op2 h2; cases h2; done) | (intro op2 h2; cases h2; exact True.intro)
  refine ⟨Trace.map goVal1 τ, c.map goVal1, (e.restrict fits).map fun op ho => h fuel depth hf hd op ho, (idle_map _ _).2 hi, fun i => ?_, ?_⟩
  · rw [started_map]; exact hr i
  · rw [finished_map, List.length_map]; exact hl

end Crunch.Src
