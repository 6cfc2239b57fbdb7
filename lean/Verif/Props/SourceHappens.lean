import Verif.Props.SourceLooks
import Verif.Props.SourceFoot
import Verif.Props.Happens

/-!
# Goroutines that run the text: data races in the sense of the Go memory model (C119)

C119 for the text of v2/buffer.go and v1/buffer.go, run by the interpreter.
-/

namespace Crunch.Src
open V3 (WF)

/-! ## v2 -/

/-- C119: goroutines that run the text of v2/buffer.go: in a data race one call changes the place and the other one reads it while it does not
hold the mutex, and which calls do so is told by the tables. -/
theorem C119_table_text :
    ∃ funs, compileAll (V2Utils.text ++ V2Buffer.text) = some funs ∧
    ∀ (fuel depth : Nat), 2 ^ 64 < fuel → 4 ≤ depth → ∀ {c0 c : Conf V2.Op2 V} {τ : Trace V2.Op2 V}, Quiet c0 →
    Exec (textCall ⟨funs, V2Buffer.errs⟩ fuel depth) Two.Fits c0 τ c → ∀ {i j : Nat} {op op' : V2.Op2} {l : Loc},
    DataRace (textCall ⟨funs, V2Buffer.errs⟩ fuel depth) Two.Fits c0 τ i j op op' l →
    op ∈ started i τ ∧ op' ∈ started j τ ∧ V2.alters op l.part = true ∧ V2.unguarded op' l.part = true := by
  obtain ⟨funs, hc, h⟩ := C86_buffer_text
  refine ⟨funs, hc, fun fuel depth hf hd c0 c τ q e i j op op' l d => race_table (fun op ho => ?_) q e d⟩
  rw [h fuel depth hf hd op ho]
  exact ⟨(V2.exec_brk op).bind fun _ => rfl, (V2.exec_acc op).bind fun _ => rfl⟩

/-- C119: so goroutines that run the text of v2/buffer.go are in no data race if none of their calls changes what a call of another one reads
without the mutex; in particular those whose calls are linearizable by themselves (C67). -/
theorem C119_friendly_text :
    ∃ funs, compileAll (V2Utils.text ++ V2Buffer.text) = some funs ∧
    ∀ (fuel depth : Nat), 2 ^ 64 < fuel → 4 ≤ depth → ∀ {c0 c : Conf V2.Op2 V} {τ : Trace V2.Op2 V}, Quiet c0 →
    Exec (textCall ⟨funs, V2Buffer.errs⟩ fuel depth) Two.Fits c0 τ c →
    ((∀ i j, i < j → ∀ op ∈ started i τ, ∀ op' ∈ started j τ, V2.Friendly op op') ∨ ∀ i, ∀ op ∈ started i τ, V2.Atomic op) →
    ∀ i j op op' l, ¬ DataRace (textCall ⟨funs, V2Buffer.errs⟩ fuel depth) Two.Fits c0 τ i j op op' l := by
  obtain ⟨funs, hc, h⟩ := C119_table_text
  refine ⟨funs, hc, fun fuel depth hf hd c0 c τ q e fr i j op op' l d => ?_⟩
  obtain ⟨h1, h2, h3, h4⟩ := h fuel depth hf hd q e d
  replace fr : ∀ i j, i < j → ∀ op ∈ started i τ, ∀ op' ∈ started j τ, V2.Friendly op op' :=
    fr.elim id fun a i j _ op h op' h' => (a i op h).friendly (a j op' h')
  rcases Nat.lt_or_gt_of_ne d.1 with hij | hij
  · exact (fr i j hij op h1 op' h2 l.part).1 ⟨h3, h4⟩
  · exact (fr j i hij op' h2 op h1 l.part).2 ⟨h3, h4⟩

/-- C119's case from the text. -/
example : ∃ funs, compileAll (V2Utils.text ++ V2Buffer.text) = some funs ∧ ∀ (fuel depth : Nat), 2 ^ 64 < fuel → 4 ≤ depth →
    ∃ (τ : Trace V2.Op2 V) (c : Conf V2.Op2 V), Exec (textCall ⟨funs, V2Buffer.errs⟩ fuel depth) Two.Fits (rest _ _ V3.demo) τ c ∧ (∀ i, c.thr i = .idle) ∧
      started 0 τ = [.writeByte none 9] ∧ started 1 τ = [.setBit none 1] ∧
      ∀ i j, i < j → ∀ op ∈ started i τ, ∀ op' ∈ started j τ, V2.Friendly op op' := by
  obtain ⟨funs, hc, h⟩ := C86_goroutines_text
  refine ⟨funs, hc, fun fuel depth hf hd => ?_⟩
  obtain ⟨τ, c, e, hi, fr, h1, h2⟩ := V2.demoFriends_runs Two.Fits trivial trivial
  refine ⟨Trace.map goVal τ, c.map goVal, (h fuel depth hf hd _ (fun _ o => o) (rest _ _ V3.demo) _ _).2 ⟨τ, c, e, rfl, rfl⟩, (idle_map _ _).2 hi, ?_, ?_, ?_⟩
  · rw [started_map, h1]
  · rw [started_map, h2]
  · simpa only [started_map] using fr

/-- C119: goroutines that run the text of v2/buffer.go, none of which changes a place another one accesses, are in no data race. -/
theorem C119_separate_text :
    ∃ funs, compileAll (V2Utils.text ++ V2Buffer.text) = some funs ∧
    ∀ (fuel depth : Nat), 2 ^ 64 < fuel → 4 ≤ depth → ∀ {c0 c : Conf V2.Op2 V} {τ : Trace V2.Op2 V} {R W : Nat → Loc → Prop}, Quiet c0 → WF c0.sh.st →
    Exec (textCall ⟨funs, V2Buffer.errs⟩ fuel depth) Two.Fits c0 τ c → Separate R W →
    (∀ i, Stays (textCall ⟨funs, V2Buffer.errs⟩ fuel depth) V2.mayRead V2.mayWrite V2.inPlace (R i) (W i) (started i τ) c0.sh) →
    ∀ i j op op' l, ¬ DataRace (textCall ⟨funs, V2Buffer.errs⟩ fuel depth) Two.Fits c0 τ i j op op' l := by
  obtain ⟨funs, hc, h⟩ := C86_buffer_text
  refine ⟨funs, hc, fun fuel depth hf hd c0 c τ R W q h0 e ap st => separate_hb q ap e fun i => ?_⟩
  refine (st i).keeping' (A := Two.Fits) (Inv := Sized) (fun op ho hp s hi => ?_) (fun op ho hp s hi => ?_)
    (fun op ho => e.allowed_of_started ho) h0.sized
  · rw [h fuel depth hf hd op ho]
    exact (V2.uses_footprint op hp s hi).map goVal
  · rw [h fuel depth hf hd op ho, Prog.run_map]
    exact V2.keeps_sized op hp s hi

/-- C119: the text of v2/buffer.go has a data race on each part of the buffer. -/
theorem C119_races_text :
    ∃ funs, compileAll (V2Utils.text ++ V2Buffer.text) = some funs ∧
    ∀ (fuel depth : Nat), 2 ^ 64 < fuel → 4 ≤ depth → ∀ k : Part, ∃ (τ : Trace V2.Op2 V) (c : Conf V2.Op2 V) (l : Loc),
    Exec (textCall ⟨funs, V2Buffer.errs⟩ fuel depth) Two.Fits (rest _ _ V3.demo) τ c ∧
    DataRace (textCall ⟨funs, V2Buffer.errs⟩ fuel depth) Two.Fits (rest _ _ V3.demo) τ 0 1 (V2.racers k).1 (V2.racers k).2 l ∧ l.part = k := by
  obtain ⟨funs, hc, h⟩ := C86_goroutines_text
  refine ⟨funs, hc, fun fuel depth hf hd k => ?_⟩
  obtain ⟨τ, c, _, _, p, r, l, e, h1, h2, hw, hr, hl, rfl, rfl⟩ := V2.racers_meet Two.Fits (fun k => by rcases k with (_ | _ | _ | _) | _ | _ <;> exact ⟨trivial, trivial⟩) k
  have e' : Exec (textCall ⟨funs, V2Buffer.errs⟩ fuel depth) Two.Fits (rest _ _ V3.demo) (Trace.map goVal τ) (c.map goVal) :=
    (h fuel depth hf hd _ (fun _ o => o) (rest _ _ V3.demo) _ _).2 ⟨τ, c, e, rfl, rfl⟩
  obtain ⟨τ', c', e'', _, d⟩ := race_happens e' (by decide) (i := 0) (j := 1) (p := p.map goVal) (r := r.map goVal)
    (show (c.thr 0).map goVal = _ by rw [h1]; rfl) ((Prog.writes_map goVal p _ l).2 hw) (show (c.thr 1).map goVal = _ by rw [h2]; rfl)
    (.inl ((Prog.reads_map goVal r _ l).2 hr))
  exact ⟨_, c', l, e'', d, hl⟩

/-! ## v1 -/

/-- C119: goroutines that run the text of v1/buffer.go: in a data race one call changes the place and the other one reads it while it does not
hold the mutex, and which calls do so is told by the tables. -/
theorem C119_v1_table_text :
    ∃ funs, compileAll (V1Utils.text ++ V1Buffer.text) = some funs ∧
    ∀ (fuel depth : Nat), 2 ^ 64 < fuel → 4 ≤ depth → ∀ {c0 c : Conf V1.Op1 V} {τ : Trace V1.Op1 V}, Quiet c0 →
    Exec (textCall1 ⟨funs, V1Buffer.errs⟩ fuel depth) One.Fits c0 τ c → ∀ {i j : Nat} {op op' : V1.Op1} {l : Loc},
    DataRace (textCall1 ⟨funs, V1Buffer.errs⟩ fuel depth) One.Fits c0 τ i j op op' l →
    op ∈ started i τ ∧ op' ∈ started j τ ∧ V1.alters1 op l.part = true ∧ V1.unguarded1 op' l.part = true := by
  obtain ⟨funs, hc, h⟩ := C87_buffer_text
  refine ⟨funs, hc, fun fuel depth hf hd c0 c τ q e i j op op' l d => race_table (fun op ho => ?_) q e d⟩
  rw [h fuel depth hf hd op ho]
  exact ⟨(V1.exec1_brk op).bind fun _ => rfl, (V1.exec1_acc op).bind fun _ => rfl⟩

/-- C119: so goroutines that run the text of v1/buffer.go are in no data race if none of their calls changes what a call of another one reads
without the mutex; in particular those whose calls are linearizable by themselves (C67). -/
theorem C119_v1_friendly_text :
    ∃ funs, compileAll (V1Utils.text ++ V1Buffer.text) = some funs ∧
    ∀ (fuel depth : Nat), 2 ^ 64 < fuel → 4 ≤ depth → ∀ {c0 c : Conf V1.Op1 V} {τ : Trace V1.Op1 V}, Quiet c0 →
    Exec (textCall1 ⟨funs, V1Buffer.errs⟩ fuel depth) One.Fits c0 τ c →
    ((∀ i j, i < j → ∀ op ∈ started i τ, ∀ op' ∈ started j τ, V1.Friendly1 op op') ∨ ∀ i, ∀ op ∈ started i τ, V1.Atomic1 op) →
    ∀ i j op op' l, ¬ DataRace (textCall1 ⟨funs, V1Buffer.errs⟩ fuel depth) One.Fits c0 τ i j op op' l := by
  obtain ⟨funs, hc, h⟩ := C119_v1_table_text
  refine ⟨funs, hc, fun fuel depth hf hd c0 c τ q e fr i j op op' l d => ?_⟩
  obtain ⟨h1, h2, h3, h4⟩ := h fuel depth hf hd q e d
  replace fr : ∀ i j, i < j → ∀ op ∈ started i τ, ∀ op' ∈ started j τ, V1.Friendly1 op op' :=
    fr.elim id fun a i j _ op h op' h' => (a i op h).friendly (a j op' h')
  rcases Nat.lt_or_gt_of_ne d.1 with hij | hij
  · exact (fr i j hij op h1 op' h2 l.part).1 ⟨h3, h4⟩
  · exact (fr j i hij op' h2 op h1 l.part).2 ⟨h3, h4⟩

/-- C119's case from the text. -/
example : ∃ funs, compileAll (V1Utils.text ++ V1Buffer.text) = some funs ∧ ∀ (fuel depth : Nat), 2 ^ 64 < fuel → 4 ≤ depth →
    ∃ (τ : Trace V1.Op1 V) (c : Conf V1.Op1 V), Exec (textCall1 ⟨funs, V1Buffer.errs⟩ fuel depth) One.Fits (rest _ _ V3.demo) τ c ∧ (∀ i, c.thr i = .idle) ∧
      started 0 τ = [.writeByte none 9] ∧ started 1 τ = [.setBit none 1] ∧
      ∀ i j, i < j → ∀ op ∈ started i τ, ∀ op' ∈ started j τ, V1.Friendly1 op op' := by
  obtain ⟨funs, hc, h⟩ := C87_goroutines_text
  refine ⟨funs, hc, fun fuel depth hf hd => ?_⟩
  obtain ⟨τ, c, e, hi, fr, h1, h2⟩ := V1.demoFriends_runs One.Fits (fun _ h => by cases h; trivial) (fun _ h => by cases h; trivial)
  refine ⟨Trace.map goVal1 τ, c.map goVal1, (h fuel depth hf hd _ (fun _ o => o) (rest _ _ V3.demo) _ _).2 ⟨τ, c, e, rfl, rfl⟩, (idle_map _ _).2 hi, ?_, ?_, ?_⟩
  · rw [started_map, h1]
  · rw [started_map, h2]
  · simpa only [started_map] using fr

/-- C119: goroutines that run the text of v1/buffer.go, none of which changes a place another one accesses, are in no data race. -/
theorem C119_v1_separate_text :
    ∃ funs, compileAll (V1Utils.text ++ V1Buffer.text) = some funs ∧
    ∀ (fuel depth : Nat), 2 ^ 64 < fuel → 4 ≤ depth → ∀ {c0 c : Conf V1.Op1 V} {τ : Trace V1.Op1 V} {R W : Nat → Loc → Prop}, Quiet c0 → WF c0.sh.st →
    Exec (textCall1 ⟨funs, V1Buffer.errs⟩ fuel depth) One.Fits c0 τ c → Separate R W →
    (∀ i, Stays (textCall1 ⟨funs, V1Buffer.errs⟩ fuel depth) V1.mayRead1 V1.mayWrite1 V1.inPlace1 (R i) (W i) (started i τ) c0.sh) →
    ∀ i j op op' l, ¬ DataRace (textCall1 ⟨funs, V1Buffer.errs⟩ fuel depth) One.Fits c0 τ i j op op' l := by
  obtain ⟨funs, hc, h⟩ := C87_buffer_text
  refine ⟨funs, hc, fun fuel depth hf hd c0 c τ R W q h0 e ap st => separate_hb q ap e fun i => ?_⟩
  refine (st i).keeping' (A := One.Fits) (Inv := fun b : V3.Buf => Sized b ∧ b.buf.cap < 2 ^ 50) (fun op ho hp s hi => ?_) (fun op ho hp s hi => ?_)
    (fun op ho => e.allowed_of_started ho) ⟨h0.sized, h0.cap_lt⟩
  · rw [h fuel depth hf hd op ho]
    exact (V1.uses_footprint op hp s hi).map goVal1
  · rw [h fuel depth hf hd op ho, Prog.run_map]
    exact V1.keeps_sized op hp s hi

/-- C119: the text of v1/buffer.go has a data race on each part of the buffer. -/
theorem C119_v1_races_text :
    ∃ funs, compileAll (V1Utils.text ++ V1Buffer.text) = some funs ∧
    ∀ (fuel depth : Nat), 2 ^ 64 < fuel → 4 ≤ depth → ∀ k : Part, ∃ (τ : Trace V1.Op1 V) (c : Conf V1.Op1 V) (l : Loc),
    Exec (textCall1 ⟨funs, V1Buffer.errs⟩ fuel depth) One.Fits (rest _ _ V3.demo) τ c ∧
    DataRace (textCall1 ⟨funs, V1Buffer.errs⟩ fuel depth) One.Fits (rest _ _ V3.demo) τ 0 1 (V1.racers k).1 (V1.racers k).2 l ∧ l.part = k := by
  obtain ⟨funs, hc, h⟩ := C87_goroutines_text
  refine ⟨funs, hc, fun fuel depth hf hd k => ?_⟩
  obtain ⟨τ, c, _, _, p, r, l, e, h1, h2, hw, hr, hl, rfl, rfl⟩ := V1.racers_meet One.Fits (fun k => by rcases k with (_ | _ | _ | _) | _ | _ <;> exact ⟨fun _ h => by cases h; trivial, fun _ h => by cases h; trivial⟩) k
  have e' : Exec (textCall1 ⟨funs, V1Buffer.errs⟩ fuel depth) One.Fits (rest _ _ V3.demo) (Trace.map goVal1 τ) (c.map goVal1) :=
    (h fuel depth hf hd _ (fun _ o => o) (rest _ _ V3.demo) _ _).2 ⟨τ, c, e, rfl, rfl⟩
  obtain ⟨τ', c', e'', _, d⟩ := race_happens e' (by decide) (i := 0) (j := 1) (p := p.map goVal1) (r := r.map goVal1)
    (show (c.thr 0).map goVal1 = _ by rw [h1]; rfl) ((Prog.writes_map goVal1 p _ l).2 hw) (show (c.thr 1).map goVal1 = _ by rw [h2]; rfl)
    (.inl ((Prog.reads_map goVal1 r _ l).2 hr))
  exact ⟨_, c', l, e'', d, hl⟩

end Crunch.Src
