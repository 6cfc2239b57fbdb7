import Verif.Props.SourceV2Buffer
import Verif.Props.SourceV1Buffer
import Verif.Props.Cursors
import Verif.Props.Apart
import Verif.Lemmas.ConcText

/-!
# Goroutines that run the text: parts of calls, offsets of one's own, different bits (C111)

C108 – C110 for goroutines that run the text of v2/buffer.go and v1/buffer.go by the interpreter.
-/

namespace Crunch

theorem seqRun_map {ex : O → Prog V} {ex' : O → Prog W} {g : V → W} {l : List (Nat × O)} (hx : ∀ a ∈ l, ex' a.2 = (ex a.2).map g) (s : Sh) :
    seqRun ex' l s = ((seqRun ex l s).1.map fun x => (x.1, x.2.1, x.2.2.map g), (seqRun ex l s).2) := by
  induction l generalizing s with
  | nil => rfl
  | cons a l ih =>
    obtain ⟨i, op⟩ := a
    simp only [seqRun, List.map_cons]
    rw [hx (i, op) List.mem_cons_self, Prog.run_map, ih fun a h => hx a (List.mem_cons_of_mem _ h)]

theorem soloRun_map {ex : O → Prog V} {ex' : O → Prog W} {g : V → W} {τ : Trace O V} {i : Nat}
    (hx : ∀ op ∈ (finished i τ).map (·.1), ex' op = (ex op).map g) (s : Sh) :
    V2.soloRun ex' i (Trace.map g τ) s = ((V2.soloRun ex i τ s).1.map fun x => (x.1, x.2.1, x.2.2.map g), (V2.soloRun ex i τ s).2) := by
  unfold V2.soloRun
  rw [finished_map, List.map_map, ← seqRun_map (g := g)]
  · rfl
  · intro a ha
    obtain ⟨x, hx', rfl⟩ := List.mem_map.mp ha
    exact hx _ (List.mem_map_of_mem hx')

end Crunch

namespace Crunch.Src

/-! ## v2 -/

/-- C111: C110 for goroutines that run the text of v2/buffer.go; the sequential execution also runs the text. -/
theorem C111_own_cursor_text :
    ∃ funs, compileAll (V2Utils.text ++ V2Buffer.text) = some funs ∧
    ∀ (fuel depth : Nat), 2 ^ 64 < fuel → 4 ≤ depth → ∀ {own : Nat → Field → Bool}, (∀ i j f, own i f = true → own j f = true → i = j) →
    ∀ {c0 c : Conf V2.Op2 V} {τ : Trace V2.Op2 V}, Quiet c0 →
    Exec (textCall ⟨funs, V2Buffer.errs⟩ fuel depth) (fun op => V2.Whole op ∧ Two.Fits op) c0 τ c →
    (∀ i, ∀ op ∈ started i τ, ∀ f, V2.uses op f = true → own i f = true) →
    (∀ i, ∃ pending, ofThread i (seqRun (textCall ⟨funs, V2Buffer.errs⟩ fuel depth) (points τ) c0.sh).1 = finished i τ ++ pending ∧
      pending.length ≤ 1 ∧ (c.thr i = .idle → pending = [])) ∧
    (∀ i, ∃ waiting, started i τ = ofThread i (points τ) ++ waiting ∧ waiting.length ≤ 1 ∧ (c.thr i = .idle → waiting = [])) ∧
    ((∀ i, c.thr i = .idle) → c.sh = (seqRun (textCall ⟨funs, V2Buffer.errs⟩ fuel depth) (points τ) c0.sh).2) := by
  obtain ⟨funs, hc, h⟩ := C86_buffer_text
  refine ⟨funs, hc, fun fuel depth hf hd own disj c0 c τ q e hu => owned_linearizable disj q e fun i op ho => ?_⟩
  have ha := e.allowed_of_started ho
  rw [h fuel depth hf hd op ha.2]
  exact ((V2.exec_pre op ha.1).map goVal).mono (hu i op ho)

/-- C111: C109 for goroutines that run the text of v2/buffer.go: the outcomes are those of the model, written as Go values, and the model
is explained as in C109. -/
theorem C111_parts_text :
    ∃ funs, compileAll (V2Utils.text ++ V2Buffer.text) = some funs ∧
    ∀ (fuel depth : Nat), 2 ^ 64 < fuel → 4 ≤ depth → ∀ {c0 c : Conf V2.Op2 V} {τ : Trace V2.Op2 V}, Quiet c0 →
    Exec (textCall ⟨funs, V2Buffer.errs⟩ fuel depth) (fun op => V2.Steady op ∧ Two.Fits op) c0 τ c →
    ∃ (t : Trace V2.Op2 V3.Val) (L : List (Nat × V2.Op2)), τ = Trace.map goVal t ∧ (∀ a ∈ L, V2.Single a.2) ∧ Explains V2.exec V2.parts c0.sh t L ∧
      (∀ t1 t2, t = t1 ++ t2 → ∃ L1 L2, L = L1 ++ L2 ∧ Explains V2.exec V2.parts c0.sh t1 L1) ∧
      (∀ i, c.thr i = .idle → Pieces V2.parts (finished i t) (ofThread i (seqRun V2.exec L c0.sh).1)) ∧
      ((∀ i, c.thr i = .idle) → c.sh = (seqRun V2.exec L c0.sh).2) := by
  obtain ⟨funs, hc, h⟩ := C86_buffer_text
  refine ⟨funs, hc, fun fuel depth hf hd c0 c τ q e => ?_⟩
  obtain ⟨d0, t, d, q', es, e', rfl, rfl⟩ := exec_model (ex := V2.exec) (g := goVal) (fun op ho => h fuel depth hf hd op ho.2) q e
  obtain ⟨L, h1, h2, h3, h4, h5⟩ := V2.C109_look_act_move q' (e'.mono fun _ ho => ho.1)
  rw [es] at h2 h3 h4 h5
  exact ⟨t, L, rfl, h1, h2, h3, fun i hi => h4 i (Thr.map_idle hi), fun hi => h5 ((idle_map _ _).1 hi)⟩

/-- C111: C108 for goroutines that run the text of v2/buffer.go; what a goroutine would do alone is also run from the text. -/
theorem C111_no_interference_text :
    ∃ funs, compileAll (V2Utils.text ++ V2Buffer.text) = some funs ∧
    ∀ (fuel depth : Nat), 2 ^ 64 < fuel → 4 ≤ depth → ∀ {c0 c : Conf V2.Op2 V} {τ : Trace V2.Op2 V}, Quiet c0 → V3.WF c0.sh.st →
    Exec (textCall ⟨funs, V2Buffer.errs⟩ fuel depth) Two.Fits c0 τ c → (∀ i, ∀ op ∈ started i τ, V2.Within c0.sh.st op) →
    (∀ i j, i ≠ j → ∀ op ∈ started i τ, ∀ op' ∈ started j τ, V2.changes op = true → ∀ x, V2.Touches op x → ¬ V2.Touches op' x) →
    (∀ i, (finished i τ).map (fun x => (i, x.1, x.2)) = (V2.soloRun (textCall ⟨funs, V2Buffer.errs⟩ fuel depth) i τ c0.sh).1) ∧
      ((∀ i, c.thr i = .idle) → c.sh.locked = false ∧ c.sh.st.b = c0.sh.st.b ∧
        (∀ a i, (a ≠ c0.sh.st.b.buf.arr ∨ i < c0.sh.st.b.buf.off ∨ c0.sh.st.b.buf.off + c0.sh.st.b.buf.len ≤ i) →
          (c.sh.st.mem.array a)[i]? = (c0.sh.st.mem.array a)[i]?) ∧
        (∀ i, ∀ op ∈ started i τ, V2.changes op = true → ∀ x, V2.Touches op x →
          Spec.bit c.sh.st.bytes x = Spec.bit (V2.soloRun (textCall ⟨funs, V2Buffer.errs⟩ fuel depth) i τ c0.sh).2.st.bytes x) ∧
        ∀ x, (∀ i, ∀ op ∈ started i τ, V2.changes op = true → ¬ V2.Touches op x) → Spec.bit c.sh.st.bytes x = Spec.bit c0.sh.st.bytes x) := by
  obtain ⟨funs, hc, h⟩ := C86_buffer_text
  refine ⟨funs, hc, fun fuel depth hf hd c0 c τ q hw e within apart => ?_⟩
  obtain ⟨d0, t, d, q', es, e', rfl, rfl⟩ := exec_model (ex := V2.exec) (g := goVal) (fun op ho => h fuel depth hf hd op ho) q e
  simp only [started_map] at within apart ⊢
  have sm := fun i s => soloRun_map (i := i) (fun op ho => h fuel depth hf hd op ((e'.allows q').2 i op ho)) s
  rw [← es] at hw within
  obtain ⟨h1, h2⟩ := V2.C108_no_interference q' hw (e'.mono fun _ _ => trivial) within apart
  rw [es] at h1 h2
  refine ⟨fun i => ?_, fun hi => ?_⟩
  · rw [sm, finished_map, ← h1 i, List.map_map, List.map_map]
    rfl
  · obtain ⟨k1, k2, k3, k4, k5⟩ := h2 ((idle_map _ _).1 hi)
    exact ⟨k1, k2, k3, fun i op ho hc x hx => (k4 i op ho hc x hx).trans (by rw [sm]), k5⟩

/-- C110's case from the text: both theorems about offsets apply to goroutines that run the text of `WriteBytesNext` and `SetBitNext`. -/
example : ∃ funs, compileAll (V2Utils.text ++ V2Buffer.text) = some funs ∧ ∀ (fuel depth : Nat), 2 ^ 64 < fuel → 4 ≤ depth →
    ∃ (τ : Trace V2.Op2 V) (c : Conf V2.Op2 V),
      Exec (textCall ⟨funs, V2Buffer.errs⟩ fuel depth) (fun op => V2.Whole op ∧ Two.Fits op) (rest _ _ V3.demo) τ c ∧ (∀ i, c.thr i = .idle) ∧
      (∀ i, ∀ op ∈ started i τ, ∀ f, V2.uses op f = true → V2.demoOwner i f = true) ∧
      started 0 τ ≠ [] ∧ started 1 τ ≠ [] := by
  obtain ⟨funs, hc, h⟩ := C86_goroutines_text
  refine ⟨funs, hc, fun fuel depth hf hd => ?_⟩
  obtain ⟨τ, c, e, hi, hu, hp⟩ := V2.demoOwn_runs Two.Fits trivial trivial
  have hl := (owned_linearizable V2.demoOwner_one (rest_quiet V3.demo) e fun i op ho =>
    (V2.exec_pre op (e.allowed_of_started ho).1).mono (hu i op ho)).2.1
  rw [hp] at hl
  refine ⟨Trace.map goVal τ, c.map goVal, (h fuel depth hf hd _ (fun _ o => o.2) (rest _ _ V3.demo) _ _).2 ⟨τ, c, e, rfl, rfl⟩,
    (idle_map _ _).2 hi, fun i => by rw [started_map]; exact hu i, ?_, ?_⟩ <;> rw [started_map]
  · obtain ⟨w, hw, _⟩ := hl 0
    rw [hw]; exact List.cons_ne_nil _ _
  · obtain ⟨w, hw, _⟩ := hl 1
    rw [hw]; exact List.cons_ne_nil _ _

/-- C54's lost byte from the text, in the scope of `C111_parts_text`. -/
example : ∃ funs, compileAll (V2Utils.text ++ V2Buffer.text) = some funs ∧ ∀ (fuel depth : Nat), 2 ^ 64 < fuel → 4 ≤ depth →
    ∃ (τ : Trace V2.Op2 V) (c : Conf V2.Op2 V),
      Exec (textCall ⟨funs, V2Buffer.errs⟩ fuel depth) (fun op => V2.Steady op ∧ Two.Fits op) (rest _ _ V3.demo) τ c ∧ (∀ i, c.thr i = .idle) ∧
      c.sh.st.bytes = [3, 4, 5, 0xBB, 7, 8, 9, 10, 11, 12, 13, 14] := by
  obtain ⟨funs, hc, h⟩ := C86_goroutines_text
  refine ⟨funs, hc, fun fuel depth hf hd => ?_⟩
  obtain ⟨τ, c, e, hi, hb⟩ := sched_ex_done (allowed := fun op => V2.Steady op ∧ Two.Fits op) (ex := V2.exec) (rest_quiet V3.demo) 2 V2.demoLost
    (fun _ c => c.sh.st.bytes == [3, 4, 5, 0xBB, 7, 8, 9, 10, 11, 12, 13, 14])
    (allowed_of fun op ho => by
      rcases (by simpa [V2.demoLost, steps, List.filterMap_cons, List.filterMap_append, List.filterMap_replicate_of_none] using ho :
        op = _ ∨ op = _) with rfl | rfl <;> exact ⟨trivial, trivial⟩) (by decide) (by decide +kernel)
  exact ⟨Trace.map goVal τ, c.map goVal, (h fuel depth hf hd _ (fun _ o => o.2) (rest _ _ V3.demo) _ _).2 ⟨τ, c, e, rfl, rfl⟩,
    (idle_map _ _).2 hi, eq_of_beq hb⟩

/-- C108's case from the text: two halves of one byte are set while a third goroutine reads another. -/
example : ∃ funs, compileAll (V2Utils.text ++ V2Buffer.text) = some funs ∧ ∀ (fuel depth : Nat), 2 ^ 64 < fuel → 4 ≤ depth →
    ∃ (τ : Trace V2.Op2 V) (c : Conf V2.Op2 V), Exec (textCall ⟨funs, V2Buffer.errs⟩ fuel depth) Two.Fits (rest _ _ V3.demo) τ c ∧
      (∀ i, c.thr i = .idle) ∧ (∀ i, ∀ op ∈ started i τ, V2.Within V3.demo op) ∧
      (∀ i j, i ≠ j → ∀ op ∈ started i τ, ∀ op' ∈ started j τ, V2.changes op = true → ∀ x, V2.Touches op x → ¬ V2.Touches op' x) ∧
      started 0 τ = [.setBits (some 4) 15 4] ∧ started 1 τ = [.setBits (some 0) 10 4] ∧
      c.sh.st.bytes = [0xAF, 4, 5, 6, 7, 8, 9, 10, 11, 12, 13, 14] := by
  obtain ⟨funs, hc, h⟩ := C86_goroutines_text
  refine ⟨funs, hc, fun fuel depth hf hd => ?_⟩
  obtain ⟨τ, c, e, hi, hw, ha, h0, h1, hb, _⟩ := V2.demoApart_runs
  have e' := e.restrict (P := Two.Fits) fun i op ho => by
    obtain ⟨⟨lo, hi, hs, _⟩, _⟩ := hw i op ho
    cases op <;> first | exact True.intro | exact nomatch hs
  refine ⟨Trace.map goVal τ, c.map goVal, (h fuel depth hf hd _ (fun _ o => o) (rest _ _ V3.demo) _ _).2 ⟨τ, c, e', rfl, rfl⟩,
    (idle_map _ _).2 hi, ?_⟩
  simp only [started_map]
  exact ⟨hw, ha, h0, h1, hb⟩

/-! ## v1 -/

/-- C111: C110 for goroutines that run the text of v1/buffer.go. -/
theorem C111_v1_own_cursor_text :
    ∃ funs, compileAll (V1Utils.text ++ V1Buffer.text) = some funs ∧
    ∀ (fuel depth : Nat), 2 ^ 64 < fuel → 4 ≤ depth → ∀ {own : Nat → Field → Bool}, (∀ i j f, own i f = true → own j f = true → i = j) →
    ∀ {c0 c : Conf V1.Op1 V} {τ : Trace V1.Op1 V}, Quiet c0 →
    Exec (textCall1 ⟨funs, V1Buffer.errs⟩ fuel depth) (fun op => V1.Whole1 op ∧ One.Fits op) c0 τ c →
    (∀ i, ∀ op ∈ started i τ, ∀ f, V1.uses1 op f = true → own i f = true) →
    (∀ i, ∃ pending, ofThread i (seqRun (textCall1 ⟨funs, V1Buffer.errs⟩ fuel depth) (points τ) c0.sh).1 = finished i τ ++ pending ∧
      pending.length ≤ 1 ∧ (c.thr i = .idle → pending = [])) ∧
    (∀ i, ∃ waiting, started i τ = ofThread i (points τ) ++ waiting ∧ waiting.length ≤ 1 ∧ (c.thr i = .idle → waiting = [])) ∧
    ((∀ i, c.thr i = .idle) → c.sh = (seqRun (textCall1 ⟨funs, V1Buffer.errs⟩ fuel depth) (points τ) c0.sh).2) := by
  obtain ⟨funs, hc, h⟩ := C87_buffer_text
  refine ⟨funs, hc, fun fuel depth hf hd own disj c0 c τ q e hu => owned_linearizable disj q e fun i op ho => ?_⟩
  have ha := e.allowed_of_started ho
  rw [h fuel depth hf hd op ha.2]
  exact ((V1.exec1_pre op ha.1).map goVal1).mono (hu i op ho)

/-- C111: C109 for goroutines that run the text of v1/buffer.go. -/
theorem C111_v1_parts_text :
    ∃ funs, compileAll (V1Utils.text ++ V1Buffer.text) = some funs ∧
    ∀ (fuel depth : Nat), 2 ^ 64 < fuel → 4 ≤ depth → ∀ {c0 c : Conf V1.Op1 V} {τ : Trace V1.Op1 V}, Quiet c0 →
    Exec (textCall1 ⟨funs, V1Buffer.errs⟩ fuel depth) (fun op => V1.Steady1 op ∧ One.Fits op) c0 τ c →
    ∃ (t : Trace V1.Op1 V1.Val1) (L : List (Nat × V1.Op1)), τ = Trace.map goVal1 t ∧ (∀ a ∈ L, V1.Single1 a.2) ∧
      Explains V1.exec1 V1.parts1 c0.sh t L ∧
      (∀ t1 t2, t = t1 ++ t2 → ∃ L1 L2, L = L1 ++ L2 ∧ Explains V1.exec1 V1.parts1 c0.sh t1 L1) ∧
      (∀ i, c.thr i = .idle → Pieces V1.parts1 (finished i t) (ofThread i (seqRun V1.exec1 L c0.sh).1)) ∧
      ((∀ i, c.thr i = .idle) → c.sh = (seqRun V1.exec1 L c0.sh).2) := by
  obtain ⟨funs, hc, h⟩ := C87_buffer_text
  refine ⟨funs, hc, fun fuel depth hf hd c0 c τ q e => ?_⟩
  obtain ⟨d0, t, d, q', es, e', rfl, rfl⟩ := exec_model (ex := V1.exec1) (g := goVal1) (fun op ho => h fuel depth hf hd op ho.2) q e
  obtain ⟨L, h1, h2, h3, h4, h5⟩ := V1.C109_v1_look_act_move q' (e'.mono fun _ ho => ho.1)
  rw [es] at h2 h3 h4 h5
  exact ⟨t, L, rfl, h1, h2, h3, fun i hi => h4 i (Thr.map_idle hi), fun hi => h5 ((idle_map _ _).1 hi)⟩

/-- C111: C108 for goroutines that run the text of v1/buffer.go. -/
theorem C111_v1_no_interference_text :
    ∃ funs, compileAll (V1Utils.text ++ V1Buffer.text) = some funs ∧
    ∀ (fuel depth : Nat), 2 ^ 64 < fuel → 4 ≤ depth → ∀ {c0 c : Conf V1.Op1 V} {τ : Trace V1.Op1 V}, Quiet c0 → V3.WF c0.sh.st →
    Exec (textCall1 ⟨funs, V1Buffer.errs⟩ fuel depth) One.Fits c0 τ c → (∀ i, ∀ op ∈ started i τ, V1.Within1 c0.sh.st op) →
    (∀ i j, i ≠ j → ∀ op ∈ started i τ, ∀ op' ∈ started j τ, V1.changes1 op = true → ∀ x, V1.Touches1 op x → ¬ V1.Touches1 op' x) →
    (∀ i, (finished i τ).map (fun x => (i, x.1, x.2)) = (V2.soloRun (textCall1 ⟨funs, V1Buffer.errs⟩ fuel depth) i τ c0.sh).1) ∧
      ((∀ i, c.thr i = .idle) → c.sh.locked = false ∧ c.sh.st.b = c0.sh.st.b ∧
        (∀ a i, (a ≠ c0.sh.st.b.buf.arr ∨ i < c0.sh.st.b.buf.off ∨ c0.sh.st.b.buf.off + c0.sh.st.b.buf.len ≤ i) →
          (c.sh.st.mem.array a)[i]? = (c0.sh.st.mem.array a)[i]?) ∧
        (∀ i, ∀ op ∈ started i τ, V1.changes1 op = true → ∀ x, V1.Touches1 op x →
          Spec.bit c.sh.st.bytes x = Spec.bit (V2.soloRun (textCall1 ⟨funs, V1Buffer.errs⟩ fuel depth) i τ c0.sh).2.st.bytes x) ∧
        ∀ x, (∀ i, ∀ op ∈ started i τ, V1.changes1 op = true → ¬ V1.Touches1 op x) → Spec.bit c.sh.st.bytes x = Spec.bit c0.sh.st.bytes x) := by
  obtain ⟨funs, hc, h⟩ := C87_buffer_text
  refine ⟨funs, hc, fun fuel depth hf hd c0 c τ q hw e within apart => ?_⟩
  obtain ⟨d0, t, d, q', es, e', rfl, rfl⟩ := exec_model (ex := V1.exec1) (g := goVal1) (fun op ho => h fuel depth hf hd op ho) q e
  simp only [started_map] at within apart ⊢
  have sm := fun i s => soloRun_map (i := i) (fun op ho => h fuel depth hf hd op ((e'.allows q').2 i op ho)) s
  rw [← es] at hw within
  obtain ⟨h1, h2⟩ := V1.C108_v1_no_interference q' hw (e'.mono fun _ _ => trivial) within apart
  rw [es] at h1 h2
  refine ⟨fun i => ?_, fun hi => ?_⟩
  · rw [sm, finished_map, ← h1 i, List.map_map, List.map_map]
    rfl
  · obtain ⟨k1, k2, k3, k4, k5⟩ := h2 ((idle_map _ _).1 hi)
    exact ⟨k1, k2, k3, fun i op ho hc x hx => (k4 i op ho hc x hx).trans (by rw [sm]), k5⟩

/-- C110's case from the text of v1: `WriteComplexNext` beside `WriteByte`. -/
example : ∃ funs, compileAll (V1Utils.text ++ V1Buffer.text) = some funs ∧ ∀ (fuel depth : Nat), 2 ^ 64 < fuel → 4 ≤ depth →
    ∃ (τ : Trace V1.Op1 V) (c : Conf V1.Op1 V),
      Exec (textCall1 ⟨funs, V1Buffer.errs⟩ fuel depth) (fun op => V1.Whole1 op ∧ One.Fits op) (rest _ _ V3.demo) τ c ∧ (∀ i, c.thr i = .idle) ∧
      (∀ i, ∀ op ∈ started i τ, ∀ f, V1.uses1 op f = true → V2.demoOwner i f = true) ∧
      c.sh.st.bytes = [3, 4, 5, 0x11, 0x22, 8, 9, 10, 11, 12, 13, 14] := by
  obtain ⟨funs, hc, h⟩ := C87_goroutines_text
  refine ⟨funs, hc, fun fuel depth hf hd => ?_⟩
  obtain ⟨τ, c, e, hi, hu, _, hb⟩ := V1.demoOwn1_runs One.Fits nofun (fun _ h => by cases h; trivial)
  exact ⟨Trace.map goVal1 τ, c.map goVal1, (h fuel depth hf hd _ (fun _ o => o.2) (rest _ _ V3.demo) _ _).2 ⟨τ, c, e, rfl, rfl⟩,
    (idle_map _ _).2 hi, fun i => by rw [started_map]; exact hu i, hb⟩

/-- Two integers written at one offset by the text of v1, in the scope of `C111_v1_parts_text`. -/
example : ∃ funs, compileAll (V1Utils.text ++ V1Buffer.text) = some funs ∧ ∀ (fuel depth : Nat), 2 ^ 64 < fuel → 4 ≤ depth →
    ∃ (τ : Trace V1.Op1 V) (c : Conf V1.Op1 V),
      Exec (textCall1 ⟨funs, V1Buffer.errs⟩ fuel depth) (fun op => V1.Steady1 op ∧ One.Fits op) (rest _ _ V3.demo) τ c ∧ (∀ i, c.thr i = .idle) ∧
      c.sh.st.bytes = [3, 4, 5, 0x33, 0x44, 8, 9, 10, 11, 12, 13, 14] := by
  obtain ⟨funs, hc, h⟩ := C87_goroutines_text
  refine ⟨funs, hc, fun fuel depth hf hd => ?_⟩
  obtain ⟨τ, c, e, hi, hb⟩ := sched_ex_done (allowed := fun op => V1.Steady1 op ∧ One.Fits op) (ex := V1.exec1) (rest_quiet V3.demo) 2 V1.demoLost1
    (fun _ c => c.sh.st.bytes == [3, 4, 5, 0x33, 0x44, 8, 9, 10, 11, 12, 13, 14])
    (allowed_of fun op ho => by
      rcases (by simpa [V1.demoLost1, steps, List.filterMap_cons, List.filterMap_append, List.filterMap_replicate_of_none] using ho :
        op = _ ∨ op = _) with rfl | rfl <;> exact ⟨trivial, nofun⟩) (by decide) (by decide +kernel)
  exact ⟨Trace.map goVal1 τ, c.map goVal1, (h fuel depth hf hd _ (fun _ o => o.2) (rest _ _ V3.demo) _ _).2 ⟨τ, c, e, rfl, rfl⟩,
    (idle_map _ _).2 hi, eq_of_beq hb⟩

/-- C108's case from the text of v1: neighbouring integers. -/
example : ∃ funs, compileAll (V1Utils.text ++ V1Buffer.text) = some funs ∧ ∀ (fuel depth : Nat), 2 ^ 64 < fuel → 4 ≤ depth →
    ∃ (τ : Trace V1.Op1 V) (c : Conf V1.Op1 V), Exec (textCall1 ⟨funs, V1Buffer.errs⟩ fuel depth) One.Fits (rest _ _ V3.demo) τ c ∧
      (∀ i, c.thr i = .idle) ∧ (∀ i, ∀ op ∈ started i τ, V1.Within1 V3.demo op) ∧
      (∀ i j, i ≠ j → ∀ op ∈ started i τ, ∀ op' ∈ started j τ, V1.changes1 op = true → ∀ x, V1.Touches1 op x → ¬ V1.Touches1 op' x) ∧
      started 0 τ ≠ [] ∧ started 1 τ ≠ [] ∧ c.sh.st.bytes = [0x11, 0x22, 0x44, 0x33, 7, 8, 9, 10, 11, 12, 13, 14] := by
  obtain ⟨funs, hc, h⟩ := C87_goroutines_text
  refine ⟨funs, hc, fun fuel depth hf hd => ?_⟩
  obtain ⟨τ, c, e, hi, hw, ha, h0, h1, hb⟩ := V1.demoApart1_runs
  have e' := e.restrict (P := One.Fits) fun i op ho => by
    obtain ⟨⟨lo, hi, hs, _⟩, _⟩ := hw i op ho
    intro op2 h2
    cases op <;> first | (simp [V1.toV2] at h2; done) | (simp [V1.toV2] at h2; subst h2; exact True.intro) | (simp [V1.span1] at hs; done)
  refine ⟨Trace.map goVal1 τ, c.map goVal1, (h fuel depth hf hd _ (fun _ o => o) (rest _ _ V3.demo) _ _).2 ⟨τ, c, e', rfl, rfl⟩,
    (idle_map _ _).2 hi, ?_⟩
  simp only [started_map]
  exact ⟨hw, ha, h0, h1, hb⟩

end Crunch.Src
