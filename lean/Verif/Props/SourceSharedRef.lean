import Verif.Props.SharedRef
import Verif.Props.SourceNexts
import Verif.Props.SourceHist

/-!
# Goroutines that run the text follow the reference machine (C130)

C112 says of the model that what goroutines get from a shared buffer is what the reference machine answers.  Here the goroutines run
the text of v2/buffer.go or v1/buffer.go in single steps, and their Go values are compared with the machine's answers.
-/

namespace Crunch

theorem track_map (g : V → W) (τ : Trace O V) : track (Trace.map g τ) = track τ := by
  unfold track Trace.map
  rw [List.foldl_map]
  congr 1
  funext t x
  obtain ⟨j, a⟩ := x
  cases a with
  | did e p => cases e <;> rfl
  | _ => rfl

theorem points_map (g : V → W) (τ : Trace O V) : points (Trace.map g τ) = points τ := congrArg Track.pts (track_map g τ)

theorem Res.runtime_map (g : V → W) (r : Res V) : (r.map g).runtime = r.runtime := by cases r <;> rfl

end Crunch

namespace Crunch.Src
open V3 (St WF abs)

/-- Goroutines that run `run` have got from a shared buffer, and left in it, what a machine says of the calls in the order `L`: each
goroutine has the outcomes of its calls in `L` made alone one after another; those outcomes, a slice that is returned being looked at
when its call is over, are the machine's answers; the machine ends in the state of the buffer and does not report a mutex that stays
held, and the mutex is free. -/
structure Follows (run : O → Prog V) (machine : List (Res Ref.Val) × Ref.Ref × Bool) (c0 c : Conf O V) (τ : Trace O V) (L : List (Nat × O)) :
    Prop where
  outcomes : ∀ i, finished i τ = ofThread i (seqRun run L c0.sh).1
  answers : ∀ k, machine.1[k]? =
    ((seqRun run L c0.sh).1[k]?).map fun x => seenRes (seqRun run (L.take (k + 1)) c0.sh).2.st.mem x.2.2
  state : machine.2 = (abs c.sh.st, false)
  free : c.sh.locked = false
  good : WF c.sh.st

/-- From the model to the text. -/
theorem Follows.of_model {ex : O → Prog U} {run : O → Prog V} {g : U → V} {machine : List (Res Ref.Val) × Ref.Ref × Bool}
    {sees : Heap → Res U → Res Ref.Val} (hg : ∀ m r, seenRes m (r.map g) = sees m r)
    {c0 c : Conf O U} {τ : Trace O U} {L : List (Nat × O)} (hx : ∀ a ∈ L, run a.2 = (ex a.2).map g)
    (outcomes : ∀ i, finished i τ = ofThread i (seqRun ex L c0.sh).1)
    (answers : ∀ k, machine.1[k]? = ((seqRun ex L c0.sh).1[k]?).map fun x => sees (seqRun ex (L.take (k + 1)) c0.sh).2.st.mem x.2.2)
    (state : machine.2 = (abs c.sh.st, false)) (free : c.sh.locked = false) (good : WF c.sh.st)
    {c0' : Conf O V} (hs : c0.sh = c0'.sh) : Follows run machine c0' (c.map g) (Trace.map g τ) L where
  outcomes i := by
    rw [finished_map, outcomes i, ← hs, seqRun_map hx]
    unfold ofThread
    rw [List.filter_map, List.map_map, List.map_map]
    rfl
  answers k := by
    rw [answers k, ← hs, seqRun_map hx, seqRun_map fun a ha => hx a (List.mem_of_mem_take ha), List.getElem?_map, Option.map_map]
    congr 1
    funext x
    exact (hg _ _).symm
  state := state
  free := free
  good := good

theorem mem_points_started {O V : Type} {τ : Trace O V} (h : ∀ i, started i τ = ofThread i (points τ)) {a : Nat × O} (ha : a ∈ points τ) :
    a.2 ∈ started a.1 τ := by
  rw [h]; exact mem_ofThread ha

/-- C130: goroutines run the text of v2/buffer.go in single steps, in any interleaving; their calls have a single locked section, and a
part of the buffer that is an offset is used by one goroutine at most.  When all have returned, and no call has failed inside its section
leaving the mutex held, the Go values they have got are the answers of the reference machine for the calls in the order in which they took
the mutex, and the machine ends with the state of the buffer. -/
theorem C130_v2_text_reference :
    ∃ funs, compileAll (V2Utils.text ++ V2Buffer.text) = some funs ∧
    ∀ (fuel depth : Nat), 2 ^ 64 < fuel → 4 ≤ depth → ∀ {own : Nat → Field → Bool}, (∀ i j f, own i f = true → own j f = true → i = j) →
    ∀ {c0 c : Conf V2.Op2 V} {τ : Trace V2.Op2 V}, Quiet c0 → WF c0.sh.st →
    Exec (textCall ⟨funs, V2Buffer.errs⟩ fuel depth) (fun op => V2.Whole op ∧ Two.Fits op) c0 τ c →
    (∀ i, ∀ op ∈ started i τ, ∀ f, V2.uses op f = true → own i f = true) →
    (∀ i, c.thr i = .idle) → (∀ i, ∀ op ∈ started i τ, op.Valid c0.sh.st.mem) →
    (∀ i, ∀ x ∈ finished i τ, V2.leaks x.1 = true → x.2.runtime = false) →
    Follows (textCall ⟨funs, V2Buffer.errs⟩ fuel depth)
      (Ref.run2 (V2.lowerAll ((points τ).map (·.2)) c0.sh.st) (abs c0.sh.st)) c0 c τ (points τ) := by
  obtain ⟨funs, hc, h⟩ := C86_buffer_text
  refine ⟨funs, hc, fun fuel depth hf hd own disj c0 c τ q hw e hu hi args clean => ?_⟩
  obtain ⟨d0, t, d, q', es, e', rfl, rfl⟩ := exec_model (ex := V2.exec) (g := goVal) (fun op ho => h fuel depth hf hd op ho.2) q e
  simp only [started_map, ← es] at hu args hw
  rw [points_map, ← es]
  have hi := (idle_map _ _).1 hi
  have em := e'.mono (Q := V2.Whole) fun _ ho => ho.1
  have hm := V2.C112_own_cursor_reference disj q' hw em hu hi args fun i x hx hl => by
    have := clean i (x.1, x.2.map goVal) (by rw [finished_map]; exact List.mem_map.mpr ⟨x, hx, rfl⟩) hl
    rwa [Res.runtime_map] at this
  have hs : ∀ i, started i t = ofThread i (points t) := fun i => by
    obtain ⟨p, hp, _, h0⟩ := (V2.C110_own_cursor disj q' em hu).2.1 i
    rw [hp, h0 (hi i), List.append_nil]
  exact Follows.of_model (g := goVal) (sees := V3.obsRes) (fun m r => by rw [← seenRes_goRes]; cases r <;> rfl)
    (fun a ha => h fuel depth hf hd a.2 (e'.allowed_of_started (mem_points_started hs ha)).2)
    hm.outcomes hm.answers hm.state hm.free hm.good es

/-- In the execution of C110's case, one goroutine writing on and one setting the next bit, run from the text. -/
example : ∃ funs, compileAll (V2Utils.text ++ V2Buffer.text) = some funs ∧ ∀ (fuel depth : Nat), 2 ^ 64 < fuel → 4 ≤ depth →
    ∃ (τ : Trace V2.Op2 V) (c : Conf V2.Op2 V),
      Exec (textCall ⟨funs, V2Buffer.errs⟩ fuel depth) (fun op => V2.Whole op ∧ Two.Fits op) (rest _ _ V3.demo) τ c ∧ (∀ i, c.thr i = .idle) ∧
      started 0 τ ≠ [] ∧ started 1 τ ≠ [] ∧
      Follows (textCall ⟨funs, V2Buffer.errs⟩ fuel depth)
        (Ref.run2 (V2.lowerAll ((points τ).map (·.2)) V3.demo) (abs V3.demo)) (rest _ _ V3.demo) c τ (points τ) := by
  obtain ⟨funs, hc, h⟩ := C130_v2_text_reference
  obtain ⟨funs', hc', h'⟩ := C86_goroutines_text
  cases hc.symm.trans hc'
  refine ⟨funs, hc, fun fuel depth hf hd => ?_⟩
  obtain ⟨τ, c, e, hi, hu, hp⟩ := V2.demoOwn_runs Two.Fits True.intro True.intro
  obtain ⟨h1, h2, _⟩ := V2.C110_own_cursor V2.demoOwner_one (rest_quiet V3.demo) (e.mono (Q := V2.Whole) fun _ h => h.1) hu
  have hs : ∀ i, started i τ = ofThread i (points τ) := fun i => by
    obtain ⟨p, hp, _, h0⟩ := h2 i
    rw [hp, h0 (hi i), List.append_nil]
  have hfin : ∀ i, finished i τ = ofThread i (seqRun V2.exec (points τ) (rest V2.Op2 V3.Val V3.demo).sh).1 := fun i => by
    obtain ⟨p, hp, _, h0⟩ := h1 i
    rw [hp, h0 (hi i), List.append_nil]
  have et := (h' fuel depth hf hd _ (fun _ o => o.2) (rest _ _ V3.demo) _ _).2 ⟨τ, c, e, rfl, rfl⟩
  have hit := (idle_map goVal c).2 hi
  refine ⟨Trace.map goVal τ, c.map goVal, et, hit, by rw [started_map, hs, hp]; exact List.cons_ne_nil _ _,
    by rw [started_map, hs, hp]; exact List.cons_ne_nil _ _,
    h fuel depth hf hd V2.demoOwner_one (rest_quiet V3.demo) V3.demo_wf et (fun i => by rw [started_map]; exact hu i) hit
      (fun i op ho => ?_) fun i x hx hl => ?_⟩
  · rw [started_map, hs, hp] at ho
    rcases List.mem_cons.mp (of_mem_ofThread ho) with h | h
    · cases h; trivial
    · cases List.mem_singleton.mp h
      exact ⟨by decide, by decide, by decide⟩
  · rw [finished_map] at hx
    obtain ⟨y, hy, rfl⟩ := List.mem_map.mp hx
    rw [hfin, hp] at hy
    have ha : ((seqRun V2.exec [(1, .setBit none 1), (0, .writeBytes none ⟨1, 0, 1, 3⟩)] (rest V2.Op2 V3.Val V3.demo).sh).1.all
      fun x => !x.2.2.runtime) = true := by decide +kernel
    rw [Res.runtime_map]
    simpa using List.all_eq_true.mp ha _ (of_mem_ofThread hy)

/-- C130: the same for v1/buffer.go. -/
theorem C130_v1_text_reference :
    ∃ funs, compileAll (V1Utils.text ++ V1Buffer.text) = some funs ∧
    ∀ (fuel depth : Nat), 2 ^ 64 < fuel → 4 ≤ depth → ∀ {own : Nat → Field → Bool}, (∀ i j f, own i f = true → own j f = true → i = j) →
    ∀ {c0 c : Conf V1.Op1 V} {τ : Trace V1.Op1 V}, Quiet c0 → WF c0.sh.st →
    Exec (textCall1 ⟨funs, V1Buffer.errs⟩ fuel depth) (fun op => V1.Whole1 op ∧ One.Fits op) c0 τ c →
    (∀ i, ∀ op ∈ started i τ, ∀ f, V1.uses1 op f = true → own i f = true) →
    (∀ i, c.thr i = .idle) → (∀ i, ∀ op ∈ started i τ, op.Valid c0.sh.st.mem) →
    (∀ i, ∀ x ∈ finished i τ, V1.leaks1 x.1 = true → x.2.runtime = false) →
    Follows (textCall1 ⟨funs, V1Buffer.errs⟩ fuel depth)
      (Ref.run1 (V1.lowerAll1 ((points τ).map (·.2)) c0.sh.st) (abs c0.sh.st)) c0 c τ (points τ) := by
  obtain ⟨funs, hc, h⟩ := C87_buffer_text
  refine ⟨funs, hc, fun fuel depth hf hd own disj c0 c τ q hw e hu hi args clean => ?_⟩
  obtain ⟨d0, t, d, q', es, e', rfl, rfl⟩ := exec_model (ex := V1.exec1) (g := goVal1) (fun op ho => h fuel depth hf hd op ho.2) q e
  simp only [started_map, ← es] at hu args hw
  rw [points_map, ← es]
  have hi := (idle_map _ _).1 hi
  have em := e'.mono (Q := V1.Whole1) fun _ ho => ho.1
  have hm := V1.C112_v1_own_cursor_reference disj q' hw em hu hi args fun i x hx hl => by
    have := clean i (x.1, x.2.map goVal1) (by rw [finished_map]; exact List.mem_map.mpr ⟨x, hx, rfl⟩) hl
    rwa [Res.runtime_map] at this
  have hs : ∀ i, started i t = ofThread i (points t) := fun i => by
    obtain ⟨p, hp, _, h0⟩ := (V1.C110_v1_own_cursor disj q' em hu).2.1 i
    rw [hp, h0 (hi i), List.append_nil]
  exact Follows.of_model (g := goVal1) (sees := fun m r => V3.obsRes m (V1.toRes r)) (fun m r => by rw [← seenRes_goRes1]; cases r <;> rfl)
    (fun a ha => h fuel depth hf hd a.2 (e'.allowed_of_started (mem_points_started hs ha)).2)
    hm.outcomes hm.answers hm.state hm.free hm.good es

/-- In the execution of C110's case, one goroutine appending an integer and one writing a byte, run from the text. -/
example : ∃ funs, compileAll (V1Utils.text ++ V1Buffer.text) = some funs ∧ ∀ (fuel depth : Nat), 2 ^ 64 < fuel → 4 ≤ depth →
    ∃ (τ : Trace V1.Op1 V) (c : Conf V1.Op1 V),
      Exec (textCall1 ⟨funs, V1Buffer.errs⟩ fuel depth) (fun op => V1.Whole1 op ∧ One.Fits op) (rest _ _ V3.demo) τ c ∧ (∀ i, c.thr i = .idle) ∧
      started 0 τ ≠ [] ∧ started 1 τ ≠ [] ∧
      Follows (textCall1 ⟨funs, V1Buffer.errs⟩ fuel depth)
        (Ref.run1 (V1.lowerAll1 ((points τ).map (·.2)) V3.demo) (abs V3.demo)) (rest _ _ V3.demo) c τ (points τ) := by
  obtain ⟨funs, hc, h⟩ := C130_v1_text_reference
  obtain ⟨funs', hc', h'⟩ := C87_goroutines_text
  cases hc.symm.trans hc'
  refine ⟨funs, hc, fun fuel depth hf hd => ?_⟩
  obtain ⟨τ, c, e, hi, hu, hp, _⟩ := V1.demoOwn1_runs One.Fits nofun (fun _ h => by cases h; trivial)
  obtain ⟨h1, h2, _⟩ := V1.C110_v1_own_cursor V2.demoOwner_one (rest_quiet V3.demo) (e.mono (Q := V1.Whole1) fun _ h => h.1) hu
  have hs : ∀ i, started i τ = ofThread i (points τ) := fun i => by
    obtain ⟨p, hp, _, h0⟩ := h2 i
    rw [hp, h0 (hi i), List.append_nil]
  have hfin : ∀ i, finished i τ = ofThread i (seqRun V1.exec1 (points τ) (rest V1.Op1 V1.Val1 V3.demo).sh).1 := fun i => by
    obtain ⟨p, hp, _, h0⟩ := h1 i
    rw [hp, h0 (hi i), List.append_nil]
  have et := (h' fuel depth hf hd _ (fun _ o => o.2) (rest _ _ V3.demo) _ _).2 ⟨τ, c, e, rfl, rfl⟩
  have hit := (idle_map goVal1 c).2 hi
  refine ⟨Trace.map goVal1 τ, c.map goVal1, et, hit, by rw [started_map, hs, hp]; exact List.cons_ne_nil _ _,
    by rw [started_map, hs, hp]; exact List.cons_ne_nil _ _,
    h fuel depth hf hd V2.demoOwner_one (rest_quiet V3.demo) V3.demo_wf et (fun i => by rw [started_map]; exact hu i) hit
      (fun i op ho => ?_) fun i x hx hl => ?_⟩
  · rw [started_map, hs, hp] at ho
    rcases List.mem_cons.mp (of_mem_ofThread ho) with h | h
    · cases h; trivial
    · cases List.mem_singleton.mp h
      show 1 * 2 ≤ maxAlloc
      decide
  · rw [finished_map] at hx
    obtain ⟨y, hy, rfl⟩ := List.mem_map.mp hx
    rw [hfin, hp] at hy
    have ha : ((seqRun V1.exec1 [(1, .writeByte (some 3) 9), (0, .writeComplex none (.u16 [0x1122]) 2 (some .be))] (rest V1.Op1 V1.Val1 V3.demo).sh).1.all
      fun x => !x.2.2.runtime) = true := by decide +kernel
    rw [Res.runtime_map]
    simpa using List.all_eq_true.mp ha _ (of_mem_ofThread hy)

end Crunch.Src
