import Verif.Props.SourceV2Buffer
import Verif.Props.SourceV1Buffer
import Verif.Props.Safe
import Verif.Lemmas.ConcText

/-!
# Goroutines that run the text (C97)

C90 – C93 are about goroutines that run the model of the shared `Buffer`s.  By C86 and C87 the text has the same steps, so the same holds
of goroutines that run the text of v2/buffer.go and v1/buffer.go by the interpreter.
-/

namespace Crunch.Src

/-! ## v2 -/

/-- C97: goroutines that run the text of v2/buffer.go neither deadlock nor livelock, as in C90: unless a call has ended by a panic
inside its locked section, somebody in a call can step; calls in progress cannot step for ever; so they can be finished; and after a
call has ended inside its section the mutex stays locked and the state never changes again. -/
theorem C97_finish_text :
    ∃ funs, compileAll (V2Utils.text ++ V2Buffer.text) = some funs ∧
    ∀ (fuel depth : Nat), 2 ^ 64 < fuel → 4 ≤ depth → ∀ {c0 c : Conf V2.Op2 V} {τ : Trace V2.Op2 V}, Quiet c0 →
    Exec (textCall ⟨funs, V2Buffer.errs⟩ fuel depth) Two.Fits c0 τ c →
    (¬ EndedInside τ → (∀ i, c.thr i = .idle) ∨ ∃ i a c', Step (textCall ⟨funs, V2Buffer.errs⟩ fuel depth) noCall c i a c') ∧
    (∀ (f : Nat → Conf V2.Op2 V) (i : Nat → Nat) (a : Nat → Act V2.Op2 V), f 0 = c →
      ¬ ∀ n, Step (textCall ⟨funs, V2Buffer.errs⟩ fuel depth) noCall (f n) (i n) (a n) (f (n + 1))) ∧
    (∃ τ' c', Exec (textCall ⟨funs, V2Buffer.errs⟩ fuel depth) noCall c τ' c' ∧ ((∀ i, c'.thr i = .idle) ∨ EndedInside (τ ++ τ'))) ∧
    (EndedInside τ → ∀ τ' c', Exec (textCall ⟨funs, V2Buffer.errs⟩ fuel depth) Two.Fits c τ' c' → c'.sh.locked = true ∧ c'.sh.st = c.sh.st) := by
  obtain ⟨funs, hc, h⟩ := C86_buffer_text
  refine ⟨funs, hc, fun fuel depth hf hd c0 c τ q e => ?_⟩
  have hb : ∀ op, Two.Fits op → Brk false false (textCall ⟨funs, V2Buffer.errs⟩ fuel depth op) := fun op ho => by
    rw [h fuel depth hf hd op ho]
    exact (V2.exec_brk op).bind fun _ => rfl
  refine ⟨fun hn => shared_no_deadlock hb q e hn, fun f i a h0 => shared_finite q e f i a h0, shared_finish hb q e, fun he τ' c' e' => ?_⟩
  obtain ⟨h1, h2, _⟩ := shared_stuck hb q e he e'
  exact ⟨h1, h2⟩

/-- C97: calls other than writes and `Grow`, run from the text, never end inside their sections, and can always be finished. -/
theorem C97_reads_finish_text :
    ∃ funs, compileAll (V2Utils.text ++ V2Buffer.text) = some funs ∧
    ∀ (fuel depth : Nat), 2 ^ 64 < fuel → 4 ≤ depth → ∀ {c0 c : Conf V2.Op2 V} {τ : Trace V2.Op2 V}, Quiet c0 →
    Exec (textCall ⟨funs, V2Buffer.errs⟩ fuel depth) (fun op => V2.leaks op = false ∧ Two.Fits op) c0 τ c →
    ¬ EndedInside τ ∧ ∃ τ' c', Exec (textCall ⟨funs, V2Buffer.errs⟩ fuel depth) noCall c τ' c' ∧ ∀ i, c'.thr i = .idle := by
  obtain ⟨funs, hc, h⟩ := C86_buffer_text
  refine ⟨funs, hc, fun fuel depth hf hd c0 c τ q e => ?_⟩
  obtain ⟨d0, t, d, q', _, e', rfl, rfl⟩ := exec_model (ex := V2.exec) (g := goVal) (fun op ho => h fuel depth hf hd op ho.2) q e
  obtain ⟨h1, t1, d1, e1, hi⟩ := V2.C90_reads_finish q' (e'.mono fun op ho => ho.1)
  exact ⟨fun he => h1 ((endedInside_map _ _).1 he), _, _, finish_map _ _ _ e1, (idle_map _ _).2 hi⟩

/-- C97: what C91 says of races holds of goroutines that run the text: there are never two writers, bytes are not raced for unless
somebody calls `ReadByte`, and the calls that are linearizable never race. -/
theorem C97_races_text :
    ∃ funs, compileAll (V2Utils.text ++ V2Buffer.text) = some funs ∧
    ∀ (fuel depth : Nat), 2 ^ 64 < fuel → 4 ≤ depth → ∀ {c0 c : Conf V2.Op2 V} {τ : Trace V2.Op2 V}, Quiet c0 →
    (Exec (textCall ⟨funs, V2Buffer.errs⟩ fuel depth) Two.Fits c0 τ c → ∀ i j l l', c.aboutToWrite i l → c.aboutToWrite j l' → i = j) ∧
    (Exec (textCall ⟨funs, V2Buffer.errs⟩ fuel depth) (fun op => (∀ p, op ≠ .readByte p) ∧ Two.Fits op) c0 τ c → ∀ arr n, ¬ c.Race (.byte arr n)) ∧
    (Exec (textCall ⟨funs, V2Buffer.errs⟩ fuel depth) (fun op => V2.Atomic op ∧ Two.Fits op) c0 τ c → ∀ l, ¬ c.Race l) := by
  obtain ⟨funs, hc, h⟩ := C86_buffer_text
  refine ⟨funs, hc, fun fuel depth hf hd c0 c τ q => ⟨fun e i j l l' hi hj => ?_, fun e arr n hr => ?_, fun e l hr => ?_⟩⟩
  · obtain ⟨d0, t, d, q', _, e', rfl, rfl⟩ := exec_model (ex := V2.exec) (g := goVal) (fun op ho => h fuel depth hf hd op ho) q e
    exact V2.C91_one_writer_partial q' (e'.mono fun _ _ => trivial) ((aboutToWrite_map _ _ _ _).1 hi) ((aboutToWrite_map _ _ _ _).1 hj)
  · obtain ⟨d0, t, d, q', _, e', rfl, rfl⟩ := exec_model (ex := V2.exec) (g := goVal) (fun op ho => h fuel depth hf hd op ho.2) q e
    exact V2.C91_bytes_partial q' (e'.mono fun _ ho => ho.1) arr n ((race_map _ _ _).1 hr)
  · obtain ⟨d0, t, d, q', _, e', rfl, rfl⟩ := exec_model (ex := V2.exec) (g := goVal) (fun op ho => h fuel depth hf hd op ho.2) q e
    exact V2.C91_atomic_partial q' (e'.mono fun _ ho => ho.1) l ((race_map _ _ _).1 hr)

/-- C97: the race of C91 is in the text: `ReadByte` loads the byte after releasing the mutex while `WriteByte` stores it. -/
theorem C97_race_text :
    ∃ funs, compileAll (V2Utils.text ++ V2Buffer.text) = some funs ∧
    ∀ (fuel depth : Nat), 2 ^ 64 < fuel → 4 ≤ depth → ∃ τ c, Exec (textCall ⟨funs, V2Buffer.errs⟩ fuel depth) Two.Fits (rest _ _ V3.demo) τ c ∧
      started 0 τ = [.readByte (some 0)] ∧ started 1 τ = [.writeByte (some 0) 7] ∧ c.Race (.byte 0 2) := by
  obtain ⟨funs, hc, h⟩ := C86_buffer_text
  refine ⟨funs, hc, fun fuel depth hf hd => ?_⟩
  obtain ⟨τ, c, e, hs⟩ := sched_ex (allowed := Two.Fits) (ex := V2.exec) (c0 := rest _ _ V3.demo) V2.demoByteRace
    (fun τ c => (c.thr 1 matches .busy _ (.store ⟨0, 2, _, _⟩ 0 _ _)) && (c.thr 0 matches .busy _ (.load ⟨0, 2, _, _⟩ 0 _)) &&
      (started 0 τ matches [.readByte (some 0)]) && (started 1 τ matches [.writeByte (some 0) 7]))
    (allowed_of fun op ho => by
      rcases (by simpa [V2.demoByteRace, steps, List.filterMap_cons, List.filterMap_append, List.filterMap_replicate_of_none] using ho :
        op = _ ∨ op = _) with rfl | rfl <;> exact trivial) (by decide +kernel)
  simp only [Bool.and_eq_true] at hs
  obtain ⟨⟨⟨h1, h2⟩, h3⟩, h4⟩ := hs
  refine ⟨Trace.map goVal τ, c.map goVal, e.map (fun op ho => h fuel depth hf hd op ho), ?_, ?_, (race_map _ _ _).2 ⟨1, 0, by decide, ?_, .inr ?_⟩⟩
  · rw [started_map]
    split at h3
    · assumption
    · exact nomatch h3
  · rw [started_map]
    split at h4
    · assumption
    · exact nomatch h4
  · split at h1
    · rename_i h; exact ⟨_, _, h, rfl⟩
    · exact nomatch h1
  · split at h2
    · rename_i h; exact ⟨_, _, h, rfl⟩
    · exact nomatch h2

/-- C97: what C92 says of the capacities holds while goroutines run the text. -/
theorem C97_capacity_text :
    ∃ funs, compileAll (V2Utils.text ++ V2Buffer.text) = some funs ∧
    ∀ (fuel depth : Nat), 2 ^ 64 < fuel → 4 ≤ depth → ∀ {c0 c : Conf V2.Op2 V} {τ : Trace V2.Op2 V}, Quiet c0 → V3.WF c0.sh.st →
    Exec (textCall ⟨funs, V2Buffer.errs⟩ fuel depth) Two.Fits c0 τ c →
    (c.sh.locked = false → c.sh.st.OK ∧ c.sh.st.b.cap.toInt ≤ c.sh.st.b.buf.len ∧ c.sh.st.b.bcap = c.sh.st.b.cap * 8) ∧
    ((∀ i n p, c.thr i ≠ .busy (.grow n) p) → c.sh.locked = false → V3.WF c.sh.st) ∧
    ((∀ i, c.thr i = .idle) → V3.WF c.sh.st) := by
  obtain ⟨funs, hc, h⟩ := C86_buffer_text
  refine ⟨funs, hc, fun fuel depth hf hd c0 c τ q hw e => ?_⟩
  obtain ⟨d0, t, d, q', hs, e', rfl, rfl⟩ := exec_model (ex := V2.exec) (g := goVal) (fun op ho => h fuel depth hf hd op ho) q e
  have e' := e'.mono (Q := V2.anyOp) fun _ _ => trivial
  rw [← hs] at hw
  refine ⟨fun hl => V2.C92_capacity_bound q' hw e' hl, fun hn hl => V2.C92_capacity_exact q' hw e' (fun i n p hp => ?_) hl,
    fun hi => V2.C92_capacity_idle q' hw e' ((idle_map _ _).1 hi)⟩
  exact hn i n (p.map goVal) (by show (d.thr i).map goVal = _; rw [hp]; rfl)

/-- C97: what C93 says of failures holds of goroutines that run the text without `Reset`: a call with a range inside the content at the
beginning returns; one with decent arguments returns or fails with an error of the library; the first call that leaves the mutex
locked is a write or `Grow` with arguments that are not decent. -/
theorem C97_failures_text :
    ∃ funs, compileAll (V2Utils.text ++ V2Buffer.text) = some funs ∧
    ∀ (fuel depth : Nat), 2 ^ 64 < fuel → 4 ≤ depth → ∀ {c0 c : Conf V2.Op2 V} {τ1 τ2 : Trace V2.Op2 V} {i : Nat} {op : V2.Op2} {r : Res V},
    Quiet c0 → V3.WF c0.sh.st →
    Exec (textCall ⟨funs, V2Buffer.errs⟩ fuel depth) (fun op => op ≠ .reset ∧ Two.Fits op) c0 (τ1 ++ (i, .finish op r) :: τ2) c →
    (V2.InRange c0.sh.st.b.buf.len op → ∃ v, r = .ok v) ∧
    (V2.Decent c0.sh.st.b.buf.len op → (∃ v, r = .ok v) ∨ ∃ x, r = .panic (.err x)) ∧
    (inside τ1 i = true → ¬ EndedInside τ1 → V2.leaks op = true ∧ ¬ V2.Decent c0.sh.st.b.buf.len op) := by
  obtain ⟨funs, hc, h⟩ := C86_buffer_text
  refine ⟨funs, hc, fun fuel depth hf hd c0 c τ1 τ2 i op r q hw e => ?_⟩
  obtain ⟨d0, t, d, q', hs, e', ht, rfl⟩ := exec_model (ex := V2.exec) (g := goVal) (fun op ho => h fuel depth hf hd op (ho.2)) q e
  obtain ⟨t1, r0, t2, rfl, rfl, rfl, rfl⟩ := split_map ht.symm
  have e' := e'.mono (Q := fun op => op ≠ .reset) fun _ ho => ho.1
  rw [← hs] at hw ⊢
  refine ⟨fun hr => Res.map_ok (V2.C93_in_range_partial q' hw e' hr), fun hr => ?_, fun hi hn => ?_⟩
  · rcases V2.C93_errors_partial q' hw e' hr with hr | ⟨x, rfl⟩
    · exact .inl (Res.map_ok hr)
    · exact .inr ⟨x, rfl⟩
  · rw [inside_map] at hi
    rw [endedInside_map] at hn
    exact V2.C93_leak_partial q' hw e' hi hn

/-- C97: if all writes have decent arguments and nobody grows or resets the buffer, calls run from the text never end inside their
sections and can always be finished. -/
theorem C97_decent_finish_text :
    ∃ funs, compileAll (V2Utils.text ++ V2Buffer.text) = some funs ∧
    ∀ (fuel depth : Nat), 2 ^ 64 < fuel → 4 ≤ depth → ∀ {c0 c : Conf V2.Op2 V} {τ : Trace V2.Op2 V}, Quiet c0 → V3.WF c0.sh.st →
    Exec (textCall ⟨funs, V2Buffer.errs⟩ fuel depth)
      (fun op => (op ≠ .reset ∧ (V2.leaks op = true → V2.Decent c0.sh.st.b.buf.len op)) ∧ Two.Fits op) c0 τ c →
    ¬ EndedInside τ ∧ ∃ τ' c', Exec (textCall ⟨funs, V2Buffer.errs⟩ fuel depth) noCall c τ' c' ∧ ∀ i, c'.thr i = .idle := by
  obtain ⟨funs, hc, h⟩ := C86_buffer_text
  refine ⟨funs, hc, fun fuel depth hf hd c0 c τ q hw e => ?_⟩
  obtain ⟨d0, t, d, q', hs, e', rfl, rfl⟩ := exec_model (ex := V2.exec) (g := goVal) (fun op ho => h fuel depth hf hd op ho.2) q e
  rw [← hs] at hw
  obtain ⟨h1, t1, d1, e1, hi⟩ := V2.C93_finish_partial q' hw (e'.mono fun op ho => by rw [hs]; exact ho.1)
  exact ⟨fun he => h1 ((endedInside_map _ _).1 he), _, _, finish_map _ _ _ e1, (idle_map _ _).2 hi⟩

/-- C97: the failure of C93 is in the text of v2: a `WriteByte` that has passed its check finds an empty buffer in its section, after
`Reset`, fails with a run-time panic and leaves the mutex locked. -/
theorem C97_reset_text :
    ∃ funs, compileAll (V2Utils.text ++ V2Buffer.text) = some funs ∧
    ∀ (fuel depth : Nat), 2 ^ 64 < fuel → 4 ≤ depth → ∃ τ c, Exec (textCall ⟨funs, V2Buffer.errs⟩ fuel depth) Two.Fits (rest _ _ V3.demo) τ c ∧
      started 0 τ = [.writeByte (some 0) 7] ∧ started 1 τ = [.reset] ∧ finished 0 τ = [(.writeByte (some 0) 7, .panic .index)] ∧
      c.sh.locked = true := by
  obtain ⟨funs, hc, h⟩ := C86_buffer_text
  refine ⟨funs, hc, fun fuel depth hf hd => ?_⟩
  obtain ⟨τ, c, e, hs⟩ := sched_ex (allowed := Two.Fits) (ex := V2.exec) (c0 := rest _ _ V3.demo) V2.demoReset
    (fun τ c => (started 0 τ matches [.writeByte (some 0) 7]) && (started 1 τ matches [.reset]) &&
      (finished 0 τ matches [(.writeByte (some 0) 7, .panic .index)]) && c.sh.locked)
    (allowed_of fun op ho => by
      rcases (by simpa [V2.demoReset, steps, List.filterMap_cons, List.filterMap_append, List.filterMap_replicate_of_none] using ho :
        op = _ ∨ op = _) with rfl | rfl <;> exact trivial) (by decide +kernel)
  simp only [Bool.and_eq_true] at hs
  obtain ⟨⟨⟨h1, h2⟩, h3⟩, h4⟩ := hs
  refine ⟨Trace.map goVal τ, c.map goVal, e.map (fun op ho => h fuel depth hf hd op ho), ?_, ?_, ?_, h4⟩
  · rw [started_map]
    split at h1
    · assumption
    · exact nomatch h1
  · rw [started_map]
    split at h2
    · assumption
    · exact nomatch h2
  · rw [finished_map]
    split at h3
    · rename_i h; rw [h]; rfl
    · exact nomatch h3

/-! ## v1 -/

/-- C97: goroutines that run the text of v1/buffer.go neither deadlock nor livelock, as in C90: unless a call has ended by a panic
inside its locked section, somebody in a call can step; calls in progress cannot step for ever; so they can be finished; and after a
call has ended inside its section the mutex stays locked and the state never changes again. -/
theorem C97_v1_finish_text :
    ∃ funs, compileAll (V1Utils.text ++ V1Buffer.text) = some funs ∧
    ∀ (fuel depth : Nat), 2 ^ 64 < fuel → 4 ≤ depth → ∀ {c0 c : Conf V1.Op1 V} {τ : Trace V1.Op1 V}, Quiet c0 →
    Exec (textCall1 ⟨funs, V1Buffer.errs⟩ fuel depth) One.Fits c0 τ c →
    (¬ EndedInside τ → (∀ i, c.thr i = .idle) ∨ ∃ i a c', Step (textCall1 ⟨funs, V1Buffer.errs⟩ fuel depth) noCall c i a c') ∧
    (∀ (f : Nat → Conf V1.Op1 V) (i : Nat → Nat) (a : Nat → Act V1.Op1 V), f 0 = c →
      ¬ ∀ n, Step (textCall1 ⟨funs, V1Buffer.errs⟩ fuel depth) noCall (f n) (i n) (a n) (f (n + 1))) ∧
    (∃ τ' c', Exec (textCall1 ⟨funs, V1Buffer.errs⟩ fuel depth) noCall c τ' c' ∧ ((∀ i, c'.thr i = .idle) ∨ EndedInside (τ ++ τ'))) ∧
    (EndedInside τ → ∀ τ' c', Exec (textCall1 ⟨funs, V1Buffer.errs⟩ fuel depth) One.Fits c τ' c' → c'.sh.locked = true ∧ c'.sh.st = c.sh.st) := by
  obtain ⟨funs, hc, h⟩ := C87_buffer_text
  refine ⟨funs, hc, fun fuel depth hf hd c0 c τ q e => ?_⟩
  have hb : ∀ op, One.Fits op → Brk false false (textCall1 ⟨funs, V1Buffer.errs⟩ fuel depth op) := fun op ho => by
    rw [h fuel depth hf hd op ho]
    exact (V1.exec1_brk op).bind fun _ => rfl
  refine ⟨fun hn => shared_no_deadlock hb q e hn, fun f i a h0 => shared_finite q e f i a h0, shared_finish hb q e, fun he τ' c' e' => ?_⟩
  obtain ⟨h1, h2, _⟩ := shared_stuck hb q e he e'
  exact ⟨h1, h2⟩

/-- C97: calls other than writes and `Grow`, run from the text, never end inside their sections, and can always be finished. -/
theorem C97_v1_reads_finish_text :
    ∃ funs, compileAll (V1Utils.text ++ V1Buffer.text) = some funs ∧
    ∀ (fuel depth : Nat), 2 ^ 64 < fuel → 4 ≤ depth → ∀ {c0 c : Conf V1.Op1 V} {τ : Trace V1.Op1 V}, Quiet c0 →
    Exec (textCall1 ⟨funs, V1Buffer.errs⟩ fuel depth) (fun op => V1.leaks1 op = false ∧ One.Fits op) c0 τ c →
    ¬ EndedInside τ ∧ ∃ τ' c', Exec (textCall1 ⟨funs, V1Buffer.errs⟩ fuel depth) noCall c τ' c' ∧ ∀ i, c'.thr i = .idle := by
  obtain ⟨funs, hc, h⟩ := C87_buffer_text
  refine ⟨funs, hc, fun fuel depth hf hd c0 c τ q e => ?_⟩
  obtain ⟨d0, t, d, q', _, e', rfl, rfl⟩ := exec_model (ex := V1.exec1) (g := goVal1) (fun op ho => h fuel depth hf hd op ho.2) q e
  obtain ⟨h1, t1, d1, e1, hi⟩ := V1.C90_v1_reads_finish q' (e'.mono fun op ho => ho.1)
  exact ⟨fun he => h1 ((endedInside_map _ _).1 he), _, _, finish_map _ _ _ e1, (idle_map _ _).2 hi⟩

/-- C97: what C91 says of races holds of goroutines that run the text: there are never two writers, bytes are not raced for unless
somebody calls `ReadByte` or reads larger elements with `ReadComplex`, and the calls that are linearizable never race. -/
theorem C97_v1_races_text :
    ∃ funs, compileAll (V1Utils.text ++ V1Buffer.text) = some funs ∧
    ∀ (fuel depth : Nat), 2 ^ 64 < fuel → 4 ≤ depth → ∀ {c0 c : Conf V1.Op1 V} {τ : Trace V1.Op1 V}, Quiet c0 →
    (Exec (textCall1 ⟨funs, V1Buffer.errs⟩ fuel depth) One.Fits c0 τ c → ∀ i j l l', c.aboutToWrite i l → c.aboutToWrite j l' → i = j) ∧
    (Exec (textCall1 ⟨funs, V1Buffer.errs⟩ fuel depth) (fun op => V1.loadsLater op = false ∧ One.Fits op) c0 τ c → ∀ arr n, ¬ c.Race (.byte arr n)) ∧
    (Exec (textCall1 ⟨funs, V1Buffer.errs⟩ fuel depth) (fun op => V1.Atomic1 op ∧ One.Fits op) c0 τ c → ∀ l, ¬ c.Race l) := by
  obtain ⟨funs, hc, h⟩ := C87_buffer_text
  refine ⟨funs, hc, fun fuel depth hf hd c0 c τ q => ⟨fun e i j l l' hi hj => ?_, fun e arr n hr => ?_, fun e l hr => ?_⟩⟩
  · obtain ⟨d0, t, d, q', _, e', rfl, rfl⟩ := exec_model (ex := V1.exec1) (g := goVal1) (fun op ho => h fuel depth hf hd op ho) q e
    exact V1.C91_v1_one_writer_partial q' (e'.mono fun _ _ => trivial) ((aboutToWrite_map _ _ _ _).1 hi) ((aboutToWrite_map _ _ _ _).1 hj)
  · obtain ⟨d0, t, d, q', _, e', rfl, rfl⟩ := exec_model (ex := V1.exec1) (g := goVal1) (fun op ho => h fuel depth hf hd op ho.2) q e
    exact V1.C91_v1_bytes_partial q' (e'.mono fun _ ho => ho.1) arr n ((race_map _ _ _).1 hr)
  · obtain ⟨d0, t, d, q', _, e', rfl, rfl⟩ := exec_model (ex := V1.exec1) (g := goVal1) (fun op ho => h fuel depth hf hd op ho.2) q e
    exact V1.C91_v1_atomic_partial q' (e'.mono fun _ ho => ho.1) l ((race_map _ _ _).1 hr)

/-- C97: the race of C91 is in the text: `ReadComplex` decodes the bytes after releasing the mutex while `WriteComplex` stores them. -/
theorem C97_v1_race_text :
    ∃ funs, compileAll (V1Utils.text ++ V1Buffer.text) = some funs ∧
    ∀ (fuel depth : Nat), 2 ^ 64 < fuel → 4 ≤ depth → ∃ τ c, Exec (textCall1 ⟨funs, V1Buffer.errs⟩ fuel depth) One.Fits (rest _ _ V3.demo) τ c ∧
      started 0 τ = [.readComplex (some 0) 1 2 (some .be)] ∧ started 1 τ = [.writeComplex (some 0) (.u16 [0xAABB]) 2 (some .be)] ∧ c.Race (.byte 0 2) := by
  obtain ⟨funs, hc, h⟩ := C87_buffer_text
  refine ⟨funs, hc, fun fuel depth hf hd => ?_⟩
  obtain ⟨τ, c, e, hs⟩ := sched_ex (allowed := One.Fits) (ex := V1.exec1) (c0 := rest _ _ V3.demo) V1.demoComplexRace
    (fun τ c => (c.thr 1 matches .busy _ (.store ⟨0, 2, _, _⟩ 0 _ _)) && (c.thr 0 matches .busy _ (.load ⟨0, 2, _, _⟩ 0 _)) &&
      (started 0 τ matches [.readComplex (some 0) 1 2 (some .be)]) && (started 1 τ matches [.writeComplex (some 0) (.u16 [0xAABB]) 2 (some .be)]))
    (allowed_of fun op ho => by
      rcases (by simpa [V1.demoComplexRace, steps, List.filterMap_cons, List.filterMap_append, List.filterMap_replicate_of_none] using ho :
        op = _ ∨ op = _) with rfl | rfl <;> exact nofun) (by decide +kernel)
  simp only [Bool.and_eq_true] at hs
  obtain ⟨⟨⟨h1, h2⟩, h3⟩, h4⟩ := hs
  refine ⟨Trace.map goVal1 τ, c.map goVal1, e.map (fun op ho => h fuel depth hf hd op ho), ?_, ?_, (race_map _ _ _).2 ⟨1, 0, by decide, ?_, .inr ?_⟩⟩
  · rw [started_map]
    split at h3
    · assumption
    · exact nomatch h3
  · rw [started_map]
    split at h4
    · assumption
    · exact nomatch h4
  · split at h1
    · rename_i h; exact ⟨_, _, h, rfl⟩
    · exact nomatch h1
  · split at h2
    · rename_i h; exact ⟨_, _, h, rfl⟩
    · exact nomatch h2

/-- C97: what C92 says of the capacities holds while goroutines run the text. -/
theorem C97_v1_capacity_text :
    ∃ funs, compileAll (V1Utils.text ++ V1Buffer.text) = some funs ∧
    ∀ (fuel depth : Nat), 2 ^ 64 < fuel → 4 ≤ depth → ∀ {c0 c : Conf V1.Op1 V} {τ : Trace V1.Op1 V}, Quiet c0 → V3.WF c0.sh.st →
    Exec (textCall1 ⟨funs, V1Buffer.errs⟩ fuel depth) One.Fits c0 τ c →
    (c.sh.locked = false → c.sh.st.OK ∧ c.sh.st.b.cap.toInt ≤ c.sh.st.b.buf.len ∧ c.sh.st.b.bcap = c.sh.st.b.cap * 8) ∧
    ((∀ i n p, c.thr i ≠ .busy (.grow n) p) → c.sh.locked = false → V3.WF c.sh.st) ∧
    ((∀ i, c.thr i = .idle) → V3.WF c.sh.st) := by
  obtain ⟨funs, hc, h⟩ := C87_buffer_text
  refine ⟨funs, hc, fun fuel depth hf hd c0 c τ q hw e => ?_⟩
  obtain ⟨d0, t, d, q', hs, e', rfl, rfl⟩ := exec_model (ex := V1.exec1) (g := goVal1) (fun op ho => h fuel depth hf hd op ho) q e
  have e' := e'.mono (Q := V1.anyOp1) fun _ _ => trivial
  rw [← hs] at hw
  refine ⟨fun hl => V1.C92_v1_capacity_bound q' hw e' hl, fun hn hl => V1.C92_v1_capacity_exact q' hw e' (fun i n p hp => ?_) hl,
    fun hi => V1.C92_v1_capacity_idle q' hw e' ((idle_map _ _).1 hi)⟩
  exact hn i n (p.map goVal1) (by show (d.thr i).map goVal1 = _; rw [hp]; rfl)

/-- C97: what C93 says of failures holds of goroutines that run the text: a call with a range inside the content at the
beginning returns; one with decent arguments returns or fails with an error of the library; the first call that leaves the mutex
locked is a write or `Grow` with arguments that are not decent. -/
theorem C97_v1_failures_text :
    ∃ funs, compileAll (V1Utils.text ++ V1Buffer.text) = some funs ∧
    ∀ (fuel depth : Nat), 2 ^ 64 < fuel → 4 ≤ depth → ∀ {c0 c : Conf V1.Op1 V} {τ1 τ2 : Trace V1.Op1 V} {i : Nat} {op : V1.Op1} {r : Res V},
    Quiet c0 → V3.WF c0.sh.st →
    Exec (textCall1 ⟨funs, V1Buffer.errs⟩ fuel depth) One.Fits c0 (τ1 ++ (i, .finish op r) :: τ2) c →
    (V1.InRange c0.sh.st.b.buf.len op → ∃ v, r = .ok v) ∧
    (V1.Decent c0.sh.st.b.buf.len op → (∃ v, r = .ok v) ∨ ∃ x, r = .panic (.err x)) ∧
    (inside τ1 i = true → ¬ EndedInside τ1 → V1.leaks1 op = true ∧ ¬ V1.Decent c0.sh.st.b.buf.len op) := by
  obtain ⟨funs, hc, h⟩ := C87_buffer_text
  refine ⟨funs, hc, fun fuel depth hf hd c0 c τ1 τ2 i op r q hw e => ?_⟩
  obtain ⟨d0, t, d, q', hs, e', ht, rfl⟩ := exec_model (ex := V1.exec1) (g := goVal1) (fun op ho => h fuel depth hf hd op (ho)) q e
  obtain ⟨t1, r0, t2, rfl, rfl, rfl, rfl⟩ := split_map ht.symm
  have e' := e'.mono (Q := V1.anyOp1) fun _ ho => trivial
  rw [← hs] at hw ⊢
  refine ⟨fun hr => Res.map_ok (V1.C93_v1_in_range q' hw e' hr), fun hr => ?_, fun hi hn => ?_⟩
  · rcases V1.C93_v1_errors q' hw e' hr with hr | ⟨x, rfl⟩
    · exact .inl (Res.map_ok hr)
    · exact .inr ⟨x, rfl⟩
  · rw [inside_map] at hi
    rw [endedInside_map] at hn
    exact V1.C93_v1_leak q' hw e' hi hn

/-- C97: if all writes have decent arguments and nobody grows the buffer, calls run from the text never end inside their
sections and can always be finished. -/
theorem C97_v1_decent_finish_text :
    ∃ funs, compileAll (V1Utils.text ++ V1Buffer.text) = some funs ∧
    ∀ (fuel depth : Nat), 2 ^ 64 < fuel → 4 ≤ depth → ∀ {c0 c : Conf V1.Op1 V} {τ : Trace V1.Op1 V}, Quiet c0 → V3.WF c0.sh.st →
    Exec (textCall1 ⟨funs, V1Buffer.errs⟩ fuel depth)
      (fun op => (V1.leaks1 op = true → V1.Decent c0.sh.st.b.buf.len op) ∧ One.Fits op) c0 τ c →
    ¬ EndedInside τ ∧ ∃ τ' c', Exec (textCall1 ⟨funs, V1Buffer.errs⟩ fuel depth) noCall c τ' c' ∧ ∀ i, c'.thr i = .idle := by
  obtain ⟨funs, hc, h⟩ := C87_buffer_text
  refine ⟨funs, hc, fun fuel depth hf hd c0 c τ q hw e => ?_⟩
  obtain ⟨d0, t, d, q', hs, e', rfl, rfl⟩ := exec_model (ex := V1.exec1) (g := goVal1) (fun op ho => h fuel depth hf hd op ho.2) q e
  rw [← hs] at hw
  obtain ⟨h1, t1, d1, e1, hi⟩ := V1.C93_v1_finish q' hw (e'.mono fun op ho => by rw [hs]; exact ho.1)
  exact ⟨fun he => h1 ((endedInside_map _ _).1 he), _, _, finish_map _ _ _ e1, (idle_map _ _).2 hi⟩

/-- Goroutines that run the text of v2: a write in range returns although the content moves between its check and its section. -/
example : ∃ τ1 τ2 c v, Exec (textCall V2Buffer.P 20 4) (fun op => op ≠ .reset ∧ Two.Fits op) (rest _ _ V3.demo)
      (τ1 ++ (0, .finish (.writeByte (some 11) 7) (.ok v)) :: τ2) c ∧
    V2.InRange V3.demo.b.buf.len (.writeByte (some 11) 7) ∧ c.sh.st.b.buf.len = 16 := by
  obtain ⟨τ, c, e, h⟩ := sched_ex (allowed := fun op => op ≠ .reset ∧ Two.Fits op) (ex := textCall V2Buffer.P 20 4) (c0 := rest _ _ V3.demo) V2.demoMove
    (fun τ c => (finished 0 τ matches [(.writeByte (some 11) 7, .ok _)]) && c.sh.st.b.buf.len == 16)
    (allowed_of fun op ho => by
      rcases (by simpa [V2.demoMove, steps, List.filterMap_cons, List.filterMap_append, List.filterMap_replicate_of_none] using ho :
        op = _ ∨ op = _) with rfl | rfl <;> exact ⟨nofun, trivial⟩) (by decide +kernel)
  simp only [Bool.and_eq_true, beq_iff_eq] at h
  obtain ⟨h1, h2⟩ := h
  split at h1
  · rename_i v h
    obtain ⟨τ1, τ2, rfl⟩ := List.append_of_mem
      (mem_finished (i := 0) (op := V2.Op2.writeByte (some 11) 7) (r := .ok v) (by rw [h]; exact List.mem_singleton.mpr rfl))
    exact ⟨τ1, τ2, c, v, e, ⟨by decide, by decide⟩, h2⟩
  · exact nomatch h1

/-- Goroutines that run the text of v1, one writing and one reading. -/
example : ∃ τ c, Exec (textCall1 V1Buffer.P 20 4) (fun op => (V1.leaks1 op = true → V1.Decent V3.demo.b.buf.len op) ∧ One.Fits op)
    (rest _ _ V3.demo) τ c ∧ c.thr 0 ≠ .idle ∧ c.thr 1 ≠ .idle := by
  obtain ⟨τ, c, e, h⟩ := sched_ex (allowed := fun op => (V1.leaks1 op = true → V1.Decent V3.demo.b.buf.len op) ∧ One.Fits op)
    (ex := textCall1 V1Buffer.P 20 4) (c0 := rest _ _ V3.demo) V1.demoBoth (fun τ c => !(c.thr 0).isIdle && !(c.thr 1).isIdle)
    (allowed_of fun op ho => by
      rcases (by simpa [V1.demoBoth, steps, List.filterMap_cons, List.filterMap_append, List.filterMap_replicate_of_none] using ho :
        op = _ ∨ op = _) with rfl | rfl
      · exact ⟨fun _ => ⟨1, 2, rfl, by decide, by decide, fun _ => by decide⟩, nofun⟩
      · exact ⟨nofun, nofun⟩) (by decide +kernel)
  simp only [Bool.and_eq_true, Bool.not_eq_true'] at h
  refine ⟨τ, c, e, fun hi => ?_, fun hi => ?_⟩
  · rw [hi] at h; exact nomatch h.1
  · rw [hi] at h; exact nomatch h.2

end Crunch.Src
