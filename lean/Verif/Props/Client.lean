import Verif.Lemmas.Client
import Verif.Lemmas.Step
import Verif.Props.Unlocked

/-!
# Buffers without a mutex, guarded by a mutex of the client (C122)

The v3 `Buffer` and the `MiniBuffer`s leave it to the client to guard them.  Client code that makes its calls, as the text has them, with a mutex
locked, behaves as if it ran alone, one client after another in the order of the locks; and there is no data race.
-/

namespace Crunch.Src

/-- What the models say that a call does. -/
def modelBuf (op : V3.Op) (s : V3.St) : Res V × V3.St := (goRes (V3.exec op s).1, (V3.exec op s).2)

/-- The same for v3 `MiniBuffer`; a call that it does not have does nothing. -/
def modelMini (x : V3.Outs × V3.Op) (s : V3.St) : Res V × V3.St :=
  match V3.miniCall x.1 x.2 with
  | some m => (goRes (m s).1, (m s).2)
  | none => (.ok .unit, s)

/-- The same for v2 `MiniBuffer`. -/
def modelMini2 (x : V3.Outs × V2.Op2) (s : V3.St) : Res V × V3.St :=
  match V2.miniCall x.1 x.2 with
  | some m => (goRes (m s).1, (m s).2)
  | none => (.ok .unit, s)

/-- The same for v1 `MiniBuffer`. -/
def modelMini1 (x : V3.Outs × V1.Any × V1.Op1) (s : V3.St) : Res V × V3.St :=
  match V1.miniCall1 x.1 x.2.1 x.2.2 with
  | some m => (goRes1 (m s).1, (m s).2)
  | none => (.ok .unit, s)

/-- C122: clients of one v3 `Buffer`, run from the text of v3/buffer.generated.go, that lock a mutex around their calls. -/
theorem C122_buffer :
    ∃ funs, compileAll V3Buffer.text = some funs ∧
    ∀ (fuel depth : Nat), 2 ^ 64 < fuel → 3 ≤ depth → ∀ {A : Type} {c0 c : Conf (Client V3.Op V A) A} {τ : Trace (Client V3.Op V A) A}, Quiet c0 →
    Exec (Client.guarded (microBuf ⟨funs, V3Buffer.errs⟩ fuel depth)) (Client.All Fits) c0 τ c →
    Guarded (microBuf ⟨funs, V3Buffer.errs⟩ fuel depth) modelBuf Fits c0 τ c := by
  obtain ⟨funs, hc, h⟩ := C120_buffer_alone
  cases (V3Buffer.link).symm.trans hc
  exact ⟨_, hc, fun fuel depth hf hd A c0 c τ q e =>
    guarded_by_mutex (m := modelBuf) (fun op ho => ⟨(V3Buffer.kinds fuel depth op ho).noLock, h fuel depth hf hd op ho⟩) q e⟩

/-- C122: the same for v3/minibuf.generated.go. -/
theorem C122_mini :
    ∃ funs, compileAll V3Mini.text = some funs ∧
    ∀ (fuel depth : Nat), 2 ^ 64 < fuel → 3 ≤ depth → ∀ {A : Type} {c0 c : Conf (Client (V3.Outs × V3.Op) V A) A} {τ : Trace (Client (V3.Outs × V3.Op) V A) A},
    Quiet c0 → Exec (Client.guarded (microMini ⟨funs, V3Mini.errs⟩ fuel depth)) (Client.All HasMini) c0 τ c →
    Guarded (microMini ⟨funs, V3Mini.errs⟩ fuel depth) modelMini HasMini c0 τ c := by
  obtain ⟨funs, hc, h⟩ := C120_mini_alone
  cases (V3Mini.link).symm.trans hc
  refine ⟨_, hc, fun fuel depth hf hd A c0 c τ q e => guarded_by_mutex (fun op ho => ⟨(V3Mini.kinds fuel depth op ho).noLock, fun s l => ?_⟩) q e⟩
  obtain ⟨m, hm⟩ := Option.isSome_iff_exists.mp ho.2
  refine (h fuel depth hf hd op.1 op.2 ho.1 m hm s l).trans ?_
  unfold modelMini; rw [hm]

/-- C122: the same for v2/minibuf.go. -/
theorem C122_v2_mini :
    ∃ funs, compileAll (V2Utils.text ++ V2Mini.text) = some funs ∧
    ∀ (fuel depth : Nat), 2 ^ 64 < fuel → 4 ≤ depth → ∀ {A : Type} {c0 c : Conf (Client (V3.Outs × V2.Op2) V A) A} {τ : Trace (Client (V3.Outs × V2.Op2) V A) A},
    Quiet c0 → Exec (Client.guarded (microMini2 ⟨funs, V2Mini.errs⟩ fuel depth)) (Client.All HasMini2) c0 τ c →
    Guarded (microMini2 ⟨funs, V2Mini.errs⟩ fuel depth) modelMini2 HasMini2 c0 τ c := by
  obtain ⟨funs, hc, h⟩ := C120_v2_mini_alone
  cases (compileAll_append V2Utils.link V2Mini.link).symm.trans hc
  refine ⟨_, hc, fun fuel depth hf hd A c0 c τ q e => guarded_by_mutex (fun op ho => ⟨(V2Mini.kinds fuel depth op ho).noLock, fun s l => ?_⟩) q e⟩
  obtain ⟨m, hm⟩ := Option.isSome_iff_exists.mp ho.2
  refine (h fuel depth hf hd op.1 op.2 ho.1 m hm s l).trans ?_
  unfold modelMini2; rw [hm]

/-- C122: the same for v1/minibuf.go. -/
theorem C122_v1_mini :
    ∃ funs, compileAll (V1Utils.text ++ V1Mini.text) = some funs ∧
    ∀ (fuel depth : Nat), 2 ^ 64 < fuel → 4 ≤ depth →
    ∀ {A : Type} {c0 c : Conf (Client (V3.Outs × V1.Any × V1.Op1) V A) A} {τ : Trace (Client (V3.Outs × V1.Any × V1.Op1) V A) A},
    Quiet c0 → Exec (Client.guarded (microMini1 ⟨funs, V1Mini.errs⟩ fuel depth)) (Client.All HasMini1) c0 τ c →
    Guarded (microMini1 ⟨funs, V1Mini.errs⟩ fuel depth) modelMini1 HasMini1 c0 τ c := by
  obtain ⟨funs, hc, h⟩ := C120_v1_mini_alone
  cases (compileAll_append V1Utils.link V1Mini.link).symm.trans hc
  refine ⟨_, hc, fun fuel depth hf hd A c0 c τ q e => guarded_by_mutex (fun op ho => ⟨(V1Mini.kinds fuel depth op ho).noLock, fun s l => ?_⟩) q e⟩
  obtain ⟨m, hm⟩ := Option.isSome_iff_exists.mp ho.2
  refine (h fuel depth hf hd op.1 op.2.1 op.2.2 ho.1 m hm s l).trans ?_
  unfold modelMini1; rw [hm]

/-! ## a counter -/

/-- Client code that adds one to a byte of the buffer, and returns what the byte was. -/
def addOne (pos : Int64) : Client V3.Op V UInt8 :=
  .call (.readByte (some pos)) fun
    | .ok (.u8 v) => .call (.writeByte (some pos) (v + 1)) fun
      | .ok _ => .ret v
      | .panic e => .panic e
    | .ok _ => .panic .index
    | .panic e => .panic e

theorem addOne_all (pos : Int64) : (addOne pos).All Fits := by
  refine ⟨trivial, fun r => ?_⟩
  cases r with
  | panic e => trivial
  | ok v =>
    cases v with
    | u8 v => exact ⟨trivial, fun r => by cases r <;> trivial⟩
    | _ => trivial

theorem addOne_run {s : V3.St} (h : V3.WF s) {pos : Int64} (h0 : 0 ≤ pos.toInt) (hl : pos.toInt < s.bytes.length) :
    ((addOne pos).run modelBuf s).1 = .ok (s.bytes.getD pos.toInt.toNat 0) ∧
    V3.WF ((addOne pos).run modelBuf s).2 ∧
    ((addOne pos).run modelBuf s).2.bytes = s.bytes.set pos.toInt.toNat (s.bytes.getD pos.toInt.toNat 0 + 1) := by
  have hll := V3.length_bytes h.ok
  have hr : modelBuf (.readByte (some pos)) s = (.ok (.u8 (s.bytes.getD pos.toInt.toNat 0)), s) := by
    unfold modelBuf
    simp only [V3.exec]
    rw [V3.wrapVal_run, V3.buffer_readByte_run h, if_pos ⟨h0, by omega⟩]
    rfl
  generalize s.bytes.getD pos.toInt.toNat 0 = v at hr ⊢
  have w : V3.WF (s.lit [v + 1]) := h.lit (by rw [List.length_singleton]; decide)
  have hw : modelBuf (.writeByte (some pos) (v + 1)) s = (.ok .unit, (s.lit [v + 1]).write pos.toInt.toNat [v + 1]) := by
    unfold modelBuf
    simp only [V3.exec]
    rw [V3.wrapVal_run, V3.buffer_writeByte_run h, if_pos ⟨h0, by omega⟩]
    rfl
  have hrun : (addOne pos).run modelBuf s = (.ok v, (s.lit [v + 1]).write pos.toInt.toNat [v + 1]) := by
    simp only [addOne, Client.run, hr, hw]
  rw [hrun]
  refine ⟨rfl, w.write _ _, ?_⟩
  rw [V3.bytes_write w.ok (by rw [List.length_singleton]; show _ ≤ s.b.buf.len; omega), V3.lit_bytes h.ok, List.set_eq_take_append_cons_drop, if_pos (by omega)]
  simp [Spec.patch]

/-- Clients that each add one, one by one. -/
theorem addOne_many {pos : Int64} (l : List (Nat × Client V3.Op V UInt8)) (hl : ∀ x ∈ l, x.2 = addOne pos) {s : V3.St} (h : V3.WF s) (h0 : 0 ≤ pos.toInt)
    (hp : pos.toInt < s.bytes.length) :
    (oneByOne modelBuf l s).2.bytes = s.bytes.set pos.toInt.toNat (s.bytes.getD pos.toInt.toNat 0 + UInt8.ofNat l.length) ∧
    (oneByOne modelBuf l s).1.map (·.2.2) = (List.range l.length).map fun n => .ok (s.bytes.getD pos.toInt.toNat 0 + UInt8.ofNat n) := by
  induction l generalizing s with
  | nil =>
    refine ⟨?_, rfl⟩
    show s.bytes = _
    have : pos.toInt.toNat < s.bytes.length := by omega
    rw [List.length_nil, show UInt8.ofNat 0 = 0 from rfl, UInt8.add_zero, List.getD_eq_getElem?_getD, List.getElem?_eq_getElem this, Option.getD_some, List.set_getElem_self]
  | cons x l ih =>
    obtain ⟨i, cl⟩ := x
    have hcl : cl = addOne pos := hl _ List.mem_cons_self
    subst hcl
    obtain ⟨h1, h2, h3⟩ := addOne_run h h0 hp
    obtain ⟨i1, i2⟩ := ih (fun x hx => hl x (List.mem_cons_of_mem _ hx)) h2 (by rw [h3, List.length_set]; exact hp)
    have hlt : pos.toInt.toNat < s.bytes.length := by omega
    have hg : ((addOne pos).run modelBuf s).2.bytes.getD pos.toInt.toNat 0 = s.bytes.getD pos.toInt.toNat 0 + 1 := by
      rw [h3, List.getD_eq_getElem?_getD, List.getElem?_set_self hlt]; rfl
    have hs : ∀ n : Nat, (1 : UInt8) + UInt8.ofNat n = UInt8.ofNat (n + 1) := fun n => by
      rw [UInt8.ofNat_add, UInt8.add_comm]; rfl
    refine ⟨?_, ?_⟩
    · simp only [oneByOne]
      rw [i1, hg, h3, List.set_set, List.length_cons, UInt8.add_assoc, hs]
    · simp only [oneByOne, List.map_cons]
      rw [i2, h1, hg, List.length_cons, List.range_succ_eq_map, List.map_cons, List.map_map]
      refine congr (congrArg _ (by rw [show UInt8.ofNat 0 = 0 from rfl, UInt8.add_zero])) (List.map_congr_left fun n _ => ?_)
      show _ = Res.ok (_ + UInt8.ofNat (n + 1))
      rw [UInt8.add_assoc, hs]

/-- C122: so no update is lost.  Any number of goroutines add one to a byte of a v3 `Buffer`, each with the mutex locked around its `ReadByte` and its
`WriteByte`: the byte is afterwards what it was, plus the number of times this was done; and nobody got the same value as another one, until the byte wraps. -/
theorem C122_no_lost_update :
    ∃ funs, compileAll V3Buffer.text = some funs ∧
    ∀ (fuel depth : Nat), 2 ^ 64 < fuel → 3 ≤ depth → ∀ {c0 c : Conf (Client V3.Op V UInt8) UInt8} {τ : Trace (Client V3.Op V UInt8) UInt8}, Quiet c0 →
    Exec (Client.guarded (microBuf ⟨funs, V3Buffer.errs⟩ fuel depth)) (Client.All Fits) c0 τ c → (∀ i, c.thr i = .idle) →
    ∀ {pos : Int64}, V3.WF c0.sh.st → 0 ≤ pos.toInt → pos.toInt < c0.sh.st.bytes.length → (∀ i, ∀ cl ∈ started i τ, cl = addOne pos) →
    ∃ order : List (Nat × Client V3.Op V UInt8), (∀ i, started i τ = ofThread i order) ∧
      c.sh.st.bytes = c0.sh.st.bytes.set pos.toInt.toNat (c0.sh.st.bytes.getD pos.toInt.toNat 0 + UInt8.ofNat order.length) ∧
      ∃ results : List (Nat × Client V3.Op V UInt8 × Res UInt8), (∀ i, finished i τ = ofThread i results) ∧
        results.map (·.2.2) = (List.range order.length).map fun n => .ok (c0.sh.st.bytes.getD pos.toInt.toNat 0 + UInt8.ofNat n) := by
  obtain ⟨funs, hc, h⟩ := C122_buffer
  refine ⟨funs, hc, fun fuel depth hf hd c0 c τ q e hi pos w h0 hp ha => ?_⟩
  have g := h fuel depth hf hd q e
  have ho : ∀ i, started i τ = ofThread i (points τ) := fun i => by
    obtain ⟨_, h1, _, h3⟩ := g.order i
    rw [h1, h3 (hi i), List.append_nil]
  have hx : ∀ x ∈ points τ, x.2 = addOne pos := fun x hx => ha x.1 x.2 (by
    rw [ho]
    exact List.mem_map.mpr ⟨x, List.mem_filter.mpr ⟨hx, by simp⟩, rfl⟩)
  obtain ⟨m1, m2⟩ := addOne_many (points τ) hx w h0 hp
  refine ⟨points τ, ho, by rw [g.state hi]; exact m1, _, fun i => ?_, m2⟩
  obtain ⟨_, h1, _, h3⟩ := g.outcomes i
  rw [h1, h3 (hi i), List.append_nil]

/-- One outcome, this value. -/
def gave (v : UInt8) : List (Client V3.Op V UInt8 × Res UInt8) → Bool
  | [(_, .ok x)] => x == v
  | _ => false

theorem gave_eq {v : UInt8} {l : List (Client V3.Op V UInt8 × Res UInt8)} (h : gave v l = true) : l.map (·.2) = [.ok v] := by
  unfold gave at h
  split at h
  · rw [eq_of_beq h]; rfl
  · exact nomatch h

theorem two_addOne : ∀ op ∈ [addOne 1, addOne 1], op = addOne 1 := fun op ho => by
  rcases List.mem_cons.mp ho with rfl | ho
  · rfl
  · exact List.mem_singleton.mp ho

/-- C122: without the mutex an update can be lost: two goroutines add one to a byte, both get what it was before, and it is one more afterwards. -/
theorem C122_lost_update_without :
    ∃ funs, compileAll V3Buffer.text = some funs ∧
    ∀ (fuel depth : Nat), 2 ^ 64 < fuel → 3 ≤ depth → ∃ (τ : Trace (Client V3.Op V UInt8) UInt8) (c : Conf (Client V3.Op V UInt8) UInt8),
    Exec (Client.prog (microBuf ⟨funs, V3Buffer.errs⟩ fuel depth)) (· = addOne 1) (rest _ _ V3.demo) τ c ∧ (∀ i, c.thr i = .idle) ∧
    (finished 0 τ).map (·.2) = [.ok (V3.demo.bytes.getD 1 0)] ∧ (finished 1 τ).map (·.2) = [.ok (V3.demo.bytes.getD 1 0)] ∧
    c.sh.st.bytes = V3.demo.bytes.set 1 (V3.demo.bytes.getD 1 0 + 1) := by
  refine ⟨_, V3Buffer.link, fun fuel depth hf hd => ?_⟩
  obtain ⟨d, rfl⟩ := Nat.exists_eq_add_of_le' hd
  obtain ⟨f, rfl⟩ := Nat.exists_eq_add_of_le' (Nat.le_of_lt (Nat.lt_trans (by decide : 100 < 2 ^ 64) hf))
  obtain ⟨τ, c, e, hi, h⟩ := sched_ex_done (ex := Client.prog (A := UInt8) (microBuf V3Buffer.P (f + 100) (d + 3))) (allowed := (· = addOne 1))
    (rest_quiet V3.demo) 2
    ((0, some (addOne 1)) :: (1, some (addOne 1)) :: steps 0 3 ++ steps 1 3 ++ steps 0 5 ++ steps 1 5)
    (fun τ c => gave 4 (finished 0 τ) && gave 4 (finished 1 τ) && c.sh.st.bytes == V3.demo.bytes.set 1 5)
    (allowed_of (by exact two_addOne)) (by compute) (by compute)
  simp only [Bool.and_eq_true, beq_iff_eq] at h
  exact ⟨τ, c, e, hi, gave_eq h.1.1, gave_eq h.1.2, h.2⟩

/-- With the mutex the same goroutines add two; the second one has to wait for the first one. -/
example (f d : Nat) : ∃ τ c, Exec (Client.guarded (A := UInt8) (microBuf V3Buffer.P (f + 100) (d + 3))) (Client.All Fits) (rest _ _ V3.demo) τ c ∧
    (∀ i, c.thr i = .idle) ∧ (finished 0 τ).map (·.2) = [.ok 4] ∧ (finished 1 τ).map (·.2) = [.ok 5] ∧ c.sh.st.bytes = V3.demo.bytes.set 1 6 := by
  obtain ⟨τ, c, e, hi, h⟩ := sched_ex_done (ex := Client.guarded (A := UInt8) (microBuf V3Buffer.P (f + 100) (d + 3))) (allowed := Client.All Fits)
    (rest_quiet V3.demo) 2
    ((0, some (addOne 1)) :: (1, some (addOne 1)) :: steps 0 10 ++ steps 1 10)
    (fun τ c => gave 4 (finished 0 τ) && gave 5 (finished 1 τ) && c.sh.st.bytes == V3.demo.bytes.set 1 6)
    (allowed_of fun op ho => by rw [two_addOne op ho]; exact addOne_all 1) (by compute) (by compute)
  simp only [Bool.and_eq_true, beq_iff_eq] at h
  exact ⟨τ, c, e, hi, gave_eq h.1.1, gave_eq h.1.2, h.2⟩

end Crunch.Src
