import Verif.Lemmas.V3BufferFootCalls
import Verif.Lemmas.V3MiniFootCalls
import Verif.Props.UnlockedApart
import Verif.Props.Demo

/-!
# Footprints of calls on v3 buffers, and goroutines with separate ones (C124)

A call on a v3 `Buffer` or `MiniBuffer`, executed from its text in single steps, accesses only its footprint.  So goroutines that use different bytes of one
buffer without a mutex do not notice one another.
-/

namespace Crunch.Src
open _root_.Crunch.V3 (Buf WF)

theorem V3Buffer.uses (fuel depth : Nat) (hd : 3 ≤ depth) (op : V3.Op) (hf : Fits op) (hp : V3.inPlace op = true) (s : Sh) (hs : Sized s.st.b) :
    (microBuf V3Buffer.P fuel depth op).Uses (V3.mayRead s.st.b op) (V3.mayWrite s.st.b op) s := by
  obtain ⟨d, rfl⟩ : ∃ d, depth = d + 3 := ⟨depth - 3, by omega⟩
  have k := V3Buffer.kinds fuel (d + 3) op hf
  cases ha : V3.accesses op .bytes with
  | true => exact V3.uses_of k (V3Buffer.bytes_uses fuel d op hp hs ha trivial)
  | false =>
    have hc : V3.copies op = false := by cases op <;> first | rfl | exact Bool.noConfusion (show false = true from hp) | exact Bool.noConfusion (show true = false from ha)
    rw [hc] at k
    exact V3.uses_none k ha fun k h => by unfold V3.accesses; rw [V3.accesses_of_changes h]; rfl

theorem V3Mini.uses (fuel depth : Nat) (hd : 3 ≤ depth) (x : V3.Outs × V3.Op) (hf : HasMini x) (hp : V3.inPlace x.2 = true) (s : Sh) (hs : Sized s.st.b) :
    (microMini V3Mini.P fuel depth x).Uses (V3.mayReadMini s.st.b x.2) (V3.mayWrite s.st.b x.2) s := by
  obtain ⟨d, rfl⟩ : ∃ d, depth = d + 3 := ⟨depth - 3, by omega⟩
  obtain ⟨o, op⟩ := x
  have k := V3Mini.kinds fuel (d + 3) (o, op) hf
  cases ha : V3.accessesMini op .bytes with
  | true => exact V3.uses_of k (V3Mini.bytes_uses fuel d o op hp hs ha hf.2)
  | false =>
    have hc : V3.copies op = false := by cases op <;> first | rfl | exact Bool.noConfusion (show false = true from hp) | exact Bool.noConfusion (show true = false from ha)
    change Prog.Only (Action.of _ _ (V3.copies op)) _ at k
    rw [hc] at k
    exact V3.uses_none k ha fun k h => V3.accesses_of_changes h

/-- C124: a call on a v3 `Buffer` that makes no new array and leaves the content where it is, executed from the text of v3/buffer.generated.go, accesses only
its footprint, whatever the state. -/
theorem C124_buffer_footprint :
    ∃ funs, compileAll V3Buffer.text = some funs ∧
    ∀ (fuel depth : Nat), 3 ≤ depth → ∀ (op : V3.Op), Fits op → V3.inPlace op = true → ∀ (s : Sh), WF s.st →
    (microBuf ⟨funs, V3Buffer.errs⟩ fuel depth op).Uses (V3.mayRead s.st.b op) (V3.mayWrite s.st.b op) s :=
  ⟨_, V3Buffer.link, fun fuel depth hd op hf hp s h => V3Buffer.uses fuel depth hd op hf hp s h.sized⟩

/-- C124: the same for v3/minibuf.generated.go. -/
theorem C124_mini_footprint :
    ∃ funs, compileAll V3Mini.text = some funs ∧
    ∀ (fuel depth : Nat), 3 ≤ depth → ∀ (x : V3.Outs × V3.Op), HasMini x → V3.inPlace x.2 = true → ∀ (s : Sh), WF s.st →
    (microMini ⟨funs, V3Mini.errs⟩ fuel depth x).Uses (V3.mayReadMini s.st.b x.2) (V3.mayWrite s.st.b x.2) s :=
  ⟨_, V3Mini.link, fun fuel depth hd op hf hp s h => V3Mini.uses fuel depth hd op hf hp s h.sized⟩

/-- The model says what a call does alone. -/
theorem V3Buffer.alone (fuel depth : Nat) (hf : 2 ^ 64 < fuel) (hd : 3 ≤ depth) (op : V3.Op) (ho : Fits op) (s : V3.St) (b : Bool) :
    (microBuf V3Buffer.P fuel depth op).run ⟨s, b⟩ = ((modelBuf op s).1, ⟨(modelBuf op s).2, b⟩) := by
  obtain ⟨funs, hc, h⟩ := C120_buffer_alone
  cases (V3Buffer.link).symm.trans hc
  exact h fuel depth hf hd op ho s b

theorem V3Mini.alone (fuel depth : Nat) (hf : 2 ^ 64 < fuel) (hd : 3 ≤ depth) (op : V3.Outs × V3.Op) (ho : HasMini op) (s : V3.St) (b : Bool) :
    (microMini V3Mini.P fuel depth op).run ⟨s, b⟩ = ((modelMini op s).1, ⟨(modelMini op s).2, b⟩) := by
  obtain ⟨funs, hc, h⟩ := C120_mini_alone
  cases (V3Mini.link).symm.trans hc
  obtain ⟨m, hm⟩ := Option.isSome_iff_exists.mp ho.2
  refine (h fuel depth hf hd op.1 op.2 ho.1 m hm s b).trans ?_
  unfold modelMini; rw [hm]

theorem V3Buffer.keeps (op : V3.Op) (ho : Fits op) (hp : V3.inPlace op = true) (s : V3.St) (hs : Sized s.b) :
    Sized (modelBuf op s).2.b ∧ (modelBuf op s).2.b.buf = s.b.buf := by
  have := keeps_sized_of hp (V3Buffer.uses (2 ^ 64 + 1) 3 (Nat.le_refl 3) op ho hp ⟨s, false⟩ hs) hs
  rwa [V3Buffer.alone (2 ^ 64 + 1) 3 (Nat.lt_succ_self _) (Nat.le_refl 3) op ho s false] at this

theorem V3Mini.keeps (op : V3.Outs × V3.Op) (ho : HasMini op) (hp : V3.inPlace op.2 = true) (s : V3.St) (hs : Sized s.b) :
    Sized (modelMini op s).2.b ∧ (modelMini op s).2.b.buf = s.b.buf := by
  have := keeps_sized_of hp (V3Mini.uses (2 ^ 64 + 1) 3 (Nat.le_refl 3) op ho hp ⟨s, false⟩ hs) hs
  rwa [V3Mini.alone (2 ^ 64 + 1) 3 (Nat.lt_succ_self _) (Nat.le_refl 3) op ho s false] at this

/-- C124: so a call leaves every other place as it is. -/
theorem C124_buffer_frame {s : V3.St} (h : WF s) (op : V3.Op) (hf : Fits op) (hp : V3.inPlace op = true) {l : Loc} (hl : ¬ V3.mayWrite s.b op l) :
    l.same (modelBuf op s).2 s := by
  have := Loc.same.of_run (V3Buffer.uses (2 ^ 64 + 1) 3 (Nat.le_refl 3) op hf hp ⟨s, false⟩ h.sized) hl
  rwa [V3Buffer.alone (2 ^ 64 + 1) 3 (Nat.lt_succ_self _) (Nat.le_refl 3) op hf s false] at this

/-- C124: the same for `MiniBuffer`. -/
theorem C124_mini_frame {s : V3.St} (h : WF s) (op : V3.Outs × V3.Op) (hf : HasMini op) (hp : V3.inPlace op.2 = true) {l : Loc} (hl : ¬ V3.mayWrite s.b op.2 l) :
    l.same (modelMini op s).2 s := by
  have := Loc.same.of_run (V3Mini.uses (2 ^ 64 + 1) 3 (Nat.le_refl 3) op hf hp ⟨s, false⟩ h.sized) hl
  rwa [V3Mini.alone (2 ^ 64 + 1) 3 (Nat.lt_succ_self _) (Nat.le_refl 3) op hf s false] at this

/-- C124: and it depends on nothing else: from two states that are the same at the places it may read, it has the same outcome and leaves the same places the
same. -/
theorem C124_buffer_depends {s t : V3.St} (h : WF t) (op : V3.Op) (hf : Fits op) (hp : V3.inPlace op = true) (hs : ∀ l : Loc, V3.mayRead t.b op l → l.same s t) :
    (modelBuf op s).1 = (modelBuf op t).1 ∧ ∀ l : Loc, l.same s t → l.same (modelBuf op s).2 (modelBuf op t).2 := by
  have u := (V3Buffer.uses (2 ^ 64 + 1) 3 (Nat.le_refl 3) op hf hp ⟨t, false⟩ h.sized).agree (s := ⟨s, false⟩) hs rfl
  unfold Agree at u
  rw [V3Buffer.alone (2 ^ 64 + 1) 3 (Nat.lt_succ_self _) (Nat.le_refl 3) op hf s false, V3Buffer.alone (2 ^ 64 + 1) 3 (Nat.lt_succ_self _) (Nat.le_refl 3) op hf t false] at u
  exact ⟨u.1, u.2.2⟩

/-- C124: the same for `MiniBuffer`. -/
theorem C124_mini_depends {s t : V3.St} (h : WF t) (op : V3.Outs × V3.Op) (hf : HasMini op) (hp : V3.inPlace op.2 = true)
    (hs : ∀ l : Loc, V3.mayReadMini t.b op.2 l → l.same s t) :
    (modelMini op s).1 = (modelMini op t).1 ∧ ∀ l : Loc, l.same s t → l.same (modelMini op s).2 (modelMini op t).2 := by
  have u := (V3Mini.uses (2 ^ 64 + 1) 3 (Nat.le_refl 3) op hf hp ⟨t, false⟩ h.sized).agree (s := ⟨s, false⟩) hs rfl
  unfold Agree at u
  rw [V3Mini.alone (2 ^ 64 + 1) 3 (Nat.lt_succ_self _) (Nat.le_refl 3) op hf s false, V3Mini.alone (2 ^ 64 + 1) 3 (Nat.lt_succ_self _) (Nat.le_refl 3) op hf t false] at u
  exact ⟨u.1, u.2.2⟩

/-- C124: goroutines that share a v3 `Buffer` without a mutex, run from the text of v3/buffer.generated.go, none of which changes a place another one
accesses, in the footprints of their calls made alone, do not notice one another and are in no data race. -/
theorem C124_buffer_separate :
    ∃ funs, compileAll V3Buffer.text = some funs ∧
    ∀ (fuel depth : Nat), 2 ^ 64 < fuel → 3 ≤ depth → ∀ {c0 c : Conf V3.Op V} {τ : Trace V3.Op V}, Quiet c0 → WF c0.sh.st →
    Exec (microBuf ⟨funs, V3Buffer.errs⟩ fuel depth) Fits c0 τ c → ∀ {R W : Nat → Loc → Prop}, Separate R W →
    (∀ i, KeepsTo modelBuf V3.mayRead V3.mayWrite V3.inPlace (R i) (W i) (started i τ) c0.sh.st) →
    UnnoticedAt modelBuf W c0 τ c ∧ ∀ i j op op' l, ¬ DataRace (microBuf ⟨funs, V3Buffer.errs⟩ fuel depth) Fits c0 τ i j op op' l :=
  ⟨_, V3Buffer.link, fun fuel depth hf hd _ _ _ q h0 e _ _ ap st =>
    unnoticedAt (Inv := Sized) (V3Buffer.uses fuel depth hd) (V3Buffer.alone fuel depth hf hd) (fun op ho hp s hs => (V3Buffer.keeps op ho hp s hs).1) q h0.sized e ap st⟩

/-- C124: the same for v3/minibuf.generated.go. -/
theorem C124_mini_separate :
    ∃ funs, compileAll V3Mini.text = some funs ∧
    ∀ (fuel depth : Nat), 2 ^ 64 < fuel → 3 ≤ depth → ∀ {c0 c : Conf (V3.Outs × V3.Op) V} {τ : Trace (V3.Outs × V3.Op) V}, Quiet c0 → WF c0.sh.st →
    Exec (microMini ⟨funs, V3Mini.errs⟩ fuel depth) HasMini c0 τ c → ∀ {R W : Nat → Loc → Prop}, Separate R W →
    (∀ i, KeepsTo modelMini (fun b x => V3.mayReadMini b x.2) (fun b x => V3.mayWrite b x.2) (fun x => V3.inPlace x.2) (R i) (W i) (started i τ) c0.sh.st) →
    UnnoticedAt modelMini W c0 τ c ∧ ∀ i j op op' l, ¬ DataRace (microMini ⟨funs, V3Mini.errs⟩ fuel depth) HasMini c0 τ i j op op' l :=
  ⟨_, V3Mini.link, fun fuel depth hf hd _ _ _ q h0 e _ _ ap st =>
    unnoticedAt (Inv := Sized) (ok := fun x => V3.inPlace x.2) (V3Mini.uses fuel depth hd) (V3Mini.alone fuel depth hf hd)
      (fun op ho hp s hs => (V3Mini.keeps op ho hp s hs).1) q h0.sized e ap st⟩

/-- The places the calls of `i` may change, for calls whose footprints depend on the slice header only. -/
def writesOf (wr : Buf → O → Loc → Prop) (c0 : Conf O V) (τ : Trace O V) (i : Nat) (l : Loc) : Prop := ∃ op ∈ started i τ, wr c0.sh.st.b op l

/-- No call of a goroutine changes a place that a call of another one accesses, by their footprints at the start. -/
def ApartAt (rd wr : Buf → O → Loc → Prop) (c0 : Conf O V) (τ : Trace O V) : Prop :=
  ∀ i j, i ≠ j → ∀ op ∈ started i τ, ∀ op' ∈ started j τ, ∀ l, wr c0.sh.st.b op l → ¬ rd c0.sh.st.b op' l ∧ ¬ wr c0.sh.st.b op' l

theorem placed_inPlace {op : V3.Op} (h : V3.placed op = true) : V3.inPlace op = true := by
  simp only [V3.placed, Bool.and_eq_true] at h; exact h.1.1

/-- C124: for calls with positions the footprints do not depend on the run: it is enough that no call changes a byte that a call of another goroutine
accesses. -/
theorem C124_buffer_placed :
    ∃ funs, compileAll V3Buffer.text = some funs ∧
    ∀ (fuel depth : Nat), 2 ^ 64 < fuel → 3 ≤ depth → ∀ {c0 c : Conf V3.Op V} {τ : Trace V3.Op V}, Quiet c0 → WF c0.sh.st →
    Exec (microBuf ⟨funs, V3Buffer.errs⟩ fuel depth) Fits c0 τ c → (∀ i, ∀ op ∈ started i τ, V3.placed op = true) →
    ApartAt V3.mayRead V3.mayWrite c0 τ →
    UnnoticedAt modelBuf (writesOf V3.mayWrite c0 τ) c0 τ c ∧ ∀ i j op op' l, ¬ DataRace (microBuf ⟨funs, V3Buffer.errs⟩ fuel depth) Fits c0 τ i j op op' l := by
  obtain ⟨funs, hc, h⟩ := C124_buffer_separate
  refine ⟨funs, hc, fun fuel depth hf hd c0 c τ q h0 e pl ap => h fuel depth hf hd q h0 e (R := fun i l => ∃ op ∈ started i τ, V3.mayRead c0.sh.st.b op l)
    (fun i j hij l ⟨op, ho, hw⟩ => ⟨fun ⟨op', ho', hr⟩ => (ap i j hij op ho op' ho' l hw).1 hr, fun ⟨op', ho', hr⟩ => (ap i j hij op ho op' ho' l hw).2 hr⟩) fun i => ?_⟩
  exact KeepsTo.fixed (Inv := Sized) (allowed := Fits) (pl := V3.placed) V3Buffer.keeps (fun op => placed_inPlace) (V3.placed_same (acc := V3.accesses))
    (fun op ho => e.allowed_of_started ho) rfl h0.sized (pl i) (fun op ho x hx => ⟨op, ho, hx⟩) fun op ho x hx => ⟨op, ho, hx⟩

/-- C124: the same for v3/minibuf.generated.go. -/
theorem C124_mini_placed :
    ∃ funs, compileAll V3Mini.text = some funs ∧
    ∀ (fuel depth : Nat), 2 ^ 64 < fuel → 3 ≤ depth → ∀ {c0 c : Conf (V3.Outs × V3.Op) V} {τ : Trace (V3.Outs × V3.Op) V}, Quiet c0 → WF c0.sh.st →
    Exec (microMini ⟨funs, V3Mini.errs⟩ fuel depth) HasMini c0 τ c → (∀ i, ∀ op ∈ started i τ, V3.placed op.2 = true) →
    ApartAt (fun b x => V3.mayReadMini b x.2) (fun b x => V3.mayWrite b x.2) c0 τ →
    UnnoticedAt modelMini (writesOf (fun b x => V3.mayWrite b x.2) c0 τ) c0 τ c ∧
      ∀ i j op op' l, ¬ DataRace (microMini ⟨funs, V3Mini.errs⟩ fuel depth) HasMini c0 τ i j op op' l := by
  obtain ⟨funs, hc, h⟩ := C124_mini_separate
  refine ⟨funs, hc, fun fuel depth hf hd c0 c τ q h0 e pl ap => h fuel depth hf hd q h0 e (R := fun i l => ∃ op ∈ started i τ, V3.mayReadMini c0.sh.st.b op.2 l)
    (fun i j hij l ⟨op, ho, hw⟩ => ⟨fun ⟨op', ho', hr⟩ => (ap i j hij op ho op' ho' l hw).1 hr, fun ⟨op', ho', hr⟩ => (ap i j hij op ho op' ho' l hw).2 hr⟩) fun i => ?_⟩
  exact KeepsTo.fixed (Inv := Sized) (allowed := HasMini) (pl := fun x => V3.placed x.2) V3Mini.keeps (fun op => placed_inPlace)
    (fun op => V3.placed_same (acc := V3.accessesMini) op.2)
    (fun op ho => e.allowed_of_started ho) rfl h0.sized (pl i) (fun op ho x hx => ⟨op, ho, hx⟩) fun op ho x hx => ⟨op, ho, hx⟩

/-- Calls with positions about different bytes of the content do not touch each other's places. -/
theorem C124_ranges {acc : V3.Op → Part → Bool} (b : Buf) (op op' : V3.Op) (hp : V3.placed op = true)
    (hr : (V3.bytesOf b op).2 ≤ (V3.bytesOf b op').1 ∨ (V3.bytesOf b op').2 ≤ (V3.bytesOf b op).1)
    (hs : ∀ t, V3.sourceOf op' = some t → t.arr ≠ b.buf.arr) (l : Loc) (hl : V3.mayWrite b op l) : ¬ V3.reads acc b op' l ∧ ¬ V3.mayWrite b op' l := by
  obtain ⟨h1, h2⟩ := hl
  simp only [V3.placed, V3.inPlace, Bool.and_eq_true, Bool.not_eq_true'] at hp
  obtain ⟨⟨⟨hp1, _⟩, hp2⟩, hp3⟩ := hp
  have hb : l.part = .bytes := by
    generalize l.part = k at h1
    rcases k with (_ | _ | _ | _) | _ | _
    · exact nomatch hp2.symm.trans (V3.accesses_of_changes h1)
    · exact nomatch hp1.symm.trans h1
    · exact nomatch hp3.symm.trans (V3.accesses_of_changes h1)
    · exact nomatch hp1.symm.trans h1
    · cases op <;> first | exact Bool.noConfusion (show true = false from hp1) | exact Bool.noConfusion (show false = true from h1)
    · rfl
  obtain ⟨x, x1, x2, x3, rfl⟩ := h2 hb
  have no : ¬ (Loc.byte b.buf.arr (b.buf.off + x)).content b (V3.bytesOf b op') := fun ⟨y, y1, y2, _, e⟩ => by
    have : b.buf.off + x = b.buf.off + y := by injection e
    omega
  refine ⟨fun h => (h.2 rfl).elim no fun ⟨t, ht, y, _, e⟩ => hs t ht (by injection e with e1; exact e1.symm), fun h => no (h.2 rfl)⟩

/-- One goroutine sets a bit of the first byte of `demo`, another one writes the two bytes behind it, a third one copies to other bytes; in turn. -/
def demoPlaced : List (Nat × Option V3.Op) :=
  (0, some (.setBit (some 3))) :: (1, some (.write .u16 .be (some 1) [0x1122])) :: (2, some (.writeBytes (some 6) V3.demoSrc)) ::
    steps 0 3 ++ steps 1 3 ++ steps 2 2 ++ steps 0 1 ++ steps 1 2 ++ steps 2 2 ++ steps 0 2 ++ steps 1 1

def demoCalls : Nat → List V3.Op
  | 0 => [.setBit (some 3)]
  | 1 => [.write .u16 .be (some 1) [0x1122]]
  | 2 => [.writeBytes (some 6) V3.demoSrc]
  | _ => []

/-- A case for C124. -/
theorem demoPlaced_runs (f d : Nat) : ∃ τ c, Exec (microBuf V3Buffer.P (f + 100) (d + 3)) Fits (rest _ _ V3.demo) τ c ∧ (∀ i, c.thr i = .idle) ∧
    (∀ i, ∀ op ∈ started i τ, V3.placed op = true) ∧ ApartAt V3.mayRead V3.mayWrite (rest _ _ V3.demo) τ ∧
    c.sh.st.bytes = [19, 17, 34, 6, 7, 8, 0xAA, 0xBB, 0xCC, 12, 13, 14] := by
  obtain ⟨τ, c, e, hi, hn, h⟩ := sched_ex_only (ex := microBuf V3Buffer.P (f + 100) (d + 3)) (allowed := Fits) (rest_quiet V3.demo) 3 demoPlaced
    (fun τ c => (started 0 τ matches [.setBit (some 3)]) && (started 1 τ matches [.write .u16 .be (some 1) [0x1122]]) &&
      (started 2 τ matches [.writeBytes (some 6) ⟨1, 0, 3, 3⟩]) && c.sh.st.bytes == [19, 17, 34, 6, 7, 8, 0xAA, 0xBB, 0xCC, 12, 13, 14])
    (allowed_of fun op ho => by
      rcases List.mem_cons.mp ho with rfl | ho
      · trivial
      · rcases List.mem_cons.mp ho with rfl | ho
        · trivial
        · rw [List.mem_singleton.mp ho]; trivial) (by decide) (by compute)
  simp only [Bool.and_eq_true, beq_iff_eq] at h
  obtain ⟨⟨⟨h0, h1⟩, h2⟩, h3⟩ := h
  have s : ∀ i, started i τ = demoCalls i := fun i => match i with
    | 0 => by split at h0 <;> first | assumption | exact nomatch h0
    | 1 => by split at h1 <;> first | assumption | exact nomatch h1
    | 2 => by split at h2 <;> first | assumption | exact nomatch h2
    | i + 3 => (hn (i + 3) (by omega)).1
  have one : ∀ i, ∀ op ∈ started i τ, (i = 0 ∧ op = .setBit (some 3)) ∨ (i = 1 ∧ op = .write .u16 .be (some 1) [0x1122]) ∨ (i = 2 ∧ op = .writeBytes (some 6) V3.demoSrc) := by
    intro i op ho
    rw [s i] at ho
    match i, ho with
    | 0, ho => exact .inl ⟨rfl, List.mem_singleton.mp ho⟩
    | 1, ho => exact .inr (.inl ⟨rfl, List.mem_singleton.mp ho⟩)
    | 2, ho => exact .inr (.inr ⟨rfl, List.mem_singleton.mp ho⟩)
    | i + 3, ho => exact nomatch ho
  refine ⟨τ, c, e, hi, fun i op ho => ?_, fun i j hij op ho op' ho' => ?_, h3⟩
  · rcases one i op ho with ⟨_, rfl⟩ | ⟨_, rfl⟩ | ⟨_, rfl⟩ <;> rfl
  · have src : ∀ t, V3.sourceOf op' = some t → t.arr ≠ V3.demo.b.buf.arr := by
      rcases one j op' ho' with ⟨_, rfl⟩ | ⟨_, rfl⟩ | ⟨_, rfl⟩ <;> intro t ht <;> cases ht
      decide
    refine C124_ranges V3.demo.b op op' ?_ ?_ src
    · rcases one i op ho with ⟨_, rfl⟩ | ⟨_, rfl⟩ | ⟨_, rfl⟩ <;> rfl
    · rcases one i op ho with ⟨rfl, rfl⟩ | ⟨rfl, rfl⟩ | ⟨rfl, rfl⟩ <;> rcases one j op' ho' with ⟨rfl, rfl⟩ | ⟨rfl, rfl⟩ | ⟨rfl, rfl⟩ <;>
        first | exact absurd rfl hij | decide

/-- Two goroutines set different bits of one byte: their footprints meet, and one of the bits is lost. -/
example (f d : Nat) : ∃ τ c, Exec (microBuf V3Buffer.P (f + 100) (d + 3)) Fits (rest _ _ V3.demo) τ c ∧ (∀ i, c.thr i = .idle) ∧
    c.sh.st.bytes = [19, 4, 5, 6, 7, 8, 9, 10, 11, 12, 13, 14] ∧ (modelBuf (.setBit (some 4)) (modelBuf (.setBit (some 3)) V3.demo).2).2.bytes ≠ c.sh.st.bytes := by
  obtain ⟨τ, c, e, hi, h⟩ := sched_ex_done (ex := microBuf V3Buffer.P (f + 100) (d + 3)) (allowed := Fits) (rest_quiet V3.demo) 2
    ((0, some (.setBit (some 3))) :: (1, some (.setBit (some 4))) :: steps 0 4 ++ steps 1 6 ++ steps 0 2)
    (fun _ c => c.sh.st.bytes == [19, 4, 5, 6, 7, 8, 9, 10, 11, 12, 13, 14])
    (allowed_of fun op ho => by rcases List.mem_cons.mp ho with rfl | ho <;> first | trivial | (rw [List.mem_singleton.mp ho]; trivial)) (by decide) (by compute)
  have h := eq_of_beq h
  exact ⟨τ, c, e, hi, h, by rw [h]; decide +kernel⟩

/-- A call at an offset: its footprint moves with the offset. -/
example : V3.mayWrite V3.demo.b (.write .u16 .be none [1]) (.byte 0 5) ∧ V3.mayWrite V3.demo.b (.write .u16 .be none [1]) (.field .off) ∧
    ¬ V3.mayWrite V3.demo.b (.write .u16 .be none [1]) (.byte 0 7) ∧ V3.mayRead V3.demo.b (.readBits none 4) (.byte 0 3) ∧
    V3.inPlace (.read .u64 .le none 2) = true ∧ V3.placed (.read .u64 .le none 2) = false := by
  refine ⟨⟨rfl, fun _ => ⟨3, by decide, by decide, by decide, rfl⟩⟩, ⟨rfl, nofun⟩, fun h => ?_, ⟨rfl, fun _ => .inl ⟨1, by decide, by decide, by decide, rfl⟩⟩, rfl, rfl⟩
  obtain ⟨x, _, x2, _, e⟩ := h.2 rfl
  have e : 7 = 2 + x := by injection e
  have x2 : (x : Int) < 5 := x2
  omega

end Crunch.Src
