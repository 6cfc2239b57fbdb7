import Verif.Lemmas.V2MiniFootCalls
import Verif.Props.UnlockedFoot

/-!
# Footprints of calls on v2 `MiniBuffer`, and goroutines with separate ones (C125)

As `Verif/Props/UnlockedFoot.lean`, for v2/minibuf.go.
-/

namespace Crunch.Src
open _root_.Crunch.V3 (Buf WF)

theorem V2Mini.uses (fuel depth : Nat) (hd : 4 ≤ depth) (x : V3.Outs × V2.Op2) (hf : HasMini2 x) (hp : V2.inPlaceMini x.2 = true) (s : Sh) (hs : Sized s.st.b) :
    (microMini2 V2Mini.P fuel depth x).Uses (V2.mayReadMini s.st.b x.2) (V2.mayWriteMini s.st.b x.2) s := by
  obtain ⟨d, rfl⟩ : ∃ d, depth = d + 4 := ⟨depth - 4, by omega⟩
  obtain ⟨o, op⟩ := x
  have k := V2Mini.kinds fuel (d + 4) (o, op) hf
  cases ha : V2.accessesMini op .bytes with
  | true => exact (V2Mini.bytes_uses fuel d o op hp hs ha hf.2).parts k
  | false =>
    have hc : V2.copiesMini op = false := by cases op <;> first | rfl | exact Bool.noConfusion (show false = true from hp) | exact Bool.noConfusion (show true = false from ha)
    change Prog.Only (Action.of _ _ (V2.copiesMini op)) _ at k
    rw [hc] at k
    refine k.uses (fun l hl => ⟨hl, fun e => ?_⟩) (fun l hl => ⟨hl, fun e => ?_⟩) s
    · change V2.accessesMini op l.part = true at hl; rw [e, ha] at hl; exact nomatch hl
    · have := V2.accesses_of_alters hl; rw [e, ha] at this; exact nomatch this

/-- The model says what a call does alone. -/
theorem V2Mini.alone (fuel depth : Nat) (hf : 2 ^ 64 < fuel) (hd : 4 ≤ depth) (op : V3.Outs × V2.Op2) (ho : HasMini2 op) (s : V3.St) (b : Bool) :
    (microMini2 V2Mini.P fuel depth op).run ⟨s, b⟩ = ((modelMini2 op s).1, ⟨(modelMini2 op s).2, b⟩) := by
  obtain ⟨funs, hc, h⟩ := C120_v2_mini_alone
  cases (compileAll_append V2Utils.link V2Mini.link).symm.trans hc
  obtain ⟨m, hm⟩ := Option.isSome_iff_exists.mp ho.2
  refine (h fuel depth hf hd op.1 op.2 ho.1 m hm s b).trans ?_
  unfold modelMini2; rw [hm]

theorem V2Mini.keeps (op : V3.Outs × V2.Op2) (ho : HasMini2 op) (hp : V2.inPlaceMini op.2 = true) (s : V3.St) (hs : Sized s.b) :
    Sized (modelMini2 op s).2.b ∧ (modelMini2 op s).2.b.buf = s.b.buf := by
  obtain ⟨h1, h2⟩ : V2.alters op.2 .header = false ∧ ∀ f, f = .cap ∨ f = .bcap → V2.alters op.2 (.field f) = false := by
    obtain ⟨_, op⟩ := op
    refine ⟨?_, ?_⟩ <;> (try rintro f (rfl | rfl)) <;> cases op <;> first | rfl | exact Bool.noConfusion (show false = true from hp)
  have := keeps_sized_at (V2Mini.uses (2 ^ 64 + 1) 4 (Nat.le_refl 4) op ho hp ⟨s, false⟩ hs) (fun h => nomatch h1.symm.trans h.1)
    (fun h => nomatch (h2 _ (.inl rfl)).symm.trans h.1) (fun h => nomatch (h2 _ (.inr rfl)).symm.trans h.1) hs
  rwa [V2Mini.alone (2 ^ 64 + 1) 4 (Nat.lt_succ_self _) (Nat.le_refl 4) op ho s false] at this

/-- C125: a call on a v2 `MiniBuffer` that makes no new array and leaves the content where it is, executed from the text of v2/minibuf.go, accesses only its
footprint, whatever the state. -/
theorem C125_footprint :
    ∃ funs, compileAll (V2Utils.text ++ V2Mini.text) = some funs ∧
    ∀ (fuel depth : Nat), 4 ≤ depth → ∀ (x : V3.Outs × V2.Op2), HasMini2 x → V2.inPlaceMini x.2 = true → ∀ (s : Sh), WF s.st →
    (microMini2 ⟨funs, V2Mini.errs⟩ fuel depth x).Uses (V2.mayReadMini s.st.b x.2) (V2.mayWriteMini s.st.b x.2) s :=
  ⟨_, compileAll_append V2Utils.link V2Mini.link, fun fuel depth hd op hf hp s h => V2Mini.uses fuel depth hd op hf hp s h.sized⟩

/-- C125: so it leaves every other place as it is. -/
theorem C125_frame {s : V3.St} (h : WF s) (op : V3.Outs × V2.Op2) (hf : HasMini2 op) (hp : V2.inPlaceMini op.2 = true) {l : Loc} (hl : ¬ V2.mayWriteMini s.b op.2 l) :
    l.same (modelMini2 op s).2 s := by
  have := Loc.same.of_run (V2Mini.uses (2 ^ 64 + 1) 4 (Nat.le_refl 4) op hf hp ⟨s, false⟩ h.sized) hl
  rwa [V2Mini.alone (2 ^ 64 + 1) 4 (Nat.lt_succ_self _) (Nat.le_refl 4) op hf s false] at this

/-- C125: and it depends on nothing else. -/
theorem C125_depends {s t : V3.St} (h : WF t) (op : V3.Outs × V2.Op2) (hf : HasMini2 op) (hp : V2.inPlaceMini op.2 = true)
    (hs : ∀ l : Loc, V2.mayReadMini t.b op.2 l → l.same s t) :
    (modelMini2 op s).1 = (modelMini2 op t).1 ∧ ∀ l : Loc, l.same s t → l.same (modelMini2 op s).2 (modelMini2 op t).2 := by
  have u := (V2Mini.uses (2 ^ 64 + 1) 4 (Nat.le_refl 4) op hf hp ⟨t, false⟩ h.sized).agree (s := ⟨s, false⟩) hs rfl
  unfold Agree at u
  rw [V2Mini.alone (2 ^ 64 + 1) 4 (Nat.lt_succ_self _) (Nat.le_refl 4) op hf s false, V2Mini.alone (2 ^ 64 + 1) 4 (Nat.lt_succ_self _) (Nat.le_refl 4) op hf t false] at u
  exact ⟨u.1, u.2.2⟩

/-- C125: goroutines that share a v2 `MiniBuffer`, run from the text of v2/minibuf.go, none of which changes a place another one accesses, in the footprints
of their calls made alone, do not notice one another and are in no data race. -/
theorem C125_separate :
    ∃ funs, compileAll (V2Utils.text ++ V2Mini.text) = some funs ∧
    ∀ (fuel depth : Nat), 2 ^ 64 < fuel → 4 ≤ depth → ∀ {c0 c : Conf (V3.Outs × V2.Op2) V} {τ : Trace (V3.Outs × V2.Op2) V}, Quiet c0 → WF c0.sh.st →
    Exec (microMini2 ⟨funs, V2Mini.errs⟩ fuel depth) HasMini2 c0 τ c → ∀ {R W : Nat → Loc → Prop}, Separate R W →
    (∀ i, KeepsTo modelMini2 (fun b x => V2.mayReadMini b x.2) (fun b x => V2.mayWriteMini b x.2) (fun x => V2.inPlaceMini x.2) (R i) (W i) (started i τ) c0.sh.st) →
    UnnoticedAt modelMini2 W c0 τ c ∧ ∀ i j op op' l, ¬ DataRace (microMini2 ⟨funs, V2Mini.errs⟩ fuel depth) HasMini2 c0 τ i j op op' l :=
  ⟨_, compileAll_append V2Utils.link V2Mini.link, fun fuel depth hf hd _ _ _ q h0 e _ _ ap st =>
    unnoticedAt (Inv := Sized) (ok := fun x => V2.inPlaceMini x.2) (V2Mini.uses fuel depth hd) (V2Mini.alone fuel depth hf hd)
      (fun op ho hp s hs => (V2Mini.keeps op ho hp s hs).1) q h0.sized e ap st⟩

/-- C125: for calls with positions it is enough that no call changes a byte that a call of another goroutine accesses. -/
theorem C125_placed :
    ∃ funs, compileAll (V2Utils.text ++ V2Mini.text) = some funs ∧
    ∀ (fuel depth : Nat), 2 ^ 64 < fuel → 4 ≤ depth → ∀ {c0 c : Conf (V3.Outs × V2.Op2) V} {τ : Trace (V3.Outs × V2.Op2) V}, Quiet c0 → WF c0.sh.st →
    Exec (microMini2 ⟨funs, V2Mini.errs⟩ fuel depth) HasMini2 c0 τ c → (∀ i, ∀ op ∈ started i τ, V2.placedMini op.2 = true) →
    ApartAt (fun b x => V2.mayReadMini b x.2) (fun b x => V2.mayWriteMini b x.2) c0 τ →
    UnnoticedAt modelMini2 (writesOf (fun b x => V2.mayWriteMini b x.2) c0 τ) c0 τ c ∧
      ∀ i j op op' l, ¬ DataRace (microMini2 ⟨funs, V2Mini.errs⟩ fuel depth) HasMini2 c0 τ i j op op' l := by
  obtain ⟨funs, hc, h⟩ := C125_separate
  refine ⟨funs, hc, fun fuel depth hf hd c0 c τ q h0 e pl ap => h fuel depth hf hd q h0 e (R := fun i l => ∃ op ∈ started i τ, V2.mayReadMini c0.sh.st.b op.2 l)
    (fun i j hij l ⟨op, ho, hw⟩ => ⟨fun ⟨op', ho', hr⟩ => (ap i j hij op ho op' ho' l hw).1 hr, fun ⟨op', ho', hr⟩ => (ap i j hij op ho op' ho' l hw).2 hr⟩) fun i => ?_⟩
  exact KeepsTo.fixed (Inv := Sized) (allowed := HasMini2) (pl := fun x => V2.placedMini x.2) V2Mini.keeps
    (fun op h => by simp only [V2.placedMini, Bool.and_eq_true] at h; exact h.1.1) (fun op => V2.placedMini_same op.2)
    (fun op ho => e.allowed_of_started ho) rfl h0.sized (pl i) (fun op ho x hx => ⟨op, ho, hx⟩) fun op ho x hx => ⟨op, ho, hx⟩

/-- C125: calls with positions about different bytes of the content do not touch each other's places. -/
theorem C125_ranges (b : Buf) (op op' : V2.Op2) (hp : V2.placedMini op = true)
    (hr : (V2.bytesOfMini b op).2 ≤ (V2.bytesOfMini b op').1 ∨ (V2.bytesOfMini b op').2 ≤ (V2.bytesOfMini b op).1)
    (hs : ∀ t, V2.sourceOf op' = some t → t.arr ≠ b.buf.arr) (l : Loc) (hl : V2.mayWriteMini b op l) : ¬ V2.mayReadMini b op' l ∧ ¬ V2.mayWriteMini b op' l := by
  obtain ⟨h1, h2⟩ := hl
  simp only [V2.placedMini, Bool.and_eq_true, Bool.not_eq_true'] at hp
  obtain ⟨⟨hp1, hp2⟩, hp3⟩ := hp
  have hb : l.part = .bytes := by
    generalize l.part = k at h1
    rcases k with (_ | _ | _ | _) | _ | _
    · exact nomatch hp2.symm.trans (V2.accesses_of_alters h1)
    · cases op <;> first | exact Bool.noConfusion (show false = true from hp1) | exact Bool.noConfusion (show false = true from h1)
    · exact nomatch hp3.symm.trans (V2.accesses_of_alters h1)
    · cases op <;> first | exact Bool.noConfusion (show false = true from hp1) | exact Bool.noConfusion (show false = true from h1)
    · cases op <;> first | exact Bool.noConfusion (show false = true from hp1) | exact Bool.noConfusion (show false = true from h1)
    · rfl
  obtain ⟨x, x1, x2, x3, rfl⟩ := h2 hb
  have no : ¬ (Loc.byte b.buf.arr (b.buf.off + x)).content b (V2.bytesOfMini b op') := fun ⟨y, y1, y2, _, e⟩ => by
    have : b.buf.off + x = b.buf.off + y := by injection e
    omega
  refine ⟨fun h => (h.2 rfl).elim no fun ⟨t, ht, y, _, e⟩ => hs t ht (by injection e with e1; exact e1.symm), fun h => no (h.2 rfl)⟩

/-- One goroutine sets a bit of the first byte of `demo`, another one copies three bytes to the sixth one, byte by byte; in turn. -/
theorem demoPlaced2_runs (f d : Nat) : ∃ τ c, Exec (microMini2 V2Mini.P (f + 100) (d + 4)) HasMini2 (rest _ _ V3.demo) τ c ∧ (∀ i, c.thr i = .idle) ∧
    (∀ i, ∀ op ∈ started i τ, V2.placedMini op.2 = true) ∧ ApartAt (fun b x => V2.mayReadMini b x.2) (fun b x => V2.mayWriteMini b x.2) (rest _ _ V3.demo) τ ∧
    c.sh.st.bytes = [19, 4, 5, 6, 7, 8, 0xAA, 0xBB, 0xCC, 12, 13, 14] := by
  obtain ⟨τ, c, e, hi, hn, h⟩ := sched_ex_only (ex := microMini2 V2Mini.P (f + 100) (d + 4)) (allowed := HasMini2) (rest_quiet V3.demo) 2
    ((0, some (noOuts, .setBit (some 3) 1)) :: (1, some (noOuts, .writeBytes (some 6) V3.demoSrc)) ::
      steps 0 2 ++ steps 1 5 ++ steps 0 1 ++ steps 1 2 ++ steps 0 2 ++ steps 1 3)
    (fun τ c => (started 0 τ matches [(_, .setBit (some 3) 1)]) && (started 1 τ matches [(_, .writeBytes (some 6) ⟨1, 0, 3, 3⟩)]) &&
      c.sh.st.bytes == [19, 4, 5, 6, 7, 8, 0xAA, 0xBB, 0xCC, 12, 13, 14])
    (allowed_of fun op ho => by
      rcases List.mem_cons.mp ho with rfl | ho
      · exact ⟨trivial, rfl⟩
      · rw [List.mem_singleton.mp ho]; exact ⟨trivial, rfl⟩) (by decide) (by compute)
  simp only [Bool.and_eq_true, beq_iff_eq] at h
  obtain ⟨⟨h0, h1⟩, h3⟩ := h
  have one : ∀ i, ∀ op ∈ started i τ, (i = 0 ∧ op.2 = .setBit (some 3) 1) ∨ (i = 1 ∧ op.2 = .writeBytes (some 6) V3.demoSrc) := by
    intro i op ho
    match i with
    | 0 => split at h0 <;> first | (rename_i he; rw [he] at ho; exact .inl ⟨rfl, by rw [List.mem_singleton.mp ho]; rfl⟩) | exact nomatch h0
    | 1 => split at h1 <;> first | (rename_i he; rw [he] at ho; exact .inr ⟨rfl, by rw [List.mem_singleton.mp ho]; rfl⟩) | exact nomatch h1
    | i + 2 => rw [(hn (i + 2) (by omega)).1] at ho; exact nomatch ho
  refine ⟨τ, c, e, hi, fun i op ho => ?_, fun i j hij op ho op' ho' => ?_, h3⟩
  · rcases one i op ho with ⟨_, h⟩ | ⟨_, h⟩ <;> rw [h] <;> rfl
  · have src : ∀ t, V2.sourceOf op'.2 = some t → t.arr ≠ V3.demo.b.buf.arr := by
      rcases one j op' ho' with ⟨_, h⟩ | ⟨_, h⟩ <;> rw [h] <;> intro t ht <;> cases ht
      decide
    refine C125_ranges V3.demo.b op.2 op'.2 ?_ ?_ src
    · rcases one i op ho with ⟨_, h⟩ | ⟨_, h⟩ <;> rw [h] <;> rfl
    · rcases one i op ho with ⟨rfl, h⟩ | ⟨rfl, h⟩ <;> rcases one j op' ho' with ⟨rfl, h'⟩ | ⟨rfl, h'⟩ <;> rw [h, h'] <;>
        first | exact absurd rfl hij | decide

end Crunch.Src
