import Verif.Lemmas.V1MiniFootCalls
import Verif.Props.UnlockedFoot

/-!
# Footprints of calls on v1 `MiniBuffer`, and goroutines with separate ones (C126)

As `Verif/Props/UnlockedFoot.lean`, for v1/minibuf.go.
-/

namespace Crunch.Src
open _root_.Crunch.V3 (Buf WF)

/-- What a call needs of the buffer; for `ReadComplex` the capacity of the slice matters too. -/
def V1Mini.Inv (b : Buf) : Prop := Sized b ∧ b.buf.cap < 2 ^ 50

theorem V1Mini.inv {s : V3.St} (h : WF s) : V1Mini.Inv s.b := ⟨h.sized, h.cap_lt⟩

theorem V1Mini.uses (fuel depth : Nat) (hd : 4 ≤ depth) (x : V3.Outs × V1.Any × V1.Op1) (hf : HasMini1 x) (hp : V1.inPlaceMini1 x.2.2 = true) (s : Sh) (hs : V1Mini.Inv s.st.b) :
    (microMini1 V1Mini.P fuel depth x).Uses (V1.mayReadMini1 s.st.b x.2.2) (V1.mayWriteMini1 s.st.b x.2.2) s := by
  obtain ⟨d, rfl⟩ : ∃ d, depth = d + 4 := ⟨depth - 4, by omega⟩
  obtain ⟨o, a, op⟩ := x
  have k := V1Mini.kinds fuel (d + 4) (o, a, op) hf
  cases ha : V1.accessesMini1 op .bytes with
  | true => exact (V1Mini.bytes_uses fuel d o a op hp hs.1 hs.2 ha hf.2).parts k
  | false =>
    have hc : V1.copiesMini1 op = false := by cases op <;> first | rfl | exact Bool.noConfusion (show false = true from hp) | exact Bool.noConfusion (show true = false from ha)
    change Prog.Only (Action.of _ _ (V1.copiesMini1 op)) _ at k
    rw [hc] at k
    refine k.uses (fun l hl => ⟨hl, fun e => ?_⟩) (fun l hl => ⟨hl, fun e => ?_⟩) s
    · change V1.accessesMini1 op l.part = true at hl; rw [e, ha] at hl; exact nomatch hl
    · have := V1.accesses_of_alters hl; rw [e, ha] at this; exact nomatch this

/-- The model says what a call does alone. -/
theorem V1Mini.alone (fuel depth : Nat) (hf : 2 ^ 64 < fuel) (hd : 4 ≤ depth) (op : V3.Outs × V1.Any × V1.Op1) (ho : HasMini1 op) (s : V3.St) (b : Bool) :
    (microMini1 V1Mini.P fuel depth op).run ⟨s, b⟩ = ((modelMini1 op s).1, ⟨(modelMini1 op s).2, b⟩) := by
  obtain ⟨funs, hc, h⟩ := C120_v1_mini_alone
  cases (compileAll_append V1Utils.link V1Mini.link).symm.trans hc
  obtain ⟨m, hm⟩ := Option.isSome_iff_exists.mp ho.2
  refine (h fuel depth hf hd op.1 op.2.1 op.2.2 ho.1 m hm s b).trans ?_
  unfold modelMini1; rw [hm]

theorem V1Mini.keeps (op : V3.Outs × V1.Any × V1.Op1) (ho : HasMini1 op) (hp : V1.inPlaceMini1 op.2.2 = true) (s : V3.St) (hs : V1Mini.Inv s.b) :
    V1Mini.Inv (modelMini1 op s).2.b ∧ (modelMini1 op s).2.b.buf = s.b.buf := by
  obtain ⟨h1, h2⟩ : V1.alters1 op.2.2 .header = false ∧ ∀ f, f = .cap ∨ f = .bcap → V1.alters1 op.2.2 (.field f) = false := by
    obtain ⟨_, _, op⟩ := op
    refine ⟨?_, ?_⟩ <;> (try rintro f (rfl | rfl)) <;> cases op <;> first | rfl | exact Bool.noConfusion (show false = true from hp)
  have := keeps_sized_at (V1Mini.uses (2 ^ 64 + 1) 4 (Nat.le_refl 4) op ho hp ⟨s, false⟩ hs) (fun h => nomatch h1.symm.trans h.1)
    (fun h => nomatch (h2 _ (.inl rfl)).symm.trans h.1) (fun h => nomatch (h2 _ (.inr rfl)).symm.trans h.1) hs.1
  rw [V1Mini.alone (2 ^ 64 + 1) 4 (Nat.lt_succ_self _) (Nat.le_refl 4) op ho s false] at this
  exact ⟨⟨this.1, by rw [this.2]; exact hs.2⟩, this.2⟩

/-- C126: a call on a v1 `MiniBuffer` that makes no new array and leaves the content where it is, executed from the text of v1/minibuf.go, accesses only its
footprint, whatever the state. -/
theorem C126_footprint :
    ∃ funs, compileAll (V1Utils.text ++ V1Mini.text) = some funs ∧
    ∀ (fuel depth : Nat), 4 ≤ depth → ∀ (x : V3.Outs × V1.Any × V1.Op1), HasMini1 x → V1.inPlaceMini1 x.2.2 = true → ∀ (s : Sh), WF s.st →
    (microMini1 ⟨funs, V1Mini.errs⟩ fuel depth x).Uses (V1.mayReadMini1 s.st.b x.2.2) (V1.mayWriteMini1 s.st.b x.2.2) s :=
  ⟨_, compileAll_append V1Utils.link V1Mini.link, fun fuel depth hd op hf hp s h => V1Mini.uses fuel depth hd op hf hp s (V1Mini.inv h)⟩

/-- C126: so it leaves every other place as it is. -/
theorem C126_frame {s : V3.St} (h : WF s) (op : V3.Outs × V1.Any × V1.Op1) (hf : HasMini1 op) (hp : V1.inPlaceMini1 op.2.2 = true) {l : Loc} (hl : ¬ V1.mayWriteMini1 s.b op.2.2 l) :
    l.same (modelMini1 op s).2 s := by
  have := Loc.same.of_run (V1Mini.uses (2 ^ 64 + 1) 4 (Nat.le_refl 4) op hf hp ⟨s, false⟩ (V1Mini.inv h)) hl
  rwa [V1Mini.alone (2 ^ 64 + 1) 4 (Nat.lt_succ_self _) (Nat.le_refl 4) op hf s false] at this

/-- C126: and it depends on nothing else. -/
theorem C126_depends {s t : V3.St} (h : WF t) (op : V3.Outs × V1.Any × V1.Op1) (hf : HasMini1 op) (hp : V1.inPlaceMini1 op.2.2 = true)
    (hs : ∀ l : Loc, V1.mayReadMini1 t.b op.2.2 l → l.same s t) :
    (modelMini1 op s).1 = (modelMini1 op t).1 ∧ ∀ l : Loc, l.same s t → l.same (modelMini1 op s).2 (modelMini1 op t).2 := by
  have u := (V1Mini.uses (2 ^ 64 + 1) 4 (Nat.le_refl 4) op hf hp ⟨t, false⟩ (V1Mini.inv h)).agree (s := ⟨s, false⟩) hs rfl
  unfold Agree at u
  rw [V1Mini.alone (2 ^ 64 + 1) 4 (Nat.lt_succ_self _) (Nat.le_refl 4) op hf s false, V1Mini.alone (2 ^ 64 + 1) 4 (Nat.lt_succ_self _) (Nat.le_refl 4) op hf t false] at u
  exact ⟨u.1, u.2.2⟩

/-- C126: goroutines that share a v1 `MiniBuffer`, run from the text of v1/minibuf.go, none of which changes a place another one accesses, in the footprints
of their calls made alone, do not notice one another and are in no data race. -/
theorem C126_separate :
    ∃ funs, compileAll (V1Utils.text ++ V1Mini.text) = some funs ∧
    ∀ (fuel depth : Nat), 2 ^ 64 < fuel → 4 ≤ depth → ∀ {c0 c : Conf (V3.Outs × V1.Any × V1.Op1) V} {τ : Trace (V3.Outs × V1.Any × V1.Op1) V}, Quiet c0 → WF c0.sh.st →
    Exec (microMini1 ⟨funs, V1Mini.errs⟩ fuel depth) HasMini1 c0 τ c → ∀ {R W : Nat → Loc → Prop}, Separate R W →
    (∀ i, KeepsTo modelMini1 (fun b x => V1.mayReadMini1 b x.2.2) (fun b x => V1.mayWriteMini1 b x.2.2) (fun x => V1.inPlaceMini1 x.2.2) (R i) (W i) (started i τ) c0.sh.st) →
    UnnoticedAt modelMini1 W c0 τ c ∧ ∀ i j op op' l, ¬ DataRace (microMini1 ⟨funs, V1Mini.errs⟩ fuel depth) HasMini1 c0 τ i j op op' l :=
  ⟨_, compileAll_append V1Utils.link V1Mini.link, fun fuel depth hf hd _ _ _ q h0 e _ _ ap st =>
    unnoticedAt (Inv := V1Mini.Inv) (ok := fun x => V1.inPlaceMini1 x.2.2) (V1Mini.uses fuel depth hd) (V1Mini.alone fuel depth hf hd)
      (fun op ho hp s hs => (V1Mini.keeps op ho hp s hs).1) q (V1Mini.inv h0) e ap st⟩

/-- C126: for calls with positions it is enough that no call changes a byte that a call of another goroutine accesses. -/
theorem C126_placed :
    ∃ funs, compileAll (V1Utils.text ++ V1Mini.text) = some funs ∧
    ∀ (fuel depth : Nat), 2 ^ 64 < fuel → 4 ≤ depth → ∀ {c0 c : Conf (V3.Outs × V1.Any × V1.Op1) V} {τ : Trace (V3.Outs × V1.Any × V1.Op1) V}, Quiet c0 → WF c0.sh.st →
    Exec (microMini1 ⟨funs, V1Mini.errs⟩ fuel depth) HasMini1 c0 τ c → (∀ i, ∀ op ∈ started i τ, V1.placedMini1 op.2.2 = true) →
    ApartAt (fun b x => V1.mayReadMini1 b x.2.2) (fun b x => V1.mayWriteMini1 b x.2.2) c0 τ →
    UnnoticedAt modelMini1 (writesOf (fun b x => V1.mayWriteMini1 b x.2.2) c0 τ) c0 τ c ∧
      ∀ i j op op' l, ¬ DataRace (microMini1 ⟨funs, V1Mini.errs⟩ fuel depth) HasMini1 c0 τ i j op op' l := by
  obtain ⟨funs, hc, h⟩ := C126_separate
  refine ⟨funs, hc, fun fuel depth hf hd c0 c τ q h0 e pl ap => h fuel depth hf hd q h0 e (R := fun i l => ∃ op ∈ started i τ, V1.mayReadMini1 c0.sh.st.b op.2.2 l)
    (fun i j hij l ⟨op, ho, hw⟩ => ⟨fun ⟨op', ho', hr⟩ => (ap i j hij op ho op' ho' l hw).1 hr, fun ⟨op', ho', hr⟩ => (ap i j hij op ho op' ho' l hw).2 hr⟩) fun i => ?_⟩
  exact KeepsTo.fixed (Inv := V1Mini.Inv) (allowed := HasMini1) (pl := fun x => V1.placedMini1 x.2.2) V1Mini.keeps
    (fun op h => by simp only [V1.placedMini1, Bool.and_eq_true] at h; exact h.1.1) (fun op => V1.placedMini1_same op.2.2)
    (fun op ho => e.allowed_of_started ho) rfl (V1Mini.inv h0) (pl i) (fun op ho x hx => ⟨op, ho, hx⟩) fun op ho x hx => ⟨op, ho, hx⟩

/-- C126: calls with positions about different bytes do not touch each other's places. -/
theorem C126_ranges (b : Buf) (op op' : V1.Op1) (hp : V1.placedMini1 op = true)
    (hr : (V1.bytesOfMini1 b op).2 ≤ (V1.bytesOfMini1 b op').1 ∨ (V1.bytesOfMini1 b op').2 ≤ (V1.bytesOfMini1 b op).1)
    (hq : (V1.bytesOfMini1 b op).2 ≤ (V1.complexOf b op').1 ∨ (V1.complexOf b op').2 ≤ (V1.bytesOfMini1 b op).1)
    (hs : ∀ t, V1.sourceOf1 op' = some t → t.arr ≠ b.buf.arr) (l : Loc) (hl : V1.mayWriteMini1 b op l) : ¬ V1.mayReadMini1 b op' l ∧ ¬ V1.mayWriteMini1 b op' l := by
  obtain ⟨h1, h2⟩ := hl
  simp only [V1.placedMini1, Bool.and_eq_true, Bool.not_eq_true'] at hp
  obtain ⟨⟨hp1, hp2⟩, hp3⟩ := hp
  have hb : l.part = .bytes := by
    generalize l.part = k at h1
    rcases k with (_ | _ | _ | _) | _ | _
    · exact nomatch hp2.symm.trans (V1.accesses_of_alters h1)
    · cases op <;> first | exact Bool.noConfusion (show false = true from hp1) | exact Bool.noConfusion (show false = true from h1)
    · exact nomatch hp3.symm.trans (V1.accesses_of_alters h1)
    · cases op <;> first | exact Bool.noConfusion (show false = true from hp1) | exact Bool.noConfusion (show false = true from h1)
    · cases op <;> first | exact Bool.noConfusion (show false = true from hp1) | exact Bool.noConfusion (show false = true from h1)
    · rfl
  obtain ⟨x, x1, x2, x3, rfl⟩ := h2 hb
  have no : ¬ (Loc.byte b.buf.arr (b.buf.off + x)).content b (V1.bytesOfMini1 b op') := fun ⟨y, y1, y2, _, e⟩ => by
    have : b.buf.off + x = b.buf.off + y := by injection e
    omega
  have no' : ¬ (Loc.byte b.buf.arr (b.buf.off + x)).around b (V1.complexOf b op') := fun ⟨y, y1, y2, e⟩ => by
    have : b.buf.off + x = b.buf.off + y := by injection e
    omega
  refine ⟨fun h => (h.2 rfl).elim no fun h => h.elim no' fun ⟨t, ht, y, _, e⟩ => hs t ht (by injection e with e1; exact e1.symm), fun h => no (h.2 rfl)⟩

/-- One goroutine writes a 16-bit value to the first two bytes of `demo`, another one reads two such values from the seventh one; in turn. -/
theorem demoPlaced1_runs (f d : Nat) : ∃ τ c, Exec (microMini1 V1Mini.P (f + 100) (d + 4)) HasMini1 (rest _ _ V3.demo) τ c ∧ (∀ i, c.thr i = .idle) ∧
    (∀ i, ∀ op ∈ started i τ, V1.placedMini1 op.2.2 = true) ∧ ApartAt (fun b x => V1.mayReadMini1 b x.2.2) (fun b x => V1.mayWriteMini1 b x.2.2) (rest _ _ V3.demo) τ ∧
    c.sh.st.bytes = [1, 2, 5, 6, 7, 8, 9, 10, 11, 12, 13, 14] ∧ (finished 1 τ).map Prod.snd = [.ok (.lu16 [0x090A, 0x0B0C])] := by
  obtain ⟨τ, c, e, hi, hn, h⟩ := sched_ex_only (ex := microMini1 V1Mini.P (f + 100) (d + 4)) (allowed := HasMini1) (rest_quiet V3.demo) 2
    ((0, some (noOuts, .other, .writeComplex (some 0) (.u16 [0x0102]) 2 (some .be))) :: (1, some (noOuts, .other, .readComplex (some 6) 2 2 (some .be))) ::
      steps 0 2 ++ steps 1 3 ++ steps 0 1 ++ steps 1 2 ++ steps 0 2 ++ steps 1 1)
    (fun τ c => (started 0 τ matches [(_, _, .writeComplex (some 0) (.u16 [0x0102]) 2 (some .be))]) && (started 1 τ matches [(_, _, .readComplex (some 6) 2 2 (some .be))]) &&
      (finished 1 τ matches [(_, .ok (.lu16 [0x090A, 0x0B0C]))]) && c.sh.st.bytes == [1, 2, 5, 6, 7, 8, 9, 10, 11, 12, 13, 14])
    (allowed_of fun op ho => by
      rcases List.mem_cons.mp ho with rfl | ho
      · exact ⟨fun _ h => (nomatch h), rfl⟩
      · rw [List.mem_singleton.mp ho]; exact ⟨fun _ h => (nomatch h), rfl⟩) (by decide) (by compute)
  simp only [Bool.and_eq_true, beq_iff_eq] at h
  obtain ⟨⟨⟨h0, h1⟩, h2⟩, h3⟩ := h
  have one : ∀ i, ∀ op ∈ started i τ, (i = 0 ∧ op.2.2 = .writeComplex (some 0) (.u16 [0x0102]) 2 (some .be)) ∨ (i = 1 ∧ op.2.2 = .readComplex (some 6) 2 2 (some .be)) := by
    intro i op ho
    match i with
    | 0 => split at h0 <;> first | (rename_i he; rw [he] at ho; exact .inl ⟨rfl, by rw [List.mem_singleton.mp ho]; rfl⟩) | exact nomatch h0
    | 1 => split at h1 <;> first | (rename_i he; rw [he] at ho; exact .inr ⟨rfl, by rw [List.mem_singleton.mp ho]; rfl⟩) | exact nomatch h1
    | i + 2 => rw [(hn (i + 2) (by omega)).1] at ho; exact nomatch ho
  refine ⟨τ, c, e, hi, fun i op ho => ?_, fun i j hij op ho op' ho' => ?_, h3, ?_⟩
  · rcases one i op ho with ⟨_, h⟩ | ⟨_, h⟩ <;> rw [h] <;> rfl
  · have src : ∀ t, V1.sourceOf1 op'.2.2 = some t → t.arr ≠ V3.demo.b.buf.arr := by
      rcases one j op' ho' with ⟨_, h⟩ | ⟨_, h⟩ <;> rw [h] <;> intro t ht <;> cases ht
    refine C126_ranges V3.demo.b op.2.2 op'.2.2 ?_ ?_ ?_ src
    · rcases one i op ho with ⟨_, h⟩ | ⟨_, h⟩ <;> rw [h] <;> rfl
    all_goals
      rcases one i op ho with ⟨rfl, h⟩ | ⟨rfl, h⟩ <;> rcases one j op' ho' with ⟨rfl, h'⟩ | ⟨rfl, h'⟩ <;> rw [h, h'] <;>
        first | exact absurd rfl hij | decide
  · split at h2 <;> first | (rename_i he; rw [he]; rfl) | exact nomatch h2

end Crunch.Src
