import Verif.Props.MixedPanic

/-!
# The MiniBuffers of all versions agree in every outcome, but for three kinds of methods (C144)
-/

namespace Crunch.Ref
open Spec V3

theorem same_miniWriteComplex (w : Nat) (e : Endian) (o : Int) (d : List Nat) (r : Ref) (hw : w = 2 ∨ w = 4 ∨ w = 8) :
    miniWriteComplex o (.ints w d) w (some e) r = miniWrite w e o d r := by
  have hb : bytesOf o (.ints w d) w (some e) = .ok (d.flatMap (encode e w)) := by
    unfold bytesOf
    rw [if_neg (by omega), if_pos (by omega)]
    simp
  unfold miniWriteComplex
  rw [hb]
  have hk : d.flatMap (encode e w) = [] ↔ d = [] := by
    refine ⟨fun k => ?_, fun k => by rw [k]; rfl⟩
    have h1 := congrArg List.length k
    rw [length_enc'] at h1
    cases d with
    | nil => rfl
    | cons a d =>
      have := Nat.mul_pos (show 0 < d.length + 1 by omega) (show 0 < w by omega)
      rw [List.length_cons, List.length_nil] at h1; omega
  show miniCopy o _ r = _
  unfold miniCopy miniWrite
  simp only [hk, length_enc', Int.natCast_mul]

end Crunch.Ref

namespace Crunch.Wire
open V3 (St WF Iso abs demo demo_wf)
open Src hiding St

/-- The methods of `MiniBuffer`s that do in every case what the method of the v2 `MiniBuffer` does. -/
def Common : Lib → V2.Op2 → Bool
  | .v2mini, _ => true
  | .v3mini, op => !(op matches .writeBytes ..)
  | .v1mini, op => !(op matches .read .. | .clearAll | .setAll | .flipAll)
  | _, _ => false

theorem eq3m {s : St} {o : V3.Outs} {op : V2.Op2} (h : Sound s o op) (hi : InMini op) (r : Ref.Ref) (nums : List Nat) (hc : Common .v3mini op = true) :
    Ref.miniStep o.u64.toNat nums ((three op).lower s.mem) r = Ref.miniStep2 o.u64.toNat nums (V2.lower s op) r := by
  cases op with
  | writeBytes => cases hc
  | writeByte => cases hi
  | setBit p v => rcases h with rfl | rfl <;> rfl
  | grow _ => cases h
  | reset => cases h
  | _ => rfl

theorem eq1m {s : St} {o : V3.Outs} {op : V2.Op2} (h : Sound s o op) (hi : InMini op) (r : Ref.Ref) (nums : List Nat) (hc : Common .v1mini op = true) :
    Ref.miniStep1 o.u64.toNat (V1.lower1 s (one op)) r = Ref.miniStep2 o.u64.toNat nums (V2.lower s op) r := by
  cases op with
  | write k e p d =>
    cases p with
    | none =>
      cases k with
      | u16 => exact congrArg (Ref.stepCur _) (Ref.same_miniWriteComplex 2 e r.cur _ r (by decide))
      | u32 => exact congrArg (Ref.stepCur _) (Ref.same_miniWriteComplex 4 e r.cur _ r (by decide))
      | u64 => exact congrArg (Ref.stepCur _) (Ref.same_miniWriteComplex 8 e r.cur _ r (by decide))
    | some q =>
      cases k with
      | u16 => exact Ref.same_miniWriteComplex 2 e q.toInt _ r (by decide)
      | u32 => exact Ref.same_miniWriteComplex 4 e q.toInt _ r (by decide)
      | u64 => exact Ref.same_miniWriteComplex 8 e q.toInt _ r (by decide)
  | read | clearAll | setAll | flipAll => cases hc
  | writeByte => cases hi
  | readBits p n => cases p <;> (show ((if n.toInt ≤ 0 then _ else _ : Option _).getD _) = _; rw [if_neg (by have := h.1; omega)]; rfl)
  | setBits p d n => cases p <;> (show ((if n.toInt ≤ 0 then _ else _ : Option _).getD _) = _; rw [if_neg (by have : 0 < n.toInt := h; omega)]; rfl)
  | setBit p v => rcases h with rfl | rfl <;> cases p <;> rfl
  | writeBytes p _ | readBytes p _ | readBit p | flipBit p => cases p <;> rfl
  | grow _ => cases h
  | reset => cases h
  | _ => rfl

/-- C144, one call: the answer of the machine of the v2 `MiniBuffer`. -/
theorem mini_answered {T : Texts} (hT : T.Parsed) {fuel depth : Nat} (hf : 2 ^ 64 < fuel) (hd : 4 ≤ depth) {u : Use} {s : St} (h : WF s) (hg : u.Good s)
    (hc : Common u.lib u.op = true) :
    Answered s (Ref.miniStep2 u.outs.u64.toNat (V2.nums u.outs u.op) (V2.lower s u.op) (abs s)) (u.answer T fuel depth s) := by
  obtain ⟨lib, op, o, any⟩ := u
  obtain ⟨hs, hoff, ho⟩ := hg
  dsimp only at hs hoff ho hc ⊢
  cases lib with
  | v3mini =>
    obtain ⟨funs, hp, hh⟩ := C82_mini_text
    cases hp.symm.trans hT.v3mini
    have hi := hoff (by decide)
    obtain ⟨m, hm⟩ := mini3 (.inl hs) hi
    have k := V3.mini_step_ok h o ho (three op) (valid3 (.inl hs)) m hm
    rw [nums3 hs, eq3m hs hi _ _ hc] at k
    exact answered_V (hh fuel depth hf (by omega) o _ (fits3 (.inl hs)) m hm s .unit) (seenRes_goRes _ _) rfl k
  | v2mini =>
    obtain ⟨funs, hp, hh⟩ := C84_mini_text
    cases hp.symm.trans hT.v2mini
    obtain ⟨m, hm⟩ := mini2 (.inl hs) (hoff (by decide))
    exact answered_V (hh fuel depth hf hd o _ (fits2 (.inl hs)) m hm s .unit) (seenRes_goRes _ _) rfl (V2.mini_step2_ok h o ho op (valid2 (.inl hs)) m hm)
  | v1mini =>
    obtain ⟨funs, hp, hh⟩ := C85_mini_text
    cases hp.symm.trans hT.v1mini
    have hi := hoff (by decide)
    obtain ⟨m, hm⟩ := mini1 (any := any) (.inl hs) hi
    have k := V1.mini_step1_ok h o ho any (one op) (valid1 (.inl hs)) m hm
    rw [eq1m hs hi _ (V2.nums o op) hc] at k
    exact answered_V (hh fuel depth hf hd o any _ (fits1 (.inl hs)) m hm s .unit) (seenRes_goRes1 _ _) rfl k
  | v1 | v2 | v3 => cases hc

theorem lower2_later {s t : St} (h : Iso s t) {o : V3.Outs} {op : V2.Op2} (k : Sound s o op) : V2.lower t op = V2.lower s op := by
  cases op with
  | writeBytes p src =>
    have e := lower_later h k
    have k' := Sound.later h k
    have e' : t.mem.view src = s.mem.view src := (Ref.Op.writeBytes.inj e).2
    simp only [V2.lower, place_none k.2.2.1, place_none k'.2.2.1, e']
  | grow _ => cases k
  | reset => cases k
  | _ => rfl

/-- The calls for the machine of the v2 `MiniBuffer`. -/
def miniCalls (l : List Use) (s : St) : List (Nat × List Nat × Ref.Op2) := l.map fun u => (u.outs.u64.toNat, V2.nums u.outs u.op, V2.lower s u.op)

theorem all_mini {T : Texts} (hT : T.Parsed) {fuel depth : Nat} (hf : 2 ^ 64 < fuel) (hd : 4 ≤ depth) (l : List Use) {s : St} (h : WF s)
    (hg : ∀ u ∈ l, u.Good s) (hc : ∀ u ∈ l, Common u.lib u.op = true) :
    ∃ t, answers T fuel depth l s = some ((Ref.miniRun2 (miniCalls l s) (abs s)).1, t) ∧ WF t ∧ Iso s t ∧ abs t = (Ref.miniRun2 (miniCalls l s) (abs s)).2 := by
  induction l generalizing s with
  | nil => exact ⟨s, rfl, h, Iso.refl s, rfl⟩
  | cons u l ih =>
    obtain ⟨t, t1, t2, t3, t4⟩ := (mini_answered hT hf hd h (hg u (List.mem_cons_self ..)) (hc u (List.mem_cons_self ..))).ok
    have e : miniCalls l t = miniCalls l s :=
      List.map_congr_left fun u hu => by rw [lower2_later t3 (hg u (List.mem_cons_of_mem _ hu)).sound]
    obtain ⟨t', a1, a2, a3, a4⟩ := ih t2 (fun u hu => (hg u (List.mem_cons_of_mem _ hu)).later t3) (fun u hu => hc u (List.mem_cons_of_mem _ hu))
    rw [e, t4] at a1 a4
    refine ⟨t', ?_, a2, t3.trans a3, a4⟩
    unfold answers
    rw [t1, Option.bind_some, a1]; rfl

/-- C144: a list of calls that the versions share, each through the `MiniBuffer` of any version by a common method, every panic recovered: whichever
versions they go through, each call gives the same result or the same panic, and bytes, room and offsets end the same.  Run from the texts; what does not
fit, and is stored or read in part, is so in all of them. -/
theorem C144_same_outcome : ∃ T : Texts, T.Parsed ∧ ∀ (fuel depth : Nat), 2 ^ 64 < fuel → 4 ≤ depth → ∀ (l : List Use) (s : St), WF s → (∀ u ∈ l, u.Good s) →
    (∀ u ∈ l, Common u.lib u.op = true) → ∃ as t t', answers T fuel depth l s = some (as, t) ∧
    answers T fuel depth (l.map fun u => { u with lib := .v2mini }) s = some (as, t') ∧ t.bytes = t'.bytes ∧ t.b.off = t'.b.off ∧ t.b.boff = t'.b.boff ∧
    abs t = abs t' := by
  obtain ⟨T, hT⟩ := parsed
  refine ⟨T, hT, fun fuel depth hf hd l s h hg hc => ?_⟩
  obtain ⟨t, a1, _, _, a4⟩ := all_mini hT hf hd l h hg hc
  have k := all_mini hT hf hd (l.map fun u => { u with lib := .v2mini }) h (by
    intro u hu
    obtain ⟨w, hw, rfl⟩ := List.mem_map.1 hu
    refine ⟨(hg w hw).sound, fun _ => ?_, (hg w hw).outs⟩
    have hcw := hc w hw
    refine (hg w hw).offered ?_
    revert hcw
    cases w.lib <;> simp [Common]) (by
    intro u hu
    obtain ⟨w, hw, rfl⟩ := List.mem_map.1 hu
    rfl)
  have e : miniCalls (l.map fun u => { u with lib := .v2mini }) s = miniCalls l s := by
    unfold miniCalls; rw [List.map_map]; rfl
  rw [e] at k
  obtain ⟨t', b1, _, _, b4⟩ := k
  have e := a4.trans b4.symm
  exact ⟨_, t, t', a1, b1, congrArg Ref.Ref.data e, Int64.toInt_inj.mp (congrArg Ref.Ref.cur e), Int64.toInt_inj.mp (congrArg Ref.Ref.bcur e), e⟩

/-! ## the other methods -/

theorem mini_differs (lib : Lib) (op : V2.Op2) (hl : ¬ Full lib) (h : Common lib op = false) :
    (∃ v q, Use.step ⟨lib, edgeOf op, edgeVar, .other⟩ (edgeAt op) = (.ok v, q)) ∧
    ∃ p q, Use.step ⟨.v2mini, edgeOf op, edgeVar, .other⟩ (edgeAt op) = (.panic p, q) := by
  cases lib with
  | v3 | v2 | v1 => exact absurd trivial hl
  | v2mini => cases h
  | v3mini =>
    cases op with
    | writeBytes p _ => cases p <;> exact ⟨⟨_, _, rfl⟩, _, _, rfl⟩
    | _ => cases h
  | v1mini =>
    cases op with
    | read k e p n => cases k <;> cases e <;> cases p <;> exact ⟨⟨_, _, rfl⟩, _, _, rfl⟩
    | clearAll | setAll | flipAll => exact ⟨⟨_, _, rfl⟩, _, _, rfl⟩
    | _ => cases h

/-- C144: no other method of a `MiniBuffer` is common: for each of them there are a buffer and arguments with which it succeeds and the method of the v2
`MiniBuffer` panics. -/
theorem C144_others : ∃ T : Texts, T.Parsed ∧ ∀ (fuel depth : Nat), 2 ^ 64 < fuel → 4 ≤ depth → ∀ (lib : Lib) (op : V2.Op2), ¬ Full lib → InMini op →
    Common lib op = false → ∃ (s : St) (u : Use), WF s ∧ u.Good s ∧ u.lib = lib ∧ Two.goName u.op = Two.goName op ∧
    (∃ r, u.run T fuel depth s = some r) ∧ Use.run T fuel depth { u with lib := .v2mini } s = none := by
  obtain ⟨T, hT⟩ := parsed
  refine ⟨T, hT, fun fuel depth hf hd lib op hl hi hs => ?_⟩
  have hst : Strict lib op = false := by
    cases lib with
    | v3 | v2 | v1 => exact absurd trivial hl
    | v2mini => cases hs
    | v3mini => cases op <;> first | rfl | cases hs
    | v1mini => cases op <;> first | rfl | cases hs
  have hg : Use.Good (edgeAt op) ⟨lib, edgeOf op, edgeVar, .other⟩ := ⟨edge_sound lib op hst, edge_offered fun _ => hi, edgeVar_valid⟩
  have hw : WF (edgeAt op) := by cases op <;> first | exact edge_wf | exact bare_wf
  obtain ⟨⟨v, q, h1⟩, p, q', h2⟩ := mini_differs lib op hl hs
  obtain ⟨t, a, _⟩ := (made_of hT hf hd hw (.inl hg.sound) hg.offered hg.outs h1).ok
  exact ⟨_, _, hw, hg, rfl, edge_name op, ⟨_, a⟩,
    lost hT hf hd hw (u := ⟨.v2mini, edgeOf op, edgeVar, .other⟩) (.inl hg.sound) (edge_offered (lib := .v2mini) fun _ => hi) hg.outs h2⟩

/-- Two integers where only the first and half of the second fit, written with v1 and then read back with v3. -/
def halfUses : List Use :=
  [⟨.v1mini, .write .u16 .be (some 9) ([0x4142, 0x4344] : List UInt16), oneVar, .other⟩, ⟨.v3mini, .readBytes (some 9) 3, oneVar, .other⟩]

example : ∃ T : Texts, T.Parsed ∧ ∃ as t, answers T (2 ^ 64 + 1) 4 halfUses demo = some (as, t) ∧
    as = [.panic .index, .ok (.bytes [0x41, 0x42, 0x43])] := by
  obtain ⟨T, hT⟩ := parsed
  obtain ⟨t, a, _⟩ := all_mini hT (fuel := 2 ^ 64 + 1) (depth := 4) (by decide) (by decide) halfUses demo_wf (by
    intro u hu
    simp only [halfUses, List.mem_cons, List.not_mem_nil, or_false] at hu
    rcases hu with rfl | rfl
    · exact ⟨show 2 * 2 ≤ maxAlloc by decide, fun _ => trivial, oneVar_valid⟩
    · exact ⟨trivial, fun _ => trivial, oneVar_valid⟩) (by decide)
  exact ⟨T, hT, _, t, a, rfl⟩

end Crunch.Wire
