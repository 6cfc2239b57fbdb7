import Verif.Props.MixedStrict

/-!
# The Buffers of all versions report the same errors and go on in the same way (C143)
-/

namespace Crunch.Ref
open Spec V3

/-- The call returns or panics with an error of the package; the runtime is not involved. -/
def Tame : Res Val → Prop
  | .ok _ => True
  | .panic (.err _) => True
  | _ => False

instance (a : Res Val) : Decidable (Tame a) := by
  rcases a with v | p
  · exact .isTrue trivial
  · cases p <;> first | exact .isTrue trivial | exact .isFalse id

theorem tame_cur {d : Int} {x : Res Val × Ref} (h : Tame (stepCur d x).1) : Tame x.1 := by
  rcases x with ⟨v | p, r⟩
  · trivial
  · exact h

theorem same_put (o : Int) (bs : List UInt8) (c d : Prop) [Decidable c] [Decidable d] (q : Panic) (r : Ref) (hc : c) (hd : d)
    (h : Tame (put r o bs c .sliceBounds).1) : put r o bs d q = put r o bs c .sliceBounds := by
  unfold put at h ⊢
  by_cases hf : 0 ≤ o ∧ o + bs.length ≤ r.data.length
  · rw [if_pos ⟨hd, hf⟩, if_pos ⟨hc, hf⟩]
  · rw [if_neg (fun k => hf k.2)] at h
    rw [if_neg (fun k => hf k.2), if_neg (fun k => hf k.2)]
    unfold reject at h ⊢
    split
    · rfl
    · rename_i h1
      rw [if_neg h1] at h
      split
      · rfl
      · rename_i h2
        rw [if_neg h2] at h
        cases h

theorem same_writeComplex (w : Nat) (e : Endian) (o : Int) (d : List Nat) (r : Ref) (hw : w = 2 ∨ w = 4 ∨ w = 8) :
    writeComplex o (.ints w d) w (some e) r = write w e o d r := by
  have hb : bytesOf o (.ints w d) w (some e) = .ok (d.flatMap (encode e w)) := by
    unfold bytesOf
    rw [if_neg (by omega), if_pos (by omega)]
    simp
  unfold writeComplex
  rw [hb]
  have hk : d.flatMap (encode e w) ≠ [] ↔ d ≠ [] := by
    refine not_congr ⟨fun k => ?_, fun k => by rw [k]; rfl⟩
    have h1 := congrArg List.length k
    rw [length_enc'] at h1
    cases d with
    | nil => rfl
    | cons a d =>
      have := Nat.mul_pos (show 0 < d.length + 1 by omega) (show 0 < w by omega)
      rw [List.length_cons, List.length_nil] at h1; omega
  show put r o _ _ _ = put r o _ _ _
  unfold put
  simp only [hk]

end Crunch.Ref

namespace Crunch.Wire
open V3 (St WF Iso abs demo demo_wf)
open Src hiding St
open Ref (Tame)

/-- Result and state of a call on a buffer without a mutex, whether it returns or panics. -/
def answerV (f : GoM (St × V) V) (s : St) : Option (Res Ref.Val × St) := some (seenRes (f (s, .unit)).2.1.mem (f (s, .unit)).1, (f (s, .unit)).2.1)

/-- The same where there is a mutex; `none` if it is left taken. -/
def answerP (f : Prog V) (s : St) : Option (Res Ref.Val × St) :=
  if (f.run ⟨s, false⟩).2.locked then none else some (seenRes (f.run ⟨s, false⟩).2.st.mem (f.run ⟨s, false⟩).1, (f.run ⟨s, false⟩).2.st)

/-- The call, run from the text of its type, with its panic recovered. -/
def Use.answer (T : Texts) (fuel depth : Nat) (u : Use) (s : St) : Option (Res Ref.Val × St) :=
  match u.lib with
  | .v1 => answerP ((⟨T.v1, V1Buffer.errs⟩ : Pkg).call fuel depth (One.goName (one u.op)) (One.goArgs (one u.op))) s
  | .v1mini => answerV ((⟨T.v1mini, V1Mini.errs⟩ : Pkg).callMini fuel depth (One.goName (one u.op)) (One.goArgs (one u.op)) (One.goOut u.outs u.any (one u.op))) s
  | .v2 => answerP ((⟨T.v2, V2Buffer.errs⟩ : Pkg).call fuel depth (Two.goName u.op) (Two.goArgs u.op)) s
  | .v2mini => answerV ((⟨T.v2mini, V2Mini.errs⟩ : Pkg).callMini fuel depth (Two.goName u.op) (Two.goArgs u.op) (Two.goOut u.outs u.op)) s
  | .v3 => answerV ((⟨T.v3, V3Buffer.errs⟩ : Pkg).callBuf fuel depth (goName (three u.op)) (goArgs (three u.op))) s
  | .v3mini => answerV ((⟨T.v3mini, V3Mini.errs⟩ : Pkg).callMini fuel depth (goName (three u.op)) (goArgs (three u.op)) (goOut u.outs (three u.op))) s

/-- Calls one after the other, each through its own type and each panic recovered; `none` if one of them leaves the mutex taken. -/
def answers (T : Texts) (fuel depth : Nat) : List Use → St → Option (List (Res Ref.Val) × St)
  | [], s => some ([], s)
  | u :: l, s => (u.answer T fuel depth s).bind fun r => (answers T fuel depth l r.2).map fun t => (r.1 :: t.1, t.2)

/-- A `Buffer` and no `MiniBuffer`. -/
def Full : Lib → Prop
  | .v1 | .v2 | .v3 => True
  | _ => False

theorem eq2 {s : St} {o : V3.Outs} {op : V2.Op2} (h : Sound s o op) (r : Ref.Ref) (ht : Tame (Ref.step ((three op).lower s.mem) r).1) :
    Ref.step2 (V2.lower s op) r = Ref.step ((three op).lower s.mem) r := by
  cases op with
  | writeBytes p src =>
    obtain ⟨h1, _, h3, h4⟩ := h
    simp only [V2.lower, place_none h3]
    cases p with
    | none => exact congrArg (Ref.stepCur _) (Ref.same_put _ _ _ _ _ r trivial (view_ne h1 h4) (Ref.tame_cur ht))
    | some q => exact Ref.same_put _ _ _ _ _ r trivial (view_ne h1 h4) ht
  | writeByte p v =>
    cases p with
    | none => exact congrArg (Ref.stepCur _) (Ref.same_put _ _ _ _ _ r trivial trivial (Ref.tame_cur ht))
    | some q => exact Ref.same_put _ _ _ _ _ r trivial trivial ht
  | setBit p v => rcases h with rfl | rfl <;> rfl
  | grow _ => cases h
  | reset => cases h
  | _ => rfl

theorem eq1 {s : St} {o : V3.Outs} {op : V2.Op2} (h : Sound s o op) (r : Ref.Ref) (hs : Strict .v1 op = true) (ht : Tame (Ref.step ((three op).lower s.mem) r).1) :
    Ref.step1 (V1.lower1 s (one op)) r = Ref.step ((three op).lower s.mem) r := by
  have k2 := eq2 h r ht
  cases op with
  | write k e p d =>
    cases p with
    | none =>
      cases k with
      | u16 => exact congrArg (Ref.stepCur _) (Ref.same_writeComplex 2 e r.cur _ r (by decide))
      | u32 => exact congrArg (Ref.stepCur _) (Ref.same_writeComplex 4 e r.cur _ r (by decide))
      | u64 => exact congrArg (Ref.stepCur _) (Ref.same_writeComplex 8 e r.cur _ r (by decide))
    | some q =>
      cases k with
      | u16 => exact Ref.same_writeComplex 2 e q.toInt _ r (by decide)
      | u32 => exact Ref.same_writeComplex 4 e q.toInt _ r (by decide)
      | u64 => exact Ref.same_writeComplex 8 e q.toInt _ r (by decide)
  | read | clearAll | setAll | flipAll => cases hs
  | writeBytes p src => cases p <;> exact k2
  | writeByte p v => cases p <;> exact k2
  | readBits p n => cases p <;> (show ((if n.toInt ≤ 0 then _ else _ : Option _).getD _) = _; rw [if_neg (by have := h.1; omega)]; exact k2)
  | setBits p d n => cases p <;> (show ((if n.toInt ≤ 0 then _ else _ : Option _).getD _) = _; rw [if_neg (by have : 0 < n.toInt := h; omega)]; exact k2)
  | setBit p v => rcases h with rfl | rfl <;> exact k2
  | grow _ => cases h
  | reset => cases h
  | _ => exact k2

/-- The call ends, with a result or a panic, and leaves a state. -/
structure Answered (s : St) (x : Res Ref.Val × Ref.Ref) (r : Option (Res Ref.Val × St)) : Prop where
  ok : ∃ t, r = some (x.1, t) ∧ WF t ∧ Iso s t ∧ abs t = x.2

theorem answered_V {s : St} {x : Res Ref.Val × Ref.Ref} {f : GoM (St × V) V} {g : Res V3.Val × St} {w : Res V} {t : St} (hf : f (s, .unit) = (w, (t, .unit)))
    (hw : seenRes t.mem w = V3.obsRes g.2.mem g.1) (ht : g.2 = t) (h : V3.StepIs s x g) : Answered s x (answerV f s) := by
  subst ht
  refine ⟨g.2, ?_, h.wf, h.iso, h.state⟩
  unfold answerV
  rw [hf]
  show some (seenRes g.2.mem w, g.2) = _
  rw [hw.trans h.result]

theorem answered_P {s : St} {x : Res Ref.Val × Ref.Ref} {f : Prog V} {g : Res V3.Val × St} {w : Res V} {t : Sh} (hf : f.run ⟨s, false⟩ = (w, t))
    (hl : t.locked = false) (hw : seenRes t.st.mem w = V3.obsRes g.2.mem g.1) (ht : g.2 = t.st) (h : V3.StepIs s x g) : Answered s x (answerP f s) := by
  refine ⟨g.2, ?_, h.wf, h.iso, h.state⟩
  unfold answerP
  rw [hf, if_neg (by rw [hl]; simp)]
  show some (seenRes t.st.mem w, t.st) = _
  rw [hw.trans h.result, ht]

theorem tame_stays {op : Ref.Op2} {a : Res Ref.Val} (h : Tame a) : Ref.sticks op a = false := by
  rcases a with v | p
  · rfl
  · cases p <;> first | rfl | cases h

theorem tame_stays1 {op : Ref.Op1} {a : Res Ref.Val} (h : Tame a) : Ref.sticks1 op a = false := by
  cases op with
  | base op => exact tame_stays h
  | readComplex => rfl
  | writeComplex =>
    rcases a with v | p
    · rfl
    · cases p <;> first | rfl | cases h

theorem answered3 {T : Texts} (hT : T.Parsed) {fuel depth : Nat} (hf : 2 ^ 64 < fuel) (hd : 4 ≤ depth) {u : Use} {s : St} (h : WF s)
    (hs : Sound s u.outs u.op) : Answered s (Ref.step ((three u.op).lower s.mem) (abs s)) (Use.answer T fuel depth { u with lib := .v3 } s) := by
  obtain ⟨funs, hc, hh⟩ := C81_buffer_text
  cases hc.symm.trans hT.v3
  exact answered_V (hh fuel depth hf (by omega) _ (fits3 (.inl hs)) s .unit) (seenRes_goRes _ _) rfl (V3.step_ok h (three u.op) (valid3 (.inl hs))).is

/-- C143, one call. -/
theorem answered {T : Texts} (hT : T.Parsed) {fuel depth : Nat} (hf : 2 ^ 64 < fuel) (hd : 4 ≤ depth) {u : Use} {s : St} (h : WF s) (hg : u.Good s)
    (hb : Full u.lib) (hst : Strict u.lib u.op = true) (ht : Tame (Ref.step ((three u.op).lower s.mem) (abs s)).1) :
    Answered s (Ref.step ((three u.op).lower s.mem) (abs s)) (u.answer T fuel depth s) := by
  obtain ⟨lib, op, o, any⟩ := u
  obtain ⟨hs, _, _⟩ := hg
  dsimp only at hs hst ht ⊢
  cases lib with
  | v3 => exact answered3 hT hf hd h (u := ⟨.v3, op, o, any⟩) hs
  | v2 =>
    obtain ⟨funs, hc, hh⟩ := C86_alone_text
    cases hc.symm.trans hT.v2
    have k := V2.step2_ok h op (valid2 (.inl hs))
    have hl : ((V2.exec op).run ⟨s, false⟩).2.locked = false := by
      rw [V2.C55_releases_lock_partial, ← V2.sticks_iff op s ((V2.exec op).run ⟨s, false⟩).2.st.mem]
      refine tame_stays ?_
      have e := V2.exec_run op s
      have k1 := k.result
      rw [e]
      show Tame (V3.obsRes (V2.seq op s).2.mem (V2.seq op s).1)
      rw [k1, eq2 hs _ ht]; exact ht
    rw [eq2 hs _ ht] at k
    have kk := hh fuel depth hf hd op (fits2 (.inl hs)) ⟨s, false⟩
    have e := V2.exec_run op s
    rw [e] at kk hl
    exact answered_P kk hl (seenRes_goRes _ _) rfl k
  | v1 =>
    obtain ⟨funs, hc, hh⟩ := C87_alone_text
    cases hc.symm.trans hT.v1
    have k := V1.step1_ok h (one op) (valid1 (.inl hs))
    unfold V1.Step1 at k
    rw [eq1 hs _ hst ht] at k
    have hl := k.locked
    rw [tame_stays1 ht] at hl
    exact answered_P (hh fuel depth hf hd (one op) (fits1 (.inl hs)) ⟨s, false⟩) hl (seenRes_goRes1 _ _) rfl k.is
  | v1mini | v2mini | v3mini => cases hb

theorem all_answered {T : Texts} (hT : T.Parsed) {fuel depth : Nat} (hf : 2 ^ 64 < fuel) (hd : 4 ≤ depth) (l : List Use) {s : St} (h : WF s)
    (hg : ∀ u ∈ l, u.Good s) (hl : ∀ u ∈ l, Full u.lib ∧ Strict u.lib u.op = true)
    (ht : ∀ a ∈ (Ref.run (l.map fun u => (three u.op).lower s.mem) (abs s)).1, Tame a) :
    ∃ t, answers T fuel depth l s = some ((Ref.run (l.map fun u => (three u.op).lower s.mem) (abs s)).1, t) ∧ WF t ∧ Iso s t ∧
      abs t = (Ref.run (l.map fun u => (three u.op).lower s.mem) (abs s)).2 := by
  induction l generalizing s with
  | nil => exact ⟨s, rfl, h, Iso.refl s, rfl⟩
  | cons u l ih =>
    rw [List.map_cons] at ht ⊢
    unfold Ref.run at ht ⊢
    dsimp only at ht ⊢
    have hu := hl u (List.mem_cons_self ..)
    obtain ⟨t, t1, t2, t3, t4⟩ := (answered hT hf hd h (hg u (List.mem_cons_self ..)) hu.1 hu.2 (ht _ (List.mem_cons_self ..))).ok
    have e : (l.map fun u => (three u.op).lower t.mem) = l.map fun u => (three u.op).lower s.mem :=
      List.map_congr_left fun u hu => lower_later t3 (hg u (List.mem_cons_of_mem _ hu)).sound
    rw [← t4] at ht ⊢
    have k := ih t2 (fun u hu => (hg u (List.mem_cons_of_mem _ hu)).later t3) (fun u hu => hl u (List.mem_cons_of_mem _ hu)) (by
      rw [e]; exact fun a ha => ht a (List.mem_cons_of_mem _ ha))
    rw [e] at k
    obtain ⟨t', a1, a2, a3, a4⟩ := k
    refine ⟨t', ?_, a2, t3.trans a3, a4⟩
    unfold answers
    rw [t1, Option.bind_some, a1]; rfl

theorem all_answered3 {T : Texts} (hT : T.Parsed) {fuel depth : Nat} (hf : 2 ^ 64 < fuel) (hd : 4 ≤ depth) (l : List Use) {s : St} (h : WF s)
    (hg : ∀ u ∈ l, u.Good s) :
    ∃ t, answers T fuel depth (l.map fun u => { u with lib := .v3 }) s = some ((Ref.run (l.map fun u => (three u.op).lower s.mem) (abs s)).1, t) ∧
      abs t = (Ref.run (l.map fun u => (three u.op).lower s.mem) (abs s)).2 := by
  induction l generalizing s with
  | nil => exact ⟨s, rfl, rfl⟩
  | cons u l ih =>
    obtain ⟨t, t1, t2, t3, t4⟩ := (answered3 hT hf hd h (hg u (List.mem_cons_self ..)).sound).ok
    have e : (l.map fun u => (three u.op).lower t.mem) = l.map fun u => (three u.op).lower s.mem :=
      List.map_congr_left fun u hu => lower_later t3 (hg u (List.mem_cons_of_mem _ hu)).sound
    obtain ⟨t', a1, a2⟩ := ih t2 (fun u hu => (hg u (List.mem_cons_of_mem _ hu)).later t3)
    rw [e, t4] at a1 a2
    refine ⟨t', ?_, a2⟩
    rw [List.map_cons, List.map_cons]
    unfold answers Ref.run
    rw [t1, Option.bind_some, a1]; rfl

/-- C143: a list of calls that the versions share on one buffer, each through the `Buffer` of any version (of v1 only strict methods), every panic
recovered.  If on v3 `Buffer`s no call ends in a panic of the runtime, then whichever versions the calls go through none leaves the mutex taken, and each call
gives the same result or the same error of the package; bytes, room and offsets end the same: run from the texts. -/
theorem C143_same_errors : ∃ T : Texts, T.Parsed ∧ ∀ (fuel depth : Nat), 2 ^ 64 < fuel → 4 ≤ depth → ∀ (l : List Use) (s : St), WF s → (∀ u ∈ l, u.Good s) →
    (∀ u ∈ l, Full u.lib ∧ Strict u.lib u.op = true) → ∀ (as : List (Res Ref.Val)) (t : St),
    answers T fuel depth (l.map fun u => { u with lib := .v3 }) s = some (as, t) → (∀ a ∈ as, Tame a) →
    ∃ t', answers T fuel depth l s = some (as, t') ∧ t'.bytes = t.bytes ∧ t'.b.off = t.b.off ∧ t'.b.boff = t.b.boff ∧ abs t' = abs t := by
  obtain ⟨T, hT⟩ := parsed
  refine ⟨T, hT, fun fuel depth hf hd l s h hg hl as t hr ht => ?_⟩
  obtain ⟨t3, a1, a2⟩ := all_answered3 hT hf hd l h hg
  cases a1.symm.trans hr
  obtain ⟨t', b1, _, _, b4⟩ := all_answered hT hf hd l h hg hl ht
  have e := b4.trans a2.symm
  exact ⟨t', b1, congrArg Ref.Ref.data e, Int64.toInt_inj.mp (congrArg Ref.Ref.cur e), Int64.toInt_inj.mp (congrArg Ref.Ref.bcur e), e⟩

/-- C143: what these results are, on the reference machine of the v3 `Buffer`. -/
theorem C143_results : ∃ T : Texts, T.Parsed ∧ ∀ (fuel depth : Nat), 2 ^ 64 < fuel → 4 ≤ depth → ∀ (l : List Use) (s : St), WF s → (∀ u ∈ l, u.Good s) →
    (∀ u ∈ l, Full u.lib ∧ Strict u.lib u.op = true) → (∀ a ∈ (Ref.run (l.map fun u => (three u.op).lower s.mem) (abs s)).1, Tame a) →
    ∃ t, answers T fuel depth l s = some ((Ref.run (l.map fun u => (three u.op).lower s.mem) (abs s)).1, t) ∧ WF t ∧ Iso s t ∧
      abs t = (Ref.run (l.map fun u => (three u.op).lower s.mem) (abs s)).2 := by
  obtain ⟨T, hT⟩ := parsed
  exact ⟨T, hT, fun fuel depth hf hd l s h hg hl ht => all_answered hT hf hd l h hg hl ht⟩

/-- A byte too far with v2, an integer too far with v1, a bit at -1 with v2, and a byte that is there with v1. -/
def badUses : List Use :=
  [⟨.v2, .writeByte (some 12) 7, oneVar, .other⟩, ⟨.v1, .write .u16 .be (some 11) ([0x0102] : List UInt16), oneVar, .other⟩,
   ⟨.v2, .readBit (some (-1)), oneVar, .other⟩, ⟨.v1, .writeByte (some 11) 7, oneVar, .other⟩, ⟨.v3, .readByte (some 11), oneVar, .other⟩]

theorem badUses_good : ∀ u ∈ badUses, u.Good demo := by
  intro u hu
  simp only [badUses, List.mem_cons, List.not_mem_nil, or_false] at hu
  rcases hu with rfl | rfl | rfl | rfl | rfl
  · exact ⟨trivial, fun h => absurd h (by decide), oneVar_valid⟩
  · exact ⟨show 1 * 2 ≤ maxAlloc by decide, fun h => absurd h (by decide), oneVar_valid⟩
  · exact ⟨trivial, fun h => absurd h (by decide), oneVar_valid⟩
  · exact ⟨trivial, fun h => absurd h (by decide), oneVar_valid⟩
  · exact ⟨trivial, fun h => absurd h (by decide), oneVar_valid⟩

example : ∃ T : Texts, T.Parsed ∧ ∃ t, answers T (2 ^ 64 + 1) 4 badUses demo =
    some ([.panic (.err V3.BufferOverwriteError), .panic (.err V3.BufferOverwriteError), .panic (.err V3.BufferUnderreadError), .ok .unit, .ok (.num 7)], t) := by
  obtain ⟨T, hT, h⟩ := C143_results
  obtain ⟨t, a, _⟩ := h (2 ^ 64 + 1) 4 (by decide) (by decide) badUses demo demo_wf badUses_good (by
    intro u hu
    simp only [badUses, List.mem_cons, List.not_mem_nil, or_false] at hu
    rcases hu with rfl | rfl | rfl | rfl | rfl <;> exact ⟨trivial, rfl⟩) (by decide +kernel)
  exact ⟨T, hT, t, a⟩

end Crunch.Wire
