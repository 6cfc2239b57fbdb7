import Verif.Lemmas.MustOps
import Verif.Lemmas.MustOps1
import Verif.Props.SourceHappens

/-!
# C129: which calls on a shared `Buffer` can be in a data race

C119 says which calls can be in a data race at most.  Here the tables are exact: two calls that succeed alone can be in a data race from a state
exactly when the one changes a field or the slice header that the other one reads without the mutex, or a byte that the other one reads without the mutex.
-/

namespace Crunch
open V3 (Buf WF demo demo_wf)

variable {ex : O → Prog V} {allowed : O → Prop}

/-- In some execution that starts with `s`, goroutine 0 makes the call `op`, goroutine 1 makes the call `op'`, nobody else makes a call, and the two calls are in a
data race. -/
def RaceFrom (ex : O → Prog V) (allowed : O → Prop) (s : V3.St) (op op' : O) : Prop :=
  ∃ τ c, Exec ex allowed (rest O V s) τ c ∧ started 0 τ = [op] ∧ started 1 τ = [op'] ∧ (∀ k, 2 ≤ k → started k τ = []) ∧
    ∃ l, DataRace ex allowed (rest O V s) τ 0 1 op op' l ∨ DataRace ex allowed (rest O V s) τ 1 0 op' op l

/-- Two calls that succeed alone, one of which must change what the other one must read without the mutex, can be in a data race. -/
theorem raceFrom {s : V3.St} {op op' : O} (ho : allowed op) (ho' : allowed op') {v v' : V} (h : ((ex op).run ⟨s, false⟩).1 = .ok v) (h' : ((ex op').run ⟨s, false⟩).1 = .ok v')
    {G G' : Buf → Prop} (hg : G s.b) (hg' : G' s.b) (hc : ∃ l, Must G l (ex op) ∧ Peeks G' l false (ex op')) : RaceFrom ex allowed s op op' ∧ RaceFrom ex allowed s op' op := by
  obtain ⟨l, hm, hl⟩ := hc
  obtain ⟨q, t, r, hw⟩ := hm.reach hg h
  obtain ⟨q', r', hr⟩ := hl.reach hg' h'
  constructor
  · obtain ⟨τ, c, e, h1, h2, h3, d⟩ := race_at (i := 0) (j := 1) (by decide) ho ho' r hw r' hr
    exact ⟨τ, c, e, h1, h2, fun k hk => h3 k (by omega) (by omega), l, .inl d⟩
  · obtain ⟨τ, c, e, h1, h2, h3, d⟩ := race_at (i := 1) (j := 0) (by decide) ho ho' r hw r' hr
    exact ⟨τ, c, e, h2, h1, fun k hk => h3 k (by omega) (by omega), l, .inr d⟩

/-- The call, made alone, succeeds. -/
def Succeeds (ex : O → Prog V) (s : V3.St) (op : O) : Prop := ∃ v, ((ex op).run ⟨s, false⟩).1 = .ok v

/-- Whether it does. -/
def ends : Res V → Bool
  | .ok _ => true
  | .panic _ => false

theorem succeeds {ex : O → Prog V} {s : V3.St} {op : O} (h : ends ((ex op).run ⟨s, false⟩).1 = true) : Succeeds ex s op := by
  unfold Succeeds
  cases hr : ((ex op).run ⟨s, false⟩).1 with
  | ok v => exact ⟨v, rfl⟩
  | panic p => rw [hr] at h; exact nomatch h

theorem Succeeds.map {ex : O → Prog V} {ex' : O → Prog V'} {s : V3.St} {op : O} (h : Succeeds ex s op) {g : V → V'} (e : ex' op = (ex op).map g) : Succeeds ex' s op := by
  obtain ⟨v, hv⟩ := h
  refine ⟨g v, ?_⟩
  rw [e]
  show (((ex op).bind fun a => .ret (g a)).run ⟨s, false⟩).1 = _
  rw [Prog.run_bind]
  cases hr : (ex op).run ⟨s, false⟩ with
  | mk r t =>
    rw [hr] at hv
    cases hv
    rw [bind_run, hr]
    rfl

namespace V2

/-- The first call changes something that the second one reads without the mutex: a field or the slice header, or a byte of the content. -/
def Clash (b : Buf) (op op' : Op2) : Prop :=
  (∃ k, k ≠ .bytes ∧ alters op k = true ∧ unguarded op' k = true) ∨
    changesBytes op = true ∧ unguarded op' .bytes = true ∧ ∃ l : Loc, l.content b (bytesOf b op) ∧ l.content b (bytesOf b op')

theorem race_of_clash {ex : Op2 → Prog V} {allowed : Op2 → Prop} {g : V3.Val → V} (hex : ∀ op, allowed op → ex op = (exec op).map g) {s : V3.St} (w : WF s) {op op' : Op2}
    (ho : allowed op) (ho' : allowed op') (hv : op.Valid s.mem) (hs : Succeeds ex s op) (hs' : Succeeds ex s op') (h : Clash s.b op op') :
    RaceFrom ex allowed s op op' ∧ RaceFrom ex allowed s op' op := by
  obtain ⟨v, hs⟩ := hs
  obtain ⟨v', hs'⟩ := hs'
  rcases h with ⟨k, hk, ha, hu⟩ | ⟨ha, hu, l, ⟨x, x1, x2, x3, rfl⟩, ⟨y, y1, y2, _, e⟩⟩
  · refine raceFrom (G := AnyBuf) (G' := AnyBuf) ho ho' hs hs' trivial trivial ⟨k.place, ?_, ?_⟩
    · rw [hex op ho]; exact (exec_must op hk ha).left _
    · rw [hex op' ho']; exact (exec_peeks op' hk hu).left _
  · have : x = y := by injection e with _ e; omega
    subst this
    refine raceFrom (G := (· = s.b)) (G' := (· = s.b)) ho ho' hs hs' rfl rfl ⟨.byte s.b.buf.arr (s.b.buf.off + x), ?_, ?_⟩
    · rw [hex op ho]; exact (exec_must_byte w.len_lt hv ha x1 x2 x3).left _
    · rw [hex op' ho']; exact (exec_peeks_byte hu y1 y2).left _

/-- Which of the offsets a call that changes bytes moves. -/
theorem changes_off {op : Op2} (hc : changesBytes op = true) (h : looksOff op = true ∨ movesOff op = true) :
    alters op (.field .off) = true ∧ unguarded op (.field .off) = true := by
  cases op with
  | write k e p d => cases p <;> first | exact ⟨rfl, rfl⟩ | (rcases h with h | h <;> exact nomatch h)
  | writeBytes p d => cases p <;> first | exact ⟨rfl, rfl⟩ | (rcases h with h | h <;> exact nomatch h)
  | writeByte p d => cases p <;> first | exact ⟨rfl, rfl⟩ | (rcases h with h | h <;> exact nomatch h)
  | _ => first | exact Bool.noConfusion (show false = true from hc) | (rcases h with h | h <;> exact nomatch h)

theorem apart_of_separate {ex : Op2 → Prog V} {allowed : Op2 → Prop} {g : V3.Val → V} (hex : ∀ op, allowed op → ex op = (exec op).map g) {s : V3.St} (w : WF s) {op op' : Op2}
    {τ : Trace Op2 V} {c : Conf Op2 V} (e : Exec ex allowed (rest _ _ s) τ c) {i j : Nat} (hne : i ≠ j) (hi : started i τ = [op]) (hj : started j τ = [op'])
    (hk : ∀ k, k ≠ i → k ≠ j → started k τ = []) (p : inPlace op = true) (p' : inPlace op' = true)
    (ap : ∀ l, (mayWrite s.b op l → ¬ mayRead s.b op' l ∧ ¬ mayWrite s.b op' l) ∧ (mayWrite s.b op' l → ¬ mayRead s.b op l ∧ ¬ mayWrite s.b op l)) (l : Loc) :
    ¬ DataRace ex allowed (rest _ _ s) τ i j op op' l := by
  refine separate_hb (R := fun k x => k = i ∧ mayRead s.b op x ∨ k = j ∧ mayRead s.b op' x) (W := fun k x => k = i ∧ mayWrite s.b op x ∨ k = j ∧ mayWrite s.b op' x)
    (rest_quiet s) ?_ e (fun k => ?_) i j op op' l
  · rintro a b hab x (⟨rfl, hx⟩ | ⟨rfl, hx⟩)
    · exact ⟨fun h => h.elim (fun h => hab h.1.symm) fun h => ((ap x).1 hx).1 h.2, fun h => h.elim (fun h => hab h.1.symm) fun h => ((ap x).1 hx).2 h.2⟩
    · exact ⟨fun h => h.elim (fun h => ((ap x).2 hx).1 h.2) fun h => hab h.1.symm, fun h => h.elim (fun h => ((ap x).2 hx).2 h.2) fun h => hab h.1.symm⟩
  · have use : ∀ o, allowed o → inPlace o = true → (ex o).Uses (mayRead s.b o) (mayWrite s.b o) ⟨s, false⟩ := fun o ho hp => by
      rw [hex o ho]
      exact (uses_footprint o hp ⟨s, false⟩ w.sized).map g
    by_cases h : k = i
    · subst h
      rw [hi]
      exact ⟨(use op (e.allowed_of_started (hi ▸ List.mem_cons_self)) p).mono (fun x h => .inl ⟨rfl, h⟩) fun x h => .inl ⟨rfl, h⟩, trivial⟩
    · by_cases h' : k = j
      · subst h'
        rw [hj]
        exact ⟨(use op' (e.allowed_of_started (hj ▸ List.mem_cons_self)) p').mono (fun x h => .inr ⟨rfl, h⟩) fun x h => .inr ⟨rfl, h⟩, trivial⟩
      · rw [hk k h h']; trivial

/-- A race is about what the tables say, and one about a byte is about a byte of both calls. -/
theorem clash_of_dataRace {ex : Op2 → Prog V} {allowed : Op2 → Prop} {g : V3.Val → V} (hex : ∀ op, allowed op → ex op = (exec op).map g) {s : V3.St} (w : WF s) {op op' : Op2}
    {τ : Trace Op2 V} {c : Conf Op2 V} (e : Exec ex allowed (rest _ _ s) τ c) {i j : Nat} (hi : started i τ = [op]) (hj : started j τ = [op'])
    (hk : ∀ k, k ≠ i → k ≠ j → started k τ = []) {l : Loc} (d : DataRace ex allowed (rest _ _ s) τ i j op op' l) : Clash s.b op op' ∨ Clash s.b op' op := by
  obtain ⟨_, _, ha, hu⟩ := race_table (R := unguarded) (W := alters)
    (fun op ho => by rw [hex op ho]; exact ⟨(exec_brk op).bind fun _ => rfl, (exec_acc op).bind fun _ => rfl⟩) (rest_quiet s) e d
  by_cases hb : l.part = .bytes
  · rw [hb] at ha hu
    obtain ⟨p, rfl⟩ : ∃ p, op' = .readByte p := by
      cases op' with
      | readByte p => exact ⟨p, rfl⟩
      | _ => exact nomatch hu
    refine Classical.byContradiction fun hn => ?_
    have n1 : ∀ k, k ≠ .bytes → alters op k = true → unguarded (.readByte p) k = true → False := fun k h1 h2 h3 => hn (.inl (.inl ⟨k, h1, h2, h3⟩))
    have n2 : ∀ k, k ≠ .bytes → alters (.readByte p) k = true → unguarded op k = true → False := fun k h1 h2 h3 => hn (.inr (.inl ⟨k, h1, h2, h3⟩))
    have hcap : alters op (.field .cap) ≠ true := fun h => n1 (.field .cap) (by decide) h rfl
    have hc : changesBytes op = true := by
      cases op <;> first | rfl | exact absurd rfl hcap | exact nomatch ha
    have hp : inPlace op = true := by
      cases op <;> first | rfl | exact absurd rfl hcap
    have hr : op ≠ .refresh := by rintro rfl; exact hcap rfl
    refine apart_of_separate hex w e d.1 hi hj hk hp rfl (fun x => ⟨fun hx => ?_, fun hx => ?_⟩) l d
    · rcases x with (_ | _ | _ | _) | _ | ⟨a, m⟩
      · have := changes_off hc (.inr hx)
        have key : p ≠ none := by rintro rfl; exact n1 (.field .off) (by decide) this.1 rfl
        cases p
        · exact absurd rfl key
        · exact ⟨fun h => (nomatch h), fun h => (nomatch h)⟩
      · exact absurd hx hr
      · exact ⟨fun h => (nomatch h), fun h => (nomatch h)⟩
      · exact absurd hx hr
      · exact hx.elim
      · refine ⟨fun h => ?_, fun h => (nomatch h.1)⟩
        rcases h with h | ⟨t, ht, _⟩
        · exact hn (.inl (.inr ⟨hc, rfl, _, hx.2, h⟩))
        · exact nomatch ht
    · rcases x with (_ | _ | _ | _) | _ | ⟨a, m⟩
      · have : p = none := by
          cases p
          · rfl
          · exact nomatch hx
        subst this
        have key : ¬ (looksOff op = true ∨ movesOff op = true) := fun h => n2 (.field .off) (by decide) rfl (changes_off hc h).2
        exact ⟨fun h => key (.inl h), fun h => key (.inr h)⟩
      · exact nomatch hx
      · exact nomatch hx
      · exact nomatch hx
      · exact hx.elim
      · exact nomatch hx.1
  · exact .inl (.inl ⟨l.part, hb, ha, hu⟩)

theorem clash_of_race {ex : Op2 → Prog V} {allowed : Op2 → Prop} {g : V3.Val → V} (hex : ∀ op, allowed op → ex op = (exec op).map g) {s : V3.St} (w : WF s) {op op' : Op2}
    (h : RaceFrom ex allowed s op op') : Clash s.b op op' ∨ Clash s.b op' op := by
  obtain ⟨τ, c, e, h0, h1, h2, l, d | d⟩ := h
  · exact clash_of_dataRace hex w e h0 h1 (fun k a b => h2 k (by omega)) d
  · exact (clash_of_dataRace hex w e h1 h0 (fun k a b => h2 k (by omega)) d).symm

/-- C129: which calls on a shared v2 `Buffer` can be in a data race.  Two calls made by two goroutines can be in one only if one of them changes something that
the other one reads without the mutex: a field, the slice header, or a byte they share.  If both calls succeed alone, they then can. -/
theorem C129_v2 {s : V3.St} (w : WF s) {op op' : Op2} (hv : op.Valid s.mem) (hv' : op'.Valid s.mem) :
    (RaceFrom exec anyOp s op op' → Clash s.b op op' ∨ Clash s.b op' op) ∧
    (Succeeds exec s op → Succeeds exec s op' → Clash s.b op op' ∨ Clash s.b op' op → RaceFrom exec anyOp s op op') := by
  have hex : ∀ op, anyOp op → exec op = (exec op).map id := fun op _ => (Prog.bind_ret' _).symm
  exact ⟨clash_of_race hex w, fun hs hs' h => h.elim (fun h => (race_of_clash hex w trivial trivial hv hs hs' h).1) fun h => (race_of_clash hex w trivial trivial hv' hs' hs h).2⟩

theorem demo_clash : Clash demo.b (.writeByte (some 4) 9) (.readByte (some 4)) :=
  .inr ⟨rfl, rfl, .byte 0 6, ⟨4, by decide, by decide, by decide, rfl⟩, ⟨4, by decide, by decide, by decide, rfl⟩⟩

theorem demo_no_clash : ¬ Clash demo.b (.writeByte (some 4) 9) (.readByte (some 5)) ∧ ¬ Clash demo.b (.readByte (some 5)) (.writeByte (some 4) 9) := by
  constructor
  · rintro (⟨k, hk, ha, hu⟩ | ⟨_, _, l, ⟨x, _, x2, _, rfl⟩, ⟨y, y1, _, _, e⟩⟩)
    · rcases k with (_ | _ | _ | _) | _ | _ <;> first | exact hk rfl | exact nomatch ha
    · have : x = y := by injection e with _ e; omega
      change (x : Int) < 5 at x2
      change (5 : Int) ≤ y at y1
      omega
  · rintro (⟨k, hk, ha, hu⟩ | ⟨h, _⟩)
    · rcases k with (_ | _ | _ | _) | _ | _ <;> first | exact hk rfl | exact nomatch ha
    · exact nomatch h

/-- C129's case: writing a byte and reading it can be in a data race, writing it and reading the next one cannot. -/
example : RaceFrom exec anyOp demo (.writeByte (some 4) 9) (.readByte (some 4)) ∧ ¬ RaceFrom exec anyOp demo (.writeByte (some 4) 9) (.readByte (some 5)) :=
  ⟨(C129_v2 demo_wf (op := .writeByte (some 4) 9) (op' := .readByte (some 4)) True.intro True.intro).2 (succeeds (by decide +kernel)) (succeeds (by decide +kernel)) (.inl demo_clash),
    fun h => ((C129_v2 demo_wf (op := .writeByte (some 4) 9) (op' := .readByte (some 5)) True.intro True.intro).1 h).elim demo_no_clash.1 demo_no_clash.2⟩

end V2

namespace V1
open V2 (AnyBuf)

/-- As `V2.Clash`; `ReadComplex` reads the bytes it decodes without the mutex, and these may lie behind the content. -/
def Clash1 (b : Buf) (op op' : Op1) : Prop :=
  (∃ k, k ≠ .bytes ∧ alters1 op k = true ∧ unguarded1 op' k = true) ∨
    changesBytes1 op = true ∧ unguarded1 op' .bytes = true ∧ ∃ l : Loc, l.content b (bytesOf1 b op) ∧ (l.content b (bytesOf1 b op') ∨ l.around b (complexOf b op'))

theorem race_of_clash {ex : Op1 → Prog V} {allowed : Op1 → Prop} {g : Val1 → V} (hex : ∀ op, allowed op → ex op = (exec1 op).map g) {s : V3.St} (w : WF s) {op op' : Op1}
    (ho : allowed op) (ho' : allowed op') (hv : op.Valid s.mem) (hs : Succeeds ex s op) (hs' : Succeeds ex s op') (h : Clash1 s.b op op') :
    RaceFrom ex allowed s op op' ∧ RaceFrom ex allowed s op' op := by
  obtain ⟨v, hs⟩ := hs
  obtain ⟨v', hs'⟩ := hs'
  rcases h with ⟨k, hk, ha, hu⟩ | ⟨ha, hu, l, ⟨x, x1, x2, x3, rfl⟩, hl⟩
  · refine raceFrom (G := AnyBuf) (G' := AnyBuf) ho ho' hs hs' trivial trivial ⟨k.place, ?_, ?_⟩
    · rw [hex op ho]; exact (exec1_must op hk ha).left _
    · rw [hex op' ho']; exact (exec1_peeks op' hk hu).left _
  · have hp : (bytesOf1 s.b op').1 ≤ x ∧ x < (bytesOf1 s.b op').2 ∨ (complexOf s.b op').1 ≤ x ∧ x < (complexOf s.b op').2 := by
      rcases hl with ⟨y, y1, y2, _, e⟩ | ⟨y, y1, y2, e⟩
      · have : x = y := by injection e with _ e; omega
        subst this; exact .inl ⟨y1, y2⟩
      · have : x = y := by injection e with _ e; omega
        subst this; exact .inr ⟨y1, y2⟩
    refine raceFrom (G := (· = s.b)) (G' := (· = s.b)) ho ho' hs hs' rfl rfl ⟨.byte s.b.buf.arr (s.b.buf.off + x), ?_, ?_⟩
    · rw [hex op ho]; exact (exec1_must_byte w.len_lt hv ha x1 x2 x3).left _
    · rw [hex op' ho']; exact (exec1_peeks_byte hu hp).left _

theorem changes_off {op : Op1} (hc : changesBytes1 op = true) (h : looksOff1 op = true ∨ movesOff1 op = true) :
    alters1 op (.field .off) = true ∧ unguarded1 op (.field .off) = true := by
  cases op with
  | writeComplex p d w e => cases p <;> first | exact ⟨rfl, rfl⟩ | (rcases h with h | h <;> exact nomatch h)
  | writeBytes p d => cases p <;> first | exact ⟨rfl, rfl⟩ | (rcases h with h | h <;> exact nomatch h)
  | writeByte p d => cases p <;> first | exact ⟨rfl, rfl⟩ | (rcases h with h | h <;> exact nomatch h)
  | _ => first | exact Bool.noConfusion (show false = true from hc) | (rcases h with h | h <;> exact nomatch h)

theorem apart_of_separate {ex : Op1 → Prog V} {allowed : Op1 → Prop} {g : Val1 → V} (hex : ∀ op, allowed op → ex op = (exec1 op).map g) {s : V3.St} (w : WF s) {op op' : Op1}
    {τ : Trace Op1 V} {c : Conf Op1 V} (e : Exec ex allowed (rest _ _ s) τ c) {i j : Nat} (hne : i ≠ j) (hi : started i τ = [op]) (hj : started j τ = [op'])
    (hk : ∀ k, k ≠ i → k ≠ j → started k τ = []) (p : inPlace1 op = true) (p' : inPlace1 op' = true)
    (ap : ∀ l, (mayWrite1 s.b op l → ¬ mayRead1 s.b op' l ∧ ¬ mayWrite1 s.b op' l) ∧ (mayWrite1 s.b op' l → ¬ mayRead1 s.b op l ∧ ¬ mayWrite1 s.b op l)) (l : Loc) :
    ¬ DataRace ex allowed (rest _ _ s) τ i j op op' l := by
  refine separate_hb (R := fun k x => k = i ∧ mayRead1 s.b op x ∨ k = j ∧ mayRead1 s.b op' x) (W := fun k x => k = i ∧ mayWrite1 s.b op x ∨ k = j ∧ mayWrite1 s.b op' x)
    (rest_quiet s) ?_ e (fun k => ?_) i j op op' l
  · rintro a b hab x (⟨rfl, hx⟩ | ⟨rfl, hx⟩)
    · exact ⟨fun h => h.elim (fun h => hab h.1.symm) fun h => ((ap x).1 hx).1 h.2, fun h => h.elim (fun h => hab h.1.symm) fun h => ((ap x).1 hx).2 h.2⟩
    · exact ⟨fun h => h.elim (fun h => ((ap x).2 hx).1 h.2) fun h => hab h.1.symm, fun h => h.elim (fun h => ((ap x).2 hx).2 h.2) fun h => hab h.1.symm⟩
  · have use : ∀ o, allowed o → inPlace1 o = true → (ex o).Uses (mayRead1 s.b o) (mayWrite1 s.b o) ⟨s, false⟩ := fun o ho hp => by
      rw [hex o ho]
      exact (uses_footprint o hp ⟨s, false⟩ ⟨w.sized, w.cap_lt⟩).map g
    by_cases h : k = i
    · subst h
      rw [hi]
      exact ⟨(use op (e.allowed_of_started (hi ▸ List.mem_cons_self)) p).mono (fun x h => .inl ⟨rfl, h⟩) fun x h => .inl ⟨rfl, h⟩, trivial⟩
    · by_cases h' : k = j
      · subst h'
        rw [hj]
        exact ⟨(use op' (e.allowed_of_started (hj ▸ List.mem_cons_self)) p').mono (fun x h => .inr ⟨rfl, h⟩) fun x h => .inr ⟨rfl, h⟩, trivial⟩
      · rw [hk k h h']; trivial

/-- What the calls that read bytes without the mutex are like. -/
theorem loose {op : Op1} (h : unguarded1 op .bytes = true) :
    unguarded1 op (.field .cap) = true ∧ inPlace1 op = true ∧ changesBytes1 op = false ∧ sourceOf1 op = none ∧ op ≠ .refresh ∧ looksBoff1 op = false ∧ movesBoff1 op = false ∧
      (looksOff1 op = true ∨ movesOff1 op = true → alters1 op (.field .off) = true ∧ unguarded1 op (.field .off) = true) := by
  cases op with
  | readByte p =>
    cases p with
    | none => exact ⟨rfl, rfl, rfl, rfl, nofun, rfl, rfl, fun _ => ⟨rfl, rfl⟩⟩
    | some o => exact ⟨rfl, rfl, rfl, rfl, nofun, rfl, rfl, fun h => h.elim (fun h => nomatch h) fun h => nomatch h⟩
  | readComplex p n w e =>
    cases p with
    | none => exact ⟨rfl, rfl, rfl, rfl, nofun, rfl, rfl, fun _ => ⟨rfl, rfl⟩⟩
    | some o => exact ⟨rfl, rfl, rfl, rfl, nofun, rfl, rfl, fun h => h.elim (fun h => nomatch h) fun h => nomatch h⟩
  | _ => exact nomatch h

theorem clash_of_dataRace {ex : Op1 → Prog V} {allowed : Op1 → Prop} {g : Val1 → V} (hex : ∀ op, allowed op → ex op = (exec1 op).map g) {s : V3.St} (w : WF s) {op op' : Op1}
    {τ : Trace Op1 V} {c : Conf Op1 V} (e : Exec ex allowed (rest _ _ s) τ c) {i j : Nat} (hi : started i τ = [op]) (hj : started j τ = [op'])
    (hk : ∀ k, k ≠ i → k ≠ j → started k τ = []) {l : Loc} (d : DataRace ex allowed (rest _ _ s) τ i j op op' l) : Clash1 s.b op op' ∨ Clash1 s.b op' op := by
  obtain ⟨_, _, ha, hu⟩ := race_table (R := unguarded1) (W := alters1)
    (fun op ho => by rw [hex op ho]; exact ⟨(exec1_brk op).bind fun _ => rfl, (exec1_acc op).bind fun _ => rfl⟩) (rest_quiet s) e d
  by_cases hb : l.part = .bytes
  · rw [hb] at ha hu
    obtain ⟨ucap, p', c', s', r', lb, mb, off'⟩ := loose hu
    refine Classical.byContradiction fun hn => ?_
    have n1 : ∀ k, k ≠ .bytes → alters1 op k = true → unguarded1 op' k = true → False := fun k h1 h2 h3 => hn (.inl (.inl ⟨k, h1, h2, h3⟩))
    have n2 : ∀ k, k ≠ .bytes → alters1 op' k = true → unguarded1 op k = true → False := fun k h1 h2 h3 => hn (.inr (.inl ⟨k, h1, h2, h3⟩))
    have hcap : alters1 op (.field .cap) ≠ true := fun h => n1 (.field .cap) (by decide) h ucap
    have hc : changesBytes1 op = true := by
      cases op <;> first | rfl | exact absurd rfl hcap | exact nomatch ha
    have hp : inPlace1 op = true := by
      cases op <;> first | rfl | exact absurd rfl hcap
    have hr : op ≠ .refresh := by rintro rfl; exact hcap rfl
    refine apart_of_separate hex w e d.1 hi hj hk hp p' (fun x => ⟨fun hx => ?_, fun hx => ?_⟩) l d
    · rcases x with (_ | _ | _ | _) | _ | ⟨a, m⟩
      · have := changes_off hc (.inr hx)
        exact ⟨fun h => n1 (.field .off) (by decide) this.1 (off' (.inl h)).2, fun h => n1 (.field .off) (by decide) this.1 (off' (.inr h)).2⟩
      · exact absurd hx hr
      · exact ⟨fun h => Bool.noConfusion (lb.symm.trans h), fun h => Bool.noConfusion (mb.symm.trans h)⟩
      · exact absurd hx hr
      · exact hx.elim
      · refine ⟨fun h => ?_, fun h => Bool.noConfusion (c'.symm.trans h.1)⟩
        rcases h with h | h | ⟨t, ht, _⟩
        · exact hn (.inl (.inr ⟨hc, hu, _, hx.2, .inl h⟩))
        · exact hn (.inl (.inr ⟨hc, hu, _, hx.2, .inr h⟩))
        · exact nomatch s'.symm.trans ht
    · rcases x with (_ | _ | _ | _) | _ | ⟨a, m⟩
      · have key : ¬ (looksOff1 op = true ∨ movesOff1 op = true) := fun h => n2 (.field .off) (by decide) (off' (.inr hx)).1 (changes_off hc h).2
        exact ⟨fun h => key (.inl h), fun h => key (.inr h)⟩
      · exact absurd hx r'
      · exact Bool.noConfusion (mb.symm.trans hx)
      · exact absurd hx r'
      · exact hx.elim
      · exact Bool.noConfusion (c'.symm.trans hx.1)
  · exact .inl (.inl ⟨l.part, hb, ha, hu⟩)

theorem clash_of_race {ex : Op1 → Prog V} {allowed : Op1 → Prop} {g : Val1 → V} (hex : ∀ op, allowed op → ex op = (exec1 op).map g) {s : V3.St} (w : WF s) {op op' : Op1}
    (h : RaceFrom ex allowed s op op') : Clash1 s.b op op' ∨ Clash1 s.b op' op := by
  obtain ⟨τ, c, e, h0, h1, h2, l, d | d⟩ := h
  · exact clash_of_dataRace hex w e h0 h1 (fun k a b => h2 k (by omega)) d
  · exact (clash_of_dataRace hex w e h1 h0 (fun k a b => h2 k (by omega)) d).symm

/-- C129: the same for a shared v1 `Buffer`, where `ReadComplex` reads the bytes it decodes without the mutex. -/
theorem C129_v1 {s : V3.St} (w : WF s) {op op' : Op1} (hv : op.Valid s.mem) (hv' : op'.Valid s.mem) :
    (RaceFrom exec1 anyOp1 s op op' → Clash1 s.b op op' ∨ Clash1 s.b op' op) ∧
    (Succeeds exec1 s op → Succeeds exec1 s op' → Clash1 s.b op op' ∨ Clash1 s.b op' op → RaceFrom exec1 anyOp1 s op op') := by
  have hex : ∀ op, anyOp1 op → exec1 op = (exec1 op).map id := fun op _ => (Prog.bind_ret' _).symm
  exact ⟨clash_of_race hex w, fun hs hs' h => h.elim (fun h => (race_of_clash hex w trivial trivial hv hs hs' h).1) fun h => (race_of_clash hex w trivial trivial hv' hs' hs h).2⟩

/-- `ReadComplex` of one 16-bit number at 4 is about the bytes 4 and 5. -/
theorem demo_clash : Clash1 demo.b (.writeByte (some 5) 9) (.readComplex (some 4) 1 Unsigned16 (some .be)) :=
  .inr ⟨rfl, rfl, .byte 0 7, ⟨5, by decide, by decide, by decide, rfl⟩, .inr ⟨5, by decide, by decide, rfl⟩⟩

theorem demo_no_clash : ¬ Clash1 demo.b (.writeByte (some 6) 9) (.readComplex (some 4) 1 Unsigned16 (some .be)) ∧
    ¬ Clash1 demo.b (.readComplex (some 4) 1 Unsigned16 (some .be)) (.writeByte (some 6) 9) := by
  constructor
  · rintro (⟨k, hk, ha, hu⟩ | ⟨_, _, l, ⟨x, x1, _, _, rfl⟩, ⟨y, y0, y1, _, _⟩ | ⟨y, _, y1, e⟩⟩)
    · rcases k with (_ | _ | _ | _) | _ | _ <;> first | exact hk rfl | exact nomatch ha
    · exact absurd (show (0 : Int) ≤ y ∧ (y : Int) < 0 from ⟨y0, y1⟩) (by omega)
    · have : x = y := by injection e with _ e; omega
      change (6 : Int) ≤ x at x1
      change (y : Int) < 6 at y1
      omega
  · rintro (⟨k, hk, ha, hu⟩ | ⟨h, _⟩)
    · rcases k with (_ | _ | _ | _) | _ | _ <;> first | exact hk rfl | exact nomatch ha
    · exact nomatch h

/-- C129's case for v1: writing a byte of a number and reading the number can be in a data race, writing the byte behind it cannot. -/
example : RaceFrom exec1 anyOp1 demo (.writeByte (some 5) 9) (.readComplex (some 4) 1 Unsigned16 (some .be)) ∧
    ¬ RaceFrom exec1 anyOp1 demo (.writeByte (some 6) 9) (.readComplex (some 4) 1 Unsigned16 (some .be)) :=
  ⟨(C129_v1 demo_wf (op := .writeByte (some 5) 9) (op' := .readComplex (some 4) 1 Unsigned16 (some .be)) True.intro True.intro).2 (succeeds (by decide +kernel)) (succeeds (by decide +kernel)) (.inl demo_clash),
    fun h => ((C129_v1 demo_wf (op := .writeByte (some 6) 9) (op' := .readComplex (some 4) 1 Unsigned16 (some .be)) True.intro True.intro).1 h).elim demo_no_clash.1 demo_no_clash.2⟩

end V1
end Crunch

namespace Crunch.Src
open V3 (WF)

/-- C129: the same for goroutines that run the text of v2/buffer.go. -/
theorem C129_v2_text :
    ∃ funs, compileAll (V2Utils.text ++ V2Buffer.text) = some funs ∧
    ∀ (fuel depth : Nat), 2 ^ 64 < fuel → 4 ≤ depth → ∀ {s : V3.St}, WF s → ∀ {op op' : V2.Op2}, Two.Fits op → Two.Fits op' → op.Valid s.mem → op'.Valid s.mem →
    (RaceFrom (textCall ⟨funs, V2Buffer.errs⟩ fuel depth) Two.Fits s op op' → V2.Clash s.b op op' ∨ V2.Clash s.b op' op) ∧
    (Succeeds (textCall ⟨funs, V2Buffer.errs⟩ fuel depth) s op → Succeeds (textCall ⟨funs, V2Buffer.errs⟩ fuel depth) s op' →
      V2.Clash s.b op op' ∨ V2.Clash s.b op' op → RaceFrom (textCall ⟨funs, V2Buffer.errs⟩ fuel depth) Two.Fits s op op') := by
  obtain ⟨funs, hc, h⟩ := C86_buffer_text
  refine ⟨funs, hc, fun fuel depth hf hd s w op op' ho ho' hv hv' => ?_⟩
  have hex := h fuel depth hf hd
  exact ⟨V2.clash_of_race hex w, fun hs hs' h => h.elim (fun h => (V2.race_of_clash hex w ho ho' hv hs hs' h).1) fun h => (V2.race_of_clash hex w ho' ho hv' hs' hs h).2⟩

/-- C129's case: the same two pairs of calls for the text. -/
example : ∃ funs, compileAll (V2Utils.text ++ V2Buffer.text) = some funs ∧ ∀ (fuel depth : Nat), 2 ^ 64 < fuel → 4 ≤ depth →
    RaceFrom (textCall ⟨funs, V2Buffer.errs⟩ fuel depth) Two.Fits V3.demo (.writeByte (some 4) 9) (.readByte (some 4)) ∧
    ¬ RaceFrom (textCall ⟨funs, V2Buffer.errs⟩ fuel depth) Two.Fits V3.demo (.writeByte (some 4) 9) (.readByte (some 5)) := by
  obtain ⟨funs, hc, h⟩ := C86_buffer_text
  obtain ⟨funs', hc', h'⟩ := C129_v2_text
  cases hc.symm.trans hc'
  refine ⟨funs, hc, fun fuel depth hf hd => ?_⟩
  exact ⟨(h' fuel depth hf hd V3.demo_wf (op := .writeByte (some 4) 9) (op' := .readByte (some 4)) True.intro True.intro True.intro True.intro).2 ((succeeds (by decide +kernel)).map (h fuel depth hf hd _ True.intro))
      ((succeeds (by decide +kernel)).map (h fuel depth hf hd _ True.intro)) (.inl V2.demo_clash),
    fun r => ((h' fuel depth hf hd V3.demo_wf (op := .writeByte (some 4) 9) (op' := .readByte (some 5)) True.intro True.intro True.intro True.intro).1 r).elim V2.demo_no_clash.1 V2.demo_no_clash.2⟩

/-- C129: the same for goroutines that run the text of v1/buffer.go. -/
theorem C129_v1_text :
    ∃ funs, compileAll (V1Utils.text ++ V1Buffer.text) = some funs ∧
    ∀ (fuel depth : Nat), 2 ^ 64 < fuel → 4 ≤ depth → ∀ {s : V3.St}, WF s → ∀ {op op' : V1.Op1}, One.Fits op → One.Fits op' → op.Valid s.mem → op'.Valid s.mem →
    (RaceFrom (textCall1 ⟨funs, V1Buffer.errs⟩ fuel depth) One.Fits s op op' → V1.Clash1 s.b op op' ∨ V1.Clash1 s.b op' op) ∧
    (Succeeds (textCall1 ⟨funs, V1Buffer.errs⟩ fuel depth) s op → Succeeds (textCall1 ⟨funs, V1Buffer.errs⟩ fuel depth) s op' →
      V1.Clash1 s.b op op' ∨ V1.Clash1 s.b op' op → RaceFrom (textCall1 ⟨funs, V1Buffer.errs⟩ fuel depth) One.Fits s op op') := by
  obtain ⟨funs, hc, h⟩ := C87_buffer_text
  refine ⟨funs, hc, fun fuel depth hf hd s w op op' ho ho' hv hv' => ?_⟩
  have hex := h fuel depth hf hd
  exact ⟨V1.clash_of_race hex w, fun hs hs' h => h.elim (fun h => (V1.race_of_clash hex w ho ho' hv hs hs' h).1) fun h => (V1.race_of_clash hex w ho' ho hv' hs' hs h).2⟩

/-- C129's case for v1: the same two pairs of calls for the text. -/
example : ∃ funs, compileAll (V1Utils.text ++ V1Buffer.text) = some funs ∧ ∀ (fuel depth : Nat), 2 ^ 64 < fuel → 4 ≤ depth →
    RaceFrom (textCall1 ⟨funs, V1Buffer.errs⟩ fuel depth) One.Fits V3.demo (.writeByte (some 5) 9) (.readComplex (some 4) 1 V1.Unsigned16 (some .be)) ∧
    ¬ RaceFrom (textCall1 ⟨funs, V1Buffer.errs⟩ fuel depth) One.Fits V3.demo (.writeByte (some 6) 9) (.readComplex (some 4) 1 V1.Unsigned16 (some .be)) := by
  obtain ⟨funs, hc, h⟩ := C87_buffer_text
  obtain ⟨funs', hc', h'⟩ := C129_v1_text
  cases hc.symm.trans hc'
  refine ⟨funs, hc, fun fuel depth hf hd => ?_⟩
  have f1 : ∀ i, One.Fits (.writeByte (some i) 9) := fun i op2 h2 => by cases h2; exact True.intro
  have f2 : One.Fits (.readComplex (some 4) 1 V1.Unsigned16 (some .be)) := fun op2 h2 => nomatch h2
  exact ⟨(h' fuel depth hf hd V3.demo_wf (f1 5) f2 True.intro True.intro).2 ((succeeds (by decide +kernel)).map (h fuel depth hf hd _ (f1 5)))
      ((succeeds (by decide +kernel)).map (h fuel depth hf hd _ f2)) (.inl V1.demo_clash),
    fun r => ((h' fuel depth hf hd V3.demo_wf (f1 6) f2 True.intro True.intro).1 r).elim V1.demo_no_clash.1 V1.demo_no_clash.2⟩

end Crunch.Src
