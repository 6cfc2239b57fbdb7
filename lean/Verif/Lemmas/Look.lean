import Verif.Lemmas.Shared

/-! Calls with one locked section, or one look at an offset outside, are linearizable together, if a section changes an offset only by
its last step.  The place of a call in the order is the step that changes the offset, else the unlock; that of a look is the look. -/

namespace Crunch

/-- The rest of a section whose last step may be to assign an offset, that assigns nothing else and is followed by nothing. -/
def SecP : Prog α → Prop
  | .ret _ => False
  | .panic _ => True
  | .getI _ k => ∀ v, SecP (k v)
  | .setI f _ k => f.isOff = true ∧ ∃ k', k = .unlock k' ∧ k'.result.isSome = true
  | .getBuf k => ∀ s, SecP (k s)
  | .load _ _ k => ∀ v, SecP (k v)
  | .store _ _ _ k => SecP k
  | .unlock k => k.result.isSome = true
  | _ => False

/-- Looks at fields other than the offsets, then ends, looks at an offset and ends, or enters its only section. -/
def OnceP : Prog α → Prop
  | .ret _ => True
  | .panic _ => True
  | .getI f k => (f.isOff = true → ∀ v, (k v).result.isSome = true) ∧ (f.isOff = false → ∀ v, OnceP (k v))
  | .getBuf k => ∀ s, OnceP (k s)
  | .lock k => SecP k
  | _ => False

theorem OnceP.cases {p : Prog α} (h : OnceP p) (b : V3.Buf) (s : Sh) (hs : frame s.st.b = frame b) {e : Event} {p' : Prog α} {s' : Sh}
    (st : p.step s = some (e, p', s')) :
    (s' = s ∧ OnceP p' ∧ ∀ t : Sh, frame t.st.b = frame b → p'.run t = p.run t) ∨
      (s' = s ∧ ∃ r, p'.result = some r ∧ ∀ t : Sh, t.st.b = s.st.b → p.run t = (r, t)) ∨
      (s.locked = false ∧ s' = { s with locked := true } ∧ SecP p' ∧ ∀ t : Sh, t.locked = false → p.run t = p'.run { t with locked := true }) := by
  cases p with
  | ret a => exact nomatch st
  | panic q => exact nomatch st
  | getI f k =>
    cases st
    cases hf : f.isOff with
    | false =>
      refine .inl ⟨rfl, h.2 hf _, fun t ht => ?_⟩
      show _ = (k (f.get t.st.b)).run t
      rw [frame_get hf (ht.trans hs.symm)]
    | true =>
      obtain ⟨r, hr⟩ := Option.isSome_iff_exists.mp (h.1 hf (f.get s.st.b))
      refine .inr (.inl ⟨rfl, r, hr, fun t ht => ?_⟩)
      show (k (f.get t.st.b)).run t = _
      rw [ht]
      exact run_result hr t
  | getBuf k =>
    cases st
    refine .inl ⟨rfl, h _, fun t ht => ?_⟩
    show _ = (k t.st.b.buf).run t
    rw [frame_buf (ht.trans hs.symm)]
  | lock k =>
    change (if s.locked = true then none else some (Event.lock, k, (⟨s.st, true⟩ : Sh))) = _ at st
    split at st
    · exact nomatch st
    · rename_i hl
      cases st
      refine .inr (.inr ⟨by simpa using hl, rfl, h, fun t ht => ?_⟩)
      show (if t.locked = true then _ else _) = _
      rw [ht]; rfl
  | _ => exact h.elim

theorem SecP.cases {p : Prog α} (h : SecP p) (s : Sh) {e : Event} {p' : Prog α} {s' : Sh}
    (st : p.step s = some (e, p', s')) :
    (SecP p' ∧ p.run s = p'.run s' ∧ s'.st.b = s.st.b ∧ s'.locked = s.locked) ∨
      (∃ k r, p' = .unlock k ∧ k.result = some r ∧ s'.locked = s.locked ∧ frame s'.st.b = frame s.st.b ∧ p.run s = (r, { s' with locked := false })) ∨
      (s' = { s with locked := false } ∧ ∃ r, p'.result = some r ∧ p.run s = (r, s')) := by
  cases p with
  | ret a => exact nomatch st
  | panic q => exact nomatch st
  | getI f k => cases st; exact .inl ⟨h _, rfl, rfl, rfl⟩
  | setI f v k =>
    obtain ⟨h1, k', rfl, hk⟩ := h
    obtain ⟨r, hr⟩ := Option.isSome_iff_exists.mp hk
    cases st
    exact .inr (.inl ⟨k', r, rfl, hr, rfl, frame_set h1 _ _, run_result hr _⟩)
  | getBuf k => cases st; exact .inl ⟨h _, rfl, rfl, rfl⟩
  | load t i k => cases st; exact .inl ⟨h _, rfl, rfl, rfl⟩
  | store t i v k => cases st; exact .inl ⟨h, rfl, rfl, rfl⟩
  | unlock k =>
    cases st
    change p'.result.isSome = true at h
    obtain ⟨r, hr⟩ := Option.isSome_iff_exists.mp h
    exact .inr (.inr ⟨rfl, r, hr, run_result hr _⟩)
  | _ => exact h.elim

variable {O V : Type}

/-- Where a goroutine is, between the concurrent state and the sequential one `G`; the last argument is the call it has started and that
has no place in the order yet. -/
inductive At (ex : O → Prog V) (b : V3.Buf) (sh : Sh) (G : Sh) (h : Option Nat) (i : Nat)
    (fin res : List (O × Res V)) : Thr O V → List O → Prop
  | idle : res = fin → h ≠ some i → At ex b sh G h i fin res .idle []
  | before {op : O} {p : Prog V} : res = fin → OnceP p → (∀ s, frame s.st.b = frame b → p.run s = (ex op).run s) → h ≠ some i →
      At ex b sh G h i fin res (.busy op p) [op]
  | inside {op : O} {p : Prog V} : res = fin → SecP p → h = some i → sh.locked = true → (ex op).run G = p.run sh →
      At ex b sh G h i fin res (.busy op p) [op]
  | leaving {op : O} {k : Prog V} {r : Res V} : res = fin ++ [(op, r)] → k.result = some r → h = some i → sh.locked = true →
      G = { sh with locked := false } → At ex b sh G h i fin res (.busy op (.unlock k)) []
  | past {op : O} {p : Prog V} {r : Res V} : res = fin ++ [(op, r)] → p.result = some r → h ≠ some i →
      At ex b sh G h i fin res (.busy op p) []

theorem At.other {ex : O → Prog V} {b : V3.Buf} {sh sh' G G' : Sh} {h h' : Option Nat} {j : Nat} {fin res : List (O × Res V)}
    {t : Thr O V} {w : List O} (a : At ex b sh G h j fin res t w)
    (h1 : h = some j → h' = some j ∧ sh' = sh ∧ G' = G) (h2 : h ≠ some j → h' ≠ some j) :
    At ex b sh' G' h' j fin res t w := by
  cases a with
  | idle e n => exact .idle e (h2 n)
  | before e o r n => exact .before e o r (h2 n)
  | inside e s n l r =>
    obtain ⟨n', es, eg⟩ := h1 n
    subst es eg
    exact .inside e s n' l r
  | leaving e r n l g =>
    obtain ⟨n', es, eg⟩ := h1 n
    rw [es, eg]
    exact .leaving e r n' l g
  | past e r n => exact .past e r (h2 n)

/-- The invariant; `L` is the order so far. -/
structure JInv (ex : O → Prog V) (s0 : Sh) (L : List (Nat × O)) (τ : Trace O V) (c : Conf O V) (h : Option Nat) : Prop where
  fields : frame c.sh.st.b = frame s0.st.b
  same : c.sh.st.b = (seqRun ex L s0).2.st.b
  free : h = none → c.sh = (seqRun ex L s0).2
  held : ∀ i, h = some i → c.sh.locked = true
  place : ∀ i, ∃ w, started i τ = ofThread i L ++ w ∧
    At ex s0.st.b c.sh (seqRun ex L s0).2 h i (finished i τ) (ofThread i (seqRun ex L s0).1) (c.thr i) w

/-- A step that gives no call its place. -/
theorem JInv.stay {ex : O → Prog V} {s0 : Sh} {L : List (Nat × O)} {τ : Trace O V} {c : Conf O V} {h : Option Nat} (v : JInv ex s0 L τ c h)
    {i : Nat} {x : Act O V} {t : Thr O V} {sh : Sh} (h' : Option Nat)
    (hst : ∀ j, j ≠ i → started j (τ ++ [(i, x)]) = started j τ) (hfin : ∀ j, j ≠ i → finished j (τ ++ [(i, x)]) = finished j τ)
    (fields : frame sh.st.b = frame s0.st.b) (same : sh.st.b = (seqRun ex L s0).2.st.b) (free : h' = none → sh = (seqRun ex L s0).2)
    (held : ∀ j, h' = some j → sh.locked = true) (h1 : ∀ j, j ≠ i → h = some j → h' = some j ∧ sh = c.sh)
    (h2 : ∀ j, j ≠ i → h ≠ some j → h' ≠ some j)
    (own : ∃ w, started i (τ ++ [(i, x)]) = ofThread i L ++ w ∧
      At ex s0.st.b sh (seqRun ex L s0).2 h' i (finished i (τ ++ [(i, x)])) (ofThread i (seqRun ex L s0).1) t w) :
    JInv ex s0 L (τ ++ [(i, x)]) (c.set i t sh) h' := by
  refine ⟨fields, same, free, held, fun j => ?_⟩
  by_cases hj : j = i
  · subst hj
    rw [set_thr, if_pos rfl]
    exact own
  · rw [set_thr, if_neg hj, hst j hj, hfin j hj]
    obtain ⟨w, e, a⟩ := v.place j
    exact ⟨w, e, a.other (fun hh => ⟨(h1 j hj hh).1, (h1 j hj hh).2, rfl⟩) (h2 j hj)⟩

/-- A step that gives the call `op` of goroutine `i` its place. -/
theorem JInv.point {ex : O → Prog V} {s0 : Sh} {L : List (Nat × O)} {τ : Trace O V} {c : Conf O V} {h : Option Nat} (v : JInv ex s0 L τ c h)
    {i : Nat} {x : Act O V} {t : Thr O V} {sh : Sh} {op : O} {r : Res V} {G : Sh} (h' : Option Nat)
    (hG : (ex op).run (seqRun ex L s0).2 = (r, G))
    (hst : ∀ j, started j (τ ++ [(i, x)]) = started j τ) (hfin : ∀ j, j ≠ i → finished j (τ ++ [(i, x)]) = finished j τ)
    (fields : frame sh.st.b = frame s0.st.b) (same : sh.st.b = G.st.b) (free : h' = none → sh = G)
    (held : ∀ j, h' = some j → sh.locked = true) (h1 : ∀ j, j ≠ i → h = some j → h' = some j ∧ sh = c.sh ∧ G = (seqRun ex L s0).2)
    (h2 : ∀ j, j ≠ i → h ≠ some j → h' ≠ some j) (w : started i τ = ofThread i L ++ [op])
    (own : At ex s0.st.b sh G h' i (finished i (τ ++ [(i, x)])) (ofThread i (seqRun ex L s0).1 ++ [(op, r)]) t []) :
    JInv ex s0 (L ++ [(i, op)]) (τ ++ [(i, x)]) (c.set i t sh) h' := by
  have eG : seqRun ex (L ++ [(i, op)]) s0 = ((seqRun ex L s0).1 ++ [(i, op, r)], G) := by rw [seqRun_snoc, hG]
  refine ⟨fields, by rw [eG]; exact same, by rw [eG]; exact free, held, fun j => ?_⟩
  rw [eG, hst]
  show ∃ w, _ ∧ At _ _ _ G _ _ _ (ofThread j (_ ++ [(i, op, r)])) _ _
  rw [ofThread_snoc, ofThread_snoc]
  by_cases hj : j = i
  · subst hj
    rw [set_thr, if_pos rfl, if_pos rfl, if_pos rfl]
    exact ⟨[], by rw [w, List.append_nil], own⟩
  · rw [set_thr, if_neg hj, if_neg (fun hh => hj hh.symm), if_neg (fun hh => hj hh.symm), hfin j hj]
    obtain ⟨w, e, a⟩ := v.place j
    exact ⟨w, e, a.other (h1 j hj) (h2 j hj)⟩

theorem JInv.step {ex : O → Prog V} {allowed : O → Prop} (hex : ∀ op, allowed op → OnceP (ex op)) {s0 : Sh} {L : List (Nat × O)} {τ : Trace O V}
    {c c' : Conf O V} {h : Option Nat} (v : JInv ex s0 L τ c h) {i : Nat} {x : Act O V} (st : Step ex allowed c i x c') :
    ∃ l h', JInv ex s0 (L ++ l) (τ ++ [(i, x)]) c' h' := by
  obtain ⟨w, hw, a⟩ := v.place i
  have fG : frame (seqRun ex L s0).2.st.b = frame s0.st.b := by rw [← v.same]; exact v.fields
  cases st with
  | start op hi hop =>
    rw [hi] at a
    cases a with
    | idle e hn =>
      refine ⟨[], h, ?_⟩
      rw [List.append_nil]
      refine v.stay h (fun j hj => ?_) (fun j _ => ?_) v.fields v.same v.free v.held (fun _ _ hh => ⟨hh, rfl⟩) (fun _ _ hh => hh)
        ⟨[op], ?_, ?_⟩
      · rw [started_snoc]
        show _ ++ (if i = j then _ else _) = _
        rw [if_neg fun hh => hj hh.symm]; exact List.append_nil _
      · rw [finished_snoc]; exact List.append_nil _
      · rw [started_snoc, hw]
        show _ ++ (if i = i then _ else _) = _
        rw [if_pos rfl, List.append_nil]; rfl
      · rw [finished_snoc]
        show At _ _ _ _ _ _ (_ ++ []) _ _ _
        rw [List.append_nil]
        exact .before e (hex op hop) (fun _ _ => rfl) hn
  | @finish op p r hi hr =>
    rw [hi] at a
    have es : ∀ j, started j (τ ++ [(i, .finish op r)]) = started j τ := fun j => by rw [started_snoc]; exact List.append_nil _
    have ef : ∀ j, j ≠ i → finished j (τ ++ [(i, .finish op r)]) = finished j τ := fun j hj => by
      rw [finished_snoc]
      show _ ++ (if i = j then _ else _) = _
      rw [if_neg fun hh => hj hh.symm]; exact List.append_nil _
    have efi : finished i (τ ++ [(i, .finish op r)]) = finished i τ ++ [(op, r)] := by
      rw [finished_snoc]
      show _ ++ (if i = i then _ else _) = _
      rw [if_pos rfl]; rfl
    cases a with
    | before e o er hn =>
      refine ⟨[(i, op)], h, v.point h (r := r) (G := (seqRun ex L s0).2) ?_ es ef v.fields v.same v.free v.held
        (fun _ _ hh => ⟨hh, rfl, rfl⟩) (fun _ _ hh => hh) hw ?_⟩
      · rw [← er _ fG]; exact run_result hr _
      · rw [efi]
        exact .idle (by rw [e]) hn
    | inside e s hh hl er =>
      have er : (ex op).run (seqRun ex L s0).2 = (r, c.sh) := er.trans (run_result hr _)
      refine ⟨[(i, op)], none, v.point none er es ef v.fields rfl (fun _ => rfl) (fun _ hx => nomatch hx)
        (fun j hj hx => absurd (Option.some.inj (hh.symm.trans hx)).symm hj) (fun _ _ _ hx => nomatch hx) hw ?_⟩
      rw [efi]
      exact .idle (by rw [e]) (fun hx => nomatch hx)
    | leaving _ _ _ _ _ => exact nomatch hr
    | @past _ _ r' e er hn =>
      have : r' = r := Option.some.inj (er.symm.trans hr)
      subst this
      refine ⟨[], h, ?_⟩
      rw [List.append_nil]
      exact v.stay h (fun j _ => es j) ef v.fields v.same v.free v.held (fun _ _ hx => ⟨hx, rfl⟩) (fun _ _ hx => hx)
        ⟨[], by rw [es]; exact hw, by rw [efi]; exact .idle e hn⟩
  | @did op p p' ev sh hi hs =>
    rw [hi] at a
    have es : ∀ j, started j (τ ++ [(i, .did ev p')]) = started j τ := fun j => by rw [started_snoc]; exact List.append_nil _
    have ef : ∀ j, finished j (τ ++ [(i, .did ev p')]) = finished j τ := fun j => by rw [finished_snoc]; exact List.append_nil _
    cases a with
    | before e o er hn =>
      rcases o.cases s0.st.b c.sh v.fields hs with ⟨rfl, o', ho⟩ | ⟨rfl, r, hr, ho⟩ | ⟨hl, rfl, hsec, ho⟩
      · refine ⟨[], h, ?_⟩
        rw [List.append_nil]
        exact v.stay h (fun j _ => es j) (fun j _ => ef j) v.fields v.same v.free v.held (fun _ _ hx => ⟨hx, rfl⟩) (fun _ _ hx => hx)
          ⟨[op], by rw [es]; exact hw, by rw [ef]; exact .before e o' (fun t ht => (ho t ht).trans (er t ht)) hn⟩
      · refine ⟨[(i, op)], h, v.point h (r := r) (G := (seqRun ex L s0).2) ?_ es (fun j _ => ef j) v.fields v.same v.free v.held
          (fun _ _ hx => ⟨hx, rfl, rfl⟩) (fun _ _ hx => hx) hw ?_⟩
        · rw [← er _ fG]; exact ho _ v.same.symm
        · rw [ef, e]
          exact .past rfl hr hn
      · have hnone : h = none := by
          cases h with
          | none => rfl
          | some j => exact absurd (v.held j rfl) (by rw [hl]; decide)
        subst hnone
        have eG := v.free rfl
        have key : (ex op).run (seqRun ex L s0).2 = p'.run { c.sh with locked := true } := by
          rw [← er _ fG, ← eG]
          exact ho c.sh hl
        refine ⟨[], some i, ?_⟩
        rw [List.append_nil]
        exact v.stay (some i) (fun j _ => es j) (fun j _ => ef j) v.fields v.same (fun hx => nomatch hx) (fun _ _ => rfl)
          (fun _ _ hx => nomatch hx) (fun j hj _ hx => hj (Option.some.inj hx).symm)
          ⟨[op], by rw [es]; exact hw, by rw [ef]; exact .inside e hsec rfl rfl key⟩
    | inside e s hh hl er =>
      have oth : ∀ j, j ≠ i → h = some j → False := fun j hj hx => hj (Option.some.inj (hh.symm.trans hx)).symm
      rcases s.cases c.sh hs with ⟨s', run, hb, hlk⟩ | ⟨k, r, rfl, hr, hlk, hf, run⟩ | ⟨rfl, r, hr, run⟩
      · refine ⟨[], h, ?_⟩
        rw [List.append_nil]
        exact v.stay h (fun j _ => es j) (fun j _ => ef j) (by rw [hb]; exact v.fields) (by rw [hb]; exact v.same)
          (fun hx => by rw [hx] at hh; exact nomatch hh) (fun _ _ => hlk.trans hl) (fun j hj hx => (oth j hj hx).elim) (fun _ _ hx => hx)
          ⟨[op], by rw [es]; exact hw, by rw [ef]; exact .inside e s' hh (hlk.trans hl) (er.trans run)⟩
      · refine ⟨[(i, op)], h, v.point h (er.trans run) es (fun j _ => ef j) (hf.trans v.fields) rfl
          (fun hx => by rw [hx] at hh; exact nomatch hh) (fun _ _ => hlk.trans hl) (fun j hj hx => (oth j hj hx).elim) (fun _ _ hx => hx) hw ?_⟩
        rw [ef, e]
        exact .leaving rfl hr hh (hlk.trans hl) rfl
      · refine ⟨[(i, op)], none, v.point none (er.trans run) es (fun j _ => ef j) v.fields rfl (fun _ => rfl) (fun _ hx => nomatch hx)
          (fun j hj hx => (oth j hj hx).elim) (fun _ _ _ hx => nomatch hx) hw ?_⟩
        rw [ef, e]
        exact .past rfl hr (fun hx => nomatch hx)
    | @leaving _ k r e hr hh hl eG =>
      cases hs
      refine ⟨[], none, ?_⟩
      rw [List.append_nil]
      exact v.stay none (fun j _ => es j) (fun j _ => ef j) v.fields v.same (fun _ => eG.symm) (fun _ hx => nomatch hx)
        (fun j hj hx => absurd (Option.some.inj (hh.symm.trans hx)).symm hj) (fun _ _ _ hx => nomatch hx)
        ⟨[], by rw [es]; exact hw, by rw [ef]; exact .past e hr (fun hx => nomatch hx)⟩
    | past _ hr _ => rw [result_step hr] at hs; exact nomatch hs

/-- What an order of the calls of `τ` has to do. -/
structure Orders (ex : O → Prog V) (s0 : Sh) (τ : Trace O V) (idle : Nat → Prop) (L : List (Nat × O)) : Prop where
  results : ∀ i, ∃ pending, ofThread i (seqRun ex L s0).1 = finished i τ ++ pending ∧ pending.length ≤ 1 ∧ (idle i → pending = [])
  starts : ∀ i, ∃ waiting, started i τ = ofThread i L ++ waiting ∧ waiting.length ≤ 1 ∧ (idle i → waiting = [])

theorem JInv.orders {ex : O → Prog V} {s0 : Sh} {L : List (Nat × O)} {τ : Trace O V} {c : Conf O V} {h : Option Nat} (v : JInv ex s0 L τ c h) :
    Orders ex s0 τ (fun i => c.thr i = .idle) L := by
  refine ⟨fun i => ?_, fun i => ?_⟩
  · obtain ⟨w, _, a⟩ := v.place i
    generalize hc : c.thr i = t at a ⊢
    cases a with
    | idle e _ => exact ⟨[], by rw [e, List.append_nil], Nat.zero_le _, fun _ => rfl⟩
    | before e _ _ _ => exact ⟨[], by rw [e, List.append_nil], Nat.zero_le _, fun _ => rfl⟩
    | inside e _ _ _ _ => exact ⟨[], by rw [e, List.append_nil], Nat.zero_le _, fun _ => rfl⟩
    | leaving e _ _ _ _ => exact ⟨_, e, Nat.le_refl _, fun h => nomatch h⟩
    | past e _ _ => exact ⟨_, e, Nat.le_refl _, fun h => nomatch h⟩
  · obtain ⟨w, e, a⟩ := v.place i
    refine ⟨w, e, ?_, ?_⟩
    · generalize c.thr i = t at a
      cases a <;> simp
    · intro hi
      change c.thr i = _ at hi
      rw [hi] at a
      cases a
      rfl

theorem JInv.final {ex : O → Prog V} {s0 : Sh} {L : List (Nat × O)} {τ : Trace O V} {c : Conf O V} {h : Option Nat} (v : JInv ex s0 L τ c h)
    (hi : ∀ i, c.thr i = .idle) : c.sh = (seqRun ex L s0).2 := by
  cases h with
  | none => exact v.free rfl
  | some j =>
    obtain ⟨w, _, a⟩ := v.place j
    rw [hi j] at a
    cases a with
    | idle _ n => exact absurd rfl n

/-- There is an order of the calls that explains the execution, of which a beginning explains any earlier moment. -/
theorem look_linearizable {ex : O → Prog V} {allowed : O → Prop} {c0 c : Conf O V} {τ : Trace O V} (hex : ∀ op, allowed op → OnceP (ex op))
    (q : Quiet c0) (x : Exec ex allowed c0 τ c) :
    ∃ L h, JInv ex c0.sh L τ c h ∧ ∀ τ1 τ2, τ = τ1 ++ τ2 → ∃ L1 L2 c1 h1, L = L1 ++ L2 ∧ JInv ex c0.sh L1 τ1 c1 h1 := by
  induction x with
  | nil =>
    have v : JInv ex c0.sh [] [] c0 none := by
      refine ⟨rfl, rfl, fun _ => rfl, fun _ h => (nomatch h), fun i => ⟨[], rfl, ?_⟩⟩
      rw [q.idle i]
      exact .idle rfl (fun h => nomatch h)
    refine ⟨[], none, v, fun τ1 τ2 h => ?_⟩
    rw [(List.append_eq_nil_iff.mp h.symm).1]
    exact ⟨[], [], _, _, rfl, v⟩
  | @snoc τ c c1 i a x st ih =>
    obtain ⟨L, h, v, hp⟩ := ih
    obtain ⟨l, h', v'⟩ := v.step hex st
    refine ⟨L ++ l, h', v', fun τ1 τ2 ht => ?_⟩
    rcases List.eq_nil_or_concat τ2 with rfl | ⟨τ3, y, rfl⟩
    · rw [List.append_nil] at ht
      subst ht
      exact ⟨_, [], _, _, (List.append_nil _).symm, v'⟩
    · rw [List.concat_eq_append, ← List.append_assoc] at ht
      obtain ⟨L1, L2, d, k, e, h2⟩ := hp τ1 τ3 (List.append_inj_left' ht rfl)
      exact ⟨L1, L2 ++ l, d, k, by rw [e, List.append_assoc], h2⟩

end Crunch
