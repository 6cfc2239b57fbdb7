import Verif.Lemmas.Conc

/-! Calls that consist of checks of fixed fields and one locked section are linearizable. -/

namespace Crunch
open V3 (St)

/-- What a call may look at before it takes the lock: everything but the offsets. -/
def frame (b : V3.Buf) : V3.Buf := ⟨b.buf, 0, b.cap, 0, b.bcap⟩

/-- The offsets. -/
def Field.isOff : Field → Bool
  | .off => true
  | .boff => true
  | _ => false

theorem frame_set {f : Field} (h : f.isOff = true) (b : V3.Buf) (v : Int64) : frame (f.set b v) = frame b := by
  cases f <;> first | rfl | exact nomatch h

theorem frame_get {f : Field} (h : f.isOff = false) {b b' : V3.Buf} (e : frame b = frame b') : f.get b = f.get b' := by
  have e1 : (frame b).cap = (frame b').cap := by rw [e]
  have e2 : (frame b).bcap = (frame b').bcap := by rw [e]
  cases f with
  | off => exact nomatch h
  | boff => exact nomatch h
  | cap => exact e1
  | bcap => exact e2

theorem frame_buf {b b' : V3.Buf} (e : frame b = frame b') : b.buf = b'.buf := by
  have e1 : (frame b).buf = (frame b').buf := by rw [e]
  exact e1

/-- The rest of a section that assigns no field but the offsets and is followed by nothing. -/
def Sec : Prog α → Prop
  | .ret _ => False
  | .panic _ => True
  | .getI _ k => ∀ v, Sec (k v)
  | .setI f _ k => f.isOff = true ∧ Sec k
  | .getBuf k => ∀ s, Sec (k s)
  | .load _ _ k => ∀ v, Sec (k v)
  | .store _ _ _ k => Sec k
  | .unlock k => k.result.isSome = true
  | _ => False

/-- Looks at fields other than the offsets, then ends or enters its only section. -/
def Once : Prog α → Prop
  | .ret _ => True
  | .panic _ => True
  | .getI f k => f.isOff = false ∧ ∀ v, Once (k v)
  | .getBuf k => ∀ s, Once (k s)
  | .lock k => Sec k
  | _ => False

theorem run_result {p : Prog α} {r : Res α} (h : p.result = some r) (s : Sh) : p.run s = (r, s) := by
  cases p with
  | ret a => cases h; rfl
  | panic e => cases h; rfl
  | _ => exact nomatch h

theorem Sec.run_b {p : Prog α} (h : Sec p) (s : Sh) : frame (p.run s).2.st.b = frame s.st.b := by
  induction p generalizing s with
  | ret a => exact h.elim
  | panic e => rfl
  | getI f k ih => exact ih _ (h _) s
  | setI f v k ih => exact (ih h.2 _).trans (frame_set h.1 _ _)
  | getBuf k ih => exact ih _ (h _) s
  | load t i k ih => exact ih _ (h _) s
  | store t i v k ih => exact ih h _
  | unlock k ih =>
    change k.result.isSome = true at h
    obtain ⟨r, hr⟩ := Option.isSome_iff_exists.mp h
    show frame (k.run { s with locked := false }).2.st.b = _
    rw [run_result hr]
  | _ => exact h.elim

theorem seqRun_snoc (ex : O → Prog V) (l : List (Nat × O)) (i : Nat) (op : O) (s : Sh) :
    seqRun ex (l ++ [(i, op)]) s =
      ((seqRun ex l s).1 ++ [(i, op, ((ex op).run (seqRun ex l s).2).1)], ((ex op).run (seqRun ex l s).2).2) := by
  induction l generalizing s with
  | nil => rfl
  | cons x l ih => obtain ⟨j, q⟩ := x; simp only [List.cons_append, seqRun, ih]

theorem ofThread_snoc (i : Nat) (l : List (Nat × α)) (j : Nat) (a : α) :
    ofThread i (l ++ [(j, a)]) = if j = i then ofThread i l ++ [a] else ofThread i l := by
  unfold ofThread
  rw [List.filter_append, List.map_append]
  by_cases h : j = i
  · rw [if_pos h]; subst h; simp
  · rw [if_neg h]; simp [h]

theorem started_snoc (i : Nat) (τ : Trace O V) (x : Nat × Act O V) : started i (τ ++ [x]) = started i τ ++ started i [x] := by
  induction τ with
  | nil => rfl
  | cons y τ ih =>
    obtain ⟨j, a⟩ := y
    cases a with
    | start op =>
      simp only [List.cons_append, started]
      split
      · rw [ih]; rfl
      · exact ih
    | did e p => exact ih
    | finish op r => exact ih

theorem finished_snoc (i : Nat) (τ : Trace O V) (x : Nat × Act O V) : finished i (τ ++ [x]) = finished i τ ++ finished i [x] := by
  induction τ with
  | nil => rfl
  | cons y τ ih =>
    obtain ⟨j, a⟩ := y
    cases a with
    | start op => exact ih
    | did e p => exact ih
    | finish op r =>
      simp only [List.cons_append, finished]
      split
      · rw [ih]; rfl
      · exact ih

theorem track_snoc (τ : Trace O V) (x : Nat × Act O V) : track (τ ++ [x]) = (track τ).step x := by
  unfold track; rw [List.foldl_append]; rfl

/-- Where a goroutine is, between the concurrent state `c` and the sequential one `G`. -/
inductive Where (ex : O → Prog V) (b : V3.Buf) (sh : Sh) (G : Sh) (h : Option Nat) (i : Nat)
    (fin res : List (O × Res V)) : Thr O V → Option O → Prop
  | idle : res = fin → h ≠ some i → Where ex b sh G h i fin res .idle none
  | before {op : O} {p : Prog V} : res = fin → Once p → (∀ s, frame s.st.b = frame b → p.run s = (ex op).run s) → h ≠ some i →
      Where ex b sh G h i fin res (.busy op p) (some op)
  | within {op : O} {p : Prog V} {r : Res V} : res = fin ++ [(op, r)] → Sec p → h = some i → sh.locked = true → p.run sh = (r, G) →
      Where ex b sh G h i fin res (.busy op p) none
  | past {op : O} {p : Prog V} {r : Res V} : res = fin ++ [(op, r)] → p.result = some r → h ≠ some i →
      Where ex b sh G h i fin res (.busy op p) none

/-- The linearization invariant. -/
structure LInv (ex : O → Prog V) (s0 : Sh) (τ : Trace O V) (c : Conf O V) (h : Option Nat) : Prop where
  fields : frame c.sh.st.b = frame s0.st.b
  fieldsG : frame (seqRun ex (points τ) s0).2.st.b = frame s0.st.b
  free : h = none → c.sh = (seqRun ex (points τ) s0).2
  held : ∀ i, h = some i → c.sh.locked = true
  place : ∀ i, Where ex s0.st.b c.sh (seqRun ex (points τ) s0).2 h i (finished i τ)
    (ofThread i (seqRun ex (points τ) s0).1) (c.thr i) ((track τ).cur i)
  starts : ∀ i, started i τ = ofThread i (points τ) ++ ((track τ).cur i).toList


theorem Where.other {ex : O → Prog V} {b : V3.Buf} {sh sh' G G' : Sh} {h h' : Option Nat} {j : Nat} {fin res : List (O × Res V)}
    {t : Thr O V} {cur : Option O} (w : Where ex b sh G h j fin res t cur)
    (h1 : h = some j → h' = some j ∧ sh' = sh ∧ G' = G) (h2 : h ≠ some j → h' ≠ some j) :
    Where ex b sh' G' h' j fin res t cur := by
  cases w with
  | idle e n => exact .idle e (h2 n)
  | before e o r n => exact .before e o r (h2 n)
  | within e s n l r =>
    obtain ⟨n', es, eg⟩ := h1 n
    subst es eg
    exact .within e s n' l r
  | past e r n => exact .past e r (h2 n)

theorem points_eq {τ : Trace O V} {x : Nat × Act O V} (h : (track (τ ++ [x])).pts = (track τ).pts) : points (τ ++ [x]) = points τ := h

theorem Once.cases {p : Prog α} (h : Once p) (b : V3.Buf) (s : Sh) (hs : frame s.st.b = frame b) {e : Event} {p' : Prog α} {s' : Sh}
    (st : p.step s = some (e, p', s')) :
    (e = .look ∧ s' = s ∧ Once p' ∧ ∀ t : Sh, frame t.st.b = frame b → p'.run t = p.run t) ∨
      (e = .lock ∧ s.locked = false ∧ s' = { s with locked := true } ∧ Sec p' ∧ ∀ t : Sh, t.locked = false → p.run t = p'.run { t with locked := true }) := by
  cases p with
  | ret a => exact nomatch st
  | panic q => exact nomatch st
  | getI f k =>
    cases st
    refine .inl ⟨rfl, rfl, h.2 _, fun t ht => ?_⟩
    show _ = (k (f.get t.st.b)).run t
    rw [frame_get h.1 (ht.trans hs.symm)]
  | getBuf k =>
    cases st
    refine .inl ⟨rfl, rfl, h _, fun t ht => ?_⟩
    show _ = (k t.st.b.buf).run t
    rw [frame_buf (ht.trans hs.symm)]
  | lock k =>
    change (if s.locked = true then none else some (Event.lock, k, (⟨s.st, true⟩ : Sh))) = _ at st
    split at st
    · exact nomatch st
    · rename_i hl
      cases st
      refine .inr ⟨rfl, by simpa using hl, rfl, h, fun t ht => ?_⟩
      show (if t.locked = true then _ else _) = _
      rw [ht]; rfl
  | _ => exact h.elim

theorem Sec.cases {p : Prog α} (h : Sec p) (s : Sh) {e : Event} {p' : Prog α} {s' : Sh}
    (st : p.step s = some (e, p', s')) :
    (e ≠ .lock ∧ Sec p' ∧ p.run s = p'.run s' ∧ frame s'.st.b = frame s.st.b ∧ s'.locked = s.locked) ∨
      (e = .unlock ∧ s' = { s with locked := false } ∧ ∃ r, p'.result = some r ∧ p.run s = (r, s')) := by
  cases p with
  | ret a => exact nomatch st
  | panic q => exact nomatch st
  | getI f k => cases st; exact .inl ⟨by decide, h _, rfl, rfl, rfl⟩
  | setI f v k => cases st; exact .inl ⟨by decide, h.2, rfl, frame_set h.1 _ _, rfl⟩
  | getBuf k => cases st; exact .inl ⟨by decide, h _, rfl, rfl, rfl⟩
  | load t i k => cases st; exact .inl ⟨by decide, h _, rfl, rfl, rfl⟩
  | store t i v k => cases st; exact .inl ⟨by decide, h, rfl, rfl, rfl⟩
  | unlock k =>
    cases st
    change p'.result.isSome = true at h
    obtain ⟨r, hr⟩ := Option.isSome_iff_exists.mp h
    exact .inr ⟨rfl, rfl, r, hr, run_result hr _⟩
  | _ => exact h.elim

theorem result_step {p : Prog α} {r : Res α} (h : p.result = some r) (s : Sh) : p.step s = none := by
  cases p with
  | ret a => rfl
  | panic e => rfl
  | _ => exact nomatch h

theorem LInv.step {ex : O → Prog V} {allowed : O → Prop} (hex : ∀ op, allowed op → Once (ex op)) {s0 : Sh} {τ : Trace O V}
    {c c' : Conf O V} {h : Option Nat} (v : LInv ex s0 τ c h) {i : Nat} {x : Act O V} (st : Step ex allowed c i x c') :
    ∃ h', LInv ex s0 (τ ++ [(i, x)]) c' h' := by
  have w := v.place i
  cases st with
  | start op hi hop =>
    rw [hi] at w
    generalize hcur : (track τ).cur i = cu at w
    cases w with
    | idle e hn =>
      have et : track (τ ++ [(i, .start op)]) = (track τ).step (i, (.start op : Act O V)) := track_snoc _ _
      have ep : points (τ ++ [(i, .start op)]) = points τ := by unfold points; rw [et]; rfl
      refine ⟨h, v.fields, by rw [ep]; exact v.fieldsG, by rw [ep]; exact v.free, v.held, ?_, ?_⟩
      · intro j
        rw [ep, finished_snoc, set_thr, et]
        show Where _ _ _ _ _ _ (finished j τ ++ []) _ _ (if j = i then some op else (track τ).cur j)
        rw [List.append_nil]
        by_cases hj : j = i
        · subst hj
          rw [if_pos rfl, if_pos rfl]
          refine .before e (hex op hop) (fun _ _ => rfl) hn
        · rw [if_neg hj, if_neg hj]
          exact v.place j
      · intro j
        rw [ep, started_snoc, et, v.starts j]
        show _ ++ (if i = j then [op] else []) = _ ++ (if j = i then some op else (track τ).cur j).toList
        by_cases hj : j = i
        · subst hj
          rw [if_pos rfl, if_pos rfl, hcur]; simp
        · rw [if_neg hj, if_neg (fun hh => hj hh.symm), List.append_nil]
  | @finish op p r hi hr =>
    rw [hi] at w
    generalize hcur : (track τ).cur i = cu at w
    have et : track (τ ++ [(i, .finish op r)]) = (track τ).step (i, (.finish op r : Act O V)) := track_snoc _ _
    have es : ∀ j, started j (τ ++ [(i, .finish op r)]) = started j τ := fun j => by rw [started_snoc]; exact List.append_nil _
    have ef : ∀ j, finished j (τ ++ [(i, .finish op r)]) = if i = j then finished j τ ++ [(op, r)] else finished j τ := fun j => by
      rw [finished_snoc]
      show _ ++ (if i = j then _ else _) = _
      split <;> first | rfl | exact List.append_nil _
    -- a call whose linearization point is behind it
    have late : ∀ h', cu = none → ofThread i (seqRun ex (points τ) s0).1 = finished i τ ++ [(op, r)] → h' ≠ some i →
        (h' = none → c.sh = (seqRun ex (points τ) s0).2) → (∀ j, h' = some j → h = some j) → (∀ j, j ≠ i → h = some j → h' = some j) →
        ∃ h', LInv ex s0 (τ ++ [(i, .finish op r)]) (c.set i .idle c.sh) h' := by
      intro h' hc e hn hfree hsub hsup
      have et2 : track (τ ++ [(i, .finish op r)]) = track τ := by
        rw [et]; show (match (track τ).cur i with | some op => _ | none => _) = _
        rw [hcur, hc]
      have ep : points (τ ++ [(i, .finish op r)]) = points τ := by unfold points; rw [et2]
      refine ⟨h', v.fields, by rw [ep]; exact v.fieldsG, by rw [ep]; exact hfree, fun j hj => v.held j (hsub j hj), ?_, ?_⟩
      · intro j
        rw [ep, ef, set_thr, et2]
        by_cases hj : j = i
        · subst hj
          rw [if_pos rfl, if_pos rfl, hcur, hc]
          exact .idle e hn
        · rw [if_neg hj, if_neg (fun hh => hj hh.symm)]
          exact (v.place j).other (fun hh => ⟨hsup j hj hh, rfl, rfl⟩) fun hh hh' => hh (hsub j hh')
      · intro j
        rw [ep, es, et2]; exact v.starts j
    cases w with
    | before e o er hn =>
      -- it ends without taking the lock: its linearization point is now
      have et2 : track (τ ++ [(i, .finish op r)]) =
          { cur := fun j => if j = i then none else (track τ).cur j, pts := (track τ).pts ++ [(i, op)] } := by
        rw [et]; show (match (track τ).cur i with | some op => _ | none => _) = _
        rw [hcur]
      have ep : points (τ ++ [(i, .finish op r)]) = points τ ++ [(i, op)] := by unfold points; rw [et2]
      have eq : (ex op).run (seqRun ex (points τ) s0).2 = (r, (seqRun ex (points τ) s0).2) := by
        rw [← er _ v.fieldsG]; exact run_result hr _
      have eG : seqRun ex (points (τ ++ [(i, .finish op r)])) s0 =
          ((seqRun ex (points τ) s0).1 ++ [(i, op, r)], (seqRun ex (points τ) s0).2) := by
        rw [ep, seqRun_snoc, eq]
      refine ⟨h, v.fields, by rw [eG]; exact v.fieldsG, by rw [eG]; exact v.free, v.held, ?_, ?_⟩
      · intro j
        rw [eG, ef, set_thr, et2]
        show Where _ _ _ _ _ _ _ (ofThread j (_ ++ [(i, op, r)])) _ (if j = i then none else (track τ).cur j)
        rw [ofThread_snoc]
        by_cases hj : j = i
        · subst hj
          rw [if_pos rfl, if_pos rfl, if_pos rfl, if_pos rfl]
          exact .idle (by rw [e]) hn
        · rw [if_neg hj, if_neg hj, if_neg (fun hh => hj hh.symm), if_neg (fun hh => hj hh.symm)]
          exact v.place j
      · intro j
        rw [ep, es, et2, v.starts j, ofThread_snoc]
        show _ = _ ++ (if j = i then none else (track τ).cur j).toList
        by_cases hj : j = i
        · subst hj
          rw [if_pos rfl, if_pos rfl, hcur]; simp
        · rw [if_neg hj, if_neg (fun hh => hj hh.symm)]
    | @within _ _ r' e s hh hl er =>
      have : (r, c.sh) = (r', (seqRun ex (points τ) s0).2) := by rw [← er]; exact (run_result hr _).symm
      have e1 : r = r' := congrArg Prod.fst this
      subst e1
      exact late none rfl e (fun hx => nomatch hx) (fun _ => congrArg Prod.snd this) (fun _ hx => nomatch hx)
        fun j hj hx => absurd (Option.some.inj (hh.symm.trans hx)).symm hj
    | @past _ _ r' e er hn =>
      have : r' = r := Option.some.inj (er.symm.trans hr)
      subst this
      exact late h rfl e hn v.free (fun _ hx => hx) fun _ _ hx => hx
  | @did op p p' ev sh hi hs =>
    rw [hi] at w
    generalize hcur : (track τ).cur i = cu at w
    have es : ∀ j, started j (τ ++ [(i, .did ev p')]) = started j τ := fun j => by rw [started_snoc]; exact List.append_nil _
    have ef : ∀ j, finished j (τ ++ [(i, .did ev p')]) = finished j τ := fun j => by rw [finished_snoc]; exact List.append_nil _
    have et : track (τ ++ [(i, .did ev p')]) = (track τ).step (i, (.did ev p' : Act O V)) := track_snoc _ _
    -- a step that is not a linearization point
    have plain : (ev ≠ .lock ∨ cu = none) → points (τ ++ [(i, .did ev p')]) = points τ ∧
        track (τ ++ [(i, .did ev p')]) = track τ := by
      intro hx
      have : track (τ ++ [(i, .did ev p')]) = track τ := by
        rw [et]
        cases ev with
        | lock =>
          rcases hx with hx | hx
          · exact absurd rfl hx
          · show (match (track τ).cur i with | some op => _ | none => _) = _
            rw [hcur, hx]
        | _ => rfl
      exact ⟨by unfold points; rw [this], this⟩
    cases w with
    | before e o er hn =>
      rcases o.cases _ c.sh v.fields hs with ⟨h1, h2, h3, h4⟩ | ⟨h1, h2, h3, h4, h5⟩
      · subst h1 h2
        obtain ⟨ep, et2⟩ := plain (.inl (by decide))
        refine ⟨h, v.fields, by rw [ep]; exact v.fieldsG, by rw [ep]; exact v.free, v.held, ?_, ?_⟩
        · intro j
          rw [ep, ef, set_thr, et2]
          by_cases hj : j = i
          · subst hj
            rw [if_pos rfl, hcur]
            exact .before e h3 (fun s hb => (h4 s hb).trans (er s hb)) hn
          · rw [if_neg hj]; exact v.place j
        · intro j; rw [ep, es, et2]; exact v.starts j
      · subst h1 h3
        have hnone : h = none := by
          cases hh : h with
          | none => rfl
          | some j => have := v.held j hh; rw [h2] at this; exact nomatch this
        have eG0 := v.free hnone
        have et2 : track (τ ++ [(i, .did .lock p')]) =
            { cur := fun j => if j = i then none else (track τ).cur j, pts := (track τ).pts ++ [(i, op)] } := by
          rw [et]; show (match (track τ).cur i with | some op => _ | none => _) = _
          rw [hcur]
        have ep : points (τ ++ [(i, .did .lock p')]) = points τ ++ [(i, op)] := by unfold points; rw [et2]
        have eq : (ex op).run (seqRun ex (points τ) s0).2 = p'.run { c.sh with locked := true } := by
          rw [← er _ v.fieldsG, ← eG0]; exact h5 _ h2
        have eG : seqRun ex (points (τ ++ [(i, .did .lock p')])) s0 =
            ((seqRun ex (points τ) s0).1 ++ [(i, op, (p'.run { c.sh with locked := true }).1)],
              (p'.run { c.sh with locked := true }).2) := by
          rw [ep, seqRun_snoc, eq]
        refine ⟨some i, v.fields, by rw [eG]; exact (h4.run_b _).trans v.fields, fun hx => (nomatch hx), fun _ _ => rfl, ?_, ?_⟩
        · intro j
          rw [eG, ef, set_thr, et2]
          show Where _ _ _ _ _ _ _ (ofThread j (_ ++ [(i, op, _)])) _ (if j = i then none else (track τ).cur j)
          rw [ofThread_snoc]
          by_cases hj : j = i
          · subst hj
            rw [if_pos rfl, if_pos rfl, if_pos rfl]
            exact .within (by rw [e]; rfl) h4 rfl rfl rfl
          · rw [if_neg hj, if_neg hj, if_neg (fun hh => hj hh.symm)]
            exact (v.place j).other (fun hh => by rw [hnone] at hh; exact nomatch hh)
              fun _ hh => hj (Option.some.inj hh).symm
        · intro j
          rw [ep, es, et2, v.starts j, ofThread_snoc]
          show _ = _ ++ (if j = i then none else (track τ).cur j).toList
          by_cases hj : j = i
          · subst hj
            rw [if_pos rfl, if_pos rfl, hcur]; simp
          · rw [if_neg hj, if_neg (fun hh => hj hh.symm)]
    | @within _ _ r e s hh hl er =>
      obtain ⟨ep, et2⟩ := plain (.inr rfl)
      rcases s.cases c.sh hs with ⟨h1, h2, h3, h4, h5⟩ | ⟨h1, h2, r', h3, h4⟩
      · refine ⟨h, h4.trans v.fields, by rw [ep]; exact v.fieldsG, fun hx => (by rw [hh] at hx; exact nomatch hx),
          fun j hj => h5.trans (v.held j hj), ?_, ?_⟩
        · intro j
          rw [ep, ef, set_thr, et2]
          by_cases hj : j = i
          · subst hj
            rw [if_pos rfl, hcur]
            exact .within e h2 hh (h5.trans hl) (h3.symm.trans er)
          · rw [if_neg hj]
            exact (v.place j).other (fun hx => absurd (Option.some.inj (hh.symm.trans hx)).symm hj) fun hx => hx
        · intro j; rw [ep, es, et2]; exact v.starts j
      · have : (r', sh) = (r, (seqRun ex (points τ) s0).2) := h4.symm.trans er
        have e1 := (Prod.mk.inj this).1
        have e2 := (Prod.mk.inj this).2
        refine ⟨none, by rw [← v.fields]; show frame sh.st.b = _; rw [h2], by rw [ep]; exact v.fieldsG,
          fun _ => by rw [ep]; exact e2, fun j hj => (nomatch hj), ?_, ?_⟩
        · intro j
          rw [ep, ef, set_thr, et2]
          by_cases hj : j = i
          · subst hj
            rw [if_pos rfl, hcur]
            exact .past e (h3.trans (by rw [e1])) fun hx => nomatch hx
          · rw [if_neg hj]
            exact (v.place j).other (fun hx => absurd (Option.some.inj (hh.symm.trans hx)).symm hj) fun _ hx => nomatch hx
        · intro j; rw [ep, es, et2]; exact v.starts j
    | past e er hn =>
      rw [result_step er] at hs
      exact nomatch hs

theorem LInv.init {ex : O → Prog V} {c : Conf O V} (q : Quiet c) : LInv ex c.sh [] c none :=
  ⟨rfl, rfl, fun _ => rfl, fun _ h => (nomatch h), fun i => (by rw [q.idle i]; exact .idle rfl fun h => nomatch h), fun _ => rfl⟩

theorem exec_lin {ex : O → Prog V} {allowed : O → Prop} (hex : ∀ op, allowed op → Once (ex op)) {c0 c : Conf O V} {τ : Trace O V}
    (q : Quiet c0) (e : Exec ex allowed c0 τ c) : ∃ h, LInv ex c0.sh τ c h := by
  induction e with
  | nil => exact ⟨none, LInv.init q⟩
  | snoc _ st ih =>
    obtain ⟨h, v⟩ := ih
    exact v.step hex st

/-- Points never move: what has happened stays at the front. -/
theorem points_prefix (τ τ' : Trace O V) : ∃ l, points (τ ++ τ') = points τ ++ l := by
  have key : ∀ (τ' : Trace O V) (t : Track O), ∃ l, (τ'.foldl Track.step t).pts = t.pts ++ l := by
    intro τ'
    induction τ' with
    | nil => exact fun t => ⟨[], (List.append_nil _).symm⟩
    | cons x τ' ih =>
      intro t
      obtain ⟨l, hl⟩ := ih (t.step x)
      have h1 : ∃ l, (t.step x).pts = t.pts ++ l := by
        obtain ⟨i, a⟩ := x
        have id' : ∃ l, t.pts = t.pts ++ l := ⟨[], (List.append_nil _).symm⟩
        have hm : ∃ l, (match t.cur i with
            | some op => ({ cur := fun j => if j = i then none else t.cur j, pts := t.pts ++ [(i, op)] } : Track O)
            | none => t).pts = t.pts ++ l := by
          cases t.cur i with
          | none => exact id'
          | some op => exact ⟨_, rfl⟩
        cases a with
        | start op => exact id'
        | did e p => cases e <;> first | exact id' | exact hm
        | finish op r => exact hm
      obtain ⟨l1, hl1⟩ := h1
      exact ⟨l1 ++ l, by show (τ'.foldl Track.step (t.step x)).pts = _; rw [hl, hl1, List.append_assoc]⟩
  obtain ⟨l, hl⟩ := key τ' (track τ)
  refine ⟨l, ?_⟩
  show (track (τ ++ τ')).pts = _
  unfold track at *
  rw [List.foldl_append, hl]
  rfl

end Crunch
