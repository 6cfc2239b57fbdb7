import Verif.Lemmas.Own

/-! The invariant for goroutines that have offsets to themselves. -/

namespace Crunch
open V3 (St)

/-- Where goroutine `i` is.  `g` are the fields in the sequential execution where no call is in its section: those of the concurrent one, except
that the offsets of goroutines in their tails have been moved already.  `h` is who is in the section of its work, `t` who is in one
of its tail. -/
inductive OWhere (ex : O → Prog V) (w : Field → Bool) (sh G : Sh) (g : V3.Buf) (h t : Option Nat) (i : Nat) (fin res : List (O × Res V)) :
    Thr O V → Option O → Prop
  | idle : res = fin → h ≠ some i → t ≠ some i → Sees w sh.st.b g → OWhere ex w sh G g h t i fin res .idle none
  | before {op : O} {p : Prog V} : res = fin → h ≠ some i → t ≠ some i → Sees w sh.st.b g → Pre w p →
      (∀ s : Sh, Sees w s.st.b sh.st.b → p.run s = (ex op).run s) → OWhere ex w sh G g h t i fin res (.busy op p) (some op)
  | within {op : O} {p : Prog V} {r : Res V} : res = fin ++ [(op, r)] → h = some i → t ≠ some i → Sees w sh.st.b g → Mid w p →
      p.run ⟨⟨sh.st.mem, g⟩, sh.locked⟩ = (r, G) → OWhere ex w sh G g h t i fin res (.busy op p) none
  | tail {op : O} {p : Prog V} {r : Res V} : res = fin ++ [(op, r)] → h ≠ some i → t ≠ some i → Tail w p →
      (tailRun p sh.st.b).1 = r → Sees w (tailRun p sh.st.b).2 g → OWhere ex w sh G g h t i fin res (.busy op p) none
  | tailS {op : O} {p : Prog V} {r : Res V} : res = fin ++ [(op, r)] → h ≠ some i → t = some i → TailS w p →
      (tailRun p sh.st.b).1 = r → Sees w (tailRun p sh.st.b).2 g → OWhere ex w sh G g h t i fin res (.busy op p) none

structure OInv (own : Nat → Field → Bool) (ex : O → Prog V) (s0 : Sh) (τ : Trace O V) (c : Conf O V) (g : V3.Buf) (h t : Option Nat) : Prop where
  fields : frame c.sh.st.b = frame s0.st.b
  fieldsg : frame g = frame s0.st.b
  fieldsG : frame (seqRun ex (points τ) s0).2.st.b = frame s0.st.b
  offG : ∀ f : Field, f.isOff = true → (∀ i, h = some i → own i f = false) → f.get (seqRun ex (points τ) s0).2.st.b = f.get g
  nobody : ∀ f : Field, f.isOff = true → (∀ i, own i f = false) → f.get c.sh.st.b = f.get g
  free : h = none → (seqRun ex (points τ) s0).2 = ⟨⟨c.sh.st.mem, g⟩, c.sh.locked && t.isNone⟩
  held : ∀ i, h = some i → c.sh.locked = true ∧ t = none
  heldT : ∀ i, t = some i → c.sh.locked = true
  place : ∀ i, OWhere ex (own i) c.sh (seqRun ex (points τ) s0).2 g h t i (finished i τ)
    (ofThread i (seqRun ex (points τ) s0).1) (c.thr i) ((track τ).cur i)
  starts : ∀ i, started i τ = ofThread i (points τ) ++ ((track τ).cur i).toList

theorem OWhere.other {ex : O → Prog V} {w : Field → Bool} {sh sh' G G' : Sh} {g g' : V3.Buf} {h h' t t' : Option Nat} {j : Nat}
    {fin res : List (O × Res V)} {th : Thr O V} {cur : Option O} (x : OWhere ex w sh G g h t j fin res th cur)
    (hs : Sees w sh'.st.b sh.st.b) (hg : Sees w g g')
    (h1 : h = some j → h' = some j ∧ sh' = sh ∧ G' = G ∧ g' = g) (h2 : h ≠ some j → h' ≠ some j) (t1 : t = some j → t' = some j)
    (t2 : t ≠ some j → t' ≠ some j) : OWhere ex w sh' G' g' h' t' j fin res th cur := by
  cases x with
  | idle e n m s => exact .idle e (h2 n) (t2 m) ((hs.trans s).trans hg)
  | before e n m s p r => exact .before e (h2 n) (t2 m) ((hs.trans s).trans hg) p fun s' hs' => r s' (hs'.trans hs)
  | within e n m s p r =>
    obtain ⟨n', rfl, rfl, rfl⟩ := h1 n
    exact .within e n' (t2 m) s p r
  | tail e n m p r s =>
    obtain ⟨e1, e2⟩ := tail_sees _ (.inl p) hs
    exact .tail e (h2 n) (t2 m) p (e1.trans r) ((e2.trans s).trans hg)
  | tailS e n m p r s =>
    obtain ⟨e1, e2⟩ := tail_sees _ (.inr p) hs
    exact .tailS e (h2 n) (t1 m) p (e1.trans r) ((e2.trans s).trans hg)

/-- What the others see. -/
theorem sees_other {own : Nat → Field → Bool} (disj : ∀ i j f, own i f = true → own j f = true → i = j) {i j : Nat} (hj : j ≠ i)
    {b b' : V3.Buf} (hb : frame b = frame b') (ho : ∀ f : Field, f.isOff = true → own i f = false → f.get b = f.get b') : Sees (own j) b b' := by
  refine ⟨hb, fun f h1 h2 => ho f h1 ?_⟩
  cases e : own i f with
  | false => rfl
  | true => exact absurd (disj j i f h2 e) hj

theorem result_tail {w : Field → Bool} {p : Prog α} {r : Res α} (h : p.result = some r) (b : V3.Buf) : Tail w p ∧ tailRun p b = (r, b) := by
  cases p with
  | ret a => cases h; exact ⟨by simp only [Tail], rfl⟩
  | panic e => cases h; exact ⟨by simp only [Tail], rfl⟩
  | _ => exact nomatch h

theorem OInv.step {own : Nat → Field → Bool} (disj : ∀ i j f, own i f = true → own j f = true → i = j) {ex : O → Prog V}
    {allowed : O → Prop} {s0 : Sh} {τ : Trace O V} {c c' : Conf O V} {g : V3.Buf} {h t : Option Nat} (v : OInv own ex s0 τ c g h t) {i : Nat}
    {x : Act O V} (hex : ∀ op, x = .start op → Pre (own i) (ex op)) (st : Step ex allowed c i x c') :
    ∃ g' h' t', OInv own ex s0 (τ ++ [(i, x)]) c' g' h' t' := by
  have w := v.place i
  cases st with
  | start op hi hop =>
    rw [hi] at w
    generalize hcur : (track τ).cur i = cu at w
    cases w with
    | idle e hn hm hs =>
      have et : track (τ ++ [(i, .start op)]) = (track τ).step (i, (.start op : Act O V)) := track_snoc _ _
      have ep : points (τ ++ [(i, .start op)]) = points τ := by unfold points; rw [et]; rfl
      refine ⟨g, h, t, v.fields, v.fieldsg, by rw [ep]; exact v.fieldsG, by rw [ep]; exact v.offG, v.nobody, by rw [ep]; exact v.free,
        v.held, v.heldT, ?_, ?_⟩
      · intro j
        rw [ep, finished_snoc, set_thr, et]
        show OWhere _ _ _ _ _ _ _ _ (finished j τ ++ []) _ _ (if j = i then some op else (track τ).cur j)
        rw [List.append_nil]
        by_cases hj : j = i
        · subst hj
          rw [if_pos rfl, if_pos rfl]
          exact .before e hn hm hs (hex op rfl) fun _ _ => rfl
        · rw [if_neg hj, if_neg hj]
          exact v.place j
      · intro j
        rw [ep, started_snoc, et, v.starts j]
        show _ ++ (if i = j then [op] else []) = _ ++ (if j = i then some op else (track τ).cur j).toList
        by_cases hj : j = i
        · subst hj
          rw [if_pos rfl, if_pos rfl, hcur]; simp
        · rw [if_neg hj, if_neg (fun hh => hj hh.symm), List.append_nil]
  | @finish op p r hi hr =>
    rw [hi] at w
    generalize hcur : (track τ).cur i = cu at w
    have et : track (τ ++ [(i, .finish op r)]) = (track τ).step (i, (.finish op r : Act O V)) := track_snoc _ _
    have es : ∀ j, started j (τ ++ [(i, .finish op r)]) = started j τ := fun j => by rw [started_snoc]; exact List.append_nil _
    have ef : ∀ j, finished j (τ ++ [(i, .finish op r)]) = if i = j then finished j τ ++ [(op, r)] else finished j τ := fun j => by
      rw [finished_snoc]
      show _ ++ (if i = j then _ else _) = _
      split <;> first | rfl | exact List.append_nil _
    -- a call whose linearization point is behind it
    have late : cu = none → points (τ ++ [(i, .finish op r)]) = points τ ∧ track (τ ++ [(i, .finish op r)]) = track τ := by
      intro hc
      have et2 : track (τ ++ [(i, .finish op r)]) = track τ := by
        rw [et]; show (match (track τ).cur i with | some op => _ | none => _) = _
        rw [hcur, hc]
      exact ⟨by unfold points; rw [et2], et2⟩
    cases w with
    | before e hn hm hs o er =>
      have et2 : track (τ ++ [(i, .finish op r)]) =
          { cur := fun j => if j = i then none else (track τ).cur j, pts := (track τ).pts ++ [(i, op)] } := by
        rw [et]; show (match (track τ).cur i with | some op => _ | none => _) = _
        rw [hcur]
      have ep : points (τ ++ [(i, .finish op r)]) = points τ ++ [(i, op)] := by unfold points; rw [et2]
      have eq : (ex op).run (seqRun ex (points τ) s0).2 = (r, (seqRun ex (points τ) s0).2) := by
        rw [← er _ ?_]
        · exact run_result hr _
        · refine ⟨v.fieldsG.trans v.fields.symm, fun f h1 h2 => ?_⟩
          rw [hs.2 f h1 h2]
          refine v.offG f h1 fun j hj => ?_
          cases e : own j f with
          | false => rfl
          | true => rw [disj i j f h2 e] at hn; exact absurd hj hn
      have eG : seqRun ex (points (τ ++ [(i, .finish op r)])) s0 =
          ((seqRun ex (points τ) s0).1 ++ [(i, op, r)], (seqRun ex (points τ) s0).2) := by
        rw [ep, seqRun_snoc, eq]
      refine ⟨g, h, t, v.fields, v.fieldsg, by rw [eG]; exact v.fieldsG, by rw [eG]; exact v.offG, v.nobody, by rw [eG]; exact v.free,
        v.held, v.heldT, ?_, ?_⟩
      · intro j
        rw [eG, ef, set_thr, et2]
        show OWhere _ _ _ _ _ _ _ _ _ (ofThread j (_ ++ [(i, op, r)])) _ (if j = i then none else (track τ).cur j)
        rw [ofThread_snoc]
        by_cases hj : j = i
        · subst hj
          rw [if_pos rfl, if_pos rfl, if_pos rfl, if_pos rfl]
          exact .idle (by rw [e]) hn hm hs
        · rw [if_neg hj, if_neg hj, if_neg (fun hh => hj hh.symm), if_neg (fun hh => hj hh.symm)]
          exact v.place j
      · intro j
        rw [ep, es, et2, v.starts j, ofThread_snoc]
        show _ = _ ++ (if j = i then none else (track τ).cur j).toList
        by_cases hj : j = i
        · subst hj
          rw [if_pos rfl, if_pos rfl, hcur]; simp
        · rw [if_neg hj, if_neg (fun hh => hj hh.symm)]
    | @within _ _ r' e hn hm hs m er =>
      -- a panic inside the section
      obtain ⟨ep, et2⟩ := late rfl
      have e0 : (r, (⟨⟨c.sh.st.mem, g⟩, c.sh.locked⟩ : Sh)) = (r', (seqRun ex (points τ) s0).2) := by rw [← er]; exact (run_result hr _).symm
      have e1 : r = r' := congrArg Prod.fst e0
      have e2 := (Prod.mk.inj e0).2
      subst e1
      obtain ⟨hl, ht⟩ := v.held i hn
      refine ⟨g, none, none, v.fields, v.fieldsg, by rw [ep]; exact v.fieldsG, ?_, v.nobody, ?_, fun _ hx => (nomatch hx), fun _ hx => (nomatch hx), ?_, ?_⟩
      · intro f h1 _
        rw [ep, ← e2]
      · intro _
        rw [ep, ← e2]
        show _ = (⟨_, c.sh.locked && true⟩ : Sh)
        rw [Bool.and_true]
        rfl
      · intro j
        rw [ep, ef, set_thr, et2]
        by_cases hj : j = i
        · subst hj
          rw [if_pos rfl, if_pos rfl, hcur]
          exact .idle e (fun hx => nomatch hx) (fun hx => nomatch hx) hs
        · rw [if_neg hj, if_neg (fun hh => hj hh.symm)]
          exact (v.place j).other (.refl _ _) (.refl _ _) (fun hx => absurd (Option.some.inj (hn.symm.trans hx)).symm hj) (fun _ hx => nomatch hx)
            (fun hx => by rw [ht] at hx; exact nomatch hx) fun _ hx => nomatch hx
      · intro j
        rw [ep, es, et2]; exact v.starts j
    | @tail _ _ r' e hn hm p' er hs =>
      obtain ⟨ep, et2⟩ := late rfl
      have hh := (result_tail (w := own i) hr c.sh.st.b).2
      rw [hh] at er hs
      change r = r' at er
      subst er
      refine ⟨g, h, t, v.fields, v.fieldsg, by rw [ep]; exact v.fieldsG, by rw [ep]; exact v.offG, v.nobody, by rw [ep]; exact v.free,
        v.held, v.heldT, ?_, ?_⟩
      · intro j
        rw [ep, ef, set_thr, et2]
        by_cases hj : j = i
        · subst hj
          rw [if_pos rfl, if_pos rfl, hcur]
          exact .idle e hn hm hs
        · rw [if_neg hj, if_neg (fun hh => hj hh.symm)]
          exact v.place j
      · intro j
        rw [ep, es, et2]; exact v.starts j
    | tailS e hn hm p' er hs =>
      cases p with
      | ret a => simp only [TailS] at p'
      | panic q => simp only [TailS] at p'
      | _ => exact nomatch hr
  | @did op p p' ev sh hi hs =>
    rw [hi] at w
    generalize hcur : (track τ).cur i = cu at w
    have es : ∀ j, started j (τ ++ [(i, .did ev p')]) = started j τ := fun j => by rw [started_snoc]; exact List.append_nil _
    have ef : ∀ j, finished j (τ ++ [(i, .did ev p')]) = finished j τ := fun j => by rw [finished_snoc]; exact List.append_nil _
    have et : track (τ ++ [(i, .did ev p')]) = (track τ).step (i, (.did ev p' : Act O V)) := track_snoc _ _
    have plain : (ev ≠ .lock ∨ cu = none) → points (τ ++ [(i, .did ev p')]) = points τ ∧
        track (τ ++ [(i, .did ev p')]) = track τ := by
      intro hx
      have : track (τ ++ [(i, .did ev p')]) = track τ := by
        rw [et]
        cases ev with
        | lock =>
          rcases hx with hx | hx
          · exact absurd rfl hx
          · show (match (track τ).cur i with | some op => _ | none => _) = _
            rw [hcur, hx]
        | _ => rfl
      exact ⟨by unfold points; rw [this], this⟩
    -- nobody is in a section when the mutex is taken
    have nobodyIn : c.sh.locked = false → h = none ∧ t = none := by
      intro hl
      constructor
      · cases hh : h with
        | none => rfl
        | some j => have := (v.held j hh).1; rw [hl] at this; exact nomatch this
      · cases hh : t with
        | none => rfl
        | some j => have := v.heldT j hh; rw [hl] at this; exact nomatch this
    cases w with
    | before e hn hm hse o er =>
      rcases o.cases c.sh hs with ⟨h1, h2, h3, h4⟩ | ⟨h1, h2, h3, h4, h5⟩
      · subst h1 h2
        obtain ⟨ep, et2⟩ := plain (.inl (by decide))
        refine ⟨g, h, t, v.fields, v.fieldsg, by rw [ep]; exact v.fieldsG, by rw [ep]; exact v.offG, v.nobody, by rw [ep]; exact v.free,
          v.held, v.heldT, ?_, ?_⟩
        · intro j
          rw [ep, ef, set_thr, et2]
          by_cases hj : j = i
          · subst hj
            rw [if_pos rfl, hcur]
            exact .before e hn hm hse h3 fun s hb => (h4 s hb).trans (er s hb)
          · rw [if_neg hj]; exact v.place j
        · intro j; rw [ep, es, et2]; exact v.starts j
      · subst h1 h3
        obtain ⟨hnone, tnone⟩ := nobodyIn h2
        have eG0 := v.free hnone
        rw [h2, Bool.false_and] at eG0
        have et2 : track (τ ++ [(i, .did .lock p')]) =
            { cur := fun j => if j = i then none else (track τ).cur j, pts := (track τ).pts ++ [(i, op)] } := by
          rw [et]; show (match (track τ).cur i with | some op => _ | none => _) = _
          rw [hcur]
        have ep : points (τ ++ [(i, .did .lock p')]) = points τ ++ [(i, op)] := by unfold points; rw [et2]
        have eq : (ex op).run (seqRun ex (points τ) s0).2 = p'.run ⟨⟨c.sh.st.mem, g⟩, true⟩ := by
          rw [eG0, ← er _ hse.symm]; exact h5 _ rfl
        have eG : seqRun ex (points (τ ++ [(i, .did .lock p')])) s0 =
            ((seqRun ex (points τ) s0).1 ++ [(i, op, (p'.run ⟨⟨c.sh.st.mem, g⟩, true⟩).1)], (p'.run ⟨⟨c.sh.st.mem, g⟩, true⟩).2) := by
          rw [ep, seqRun_snoc, eq]
        obtain ⟨m1, m2⟩ := h4.run_frame ⟨⟨c.sh.st.mem, g⟩, true⟩
        refine ⟨g, some i, none, v.fields, v.fieldsg, by rw [eG]; exact m1.trans v.fieldsg, ?_, v.nobody, fun hx => (nomatch hx),
          fun _ _ => ⟨rfl, rfl⟩, fun _ hx => (nomatch hx), ?_, ?_⟩
        · intro f hf ho
          rw [eG]
          exact m2 f hf (ho i rfl)
        · intro j
          rw [eG, ef, set_thr, et2]
          show OWhere _ _ _ _ _ _ _ _ _ (ofThread j (_ ++ [(i, op, _)])) _ (if j = i then none else (track τ).cur j)
          rw [ofThread_snoc]
          by_cases hj : j = i
          · subst hj
            rw [if_pos rfl, if_pos rfl, if_pos rfl]
            exact .within (by rw [e]; rfl) rfl (fun hx => nomatch hx) hse h4 rfl
          · rw [if_neg hj, if_neg hj, if_neg (fun hh => hj hh.symm)]
            exact (v.place j).other (.refl _ _) (.refl _ _) (fun hh => by rw [hnone] at hh; exact nomatch hh)
              (fun _ hh => hj (Option.some.inj hh).symm) (fun hh => by rw [tnone] at hh; exact nomatch hh) fun _ hh => nomatch hh
        · intro j
          rw [ep, es, et2, v.starts j, ofThread_snoc]
          show _ = _ ++ (if j = i then none else (track τ).cur j).toList
          by_cases hj : j = i
          · subst hj
            rw [if_pos rfl, if_pos rfl, hcur]; simp
          · rw [if_neg hj, if_neg (fun hh => hj hh.symm)]
    | @within _ _ r e hn hm hse m er =>
      obtain ⟨ep, et2⟩ := plain (.inr rfl)
      obtain ⟨hl, ht⟩ := v.held i hn
      obtain ⟨_, f1, f2, h1 | h1⟩ := m.cases c.sh hse hs
      · obtain ⟨g', m', s', o', l', r'⟩ := h1
        have fg : frame g' = frame g := s'.1.symm.trans (f1.trans hse.1)
        refine ⟨g', h, t, f1.trans v.fields, fg.trans v.fieldsg, by rw [ep]; exact v.fieldsG, ?_, ?_, fun hx => (by rw [hn] at hx; exact nomatch hx),
          fun j hj => ⟨l'.trans hl, ht⟩, fun j hj => (by rw [ht] at hj; exact nomatch hj), ?_, ?_⟩
        · intro f hf ho
          rw [ep, v.offG f hf ho, o' f hf (ho i hn)]
        · intro f hf ho
          exact (f2 f hf (ho i)).trans ((v.nobody f hf ho).trans (o' f hf (ho i)).symm)
        · intro j
          rw [ep, ef, set_thr, et2]
          by_cases hj : j = i
          · subst hj
            rw [if_pos rfl, hcur]
            exact .within e hn hm s' m' (r'.trans er)
          · rw [if_neg hj]
            exact (v.place j).other (sees_other disj hj f1 f2) (sees_other disj hj fg o').symm
              (fun hx => absurd (Option.some.inj (hn.symm.trans hx)).symm hj) (fun hx => hx) (fun hx => hx) fun hx => hx
        · intro j; rw [ep, es, et2]; exact v.starts j
      · obtain ⟨rfl, t', er'⟩ := h1
        have e0 := er'.symm.trans er
        have e1 : (tailRun p' g).1 = r := congrArg Prod.fst e0
        have e2 := (Prod.mk.inj e0).2
        obtain ⟨fg, o'⟩ := tail_frame p' (.inl t') g
        obtain ⟨q1, q2⟩ := tail_sees p' (.inl t') hse
        refine ⟨(tailRun p' g).2, none, none, v.fields, fg.trans v.fieldsg, by rw [ep]; exact v.fieldsG, ?_, ?_, ?_, fun _ hx => (nomatch hx),
          fun _ hx => (nomatch hx), ?_, ?_⟩
        · intro f _ _
          rw [ep, ← e2]
        · intro f hf ho
          exact (v.nobody f hf ho).trans (o' f hf (ho i)).symm
        · intro _
          rw [ep, ← e2]
          rfl
        · intro j
          rw [ep, ef, set_thr, et2]
          by_cases hj : j = i
          · subst hj
            rw [if_pos rfl, hcur]
            exact .tail e (fun hx => nomatch hx) (fun hx => nomatch hx) t' (q1.trans e1) q2
          · rw [if_neg hj]
            exact (v.place j).other (.refl _ _) (sees_other disj hj fg o').symm
              (fun hx => absurd (Option.some.inj (hn.symm.trans hx)).symm hj) (fun _ hx => nomatch hx)
              (fun hx => by rw [ht] at hx; exact nomatch hx) fun _ hx => nomatch hx
        · intro j; rw [ep, es, et2]; exact v.starts j
    | @tail _ _ r e hn hm tl er hse =>
      obtain ⟨ep, et2⟩ := plain (.inr rfl)
      obtain ⟨r1, r2, h1 | h1⟩ := tail_cases tl c.sh hs
      · obtain ⟨_, rfl, t'⟩ := h1
        refine ⟨g, h, t, v.fields, v.fieldsg, by rw [ep]; exact v.fieldsG, by rw [ep]; exact v.offG, v.nobody, by rw [ep]; exact v.free,
          v.held, v.heldT, ?_, ?_⟩
        · intro j
          rw [ep, ef, set_thr, et2]
          by_cases hj : j = i
          · subst hj
            rw [if_pos rfl, hcur]
            exact .tail e hn hm t' ((congrArg Prod.fst r1).trans er) (by
              show Sees _ (tailRun p' c.sh.st.b).2 g
              rw [r1]; exact hse)
          · rw [if_neg hj]; exact v.place j
        · intro j; rw [ep, es, et2]; exact v.starts j
      · obtain ⟨_, l0, l1, t'⟩ := h1
        obtain ⟨hnone, tnone⟩ := nobodyIn l0
        obtain ⟨sst, sl⟩ := sh
        change sst = c.sh.st at r2
        change sl = true at l1
        subst r2 l1
        have eG0 := v.free hnone
        rw [l0, Bool.false_and] at eG0
        refine ⟨g, none, some i, v.fields, v.fieldsg, by rw [ep]; exact v.fieldsG, ?_, v.nobody, ?_, fun _ hx => (nomatch hx),
          fun _ _ => rfl, ?_, ?_⟩
        · intro f hf _
          rw [ep]
          exact v.offG f hf fun j hj => by rw [hnone] at hj; exact nomatch hj
        · intro _
          rw [ep, eG0]
          rfl
        · intro j
          rw [ep, ef, set_thr, et2]
          by_cases hj : j = i
          · subst hj
            rw [if_pos rfl, hcur]
            exact .tailS e (fun hx => nomatch hx) rfl t' (by rw [← er]; exact congrArg Prod.fst r1) (by
              show Sees _ (tailRun p' c.sh.st.b).2 g
              rw [r1]; exact hse)
          · rw [if_neg hj]
            exact (v.place j).other (.refl _ _) (.refl _ _) (fun hh => by rw [hnone] at hh; exact nomatch hh)
              (fun _ hh => nomatch hh) (fun hh => by rw [tnone] at hh; exact nomatch hh) fun _ hh => hj (Option.some.inj hh).symm
        · intro j; rw [ep, es, et2]; exact v.starts j
    | @tailS _ _ r e hn hm tl er hse =>
      obtain ⟨ep, et2⟩ := plain (.inr rfl)
      have hl := v.heldT i hm
      have hnone : h = none := by
        cases hh : h with
        | none => rfl
        | some j => have := (v.held j hh).2; rw [hm] at this; exact nomatch this
      have eG0 := v.free hnone
      rw [hl, hm] at eG0
      obtain ⟨r1, r2, f1, f2, _, h1⟩ := tailS_cases tl c.sh hs
      have other : ∀ t', (∀ j, j ≠ i → t' ≠ some j) → ∀ j, j ≠ i → OWhere ex (own j) sh (seqRun ex (points τ) s0).2 g none t' j (finished j τ)
          (ofThread j (seqRun ex (points τ) s0).1) (c.thr j) ((track τ).cur j) := by
        intro t' ht' j hj
        exact (v.place j).other (sees_other disj hj f1 f2) (.refl _ _) (fun hh => by rw [hnone] at hh; exact nomatch hh)
          (fun _ hh => nomatch hh) (fun hh => absurd (Option.some.inj (hm.symm.trans hh)).symm hj) fun _ => ht' j hj
      rcases h1 with ⟨l', t'⟩ | ⟨l', t'⟩
      · refine ⟨g, none, some i, f1.trans v.fields, v.fieldsg, by rw [ep]; exact v.fieldsG, ?_, ?_, ?_, fun _ hx => (nomatch hx),
          fun _ _ => l'.trans hl, ?_, ?_⟩
        · intro f hf _
          rw [ep]
          exact v.offG f hf fun j hj => by rw [hnone] at hj; exact nomatch hj
        · intro f hf ho
          exact (f2 f hf (ho i)).trans (v.nobody f hf ho)
        · intro _
          rw [ep, eG0]
          show (⟨⟨_, _⟩, _⟩ : Sh) = ⟨⟨sh.st.mem, _⟩, sh.locked && false⟩
          rw [r2, Bool.and_false]
          rfl
        · intro j
          rw [ep, ef, set_thr, et2]
          by_cases hj : j = i
          · subst hj
            rw [if_pos rfl, hcur]
            exact .tailS e (fun hx => nomatch hx) rfl t' (by rw [← er]; exact congrArg Prod.fst r1) (by
              show Sees _ (tailRun p' sh.st.b).2 g
              rw [r1]; exact hse)
          · rw [if_neg hj]
            exact other (some i) (fun k hk hx => hk (Option.some.inj hx).symm) j hj
        · intro j; rw [ep, es, et2]; exact v.starts j
      · refine ⟨g, none, none, f1.trans v.fields, v.fieldsg, by rw [ep]; exact v.fieldsG, ?_, ?_, ?_, fun _ hx => (nomatch hx),
          fun _ hx => (nomatch hx), ?_, ?_⟩
        · intro f hf _
          rw [ep]
          exact v.offG f hf fun j hj => by rw [hnone] at hj; exact nomatch hj
        · intro f hf ho
          exact (f2 f hf (ho i)).trans (v.nobody f hf ho)
        · intro _
          rw [ep, eG0]
          show (⟨⟨_, _⟩, _⟩ : Sh) = ⟨⟨sh.st.mem, _⟩, sh.locked && true⟩
          rw [r2, l']
          rfl
        · intro j
          rw [ep, ef, set_thr, et2]
          by_cases hj : j = i
          · subst hj
            rw [if_pos rfl, hcur]
            exact .tail e (fun hx => nomatch hx) (fun hx => nomatch hx) t' (by rw [← er]; exact congrArg Prod.fst r1) (by
              show Sees _ (tailRun p' sh.st.b).2 g
              rw [r1]; exact hse)
          · rw [if_neg hj]
            exact other none (fun _ _ hx => nomatch hx) j hj
        · intro j; rw [ep, es, et2]; exact v.starts j

theorem OInv.init {own : Nat → Field → Bool} {ex : O → Prog V} {c : Conf O V} (q : Quiet c) : OInv own ex c.sh [] c c.sh.st.b none none := by
  refine ⟨rfl, rfl, rfl, fun _ _ _ => rfl, fun _ _ _ => rfl, fun _ => ?_, fun _ h => (nomatch h), fun _ h => (nomatch h), fun i => ?_, fun _ => rfl⟩
  · show c.sh = ⟨⟨_, _⟩, c.sh.locked && true⟩
    rw [Bool.and_true]
  · rw [q.idle i]
    exact .idle rfl (fun h => nomatch h) (fun h => nomatch h) (.refl _ _)

theorem exec_own {own : Nat → Field → Bool} (disj : ∀ i j f, own i f = true → own j f = true → i = j) {ex : O → Prog V} {allowed : O → Prop}
    {c0 c : Conf O V} {τ : Trace O V} (q : Quiet c0) (e : Exec ex allowed c0 τ c) (hex : ∀ i, ∀ op ∈ started i τ, Pre (own i) (ex op)) :
    ∃ g h t, OInv own ex c0.sh τ c g h t := by
  induction e with
  | nil => exact ⟨_, _, _, .init q⟩
  | @snoc τ c c' i a _ st ih =>
    obtain ⟨g, h, t, v⟩ := ih fun j op ho => hex j op (by rw [started_snoc]; exact List.mem_append_left _ ho)
    refine v.step disj (fun op ho => hex i op ?_) st
    rw [started_snoc, ho]
    refine List.mem_append_right _ ?_
    show op ∈ if i = i then [op] else []
    rw [if_pos rfl]
    exact List.mem_singleton_self op

/-- Goroutines each of which has an offset, or both, to itself: their calls are linearizable. -/
theorem owned_linearizable {own : Nat → Field → Bool} (disj : ∀ i j f, own i f = true → own j f = true → i = j) {ex : O → Prog V} {allowed : O → Prop}
    {c0 c : Conf O V} {τ : Trace O V} (q : Quiet c0) (e : Exec ex allowed c0 τ c) (hex : ∀ i, ∀ op ∈ started i τ, Pre (own i) (ex op)) :
    (∀ i, ∃ pending, ofThread i (seqRun ex (points τ) c0.sh).1 = finished i τ ++ pending ∧ pending.length ≤ 1 ∧
      (c.thr i = .idle → pending = [])) ∧
    (∀ i, ∃ waiting, started i τ = ofThread i (points τ) ++ waiting ∧ waiting.length ≤ 1 ∧ (c.thr i = .idle → waiting = [])) ∧
    ((∀ i, c.thr i = .idle) → c.sh = (seqRun ex (points τ) c0.sh).2) := by
  obtain ⟨g, h, t, v⟩ := exec_own disj q e hex
  refine ⟨fun i => ?_, fun i => ?_, fun hi => ?_⟩
  · have w := v.place i
    generalize hc : c.thr i = th at w ⊢
    generalize (track τ).cur i = cu at w
    cases w with
    | idle e => exact ⟨[], by rw [e, List.append_nil], Nat.zero_le _, fun _ => rfl⟩
    | before e => exact ⟨[], by rw [e, List.append_nil], Nat.zero_le _, fun _ => rfl⟩
    | within e => exact ⟨_, e, Nat.le_refl _, fun h => nomatch h⟩
    | tail e => exact ⟨_, e, Nat.le_refl _, fun h => nomatch h⟩
    | tailS e => exact ⟨_, e, Nat.le_refl _, fun h => nomatch h⟩
  · refine ⟨_, v.starts i, ?_, ?_⟩
    · cases (track τ).cur i <;> simp
    · intro hi
      have w := v.place i
      rw [hi] at w
      generalize (track τ).cur i = cu at w ⊢
      cases w
      rfl
  · have idle : ∀ i, h ≠ some i ∧ t ≠ some i ∧ Sees (own i) c.sh.st.b g := by
      intro i
      have w := v.place i
      rw [hi i] at w
      generalize (track τ).cur i = cu at w
      cases w with
      | idle _ n m s => exact ⟨n, m, s⟩
    have hnone : h = none := by
      cases hh : h with
      | none => rfl
      | some j => exact absurd hh (idle j).1
    have tnone : t = none := by
      cases hh : t with
      | none => rfl
      | some j => exact absurd hh (idle j).2.1
    have eb : c.sh.st.b = g := by
      refine buf_ext (v.fields.trans v.fieldsg.symm) fun f hf => ?_
      by_cases ho : ∃ i, own i f = true
      · obtain ⟨i, ho⟩ := ho
        exact (idle i).2.2.2 f hf ho
      · exact v.nobody f hf fun i => by
          cases e : own i f with
          | false => rfl
          | true => exact absurd ⟨i, e⟩ ho
    rw [v.free hnone, tnone, ← eb]
    show c.sh = ⟨⟨_, _⟩, c.sh.locked && true⟩
    rw [Bool.and_true]

end Crunch
