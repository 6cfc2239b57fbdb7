import Verif.Lemmas.Local
import Verif.Lemmas.V2Parts

/-! Runs of calls of which those of different goroutines touch nothing the others change. -/

namespace Crunch

/-- The calls of goroutine `i` in a list of calls. -/
def mine (i : Nat) (l : List (Nat × α)) : List (Nat × α) := l.filter fun x => x.1 == i

theorem mine_map (i : Nat) (l : List (Nat × α)) : mine i l = (ofThread i l).map fun a => (i, a) := by
  unfold mine ofThread
  rw [List.map_map]
  symm
  calc _ = (l.filter fun x => x.1 == i).map id := List.map_congr_left fun x hx => by
        have := (List.mem_filter.mp hx).2
        have : x.1 = i := by simpa using this
        subst this
        rfl
    _ = _ := List.map_id _

theorem seqRun_append (ex : O → Prog V) (l m : List (Nat × O)) (s : Sh) :
    seqRun ex (l ++ m) s = ((seqRun ex l s).1 ++ (seqRun ex m (seqRun ex l s).2).1, (seqRun ex m (seqRun ex l s).2).2) := by
  induction l generalizing s with
  | nil => rfl
  | cons a l ih =>
    obtain ⟨i, op⟩ := a
    simp only [List.cons_append, seqRun, ih]

/-- `es` are the outcomes of its calls made one after another from `s` on. -/
def Faithful (ex : E → Prog W) (i : Nat) (es : List (E × Res W)) (s : Sh) : Prop :=
  (seqRun ex (es.map fun x => (i, x.1)) s).1 = es.map fun x => (i, x.1, x.2)

theorem Faithful.append {ex : E → Prog W} {i : Nat} {es es' : List (E × Res W)} {s : Sh} (h : Faithful ex i (es ++ es') s) :
    Faithful ex i es s ∧ Faithful ex i es' (seqRun ex (es.map fun x => (i, x.1)) s).2 := by
  unfold Faithful at h ⊢
  rw [List.map_append, seqRun_append, List.map_append] at h
  have len : ∀ (l : List (Nat × E)) s, (seqRun ex l s).1.length = l.length := by
    intro l
    induction l with
    | nil => intro s; rfl
    | cons a l ih => intro s; obtain ⟨j, op⟩ := a; simp [seqRun, ih]
  exact List.append_inj h (by rw [len, List.length_map, List.length_map])

theorem seqRun_calls (ex : O → Prog V) (l : List (Nat × O)) (s : Sh) : (seqRun ex l s).1.map (fun x => (x.1, x.2.1)) = l := by
  induction l generalizing s with
  | nil => rfl
  | cons a l ih => obtain ⟨j, op⟩ := a; simp [seqRun, ih]

/-- The outcomes of goroutine `i`'s calls are those they have when made alone. -/
theorem faithful_of {ex : E → Prog W} {i : Nat} {L : List (Nat × E)} {es : List (E × Res W)} {s : Sh}
    (h : mine i (seqRun ex L s).1 = (seqRun ex (mine i L) s).1) (he : ofThread i (seqRun ex L s).1 = es) :
    mine i L = es.map (fun x => (i, x.1)) ∧ Faithful ex i es s := by
  rw [mine_map, he] at h
  have hm := seqRun_calls ex (mine i L) s
  rw [← h, List.map_map] at hm
  refine ⟨hm.symm, ?_⟩
  unfold Faithful
  rw [show (es.map fun x => (i, x.1)) = mine i L from hm, ← h]

/-- Running a script makes its calls. -/
theorem Piece.run {exE : E → Prog W} {sc : Script E W V} {es : List (E × Res W)} {r : Res V} (p : Piece sc es r) (i : Nat) {s : Sh}
    (h : Faithful exE i es s) : (Prog.script exE sc).run s = (r, (seqRun exE (es.map fun x => (i, x.1)) s).2) := by
  induction p generalizing s with
  | done => rfl
  | @more e k w es r p ih =>
    unfold Faithful at h
    simp only [List.map_cons, seqRun, List.cons.injEq, Prod.mk.injEq, true_and] at h
    show ((exE e).bind _).run s = _
    rw [Prog.run_bind, bind_run]
    simp only [List.map_cons, seqRun]
    rcases hr : (exE e).run s with ⟨r', s'⟩
    rw [hr] at h
    cases h.1
    exact ih h.2
  | @fails e k p =>
    unfold Faithful at h
    simp only [List.map_cons, List.map_nil, seqRun, List.cons.injEq, Prod.mk.injEq, true_and, and_true] at h
    show ((exE e).bind _).run s = _
    rw [Prog.run_bind, bind_run]
    simp only [List.map_cons, List.map_nil, seqRun]
    rcases hr : (exE e).run s with ⟨r', s'⟩
    rw [hr] at h
    cases h
    rfl

theorem Pieces.run {ex : O → Prog V} {exE : E → Prog W} {script : O → Script E W V} {fs : List (O × Res V)} {es : List (E × Res W)}
    (p : Pieces script fs es) (hex : ∀ op, op ∈ fs.map (·.1) → ex op = Prog.script exE (script op)) (i : Nat) {s : Sh} (h : Faithful exE i es s) :
    Faithful ex i fs s ∧ (seqRun ex (fs.map fun x => (i, x.1)) s).2 = (seqRun exE (es.map fun x => (i, x.1)) s).2 := by
  induction p with
  | nil => exact ⟨rfl, rfl⟩
  | @snoc fs es es' op r p q ih =>
    obtain ⟨h1, h2⟩ := h.append
    obtain ⟨i1, i2⟩ := ih (fun op ho => hex op (by rw [List.map_append]; exact List.mem_append_left _ ho)) h1
    have hr := q.run i h2
    rw [← hex op (by simp), ← i2] at hr
    unfold Faithful at i1 ⊢
    simp only [List.map_append, seqRun_append, List.map_cons, List.map_nil, seqRun, i1, hr]
    exact ⟨trivial, by rw [i2]⟩

theorem Exec.restrict {ex : O → Prog V} {allowed P : O → Prop} {c0 c : Conf O V} {τ : Trace O V} (e : Exec ex allowed c0 τ c)
    (h : ∀ i, ∀ op ∈ started i τ, P op) : Exec ex P c0 τ c := by
  induction e with
  | nil => exact .nil
  | @snoc τ c c' i a e st ih =>
    refine .snoc (ih fun j op ho => h j op (by rw [started_snoc]; exact List.mem_append_left _ ho)) ?_
    cases st with
    | start op hi _ => exact .start op hi (h i op (by rw [started_snoc]; exact List.mem_append_right _ (by simp [started])))
    | did hb hs => exact .did hb hs
    | finish hb hr => exact .finish hb hr

theorem Exec.allows {ex : O → Prog V} {allowed : O → Prop} {c0 c : Conf O V} {τ : Trace O V} (q : Quiet c0) (e : Exec ex allowed c0 τ c) :
    (∀ i op p, c.thr i = .busy op p → allowed op) ∧ ∀ i, ∀ op ∈ (finished i τ).map (·.1), allowed op := by
  induction e with
  | nil => exact ⟨fun i op p h => (nomatch (q.idle i).symm.trans h), fun _ _ h => nomatch h⟩
  | @snoc τ c c' i a e st ih =>
    obtain ⟨h1, h2⟩ := ih
    cases st with
    | start op hi ha =>
      refine ⟨fun j op' p' h => ?_, fun j op' h => h2 j op' (by rwa [finished_snoc, show finished j [(i, Act.start op)] = ([] : List (O × Res V)) from rfl, List.append_nil] at h)⟩
      by_cases hj : j = i
      · subst hj
        rw [set_thr, if_pos rfl] at h
        cases h
        exact ha
      · rw [set_thr, if_neg hj] at h
        exact h1 j op' p' h
    | @did op p p' ev sh hb hs =>
      refine ⟨fun j op' p' h => ?_, fun j op' h => h2 j op' (by rwa [finished_snoc, show finished j [(i, Act.did ev _)] = ([] : List (O × Res V)) from rfl, List.append_nil] at h)⟩
      by_cases hj : j = i
      · subst hj
        rw [set_thr, if_pos rfl] at h
        cases h
        exact h1 j _ _ hb
      · rw [set_thr, if_neg hj] at h
        exact h1 j op' p' h
    | @finish op p r hb hr =>
      refine ⟨fun j op' p' h => ?_, fun j op' h => ?_⟩
      · by_cases hj : j = i
        · subst hj
          rw [set_thr, if_pos rfl] at h
          exact nomatch h
        · rw [set_thr, if_neg hj] at h
          exact h1 j op' p' h
      · by_cases hj : j = i
        · subst hj
          rw [finished_finish, List.map_append] at h
          rcases List.mem_append.mp h with h | h
          · exact h2 j op' h
          · cases List.mem_singleton.mp h
            exact h1 j _ _ hb
        · rw [finished_snoc, show finished j [(i, Act.finish op r)] = ([] : List (O × Res V)) from if_neg (fun h => hj h.symm), List.append_nil] at h
          exact h2 j op' h

theorem Explains.mem {exE : E → Prog W} {script : O → Script E W V} {s0 : Sh} {τ : Trace O V} {L : List (Nat × E)}
    (ex : Explains exE script s0 τ L) {i : Nat} {e : E} (h : (i, e) ∈ L) : ∃ op ∈ started i τ, (script op).Uses e := ex.origin i e (by
  unfold ofThread
  exact List.mem_map.mpr ⟨_, List.mem_filter.mpr ⟨h, by simp⟩, rfl⟩)

end Crunch

namespace Crunch.V2
open Spec
open V3 (St WF Val Kind St.put)

/-- Equal but for bits satisfying `X`. -/
structure Agree (s0 : St) (X : Nat → Prop) (s s' : Sh) : Prop where
  near : Near s0 s.st
  near' : Near s0 s'.st
  free : s.locked = false
  free' : s'.locked = false
  bits : ∀ x, ¬ X x → bit s.st.bytes x = bit s'.st.bytes x

variable {O V : Type} {exe : O → Prog V} {ch : O → Bool} {T : O → Nat → Prop}

theorem ActsLike.run {s0 : St} {op : O} (a : ActsLike s0 (exe op) (ch op) (T op)) {s : Sh} (h : Near s0 s.st) (hf : s.locked = false) :
    Near s0 ((exe op).run s).2.st ∧ ((exe op).run s).2.locked = false ∧
      ∀ x, (ch op = false ∨ ¬ T op x) → bit ((exe op).run s).2.st.bytes x = bit s.st.bytes x := by
  obtain ⟨f, lf, hr⟩ := a
  obtain ⟨st, b⟩ := s
  cases hf
  have hl : st.bytes.length = s0.b.buf.len := by rw [V3.length_bytes h.wf.ok, h.b]
  have hl' := lf.len hl
  rw [hr st h]
  refine ⟨h.put hl', rfl, fun x hx => ?_⟩
  show bit (st.put _).bytes x = _
  rw [V3.bytes_put h.wf.ok (by rw [hl', h.b]), lf.outside hl hx]

theorem ActsLike.same {s0 : St} {op : O} (a : ActsLike s0 (exe op) (ch op) (T op)) {X : Nat → Prop} {s s' : Sh} (h : Agree s0 X s s') (hx : ∀ x, T op x → ¬ X x) :
    ((exe op).run s).1 = ((exe op).run s').1 ∧ Agree s0 X ((exe op).run s).2 ((exe op).run s').2 := by
  obtain ⟨n1, f1, o1⟩ := a.run h.near h.free
  obtain ⟨n2, f2, o2⟩ := a.run h.near' h.free'
  obtain ⟨f, lf, hr⟩ := a
  obtain ⟨st, b⟩ := s
  obtain ⟨st', b'⟩ := s'
  cases h.free
  cases h.free'
  have hn := h.near; have hn' := h.near'
  have hl : st.bytes.length = s0.b.buf.len := by rw [V3.length_bytes hn.wf.ok, hn.b]
  have hl2 : st'.bytes.length = s0.b.buf.len := by rw [V3.length_bytes hn'.wf.ok, hn'.b]
  obtain ⟨e1, e2⟩ := lf.same hl hl2 fun x ht => h.bits x (hx x ht)
  refine ⟨by rw [hr st hn, hr st' hn']; exact e1, n1, n2, f1, f2, fun x hX => ?_⟩
  by_cases ht : T op x
  · rw [hr st hn, hr st' hn']
    show bit (st.put _).bytes x = bit (st'.put _).bytes x
    rw [V3.bytes_put hn.wf.ok (by rw [lf.len hl, hn.b]), V3.bytes_put hn'.wf.ok (by rw [lf.len hl2, hn'.b])]
    exact e2 x ht
  · rw [o1 x (.inr ht), o2 x (.inr ht)]
    exact h.bits x hX

/-- Bit `x` is changed by a call of another goroutine than `i`. -/
def Foreign (ch : O → Bool) (T : O → Nat → Prop) (L : List (Nat × O)) (i x : Nat) : Prop := ∃ j e, (j, e) ∈ L ∧ j ≠ i ∧ ch e = true ∧ T e x

theorem alone_same {s0 : St} {X : Nat → Prop} (i : Nat) (L : List (Nat × O)) (ha : ∀ a ∈ L, ActsLike s0 (exe a.2) (ch a.2) (T a.2))
    (hX : ∀ x, Foreign ch T L i x → X x) (hi : ∀ e, (i, e) ∈ L → ∀ x, T e x → ¬ X x) {s s' : Sh} (h : Agree s0 X s s') :
    mine i (seqRun exe L s).1 = (seqRun exe (mine i L) s').1 ∧ Agree s0 X (seqRun exe L s).2 (seqRun exe (mine i L) s').2 := by
  induction L generalizing s s' with
  | nil => exact ⟨rfl, h⟩
  | cons a L ih =>
    obtain ⟨j, op⟩ := a
    have hop := ha (j, op) List.mem_cons_self
    have ih' := fun {s s'} => ih (s := s) (s' := s') (fun a h => ha a (List.mem_cons_of_mem _ h))
      (fun x ⟨j, e, h, r⟩ => hX x ⟨j, e, List.mem_cons_of_mem _ h, r⟩) (fun e h => hi e (List.mem_cons_of_mem _ h))
    by_cases hj : j = i
    · subst hj
      obtain ⟨e1, e2⟩ := hop.same h (hi op List.mem_cons_self)
      obtain ⟨r1, r2⟩ := ih' e2
      have hm : mine j ((j, op) :: L) = (j, op) :: mine j L := List.filter_cons_of_pos (by simp)
      rw [hm]
      simp only [seqRun]
      refine ⟨?_, r2⟩
      rw [← r1, ← e1]
      exact List.filter_cons_of_pos (by simp)
    · have hm : mine i ((j, op) :: L) = mine i L := List.filter_cons_of_neg (by simpa using hj)
      rw [hm]
      obtain ⟨n1, f1, o1⟩ := hop.run h.near h.free
      have a' : Agree s0 X ((exe op).run s).2 s' := ⟨n1, h.near', f1, h.free', fun x hx => by
        refine (o1 x ?_).trans (h.bits x hx)
        cases hc : ch op
        · exact .inl rfl
        · exact .inr fun ht => hx (hX x ⟨j, op, List.mem_cons_self, hj, hc, ht⟩)⟩
      obtain ⟨r1, r2⟩ := ih' a'
      simp only [seqRun]
      refine ⟨?_, r2⟩
      rw [← r1]
      exact List.filter_cons_of_neg (by simpa using hj)

theorem untouched {s0 : St} (L : List (Nat × O)) (ha : ∀ a ∈ L, ActsLike s0 (exe a.2) (ch a.2) (T a.2)) {s : Sh} (h : Near s0 s.st) (hf : s.locked = false) :
    Near s0 (seqRun exe L s).2.st ∧ (seqRun exe L s).2.locked = false ∧
      ∀ x, (∀ a ∈ L, ch a.2 = true → ¬ T a.2 x) → bit (seqRun exe L s).2.st.bytes x = bit s.st.bytes x := by
  induction L generalizing s with
  | nil => exact ⟨h, hf, fun _ _ => rfl⟩
  | cons a L ih =>
    obtain ⟨j, op⟩ := a
    obtain ⟨n1, f1, o1⟩ := (ha (j, op) List.mem_cons_self).run h hf
    obtain ⟨r1, r2, r3⟩ := ih (fun a h => ha a (List.mem_cons_of_mem _ h)) n1 f1
    refine ⟨r1, r2, fun x hx => (r3 x fun a h => hx a (List.mem_cons_of_mem _ h)).trans (o1 x ?_)⟩
    cases hc : ch op
    · exact .inl rfl
    · exact .inr (hx (j, op) List.mem_cons_self hc)

/-- The calls `i` has finished, made without anybody else. -/
def soloRun (exe : O → Prog V) (i : Nat) (τ : Trace O V) (s : Sh) : List (Nat × O × Res V) × Sh :=
  seqRun exe ((finished i τ).map fun x => (i, x.1)) s

theorem no_interference {script : O → Script O V V} {c0 c : Conf O V} {τ : Trace O V} {L : List (Nat × O)} (q : Quiet c0) (h0 : WF c0.sh.st)
    (ex : Explains exe script c0.sh τ L) (hid : ∀ i, c.thr i = .idle → Pieces script (finished i τ) (ofThread i (seqRun exe L c0.sh).1))
    (hsh : (∀ i, c.thr i = .idle) → c.sh = (seqRun exe L c0.sh).2) (act : ∀ a ∈ L, ActsLike c0.sh.st (exe a.2) (ch a.2) (T a.2))
    (exb : ∀ i, ∀ op, op ∈ (finished i τ).map (·.1) → exe op = Prog.script exe (script op))
    (part : ∀ i e, (i, e) ∈ L → ∃ op ∈ started i τ, ch e = ch op ∧ ∀ x, T e x → T op x)
    (apart : ∀ i j, i ≠ j → ∀ op ∈ started i τ, ∀ op' ∈ started j τ, ch op = true → ∀ x, T op x → ¬ T op' x) :
    (∀ i, (finished i τ).map (fun x => (i, x.1, x.2)) = (soloRun exe i τ c0.sh).1) ∧
      ((∀ i, c.thr i = .idle) → c.sh.locked = false ∧ c.sh.st.b = c0.sh.st.b ∧
        (∀ a i, (a ≠ c0.sh.st.b.buf.arr ∨ i < c0.sh.st.b.buf.off ∨ c0.sh.st.b.buf.off + c0.sh.st.b.buf.len ≤ i) →
          (c.sh.st.mem.array a)[i]? = (c0.sh.st.mem.array a)[i]?) ∧
        (∀ i, ∀ op ∈ started i τ, ch op = true → ∀ x, T op x → bit c.sh.st.bytes x = bit (soloRun exe i τ c0.sh).2.st.bytes x) ∧
        ∀ x, (∀ i, ∀ op ∈ started i τ, ch op = true → ¬ T op x) → bit c.sh.st.bytes x = bit c0.sh.st.bytes x) := by
  obtain ⟨_, sh⟩ := c0
  obtain ⟨s0, lk⟩ := sh
  cases q.free
  have near : Near s0 s0 := ⟨h0, rfl, rfl, fun _ => rfl, fun _ _ _ => rfl⟩
  have alone := fun i => alone_same (X := Foreign ch T L i) i L act (fun _ h => h) (fun e he x ht ⟨j, e', he', hj, hc, ht'⟩ => by
    obtain ⟨op, ho, _, h1⟩ := part i e he
    obtain ⟨op', ho', h2, h3⟩ := part j e' he'
    exact apart j i hj op' ho' op ho (h2 ▸ hc) x (h3 x ht') (h1 x ht))
    (s := ⟨s0, false⟩) (s' := ⟨s0, false⟩) ⟨near, near, rfl, rfl, fun _ _ => rfl⟩
  constructor
  · intro i
    obtain ⟨es, more, h1, h2⟩ := ex.results i
    obtain ⟨_, hf⟩ := faithful_of (alone i).1 h1
    exact (h2.run (exb i) i hf.append.1).1.symm
  · intro hi
    obtain ⟨n1, n2, n3⟩ := untouched L act (s := ⟨s0, false⟩) near rfl
    rw [hsh hi]
    refine ⟨n2, n1.b, n1.outer, fun i op ho hc x ht => ?_, fun x hx => n3 x fun a ha hc ht => ?_⟩
    · obtain ⟨hm, hf⟩ := faithful_of (alone i).1 rfl
      unfold soloRun
      rw [((hid i (hi i)).run (exb i) i hf).2, ← hm]
      refine (alone i).2.bits x fun ⟨j, e', he', hj, hc', ht'⟩ => ?_
      obtain ⟨op', ho', h2, h3⟩ := part j e' he'
      exact apart j i hj op' ho' op ho (h2 ▸ hc') x (h3 x ht') ht
    · obtain ⟨op, ho, h2, h3⟩ := part a.1 a.2 ha
      exact hx a.1 op ho (h2 ▸ hc) (h3 x ht)

end Crunch.V2
