import Verif.Client
import Verif.Lemmas.Guards
import Verif.Lemmas.Progress
import Verif.Lemmas.Unlocked

/-! Client code that guards a buffer with a mutex. -/

namespace Crunch

theorem Prog.NoLock.attempt {p : Prog α} {k : Res α → Prog β} (hp : p.NoLock) (hk : ∀ r, (k r).NoLock) : (p.attempt k).NoLock := by
  induction p with
  | ret a => exact hk _
  | panic e => exact hk _
  | getI x f ih => exact fun v => ih v (hp v)
  | setI x v f ih => exact ih hp
  | getBuf f ih => exact fun v => ih v (hp v)
  | setBuf t f ih => exact ih hp
  | load t i f ih => exact fun v => ih v (hp v)
  | store t i v f ih => exact ih hp
  | append t x f ih => exact fun v => ih v (hp v)
  | alloc a n f ih => exact fun v => ih v (hp v)
  | lock f ih => exact hp.elim
  | unlock f ih => exact hp.elim

theorem Prog.NoLock.run_attempt {p : Prog α} {k : Res α → Prog β} (hp : p.NoLock) (s : Sh) :
    (p.attempt k).run s = (k (p.run s).1).run (p.run s).2 := by
  induction p generalizing s with
  | ret a => rfl
  | panic e => rfl
  | getI x f ih => exact ih _ (hp _) s
  | setI x v f ih => exact ih hp _
  | getBuf f ih => exact ih _ (hp _) s
  | setBuf t f ih => exact ih hp _
  | load t i f ih => exact ih _ (hp _) s
  | store t i v f ih => exact ih hp _
  | append t x f ih => exact ih _ (hp _) _
  | alloc a n f ih => exact ih _ (hp _) _
  | lock f ih => exact hp.elim
  | unlock f ih => exact hp.elim

theorem Prog.Only.noLock {A : Src.Action → Bool} {p : Prog α} (h : p.Only A) : p.NoLock := by
  induction p with
  | ret a => trivial
  | panic e => trivial
  | getI x f ih => exact fun v => ih v (h.2 v)
  | setI x v f ih => exact ih h.2
  | getBuf f ih => exact fun v => ih v (h.2 v)
  | setBuf t f ih => exact ih h.2
  | load t i f ih => exact fun v => ih v (h.2 v)
  | store t i v f ih => exact ih h.2
  | append t x f ih => exact fun v => ih v (h.2 v)
  | alloc a n f ih => exact fun v => ih v (h.2 v)
  | lock f ih => exact h.elim
  | unlock f ih => exact h.elim

/-- The calls of `P` do what `m` says, and leave the mutex alone. -/
def Does (P : O → Prop) (ex : O → Prog V) (m : O → V3.St → Res V × V3.St) : Prop :=
  ∀ op, P op → (ex op).NoLock ∧ ∀ (s : V3.St) (l : Bool), (ex op).run ⟨s, l⟩ = ((m op s).1, ⟨(m op s).2, l⟩)

variable {P : O → Prop} {ex : O → Prog V} {m : O → V3.St → Res V × V3.St}

theorem Does.noLock (h : Does P ex m) {cl : Client O V A} (hc : cl.All P) : (cl.prog ex).NoLock := by
  induction cl with
  | ret a => trivial
  | panic e => trivial
  | call op k ih => exact (h op hc.1).1.attempt fun r => ih r (hc.2 r)

theorem Does.run (h : Does P ex m) {cl : Client O V A} (hc : cl.All P) (s : V3.St) (l : Bool) :
    (cl.prog ex).run ⟨s, l⟩ = ((cl.run m s).1, ⟨(cl.run m s).2, l⟩) := by
  induction cl generalizing s with
  | ret a => rfl
  | panic e => rfl
  | call op k ih =>
    show ((ex op).attempt fun r => (k r).prog ex).run _ = _
    rw [(h op hc.1).1.run_attempt, (h op hc.1).2]
    exact ih _ (hc.2 _) _

/-- What client code does from its lock on. -/
theorem Does.run_guarded (h : Does P ex m) {cl : Client O V A} (hc : cl.All P) (s : V3.St) :
    (cl.prog ex).deferUnlock.run ⟨s, true⟩ = ((cl.run m s).1, ⟨(cl.run m s).2, false⟩) := by
  rw [(h.noLock hc).run_deferUnlock, h.run hc]

/-- The rest of a section that ends with the unlock. -/
def Leaf (p : Prog α) : Prop := ∃ q : Prog α, q.NoLock ∧ p = q.deferUnlock

theorem Leaf.cases {p p' : Prog α} {e : Event} {s s' : Sh} (h : Leaf p) (st : p.step s = some (e, p', s')) :
    (e ≠ .lock ∧ Leaf p' ∧ p.run s = p'.run s' ∧ s'.locked = s.locked) ∨
      (∃ r, p'.result = some r ∧ p.run s = (r, s') ∧ e ≠ .lock) := by
  obtain ⟨q, hq, rfl⟩ := h
  cases q with
  | ret a => cases st; exact .inr ⟨_, rfl, rfl, by decide⟩
  | panic q => cases st; exact .inr ⟨_, rfl, rfl, by decide⟩
  | getI f k => cases st; exact .inl ⟨by decide, ⟨_, hq _, rfl⟩, rfl, rfl⟩
  | setI f v k => cases st; exact .inl ⟨by decide, ⟨k, hq, rfl⟩, rfl, rfl⟩
  | getBuf k => cases st; exact .inl ⟨by decide, ⟨_, hq _, rfl⟩, rfl, rfl⟩
  | setBuf t k => cases st; exact .inl ⟨by decide, ⟨k, hq, rfl⟩, rfl, rfl⟩
  | load t i k => cases st; exact .inl ⟨by decide, ⟨_, hq _, rfl⟩, rfl, rfl⟩
  | store t i v k => cases st; exact .inl ⟨by decide, ⟨k, hq, rfl⟩, rfl, rfl⟩
  | append t x k => cases st; exact .inl ⟨by decide, ⟨_, hq _, rfl⟩, rfl, rfl⟩
  | alloc a n k => cases st; exact .inl ⟨by decide, ⟨_, hq _, rfl⟩, rfl, rfl⟩
  | lock k => exact hq.elim
  | unlock k => exact hq.elim

theorem Leaf.no_result {p : Prog α} (h : Leaf p) : p.result = none := by
  obtain ⟨q, hq, rfl⟩ := h
  cases q <;> first | rfl | exact hq.elim

theorem oneByOne_snoc (l : List (Nat × Client O V A)) (i : Nat) (cl : Client O V A) (s : V3.St) :
    oneByOne m (l ++ [(i, cl)]) s =
      ((oneByOne m l s).1 ++ [(i, cl, (cl.run m (oneByOne m l s).2).1)], (cl.run m (oneByOne m l s).2).2) := by
  induction l generalizing s with
  | nil => rfl
  | cons x l ih => obtain ⟨j, cl'⟩ := x; simp only [List.cons_append, oneByOne, ih]

/-- Where a goroutine is, between the shared state `sh` and the state `G` of the clients one by one. -/
inductive ClAt (ex : O → Prog V) (P : O → Prop) (sh : Sh) (G : V3.St) (h : Option Nat) (i : Nat) (fin res : List (Client O V A × Res A)) :
    Thr (Client O V A) A → Option (Client O V A) → Prop
  | idle : res = fin → h ≠ some i → ClAt ex P sh G h i fin res .idle none
  | before {cl : Client O V A} : res = fin → cl.All P → h ≠ some i → ClAt ex P sh G h i fin res (.busy cl (cl.guarded ex)) (some cl)
  | within {cl : Client O V A} {p : Prog A} {r : Res A} : res = fin ++ [(cl, r)] → Leaf p → h = some i → sh.locked = true → p.run sh = (r, ⟨G, false⟩) →
      ClAt ex P sh G h i fin res (.busy cl p) none
  | past {cl : Client O V A} {p : Prog A} {r : Res A} : res = fin ++ [(cl, r)] → p.result = some r → h ≠ some i →
      ClAt ex P sh G h i fin res (.busy cl p) none

theorem ClAt.other {sh sh' : Sh} {G G' : V3.St} {h h' : Option Nat} {j : Nat} {fin res : List (Client O V A × Res A)} {t : Thr (Client O V A) A}
    {cur : Option (Client O V A)} (w : ClAt ex P sh G h j fin res t cur) (h1 : h = some j → h' = some j ∧ sh' = sh ∧ G' = G) (h2 : h ≠ some j → h' ≠ some j) :
    ClAt ex P sh' G' h' j fin res t cur := by
  cases w with
  | idle e n => exact .idle e (h2 n)
  | before e a n => exact .before e a (h2 n)
  | within e s n l r =>
    obtain ⟨n', es, eg⟩ := h1 n
    subst es eg
    exact .within e s n' l r
  | past e r n => exact .past e r (h2 n)

structure ClInv (ex : O → Prog V) (m : O → V3.St → Res V × V3.St) (P : O → Prop) (s0 : V3.St) (τ : Trace (Client O V A) A) (c : Conf (Client O V A) A)
    (h : Option Nat) : Prop where
  free : h = none → c.sh = ⟨(oneByOne m (points τ) s0).2, false⟩
  held : ∀ i, h = some i → c.sh.locked = true
  place : ∀ i, ClAt ex P c.sh (oneByOne m (points τ) s0).2 h i (finished i τ) (ofThread i (oneByOne m (points τ) s0).1) (c.thr i) ((track τ).cur i)
  starts : ∀ i, started i τ = ofThread i (points τ) ++ ((track τ).cur i).toList

theorem ClInv.step (hd : Does P ex m) {s0 : V3.St} {τ : Trace (Client O V A) A} {c c' : Conf (Client O V A) A} {h : Option Nat} (v : ClInv ex m P s0 τ c h)
    {i : Nat} {x : Act (Client O V A) A} (st : Step (Client.guarded ex) (Client.All P) c i x c') : ∃ h', ClInv ex m P s0 (τ ++ [(i, x)]) c' h' := by
  have w := v.place i
  cases st with
  | start cl hi hop =>
    rw [hi] at w
    generalize hcur : (track τ).cur i = cu at w
    cases w with
    | idle e hn =>
      have et : track (τ ++ [(i, .start cl)]) = (track τ).step (i, (.start cl : Act (Client O V A) A)) := track_snoc _ _
      have ep : points (τ ++ [(i, .start cl)]) = points τ := by unfold points; rw [et]; rfl
      refine ⟨h, by rw [ep]; exact v.free, v.held, ?_, ?_⟩
      · intro j
        rw [ep, finished_snoc, set_thr, et]
        show ClAt _ _ _ _ _ _ (finished j τ ++ []) _ _ (if j = i then some cl else (track τ).cur j)
        rw [List.append_nil]
        by_cases hj : j = i
        · subst hj
          rw [if_pos rfl, if_pos rfl]
          exact .before e hop hn
        · rw [if_neg hj, if_neg hj]
          exact v.place j
      · intro j
        rw [ep, started_snoc, et, v.starts j]
        show _ ++ (if i = j then [cl] else []) = _ ++ (if j = i then some cl else (track τ).cur j).toList
        by_cases hj : j = i
        · subst hj
          rw [if_pos rfl, if_pos rfl, hcur]; simp
        · rw [if_neg hj, if_neg (fun hh => hj hh.symm), List.append_nil]
  | @finish cl p r hi hr =>
    rw [hi] at w
    generalize hcur : (track τ).cur i = cu at w
    have et : track (τ ++ [(i, .finish cl r)]) = (track τ).step (i, (.finish cl r : Act (Client O V A) A)) := track_snoc _ _
    have es : ∀ j, started j (τ ++ [(i, .finish cl r)]) = started j τ := fun j => by rw [started_snoc]; exact List.append_nil _
    have ef : ∀ j, finished j (τ ++ [(i, .finish cl r)]) = if i = j then finished j τ ++ [(cl, r)] else finished j τ := fun j => by
      rw [finished_snoc]
      show _ ++ (if i = j then _ else _) = _
      split <;> first | rfl | exact List.append_nil _
    cases w with
    | before e o hn => exact nomatch hr
    | within e s hh hl er => rw [s.no_result] at hr; exact nomatch hr
    | @past _ _ r' e er hn =>
      have : r' = r := Option.some.inj (er.symm.trans hr)
      subst this
      have et2 : track (τ ++ [(i, .finish cl r')]) = track τ := by
        rw [et]; simp only [Track.step, hcur]
      have ep : points (τ ++ [(i, .finish cl r')]) = points τ := by unfold points; rw [et2]
      refine ⟨h, by rw [ep]; exact v.free, v.held, ?_, ?_⟩
      · intro j
        rw [ep, ef, set_thr, et2]
        by_cases hj : j = i
        · subst hj
          rw [if_pos rfl, if_pos rfl, hcur]
          exact .idle e hn
        · rw [if_neg hj, if_neg (fun hh => hj hh.symm)]
          exact v.place j
      · intro j
        rw [ep, es, et2]; exact v.starts j
  | @did cl p p' ev sh hi hs =>
    rw [hi] at w
    generalize hcur : (track τ).cur i = cu at w
    have es : ∀ j, started j (τ ++ [(i, .did ev p')]) = started j τ := fun j => by rw [started_snoc]; exact List.append_nil _
    have ef : ∀ j, finished j (τ ++ [(i, .did ev p')]) = finished j τ := fun j => by rw [finished_snoc]; exact List.append_nil _
    have et : track (τ ++ [(i, .did ev p')]) = (track τ).step (i, (.did ev p' : Act (Client O V A) A)) := track_snoc _ _
    have plain : ev ≠ .lock → points (τ ++ [(i, .did ev p')]) = points τ ∧ track (τ ++ [(i, .did ev p')]) = track τ := by
      intro hx
      have : track (τ ++ [(i, .did ev p')]) = track τ := by
        rw [et]
        cases ev with
        | lock => exact absurd rfl hx
        | _ => rfl
      exact ⟨by unfold points; rw [this], this⟩
    cases w with
    | before e o hn =>
      change (if c.sh.locked = true then none else some (Event.lock, (cl.prog ex).deferUnlock, (⟨c.sh.st, true⟩ : Sh))) = _ at hs
      split at hs
      · exact nomatch hs
      · rename_i h2
        cases hs
        have hnone : h = none := by
          cases hh : h with
          | none => rfl
          | some j => exact absurd (v.held j hh) h2
        have eG0 := v.free hnone
        have et2 : track (τ ++ [(i, .did .lock (cl.prog ex).deferUnlock)]) =
            { cur := fun j => if j = i then none else (track τ).cur j, pts := (track τ).pts ++ [(i, cl)] } := by
          rw [et]; simp only [Track.step, hcur]
        have ep : points (τ ++ [(i, .did .lock (cl.prog ex).deferUnlock)]) = points τ ++ [(i, cl)] := by unfold points; rw [et2]
        have eG : oneByOne m (points (τ ++ [(i, .did .lock (cl.prog ex).deferUnlock)])) s0 =
            ((oneByOne m (points τ) s0).1 ++ [(i, cl, (cl.run m c.sh.st).1)], (cl.run m c.sh.st).2) := by
          rw [ep, oneByOne_snoc, eG0]
        refine ⟨some i, fun hx => (nomatch hx), fun _ _ => rfl, ?_, ?_⟩
        · intro j
          rw [eG, ef, set_thr, et2]
          show ClAt _ _ _ _ _ _ _ (ofThread j (_ ++ [(i, cl, _)])) _ (if j = i then none else (track τ).cur j)
          rw [ofThread_snoc]
          by_cases hj : j = i
          · subst hj
            rw [if_pos rfl, if_pos rfl, if_pos rfl]
            exact .within (by rw [e]) ⟨_, hd.noLock o, rfl⟩ rfl rfl (hd.run_guarded o _)
          · rw [if_neg hj, if_neg hj, if_neg (fun hh => hj hh.symm)]
            exact (v.place j).other (fun hh => by rw [hnone] at hh; exact nomatch hh)
              fun _ hh => hj (Option.some.inj hh).symm
        · intro j
          rw [ep, es, et2, v.starts j, ofThread_snoc]
          show _ = _ ++ (if j = i then none else (track τ).cur j).toList
          by_cases hj : j = i
          · subst hj
            rw [if_pos rfl, if_pos rfl, hcur]; simp
          · rw [if_neg hj, if_neg (fun hh => hj hh.symm)]
    | @within _ _ r e s hh hl er =>
      rcases s.cases hs with ⟨h1, h2, h3, h5⟩ | ⟨r', h3, h4, h1⟩
      · obtain ⟨ep, et2⟩ := plain h1
        refine ⟨h, fun hx => (by rw [hh] at hx; exact nomatch hx), fun j hj => h5.trans (v.held j hj), ?_, ?_⟩
        · intro j
          rw [ep, ef, set_thr, et2]
          by_cases hj : j = i
          · subst hj
            rw [if_pos rfl, hcur]
            exact .within e h2 hh (h5.trans hl) (h3.symm.trans er)
          · rw [if_neg hj]
            exact (v.place j).other (fun hx => absurd (Option.some.inj (hh.symm.trans hx)).symm hj) fun hx => hx
        · intro j; rw [ep, es, et2]; exact v.starts j
      · obtain ⟨ep, et2⟩ := plain h1
        have : (r', sh) = (r, _) := h4.symm.trans er
        have e1 := (Prod.mk.inj this).1
        have e2 := (Prod.mk.inj this).2
        refine ⟨none, fun _ => by rw [ep]; exact e2, fun j hj => (nomatch hj), ?_, ?_⟩
        · intro j
          rw [ep, ef, set_thr, et2]
          by_cases hj : j = i
          · subst hj
            rw [if_pos rfl, hcur]
            exact .past e (h3.trans (by rw [e1])) fun hx => nomatch hx
          · rw [if_neg hj]
            exact (v.place j).other (fun hx => absurd (Option.some.inj (hh.symm.trans hx)).symm hj) fun _ hx => nomatch hx
        · intro j; rw [ep, es, et2]; exact v.starts j
    | past e er hn =>
      rw [result_step er] at hs
      exact nomatch hs

theorem exec_client (hd : Does P ex m) {τ : Trace (Client O V A) A} {c0 c : Conf (Client O V A) A} (q : Quiet c0)
    (e : Exec (Client.guarded ex) (Client.All P) c0 τ c) : ∃ h, ClInv ex m P c0.sh.st τ c h := by
  induction e with
  | nil =>
    refine ⟨none, fun _ => ?_, fun _ h => (nomatch h), fun i => (by rw [q.idle i]; exact .idle rfl fun h => nomatch h), fun _ => rfl⟩
    show c0.sh = ⟨c0.sh.st, false⟩
    rw [← q.free]
  | snoc _ st ih =>
    obtain ⟨h, v⟩ := ih
    exact v.step hd st

theorem Acc.of_noLock {p : Prog α} (h : p.NoLock) : Acc (fun _ => false) (fun _ => true) true true p := by
  induction p with
  | ret a => rfl
  | panic q => trivial
  | getI x k ih => exact ⟨nofun, fun v => ih v (h v)⟩
  | setI x v k ih => exact ⟨rfl, ih h⟩
  | getBuf k ih => exact ⟨nofun, fun v => ih v (h v)⟩
  | setBuf t k ih => exact ⟨rfl, ih h⟩
  | load t i k ih => exact ⟨nofun, fun v => ih v (h v)⟩
  | store t i v k ih => exact ⟨rfl, ih h⟩
  | append t x k ih => exact ⟨rfl, rfl, fun v => ih v (h v)⟩
  | alloc a n k ih => exact fun v => ih v (h v)
  | lock k ih => exact h.elim
  | unlock k ih => exact h.elim

theorem guarded_by_mutex (hd : Does P ex m) {τ : Trace (Client O V A) A} {c0 c : Conf (Client O V A) A} (q : Quiet c0)
    (e : Exec (Client.guarded ex) (Client.All P) c0 τ c) : Guarded ex m P c0 τ c := by
  obtain ⟨h, v⟩ := exec_client hd q e
  have hb : ∀ cl : Client O V A, cl.All P → Brk false false (cl.guarded ex) := fun cl hc => Brk.locked (hd.noLock hc)
  refine ⟨fun i => ?_, fun i => ?_, fun hi => ?_, fun i j cl cl' l d => ?_, ?_⟩
  · have w := v.place i
    generalize hc : c.thr i = t at w ⊢
    generalize (track τ).cur i = cu at w
    cases w with
    | idle e _ => exact ⟨[], by rw [e, List.append_nil], Nat.zero_le _, fun _ => rfl⟩
    | before e _ _ => exact ⟨[], by rw [e, List.append_nil], Nat.zero_le _, fun _ => rfl⟩
    | within e _ _ _ _ => exact ⟨_, e, Nat.le_refl _, fun h => nomatch h⟩
    | past e _ _ => exact ⟨_, e, Nat.le_refl _, fun h => nomatch h⟩
  · refine ⟨_, v.starts i, ?_, ?_⟩
    · cases (track τ).cur i <;> simp
    · intro hi
      have w := v.place i
      rw [hi] at w
      generalize (track τ).cur i = cu at w ⊢
      cases w
      rfl
  · cases h with
    | none => exact v.free rfl
    | some j =>
      have w := v.place j
      rw [hi j] at w
      generalize (track τ).cur j = cu at w
      cases w with
      | idle _ hn => exact absurd rfl hn
  · exact nomatch (race_table (R := fun _ _ => false) (W := fun _ _ => true)
      (fun cl hc => ⟨hb cl hc, Acc.locked (Acc.of_noLock (hd.noLock hc))⟩) q e d).2.2.2
  · exact shared_tidy (fun cl hc => ⟨hb cl hc, Tidy.locked (hd.noLock hc)⟩) q e

end Crunch
