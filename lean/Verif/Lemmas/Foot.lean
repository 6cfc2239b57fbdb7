import Verif.Foot
import Verif.Lemmas.Apart
import Verif.Lemmas.Race
import Verif.Lemmas.Serial

/-! Goroutines none of which changes a place another one accesses do what they would do alone. -/

namespace Crunch
open V3 (St)
open V2 (soloRun)

theorem Loc.same_refl (l : Loc) (s : St) : l.same s s := by cases l <;> exact rfl
theorem Loc.same_symm {l : Loc} {s t : St} (h : l.same s t) : l.same t s := by
  cases l <;> exact (show _ = _ from h).symm
theorem Loc.same_trans {l : Loc} {s t u : St} (h : l.same s t) (h' : l.same t u) : l.same s u := by
  cases l <;> exact (show _ = _ from h).trans h'

theorem Field.get_of_set (f g : Field) (b : V3.Buf) (v : Int64) : g.get (f.set b v) = if f = g then v else g.get b := by
  cases f <;> cases g <;> rfl
theorem Field.buf_of_set (f : Field) (b : V3.Buf) (v : Int64) : (f.set b v).buf = b.buf := by cases f <;> rfl
theorem Field.get_of_buf (f : Field) (b : V3.Buf) (t : Slice) : f.get { b with buf := t } = f.get b := by cases f <;> rfl

theorem array_set_get (h : Heap) (a i : Nat) (v : UInt8) (b j : Nat) :
    ((h.set a i v).array b)[j]? = if a = b ∧ i = j then (h.array b)[j]?.map fun _ => v else (h.array b)[j]? := by
  unfold Heap.set Heap.array
  simp only [List.getD_eq_getElem?_getD, List.getElem?_modify]
  cases h.arrays[b]? with
  | none => simp
  | some l =>
    by_cases e : a = b
    · subst e
      by_cases e' : i = j
      · subst e'
        simp only [true_and, if_true, Option.map_eq_map, Option.map_some, Option.getD_some]
        rw [List.getElem?_set]
        by_cases hl : i < l.length
        · simp [hl]
        · simp [hl]
      · simp [e']
    · simp [e]

theorem array_blit_get (h : Heap) (a i : Nat) (d : List UInt8) (b j : Nat) :
    ((h.blit a i d).array b)[j]? = if a = b ∧ i ≤ j ∧ j < i + d.length then (h.array b)[j]?.map fun _ => d.getD (j - i) 0 else (h.array b)[j]? := by
  have put : ∀ l : List UInt8, (putAt i d l)[j]? = if i ≤ j ∧ j < i + d.length then l[j]?.map fun _ => d.getD (j - i) 0 else l[j]? := fun l => by
    unfold putAt
    rw [List.getElem?_take, List.getElem?_append, List.getElem?_append, List.length_append, List.length_take, List.getElem?_take, List.getElem?_drop]
    by_cases hj : j < l.length
    · rw [if_pos hj]
      by_cases h1 : j < i
      · rw [if_pos (by omega), if_pos (by omega), if_pos h1, if_neg (by omega)]
      · by_cases h2 : j < i + d.length
        · rw [if_pos (by omega), if_neg (by omega), if_pos ⟨by omega, h2⟩, List.getElem?_eq_getElem hj, List.getD_eq_getElem?_getD,
            show j - min i l.length = j - i by omega, List.getElem?_eq_getElem (by omega)]
          rfl
        · rw [if_neg (by omega), if_neg (by omega), show i + d.length + (j - (min i l.length + d.length)) = j by omega]
    · rw [if_neg hj, List.getElem?_eq_none (by omega)]
      split <;> rfl
  unfold Heap.blit Heap.array
  simp only [List.getD_eq_getElem?_getD, List.getElem?_modify]
  cases h.arrays[b]? with
  | none => simp
  | some l =>
    by_cases e : a = b
    · subst e
      simp only [true_and, if_true, Option.map_eq_map, Option.map_some, Option.getD_some]
      rw [put]
      simp only [List.getD_eq_getElem?_getD]
    · simp [e]

theorem same_setI {l : Loc} {f : Field} {v : Int64} {s t : St} (h : l ≠ .field f → l.same s t) :
    l.same { s with b := f.set s.b v } { t with b := f.set t.b v } := by
  cases l with
  | field g =>
    show g.get _ = g.get _
    rw [Field.get_of_set, Field.get_of_set]
    by_cases e : f = g
    · rw [if_pos e, if_pos e]
    · rw [if_neg e, if_neg e]; exact h fun x => e (Loc.field.inj x).symm
  | header => show (f.set _ _).buf = (f.set _ _).buf; rw [Field.buf_of_set, Field.buf_of_set]; exact h (nomatch ·)
  | byte a i => exact h (nomatch ·)

theorem same_setBuf {l : Loc} {u : Slice} {s t : St} (h : l ≠ .header → l.same s t) :
    l.same { s with b := { s.b with buf := u } } { t with b := { t.b with buf := u } } := by
  cases l with
  | field g => exact (Field.get_of_buf g s.b u).trans ((h (nomatch ·)).trans (Field.get_of_buf g t.b u).symm)
  | header => exact rfl
  | byte a i => exact h (nomatch ·)

theorem same_store {l : Loc} {a i : Nat} {v : UInt8} {s t : St} (h : l.same s t) :
    l.same { s with mem := s.mem.set a i v } { t with mem := t.mem.set a i v } := by
  cases l with
  | field g => exact h
  | header => exact h
  | byte b j =>
    show (Heap.array _ _)[_]? = (Heap.array _ _)[_]?
    rw [array_set_get, array_set_get, show (s.mem.array b)[j]? = (t.mem.array b)[j]? from h]

theorem changed_setI {l : Loc} {f : Field} {v : Int64} {s : St} (h : l ≠ .field f) : l.same { s with b := f.set s.b v } s := by
  cases l with
  | field g => show g.get _ = g.get _; rw [Field.get_of_set, if_neg fun e : f = g => h (by rw [e])]
  | header => exact Field.buf_of_set _ _ _
  | byte a i => exact rfl

theorem changed_setBuf {l : Loc} {u : Slice} {s : St} (h : l ≠ .header) : l.same { s with b := { s.b with buf := u } } s := by
  cases l with
  | field g => exact Field.get_of_buf _ _ _
  | header => exact absurd rfl h
  | byte a i => exact rfl

theorem changed_store {l : Loc} {a i : Nat} {v : UInt8} {s : St} (h : l ≠ .byte a i) : l.same { s with mem := s.mem.set a i v } s := by
  cases l with
  | field g => exact rfl
  | header => exact rfl
  | byte b j =>
    show (Heap.array _ _)[_]? = _
    rw [array_set_get, if_neg fun e => h (by rw [e.1, e.2])]

theorem view_le (x : Crunch.Src) (h : Heap) : (x.view h).length ≤ x.len := by
  cases x with
  | lit b => exact Nat.le_refl _
  | mem s => show (List.take _ _).length ≤ _; rw [List.length_take]; exact Nat.min_le_left _ _

/-- An `append` that has room. -/
theorem append_room {t : Slice} {x : Crunch.Src} (hr : t.len + x.len ≤ t.cap) (h : Heap) :
    appendMem t x h = ({ t with len := t.len + (x.view h).length }, h.blit t.arr (t.off + t.len) (x.view h)) := by
  have := view_le x h
  show (if _ then _ else _) = _
  rw [if_pos (by omega)]

theorem view_same {x : Crunch.Src} {s t : St} (h : ∀ u, x = .mem u → ∀ i, i < u.len → (Loc.byte u.arr (u.off + i)).same s t) : x.view s.mem = x.view t.mem := by
  cases x with
  | lit b => rfl
  | mem u =>
    show List.take _ (List.drop _ _) = List.take _ (List.drop _ _)
    refine List.ext_getElem? fun i => ?_
    rw [List.getElem?_take, List.getElem?_take, List.getElem?_drop, List.getElem?_drop]
    split
    · exact h u rfl i ‹_›
    · rfl

theorem same_blit {l : Loc} {a i : Nat} {d : List UInt8} {s t : St} (h : l.same s t) :
    l.same { s with mem := s.mem.blit a i d } { t with mem := t.mem.blit a i d } := by
  cases l with
  | field g => exact h
  | header => exact h
  | byte b j =>
    show (Heap.array _ _)[_]? = (Heap.array _ _)[_]?
    rw [array_blit_get, array_blit_get, show (s.mem.array b)[j]? = (t.mem.array b)[j]? from h]

theorem changed_blit {l : Loc} {a i : Nat} {d : List UInt8} {s : St} (h : ∀ k, k < d.length → l ≠ .byte a (i + k)) :
    l.same { s with mem := s.mem.blit a i d } s := by
  cases l with
  | field g => exact rfl
  | header => exact rfl
  | byte b j =>
    show (Heap.array _ _)[_]? = _
    rw [array_blit_get, if_neg fun e => h (j - i) (by omega) (by rw [e.1, Nat.add_sub_cancel' e.2.1])]

variable {R W : Loc → Prop}

/-- A step outside of `W` changes nothing. -/
theorem Prog.Uses.elsewhere {p p' : Prog α} {e : Event} {s s' t : Sh} (u : p.Uses R W t) (h : p.step s = some (e, p', s')) {l : Loc}
    (hl : ¬ W l) : l.same s'.st s.st := by
  cases p with
  | ret a => exact nomatch h
  | panic q => exact nomatch h
  | getI f k => cases h; exact l.same_refl _
  | getBuf k => cases h; exact l.same_refl _
  | load t i k => cases h; exact l.same_refl _
  | unlock k => cases h; exact l.same_refl _
  | setI f v k => cases h; exact changed_setI fun e => hl (e ▸ u.1)
  | setBuf t k => cases h; exact changed_setBuf fun e => hl (e ▸ u.1)
  | store t i v k => cases h; exact changed_store fun e => hl (e ▸ u.1)
  | append t x k =>
    cases h
    rw [append_room u.1.1]
    exact changed_blit fun k hk e => hl (e ▸ u.1.2.2 k (Nat.lt_of_lt_of_le hk (view_le _ _)))
  | alloc a n k => exact u.elim
  | lock k =>
    change (if s.locked = true then none else some (Event.lock, k, (⟨s.st, true⟩ : Sh))) = _ at h
    split at h
    · exact nomatch h
    · cases h; exact l.same_refl _

/-- What a step does to the mutex. -/
def Event.mutex : Event → Bool → Bool
  | .lock, _ => true
  | .unlock, _ => false
  | _, b => b

theorem step_mutex {p p' : Prog α} {e : Event} {s s' : Sh} (h : p.step s = some (e, p', s')) :
    s'.locked = e.mutex s.locked ∧ (e = .lock → s.locked = false) := by
  cases p with
  | ret a => exact nomatch h
  | panic q => exact nomatch h
  | lock k =>
    change (if s.locked = true then none else some (Event.lock, k, (⟨s.st, true⟩ : Sh))) = _ at h
    split at h
    · exact nomatch h
    · rename_i hl; cases h; exact ⟨rfl, fun _ => by simpa using hl⟩
  | _ => cases h; exact ⟨rfl, (nomatch ·)⟩

/-- The same step from a state that is the same where the program looks. -/
theorem Prog.Uses.follow {p p' : Prog α} {e : Event} {s s' t : Sh} (u : p.Uses R W t) (h : p.step s = some (e, p', s'))
    (hR : ∀ l, R l → l.same s.st t.st) (hL : e = .lock → t.locked = false) :
    ∃ t', p.step t = some (e, p', t') ∧ p'.Uses R W t' ∧ (∀ l : Loc, l.same s.st t.st → l.same s'.st t'.st) ∧ (e = .unlock → t.locked = true) := by
  cases p with
  | ret a => exact nomatch h
  | panic q => exact nomatch h
  | getI f k =>
    cases h
    refine ⟨t, ?_, ?_, fun l x => x, (nomatch ·)⟩
    · show some _ = some _
      rw [show f.get s.st.b = f.get t.st.b from hR _ u.1]
    · rw [show f.get s.st.b = f.get t.st.b from hR _ u.1]; exact u.2
  | getBuf k =>
    cases h
    refine ⟨t, ?_, ?_, fun l x => x, (nomatch ·)⟩
    · show some _ = some _
      rw [show s.st.b.buf = t.st.b.buf from hR _ u.1]
    · rw [show s.st.b.buf = t.st.b.buf from hR _ u.1]; exact u.2
  | load v i k =>
    cases h
    have e : (s.st.mem.array v.arr).getD (v.off + i) 0 = (t.st.mem.array v.arr).getD (v.off + i) 0 := by
      rw [List.getD_eq_getElem?_getD, List.getD_eq_getElem?_getD]
      exact congrArg (·.getD 0) (hR _ u.1)
    refine ⟨t, ?_, ?_, fun l x => x, (nomatch ·)⟩
    · show some _ = some _
      rw [e]
    · rw [e]; exact u.2
  | setI f v k => cases h; exact ⟨_, rfl, u.2, fun l x => same_setI fun _ => x, (nomatch ·)⟩
  | setBuf v k => cases h; exact ⟨_, rfl, u.2, fun l x => same_setBuf fun _ => x, (nomatch ·)⟩
  | store v i w k => cases h; exact ⟨_, rfl, u.2, fun l x => same_store x, (nomatch ·)⟩
  | append v x k =>
    cases h
    have e := view_same (x := x) fun w hw i hi => hR _ (u.1.2.1 w hw i hi)
    have e' : (appendMem v x s.st.mem).1 = (appendMem v x t.st.mem).1 := by rw [append_room u.1.1, append_room u.1.1, e]
    refine ⟨⟨⟨(appendMem v x t.st.mem).2, t.st.b⟩, t.locked⟩, ?_, e' ▸ u.2, fun l y => ?_, (nomatch ·)⟩
    · rw [e']; rfl
    · rw [append_room u.1.1, append_room u.1.1, e]
      exact same_blit y
  | alloc a n k => exact u.elim
  | unlock k => cases h; exact ⟨_, rfl, u.2, fun l x => x, fun _ => u.1⟩
  | lock k =>
    change (if s.locked = true then none else some (Event.lock, k, (⟨s.st, true⟩ : Sh))) = _ at h
    split at h
    · exact nomatch h
    · cases h
      refine ⟨⟨t.st, true⟩, ?_, u (hL rfl), fun l x => x, (nomatch ·)⟩
      show (if t.locked = true then none else some _) = _
      rw [hL rfl]; rfl

theorem Keeping.append {O V : Type} {exe : O → Prog V} {l m : List O} {s : Sh} {i : Nat} (h : Keeping exe R W (l ++ m) s) :
    Keeping exe R W l s ∧ Keeping exe R W m (seqRun exe (l.map fun x => (i, x)) s).2 := by
  induction l generalizing s with
  | nil => exact ⟨trivial, h⟩
  | cons a l ih => exact ⟨⟨h.1, (ih h.2).1⟩, (ih h.2).2⟩

variable {O V : Type} {exe : O → Prog V} {allowed : O → Prop} {c0 c : Conf O V} {τ : Trace O V} {R W : Nat → Loc → Prop}

/-- Where a goroutine is in its run alone, whose state is `t`. -/
inductive Solo (exe : O → Prog V) (R W : Loc → Prop) (s0 : Sh) (i : Nat) (st : List O) (fin : List (O × Res V)) (t : Sh) : Thr O V → Prop
  | idle : st = fin.map (·.1) → seqRun exe (fin.map fun x => (i, x.1)) s0 = (fin.map fun x => (i, x.1, x.2), t) →
      Solo exe R W s0 i st fin t .idle
  | busy {op : O} {p : Prog V} {t0 : Sh} : st = fin.map (·.1) ++ [op] →
      seqRun exe (fin.map fun x => (i, x.1)) s0 = (fin.map fun x => (i, x.1, x.2), t0) →
      (exe op).run t0 = p.run t → p.Uses R W t → Solo exe R W s0 i st fin t (.busy op p)

/-- Each goroutine is where it is in its run alone. -/
structure FootInv (exe : O → Prog V) (R W : Nat → Loc → Prop) (s0 : Sh) (τ : Trace O V) (c : Conf O V) (t : Nat → Sh) : Prop where
  alone : ∀ i, Solo exe (R i) (W i) s0 i (started i τ) (finished i τ) (t i) (c.thr i)
  same : ∀ i l, (∀ j, j ≠ i → ¬ W j l) → l.same c.sh.st (t i).st
  old : ∀ i l, ¬ W i l → l.same (t i).st s0.st
  mine : ∀ i, (t i).locked = true → c.sh.locked = true
  one : ∀ i j, (t i).locked = true → (t j).locked = true → i = j
  some : c.sh.locked = true → ∃ i, (t i).locked = true

theorem result_run {p : Prog α} {r : Res α} (h : p.result = some r) (s : Sh) : p.run s = (r, s) := by
  cases p with
  | ret a => cases h; rfl
  | panic q => cases h; rfl
  | _ => exact nomatch h

theorem foot_inv (q : Quiet c0) (ap : Separate R W) (e : Exec exe allowed c0 τ c)
    (kp : ∀ i, Keeping exe (R i) (W i) (started i τ) c0.sh) : ∃ t, FootInv exe R W c0.sh τ c t := by
  induction e with
  | nil =>
    refine ⟨fun _ => c0.sh, fun i => ?_, fun i l _ => l.same_refl _, fun i l _ => l.same_refl _, fun i h => h, fun i j h => ?_, fun h => ⟨0, h⟩⟩
    · rw [q.idle i]; exact .idle rfl rfl
    · rw [q.free] at h; exact nomatch h
  | @snoc τ c c' i a e st ih =>
    have kp' : ∀ j, Keeping exe (R j) (W j) (started j τ) c0.sh := fun j => by
      have := kp j
      rw [started_snoc] at this
      exact (this.append (i := j)).1
    obtain ⟨t, v⟩ := ih kp'
    cases st with
    | start op hi ha =>
      refine ⟨t, fun j => ?_, v.same, v.old, v.mine, v.one, v.some⟩
      rw [started_snoc, finished_snoc, set_thr]
      by_cases h : j = i
      · subst h
        rw [if_pos rfl]
        have va := v.alone j
        rw [hi] at va
        cases va with
        | idle h1 h2 =>
          simp only [started, finished, if_true, List.append_nil]
          refine .busy (by rw [h1]) h2 rfl ?_
          have := kp j
          rw [started_snoc] at this
          simp only [started, if_true] at this
          have := (this.append (i := j)).2
          rw [h1, List.map_map] at this
          have e2 : (seqRun exe (List.map (fun x => (j, x.1)) (finished j τ)) c0.sh).2 = t j := congrArg (·.2) h2
          exact e2 ▸ this.1
      · rw [if_neg h]
        have : started j [(i, Act.start (V := V) op)] = [] := by simp [started, Ne.symm h]
        rw [this, List.append_nil]
        simpa [finished] using v.alone j
    | @did op p p' ev sh hi hs =>
      have va := v.alone i
      rw [hi] at va
      cases va with
      | busy h1 h2 h3 h4 =>
        have hm := step_mutex hs
        obtain ⟨t', g1, g2, g3, g4⟩ := h4.follow hs (fun l hl => v.same i l fun j hj hw => (ap j i hj l hw).1 hl) (fun hl => by
          cases h : (t i).locked with
          | false => rfl
          | true => have := v.mine i h; rw [hm.2 hl] at this; exact nomatch this)
        have hm' := step_mutex g1
        have mx : ∀ j, j ≠ i → (t j).locked = true → ev.mutex (t i).locked = false ∧ ev.mutex c.sh.locked = true := by
          intro j hj hl
          have h0 : (t i).locked = false := by
            cases h : (t i).locked with
            | false => rfl
            | true => exact absurd (v.one j i hl h) hj
          cases ev with
          | look => exact ⟨h0, v.mine j hl⟩
          | change => exact ⟨h0, v.mine j hl⟩
          | lock => have := v.mine j hl; rw [hm.2 rfl] at this; exact nomatch this
          | unlock => have := g4 rfl; rw [h0] at this; exact nomatch this
        refine ⟨fun j => if j = i then t' else t j, fun j => ?_, fun j l hl => ?_, fun j l hl => ?_, fun j hl => ?_, fun j k hj hk => ?_, fun hl => ?_⟩
        · rw [started_snoc, finished_snoc, set_thr]
          simp only [started, finished, List.append_nil]
          by_cases h : j = i
          · subst h
            rw [if_pos rfl, if_pos rfl]
            exact .busy h1 h2 (h3.trans (step_run g1)) g2
          · rw [if_neg h, if_neg h]; exact v.alone j
        · show l.same sh.st _
          by_cases h : j = i
          · subst h; rw [if_pos rfl]; exact g3 l (v.same j l hl)
          · rw [if_neg h]
            exact Loc.same_trans (h4.elsewhere hs (hl i fun x => h x.symm)) (v.same j l hl)
        · show l.same (if j = i then t' else t j).st _
          by_cases h : j = i
          · subst h; rw [if_pos rfl]; exact Loc.same_trans (h4.elsewhere g1 hl) (v.old j l hl)
          · rw [if_neg h]; exact v.old j l hl
        · show sh.locked = true
          rw [hm.1]
          by_cases h : j = i
          · subst h
            rw [if_pos rfl, hm'.1] at hl
            cases ev with
            | look => exact v.mine j hl
            | change => exact v.mine j hl
            | lock => rfl
            | unlock => exact nomatch hl
          · rw [if_neg h] at hl; exact (mx j h hl).2
        · by_cases h : j = i
          · by_cases h' : k = i
            · rw [h, h']
            · rw [if_neg h'] at hk
              rw [if_pos h, hm'.1, (mx k h' hk).1] at hj
              exact nomatch hj
          · rw [if_neg h] at hj
            by_cases h' : k = i
            · rw [if_pos h', hm'.1, (mx j h hj).1] at hk
              exact nomatch hk
            · rw [if_neg h'] at hk; exact v.one j k hj hk
        · change sh.locked = true at hl
          rw [hm.1] at hl
          have any : c.sh.locked = true → ev.mutex (t i).locked = (t i).locked →
              ∃ j, (if j = i then t' else t j).locked = true := fun hl hx => by
            obtain ⟨j, hj⟩ := v.some hl
            refine ⟨j, ?_⟩
            by_cases h : j = i
            · subst h; rw [if_pos rfl, hm'.1, hx]; exact hj
            · rw [if_neg h]; exact hj
          cases ev with
          | look => exact any hl rfl
          | change => exact any hl rfl
          | lock => exact ⟨i, by rw [if_pos rfl, hm'.1]; rfl⟩
          | unlock => exact nomatch hl
    | @finish op p r hi hr =>
      refine ⟨t, fun j => ?_, v.same, v.old, v.mine, v.one, v.some⟩
      rw [started_snoc, finished_snoc, set_thr]
      by_cases h : j = i
      · subst h
        rw [if_pos rfl]
        have va := v.alone j
        rw [hi] at va
        cases va with
        | busy h1 h2 h3 h4 =>
          simp only [started, finished, if_true, List.append_nil]
          refine .idle (by rw [h1, List.map_append]; rfl) ?_
          rw [List.map_append, seqRun_append, h2, List.map_append]
          rw [result_run hr] at h3
          simp only [List.map_cons, List.map_nil, seqRun, h3]
      · rw [if_neg h]
        have : finished j [(i, Act.finish op r)] = [] := by simp [finished, Ne.symm h]
        rw [this, List.append_nil]
        simpa [started] using v.alone j

/-- What each goroutine of an execution without shared changes gets, and what it leaves. -/
structure AsAlone (exe : O → Prog V) (R W : Nat → Loc → Prop) (c0 : Conf O V) (τ : Trace O V) (c : Conf O V) : Prop where
  /-- every call has the outcome it has when its goroutine runs alone -/
  outcomes : ∀ i, (finished i τ).map (fun x => (i, x.1, x.2)) = (soloRun exe i τ c0.sh).1
  /-- a goroutine between calls finds every place that the others leave alone as it would alone -/
  places : ∀ i, c.thr i = .idle → ∀ l, (∀ j, j ≠ i → ¬ W j l) → l.same c.sh.st (soloRun exe i τ c0.sh).2.st
  /-- what nobody may change is as before -/
  rest : ∀ l, (∀ i, ¬ W i l) → l.same c.sh.st c0.sh.st
  /-- the mutex is taken at the end only if somebody, alone, leaves it taken -/
  mutex : (∀ i, c.thr i = .idle) → (c.sh.locked = true ↔ ∃ i, (soloRun exe i τ c0.sh).2.locked = true)
  /-- nobody races -/
  races : ∀ l, ¬ c.Race l

theorem Prog.Uses.reads {R W : Loc → Prop} {p : Prog α} {t s : Sh} (u : p.Uses R W t) {l : Loc} (h : p.reads s l) : R l := by
  cases p with
  | getI f k => cases h; exact u.1
  | getBuf k => cases h; exact u.1
  | load v i k => cases h; exact u.1
  | append v x k =>
    rcases h with ⟨w, hw, i, hi, rfl⟩ | ⟨h, _⟩
    · exact u.1.2.1 w hw i hi
    · have := u.1.1; omega
  | _ => exact h.elim

theorem Prog.Uses.writes {R W : Loc → Prop} {p : Prog α} {t s : Sh} (u : p.Uses R W t) {l : Loc} (h : p.writes s l) : W l := by
  cases p with
  | setI f v k => cases h; exact u.1
  | setBuf v k => cases h; exact u.1
  | store v i w k => cases h; exact u.1
  | append v x k => obtain ⟨_, i, hi, rfl⟩ := h; exact u.1.2.2 i hi
  | _ => exact h.elim

theorem separate (q : Quiet c0) (ap : Separate R W) (e : Exec exe allowed c0 τ c)
    (kp : ∀ i, Keeping exe (R i) (W i) (started i τ) c0.sh) : AsAlone exe R W c0 τ c := by
  obtain ⟨t, v⟩ := foot_inv q ap e kp
  have uses : ∀ i op p, c.thr i = .busy op p → p.Uses (R i) (W i) (t i) := fun i op p h => by
    have va := v.alone i
    rw [h] at va
    cases va with
    | busy _ _ _ h4 => exact h4
  have solo : ∀ i, c.thr i = .idle → (soloRun exe i τ c0.sh).2 = t i := fun i h => by
    have va := v.alone i
    rw [h] at va
    cases va with
    | idle h1 h2 => exact congrArg (·.2) h2
  refine ⟨fun i => ?_, fun i hi l hl => ?_, fun l hl => ?_, fun hi => ?_, ?_⟩
  · have va := v.alone i
    unfold soloRun
    cases h : c.thr i with
    | idle =>
      rw [h] at va
      cases va with
      | idle h1 h2 => rw [h2]
    | busy op p =>
      rw [h] at va
      cases va with
      | busy h1 h2 h3 h4 => rw [h2]
  · rw [solo i hi]; exact v.same i l hl
  · exact Loc.same_trans (v.same 0 l fun j _ => hl j) (v.old 0 l (hl 0))
  · constructor
    · intro h
      obtain ⟨i, h⟩ := v.some h
      exact ⟨i, by rw [solo i (hi i)]; exact h⟩
    · rintro ⟨i, h⟩
      rw [solo i (hi i)] at h
      exact v.mine i h
  · rintro l ⟨i, j, hne, ⟨op, p, hi, hw⟩, hj⟩
    have w := (uses i op p hi).writes hw
    rcases hj with ⟨op', p', hp', ha⟩ | ⟨op', p', hp', ha⟩
    · exact (ap i j hne l w).2 ((uses j op' p' hp').writes ha)
    · exact (ap i j hne l w).1 ((uses j op' p' hp').reads ha)

end Crunch
