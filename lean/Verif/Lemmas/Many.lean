import Verif.Many
import Verif.Lemmas.Foot

/-! Buffers that share no memory do not notice one another. -/

namespace Crunch
open V3 (St)

/-- Whatever the values it reads, the program makes no new array, sets no new slice, and keeps to the bytes `A` for reading and `W` for
writing, if the slice of the buffer is `c`. -/
def Prog.In (c : Slice) (A W : Nat → Nat → Prop) : Prog α → Prop
  | .ret _ => True
  | .panic _ => True
  | .getI _ k => ∀ v, (k v).In c A W
  | .setI _ _ k => k.In c A W
  | .getBuf k => (k c).In c A W
  | .setBuf .. => False
  | .load t i k => A t.arr (t.off + i) ∧ ∀ v, (k v).In c A W
  | .store t i _ k => W t.arr (t.off + i) ∧ k.In c A W
  | .append .. => False
  | .alloc .. => False
  | .lock k => k.In c A W
  | .unlock k => k.In c A W

variable {c : Slice} {A W : Nat → Nat → Prop}

theorem Prog.In.bind {p : Prog α} {f : α → Prog β} (hp : p.In c A W) (hf : ∀ a, (f a).In c A W) : (p.bind f).In c A W := by
  induction p with
  | ret a => exact hf a
  | panic q => trivial
  | getI x k ih => exact fun v => ih v (hp v)
  | setI x v k ih => exact ih hp
  | getBuf k ih => exact ih c hp
  | setBuf => exact hp.elim
  | load t i k ih => exact ⟨hp.1, fun v => ih v (hp.2 v)⟩
  | store t i v k ih => exact ⟨hp.1, ih hp.2⟩
  | append => exact hp.elim
  | alloc => exact hp.elim
  | lock k ih => exact ih hp
  | unlock k ih => exact ih hp

theorem Prog.In.bind' {p : Prog α} {f : α → Prog β} (hp : p.In c A W) (hf : ∀ a, (f a).In c A W) : (p >>= f).In c A W := hp.bind hf

theorem Prog.In.deferUnlock {p : Prog α} (hp : p.In c A W) : p.deferUnlock.In c A W := by
  induction p with
  | ret a => trivial
  | panic q => trivial
  | getI x k ih => exact fun v => ih v (hp v)
  | setI x v k ih => exact ih hp
  | getBuf k ih => exact ih c hp
  | setBuf => exact hp.elim
  | load t i k ih => exact ⟨hp.1, fun v => ih v (hp.2 v)⟩
  | store t i v k ih => exact ⟨hp.1, ih hp.2⟩
  | append => exact hp.elim
  | alloc => exact hp.elim
  | lock k ih => exact ih hp
  | unlock k ih => exact ih hp

theorem Prog.In.mono {A' W' : Nat → Nat → Prop} {p : Prog α} (hp : p.In c A W) (hA : ∀ a i, A a i → A' a i) (hW : ∀ a i, W a i → W' a i) :
    p.In c A' W' := by
  induction p with
  | ret a => trivial
  | panic q => trivial
  | getI x k ih => exact fun v => ih v (hp v)
  | setI x v k ih => exact ih hp
  | getBuf k ih => exact ih c hp
  | setBuf => exact hp.elim
  | load t i k ih => exact ⟨hA _ _ hp.1, fun v => ih v (hp.2 v)⟩
  | store t i v k ih => exact ⟨hW _ _ hp.1, ih hp.2⟩
  | append => exact hp.elim
  | alloc => exact hp.elim
  | lock k ih => exact ih hp
  | unlock k ih => exact ih hp

/-- Two states that agree on the fields and the mutex of the buffer and on the bytes `A`. -/
structure Alike (A : Nat → Nat → Prop) (s t : Sh) : Prop where
  b : t.st.b = s.st.b
  locked : t.locked = s.locked
  bytes : ∀ a i, A a i → (Loc.byte a i).same t.st s.st

theorem Alike.refl (A : Nat → Nat → Prop) (s : Sh) : Alike A s s := ⟨rfl, rfl, fun _ _ _ => rfl⟩

theorem Alike.trans {A : Nat → Nat → Prop} {s t u : Sh} (h : Alike A s t) (h' : Alike A t u) : Alike A s u :=
  ⟨h'.b.trans h.b, h'.locked.trans h.locked, fun a i x => (h'.bytes a i x).trans (h.bytes a i x)⟩

theorem Alike.load {A : Nat → Nat → Prop} {s t : Sh} (h : Alike A s t) {a i : Nat} (hA : A a i) :
    (t.st.mem.array a).getD i 0 = (s.st.mem.array a).getD i 0 := by
  rw [List.getD_eq_getElem?_getD, List.getD_eq_getElem?_getD]
  exact congrArg (Option.getD · 0) (h.bytes a i hA)

/-- One step: what it keeps, and that it is the same from a state that agrees. -/
theorem Prog.In.step {p p' : Prog α} {e : Event} {s s' : Sh} (hp : p.In c A W) (hs : s.st.b.buf = c) (h : p.step s = some (e, p', s')) :
    p'.In c A W ∧ s'.st.b.buf = c ∧ (∀ a i, ¬ W a i → (Loc.byte a i).same s'.st s.st) ∧
      ∀ t, Alike A s t → ∃ t', p.step t = some (e, p', t') ∧ Alike A s' t' := by
  cases p with
  | ret a => exact nomatch h
  | panic q => exact nomatch h
  | getI f k =>
    cases h
    refine ⟨hp _, hs, fun _ _ _ => rfl, fun t ht => ⟨t, ?_, ht⟩⟩
    show some _ = some _
    rw [ht.b]
  | setI f v k =>
    cases h
    exact ⟨hp, (Field.buf_of_set _ _ _).trans hs, fun _ _ _ => rfl, fun t ht => ⟨_, rfl, congrArg (f.set · v) ht.b, ht.locked, ht.bytes⟩⟩
  | getBuf k =>
    cases h
    refine ⟨hs ▸ hp, hs, fun _ _ _ => rfl, fun t ht => ⟨t, ?_, ht⟩⟩
    show some _ = some _
    rw [ht.b]
  | setBuf => exact hp.elim
  | load u i k =>
    cases h
    refine ⟨hp.2 _, hs, fun _ _ _ => rfl, fun t ht => ⟨t, ?_, ht⟩⟩
    show some _ = some _
    rw [ht.load hp.1]
  | store u i v k =>
    cases h
    refine ⟨hp.2, hs, fun a j hW => changed_store fun e => hW ?_, fun t ht => ⟨_, rfl, ht.b, ht.locked, fun a j x => same_store (ht.bytes a j x)⟩⟩
    cases e; exact hp.1
  | append => exact hp.elim
  | alloc => exact hp.elim
  | lock k =>
    change (if s.locked = true then none else some (Event.lock, k, (⟨s.st, true⟩ : Sh))) = _ at h
    split at h
    · exact nomatch h
    · rename_i hl
      cases h
      refine ⟨hp, hs, fun _ _ _ => rfl, fun t ht => ⟨⟨t.st, true⟩, ?_, ht.b, rfl, ht.bytes⟩⟩
      show (if t.locked = true then none else _) = _
      rw [ht.locked, if_neg hl]
  | unlock k =>
    cases h
    exact ⟨hp, hs, fun _ _ _ => rfl, fun t ht => ⟨_, rfl, ht.b, rfl, ht.bytes⟩⟩

/-- The same for a whole call. -/
theorem Prog.In.run {p : Prog α} {s : Sh} (hp : p.In c A W) (hs : s.st.b.buf = c) :
    (p.run s).2.st.b.buf = c ∧ (∀ a i, ¬ W a i → (Loc.byte a i).same (p.run s).2.st s.st) ∧
      ∀ t, Alike A s t → (p.run t).1 = (p.run s).1 ∧ Alike A (p.run s).2 (p.run t).2 := by
  induction p generalizing s with
  | ret a => exact ⟨hs, fun _ _ _ => rfl, fun t ht => ⟨rfl, ht⟩⟩
  | panic q => exact ⟨hs, fun _ _ _ => rfl, fun t ht => ⟨rfl, ht⟩⟩
  | getI f k ih =>
    refine ⟨(ih _ (hp _) hs).1, (ih _ (hp _) hs).2.1, fun t ht => ?_⟩
    show ((k (f.get t.st.b)).run t).1 = _ ∧ Alike A _ ((k (f.get t.st.b)).run t).2
    rw [ht.b]
    exact (ih _ (hp _) hs).2.2 t ht
  | setI f v k ih =>
    have := ih (s := { s with st := { s.st with b := f.set s.st.b v } }) hp ((Field.buf_of_set _ _ _).trans hs)
    exact ⟨this.1, this.2.1, fun t ht => this.2.2 _ ⟨congrArg (f.set · v) ht.b, ht.locked, ht.bytes⟩⟩
  | getBuf k ih =>
    have hk : (k s.st.b.buf).In c A W := hs ▸ hp
    refine ⟨(ih _ hk hs).1, (ih _ hk hs).2.1, fun t ht => ?_⟩
    show ((k t.st.b.buf).run t).1 = _ ∧ Alike A _ ((k t.st.b.buf).run t).2
    rw [ht.b]
    exact (ih _ hk hs).2.2 t ht
  | setBuf => exact hp.elim
  | load u i k ih =>
    refine ⟨(ih _ (hp.2 _) hs).1, (ih _ (hp.2 _) hs).2.1, fun t ht => ?_⟩
    show ((k ((t.st.mem.array u.arr).getD (u.off + i) 0)).run t).1 = _ ∧ Alike A _ ((k ((t.st.mem.array u.arr).getD (u.off + i) 0)).run t).2
    rw [ht.load hp.1]
    exact (ih _ (hp.2 _) hs).2.2 t ht
  | store u i v k ih =>
    have := ih (s := { s with st := { s.st with mem := s.st.mem.set u.arr (u.off + i) v } }) hp.2 hs
    refine ⟨this.1, fun a j hW => Loc.same_trans (this.2.1 a j hW) (changed_store fun e => hW ?_),
      fun t ht => this.2.2 _ ⟨ht.b, ht.locked, fun a j x => same_store (ht.bytes a j x)⟩⟩
    cases e; exact hp.1
  | append => exact hp.elim
  | alloc => exact hp.elim
  | lock k ih =>
    have := ih (s := { s with locked := true }) hp hs
    show ((if s.locked = true then (Res.panic .blocked, s) else k.run { s with locked := true }).2.st.b.buf = c ∧
      (∀ a i, ¬ W a i → (Loc.byte a i).same (if s.locked = true then (Res.panic .blocked, s) else k.run { s with locked := true }).2.st s.st) ∧
      ∀ t, Alike A s t → (if t.locked = true then (Res.panic .blocked, t) else k.run { t with locked := true }).1 =
          (if s.locked = true then (Res.panic .blocked, s) else k.run { s with locked := true }).1 ∧
        Alike A (if s.locked = true then (Res.panic .blocked, s) else k.run { s with locked := true }).2
          (if t.locked = true then (Res.panic .blocked, t) else k.run { t with locked := true }).2)
    by_cases hl : s.locked = true
    · rw [if_pos hl]
      refine ⟨hs, fun _ _ _ => rfl, fun t ht => ?_⟩
      rw [if_pos (ht.locked.trans hl)]
      exact ⟨rfl, ht⟩
    · rw [if_neg hl]
      refine ⟨this.1, this.2.1, fun t ht => ?_⟩
      rw [if_neg (fun x => hl (ht.locked.symm.trans x))]
      exact this.2.2 _ ⟨ht.b, rfl, ht.bytes⟩
  | unlock k ih =>
    have := ih (s := { s with locked := false }) hp hs
    exact ⟨this.1, this.2.1, fun t ht => this.2.2 _ ⟨ht.b, rfl, ht.bytes⟩⟩

/-! ## a step of a call on one buffer, seen from each buffer -/

theorem at_put_same (s : Shs) (k : Nat) (t : Sh) : (s.put k t).at k = t := by
  show (⟨⟨t.st.mem, if k = k then t.st.b else s.b k⟩, if k = k then t.locked else s.locked k⟩ : Sh) = t
  rw [if_pos rfl, if_pos rfl]

theorem at_put_other (s : Shs) {k l : Nat} (h : l ≠ k) (t : Sh) : (s.put k t).at l = ⟨⟨t.st.mem, s.b l⟩, s.locked l⟩ := by
  show (⟨⟨t.st.mem, if l = k then t.st.b else s.b l⟩, if l = k then t.locked else s.locked l⟩ : Sh) = _
  rw [if_neg h, if_neg h]

/-- Each buffer's calls keep to bytes that no call on another buffer changes. -/
def Distinct (A W : Nat → Nat → Nat → Prop) : Prop := ∀ k l, k ≠ l → ∀ a i, W k a i → ¬ A l a i

variable {ex : O → Prog V} {allowed : Nat → O → Prop} {c0 c : Confs O V} {τ : Trace (Nat × O) V}

/-- The state after some steps, as seen from the buffers. -/
structure Seen (ex : O → Prog V) (allowed : Nat → O → Prop) (B : Nat → Slice) (A W : Nat → Nat → Nat → Prop) (c0 : Confs O V) (τ : Trace (Nat × O) V)
    (c : Confs O V) : Prop where
  /-- the buffer a goroutine is busy with -/
  cur : ∀ k i, (watch k τ).cur i = match c.thr i with | .busy (l, _) _ => some l | .idle => none
  /-- what is left of a call keeps to the bytes of its buffer -/
  rest : ∀ i k op p, c.thr i = .busy (k, op) p → p.In (B k) (A k) (W k)
  slice : ∀ k, (c.sh.b k).buf = B k
  bytes : ∀ a i, (∀ k, ¬ W k a i) → (c.sh.mem.array a)[i]? = (c0.sh.mem.array a)[i]?
  /-- the steps on buffer `k` are steps of goroutines that share only this buffer -/
  one : ∀ k, ∃ d, Exec ex (allowed k) (c0.at k) (onBuf k τ) d ∧ d.thr = (c.at k).thr ∧ Alike (A k) (c.sh.at k) d.sh

theorem watch_snoc (k : Nat) (τ : Trace (Nat × O) V) (x : Nat × Act (Nat × O) V) : watch k (τ ++ [x]) = (watch k τ).step k x := by
  unfold watch; rw [List.foldl_append]; rfl

/-- Goroutines looked at from one buffer. -/
theorem at_set (c : Confs O V) (i k l : Nat) (op : O) (p : Prog V) (s : Shs) :
    ((c.set i (.busy (l, op) p) s).at k).thr = fun j => if j = i then (if l = k then .busy op p else .idle) else (c.at k).thr j := by
  funext j
  show (match (if j = i then Thr.busy (l, op) p else c.thr j) with | .busy (l, op) p => if l = k then Thr.busy op p else .idle | .idle => .idle) = _
  by_cases h : j = i
  · rw [if_pos h, if_pos h]
  · rw [if_neg h, if_neg h]; rfl

theorem at_set_idle (c : Confs O V) (i k : Nat) (s : Shs) :
    ((c.set i .idle s).at k).thr = fun j => if j = i then .idle else (c.at k).thr j := by
  funext j
  show (match (if j = i then Thr.idle else c.thr j) with | .busy (l, op) p => if l = k then Thr.busy op p else .idle | .idle => .idle) = _
  by_cases h : j = i
  · rw [if_pos h, if_pos h]
  · rw [if_neg h, if_neg h]; rfl

theorem at_thr_busy {c : Confs O V} {i k l : Nat} {op : O} {p : Prog V} (h : c.thr i = .busy (l, op) p) :
    (c.at k).thr i = if l = k then .busy op p else .idle := by
  show (match c.thr i with | .busy (l, op) p => if l = k then Thr.busy op p else .idle | .idle => .idle) = _
  rw [h]

theorem at_thr_idle {c : Confs O V} {i k : Nat} (h : c.thr i = .idle) : (c.at k).thr i = .idle := by
  show (match c.thr i with | .busy (l, op) p => if l = k then Thr.busy op p else .idle | .idle => .idle) = _
  rw [h]

theorem set_self {f : Nat → Thr O V} {i : Nat} {t : Thr O V} (h : f i = t) : (fun j => if j = i then t else f j) = f := by
  funext j
  by_cases e : j = i
  · rw [if_pos e, e, h]
  · rw [if_neg e]

theorem Seen.start {B A W} {k i : Nat} {op : O} (h : Seen ex allowed B A W c0 τ c) (hi : c.thr i = .idle) (ha : allowed k op) (hin : (ex op).In (B k) (A k) (W k)) :
    Seen ex allowed B A W c0 (τ ++ [(i, .start (k, op))]) (c.set i (.busy (k, op) (ex op)) c.sh) where
  cur := fun k' j => by
    rw [watch_snoc]
    show (if j = i then some k else (watch k' τ).cur j) = match (if j = i then Thr.busy (k, op) (ex op) else c.thr j) with | .busy (l, _) _ => some l | .idle => none
    by_cases e : j = i
    · rw [if_pos e, if_pos e]
    · rw [if_neg e, if_neg e]; exact h.cur k' j
  rest := fun j k' op' p hj => by
    change (if j = i then Thr.busy (k, op) (ex op) else c.thr j) = _ at hj
    by_cases e : j = i
    · rw [if_pos e] at hj; cases hj; exact hin
    · rw [if_neg e] at hj; exact h.rest j k' op' p hj
  slice := h.slice
  bytes := h.bytes
  one := fun k' => by
    obtain ⟨d, x, ht, al⟩ := h.one k'
    unfold onBuf
    rw [watch_snoc, at_set]
    show ∃ d, Exec ex (allowed k') (c0.at k') (if k = k' then onBuf k' τ ++ [(i, .start op)] else onBuf k' τ) d ∧ _
    by_cases e : k = k'
    · subst e
      refine ⟨d.set i (.busy op (ex op)) d.sh, ?_, ?_, al⟩
      · rw [if_pos rfl]
        exact x.snoc (.start op (by rw [ht]; exact at_thr_idle hi) ha)
      · rw [if_pos rfl]
        show (fun j => if j = i then Thr.busy op (ex op) else d.thr j) = _
        rw [ht]
    · rw [if_neg e, if_neg e]
      exact ⟨d, x, by rw [ht, set_self (at_thr_idle hi)], al⟩

theorem Seen.finish {B A W} {k i : Nat} {op : O} {p : Prog V} {r : Res V} (h : Seen ex allowed B A W c0 τ c) (hi : c.thr i = .busy (k, op) p) (hr : p.result = some r) :
    Seen ex allowed B A W c0 (τ ++ [(i, .finish (k, op) r)]) (c.set i .idle c.sh) where
  cur := fun k' j => by
    rw [watch_snoc]
    show (if j = i then none else (watch k' τ).cur j) = match (if j = i then Thr.idle else c.thr j) with | .busy (l, _) _ => some l | .idle => none
    by_cases e : j = i
    · rw [if_pos e, if_pos e]
    · rw [if_neg e, if_neg e]; exact h.cur k' j
  rest := fun j k' op' p hj => by
    change (if j = i then Thr.idle else c.thr j) = _ at hj
    by_cases e : j = i
    · rw [if_pos e] at hj; exact nomatch hj
    · rw [if_neg e] at hj; exact h.rest j k' op' p hj
  slice := h.slice
  bytes := h.bytes
  one := fun k' => by
    obtain ⟨d, x, ht, al⟩ := h.one k'
    unfold onBuf
    rw [watch_snoc, at_set_idle]
    show ∃ d, Exec ex (allowed k') (c0.at k') (if k = k' then onBuf k' τ ++ [(i, .finish op r)] else onBuf k' τ) d ∧ _
    by_cases e : k = k'
    · subst e
      refine ⟨d.set i .idle d.sh, ?_, ?_, al⟩
      · rw [if_pos rfl]
        refine x.snoc (.finish (p := p) ?_ hr)
        rw [ht, at_thr_busy hi, if_pos rfl]
      · show (fun j => if j = i then Thr.idle else d.thr j) = _
        rw [ht]
    · rw [if_neg e]
      exact ⟨d, x, by rw [ht, set_self (by rw [at_thr_busy hi, if_neg e])], al⟩

theorem Seen.did {B A W} {k i : Nat} {op : O} {p p' : Prog V} {e : Event} {sh : Sh} (hd : Distinct A W) (h : Seen ex allowed B A W c0 τ c) (hi : c.thr i = .busy (k, op) p)
    (hs : p.step (c.sh.at k) = some (e, p', sh)) : Seen ex allowed B A W c0 (τ ++ [(i, .did e p')]) (c.set i (.busy (k, op) p') (c.sh.put k sh)) := by
  obtain ⟨hin, hbuf, hout, hfollow⟩ := (h.rest i k op p hi).step (h.slice k) hs
  have hcur : ∀ k', (watch k' τ).cur i = some k := fun k' => by rw [h.cur k' i, hi]
  refine ⟨fun k' j => ?_, fun j k' op' q hj => ?_, fun k' => ?_, fun a j hW => ?_, fun k' => ?_⟩
  · rw [watch_snoc]
    show (watch k' τ).cur j = match (if j = i then Thr.busy (k, op) p' else c.thr j) with | .busy (l, _) _ => some l | .idle => none
    by_cases ej : j = i
    · rw [if_pos ej, ej]; exact hcur k'
    · rw [if_neg ej]; exact h.cur k' j
  · change (if j = i then Thr.busy (k, op) p' else c.thr j) = _ at hj
    by_cases ej : j = i
    · rw [if_pos ej] at hj; cases hj; exact hin
    · rw [if_neg ej] at hj; exact h.rest j k' op' q hj
  · show (if k' = k then sh.st.b else c.sh.b k').buf = _
    by_cases ek : k' = k
    · rw [if_pos ek, ek]; exact hbuf
    · rw [if_neg ek]; exact h.slice k'
  · exact (hout a j (hW k)).trans (h.bytes a j hW)
  · obtain ⟨d, x, ht, al⟩ := h.one k'
    unfold onBuf
    rw [watch_snoc, at_set]
    show ∃ d, Exec ex (allowed k') (c0.at k') (if (watch k' τ).cur i = some k' then onBuf k' τ ++ [(i, .did e p')] else onBuf k' τ) d ∧ _ ∧
      Alike (A k') ((c.sh.put k sh).at k') d.sh
    rw [hcur]
    by_cases ek : k = k'
    · subst ek
      obtain ⟨t', st, al'⟩ := hfollow d.sh al
      refine ⟨d.set i (.busy op p') t', ?_, ?_, ?_⟩
      · rw [if_pos rfl]
        refine x.snoc (.did (op := op) (p := p) ?_ st)
        rw [ht, at_thr_busy hi, if_pos rfl]
      · rw [if_pos rfl]
        show (fun j => if j = i then Thr.busy op p' else d.thr j) = _
        rw [ht]
      · rw [at_put_same]; exact al'
    · rw [if_neg (fun x => ek (Option.some.inj x)), if_neg ek, at_put_other _ (Ne.symm ek)]
      refine ⟨d, x, by rw [ht, set_self (by rw [at_thr_busy hi, if_neg ek])], al.b, al.locked, fun a j hA => ?_⟩
      exact (al.bytes a j hA).trans (hout a j fun hW => hd k k' ek a j hW hA).symm

/-- What the calls on the buffers do, if they keep to bytes nobody else changes. -/
theorem seen {B A W} (hd : Distinct A W) (idle : ∀ i, c0.thr i = .idle) (hB : ∀ k, (c0.sh.b k).buf = B k) (hin : ∀ k op, allowed k op → (ex op).In (B k) (A k) (W k))
    (x : Execs ex allowed c0 τ c) : Seen ex allowed B A W c0 τ c := by
  induction x with
  | nil =>
    exact ⟨fun k i => by rw [idle i]; rfl, fun i k op p h => (nomatch (idle i).symm.trans h), hB, fun _ _ _ => rfl,
      fun k => ⟨c0.at k, .nil, rfl, Alike.refl _ _⟩⟩
  | snoc _ st ih =>
    cases st with
    | start k op hi ha => exact ih.start hi ha (hin k op ha)
    | did hi hs => exact ih.did hd hi hs
    | finish hi hr => exact ih.finish hi hr

end Crunch
