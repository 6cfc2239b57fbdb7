import Verif.Lemmas.Many
import Verif.Lemmas.Looks

/-! The order of the calls on several buffers, and what it says about each of them. -/

namespace Crunch
open V3 (St)

variable {ex : O → Prog V} {allowed : Nat → O → Prop} {c0 c : Confs O V} {τ : Trace (Nat × O) V}

/-- One of the calls, seen from buffer `k`. -/
def onOne (k : Nat) : Option (Nat × O) → Option O
  | some (l, op) => if l = k then some op else none
  | none => none

/-- Those of the calls, with goroutines and outcomes, that are on buffer `k`. -/
def outsOn (k : Nat) : List (Nat × (Nat × O) × Res V) → List (Nat × O × Res V)
  | [] => []
  | (i, (l, op), r) :: t => if l = k then (i, op, r) :: outsOn k t else outsOn k t

theorem callsOn_append (k : Nat) (l m : List (Nat × (Nat × O))) : callsOn k (l ++ m) = callsOn k l ++ callsOn k m := by
  induction l with
  | nil => rfl
  | cons x l ih =>
    obtain ⟨i, j, op⟩ := x
    show (if j = k then (i, op) :: callsOn k (l ++ m) else callsOn k (l ++ m)) = (if j = k then (i, op) :: callsOn k l else callsOn k l) ++ _
    rw [ih]; split <;> rfl

theorem donesOn_append (k : Nat) (l m : List ((Nat × O) × Res V)) : donesOn k (l ++ m) = donesOn k l ++ donesOn k m := by
  induction l with
  | nil => rfl
  | cons x l ih =>
    obtain ⟨⟨j, op⟩, r⟩ := x
    show (if j = k then (op, r) :: donesOn k (l ++ m) else donesOn k (l ++ m)) = (if j = k then (op, r) :: donesOn k l else donesOn k l) ++ _
    rw [ih]; split <;> rfl

theorem ofThread_outsOn (k i : Nat) (L : List (Nat × (Nat × O) × Res V)) : ofThread i (outsOn k L) = donesOn k (ofThread i L) := by
  induction L with
  | nil => rfl
  | cons x L ih =>
    obtain ⟨j, ⟨l, op⟩, r⟩ := x
    show ofThread i (if l = k then (j, op, r) :: outsOn k L else outsOn k L) = _
    rw [ofThread_cons, donesOn_append, ← ih]
    by_cases hl : l = k
    · rw [if_pos hl, ofThread_cons]
      by_cases hj : j = i
      · rw [if_pos hj, if_pos hj]
        show _ = (if l = k then [(op, r)] else []) ++ _
        rw [if_pos hl]
      · rw [if_neg hj, if_neg hj]; rfl
    · rw [if_neg hl]
      by_cases hj : j = i
      · rw [if_pos hj]
        show _ = (if l = k then [(op, r)] else []) ++ _
        rw [if_neg hl]; rfl
      · rw [if_neg hj]; rfl

/-- A list of calls with outcomes is determined by the calls and by what is on each buffer. -/
theorem dones_ext {l m : List ((Nat × O) × Res V)} (h : l.map (·.1) = m.map (·.1)) (hk : ∀ k, donesOn k l = donesOn k m) : l = m := by
  induction l generalizing m with
  | nil => cases m with
    | nil => rfl
    | cons y m => exact nomatch h
  | cons x l ih =>
    cases m with
    | nil => exact nomatch h
    | cons y m =>
      obtain ⟨⟨j, op⟩, r⟩ := x
      obtain ⟨⟨j', op'⟩, r'⟩ := y
      obtain ⟨h1, h2⟩ := List.cons.inj h
      cases h1
      have cut : ∀ k, (if j = k then [(op, r)] else []) ++ donesOn k l = (if j = k then [(op, r')] else []) ++ donesOn k m := fun k => by
        have := hk k
        rwa [← List.singleton_append (l := l), ← List.singleton_append (l := m), donesOn_append, donesOn_append] at this
      have hr : r = r' := by
        have := cut j
        rw [if_pos rfl, if_pos rfl] at this
        cases (List.cons.inj this).1; rfl
      subst hr
      rw [ih h2 fun k => List.append_cancel_left (cut k)]

/-- What the bookkeeping of linearization points says about goroutines and buffers. -/
structure Ordered (c : Confs O V) (τ : Trace (Nat × O) V) : Prop where
  starts : ∀ i, started i τ = ofThread i (points τ) ++ ((track τ).cur i).toList
  ends : ∀ i, started i τ = (finished i τ).map (·.1) ++ match c.thr i with | .busy x _ => [x] | .idle => []
  busy : ∀ i x, (track τ).cur i = some x → ∃ p, c.thr i = .busy x p
  watch : ∀ k i, (watch k τ).cur i = match c.thr i with | .busy (l, _) _ => some l | .idle => none
  cur : ∀ k i, (track (onBuf k τ)).cur i = onOne k ((track τ).cur i)
  pts : ∀ k, points (onBuf k τ) = callsOn k (points τ)
  dones : ∀ k i, finished i (onBuf k τ) = donesOn k (finished i τ)
  began : ∀ k i, started i (onBuf k τ) = ((started i τ).filter fun x => x.1 == k).map (·.2)

theorem onBuf_snoc (k : Nat) (τ : Trace (Nat × O) V) (x : Nat × Act (Nat × O) V) : onBuf k (τ ++ [x]) = ((watch k τ).step k x).out := by
  unfold onBuf; rw [watch_snoc]

theorem Ordered.start {k i : Nat} {op : O} {p : Prog V} (s : Shs) (h : Ordered c τ) (hi : c.thr i = .idle) :
    Ordered (c.set i (.busy (k, op) p) s) (τ ++ [(i, .start (k, op))]) := by
  have hc : (track τ).cur i = none := by
    cases hx : (track τ).cur i with
    | none => rfl
    | some x => obtain ⟨q, hq⟩ := h.busy i x hx; exact nomatch hi.symm.trans hq
  have on : ∀ k', onBuf k' (τ ++ [(i, .start (k, op))]) = if k = k' then onBuf k' τ ++ [(i, .start op)] else onBuf k' τ := fun k' => onBuf_snoc _ _ _
  refine ⟨fun j => ?_, fun j => ?_, fun j x hx => ?_, fun k' j => ?_, fun k' j => ?_, fun k' => ?_, fun k' j => ?_, fun k' j => ?_⟩
  · rw [started_snoc, h.starts j]
    unfold points
    rw [track_snoc]
    show ofThread j (track τ).pts ++ ((track τ).cur j).toList ++ (if i = j then [(k, op)] else []) = ofThread j (track τ).pts ++ (if j = i then some (k, op) else (track τ).cur j).toList
    by_cases e : i = j
    · subst e; rw [if_pos rfl, if_pos rfl, hc]; simp
    · rw [if_neg e, if_neg (Ne.symm e), List.append_nil]
  · rw [started_snoc, finished_snoc, h.ends j]
    show _ ++ (if i = j then [(k, op)] else []) = (finished j τ ++ []).map _ ++ match (if j = i then Thr.busy (k, op) p else c.thr j) with | .busy x _ => [x] | .idle => []
    rw [List.append_nil]
    by_cases e : i = j
    · subst e; rw [if_pos rfl, if_pos rfl, hi]; simp
    · rw [if_neg e, if_neg (Ne.symm e), List.append_nil]
  · rw [track_snoc] at hx
    change (if j = i then some (k, op) else (track τ).cur j) = some x at hx
    show ∃ q, (if j = i then Thr.busy (k, op) p else c.thr j) = .busy x q
    by_cases e : j = i
    · rw [if_pos e] at hx ⊢; cases hx; exact ⟨p, rfl⟩
    · rw [if_neg e] at hx ⊢; exact h.busy j x hx
  · rw [watch_snoc]
    show (if j = i then some k else (Crunch.watch k' τ).cur j) = match (if j = i then Thr.busy (k, op) p else c.thr j) with | .busy (l, _) _ => some l | .idle => none
    by_cases e : j = i
    · rw [if_pos e, if_pos e]
    · rw [if_neg e, if_neg e]; exact h.watch k' j
  · rw [on, track_snoc]
    show _ = onOne k' (if j = i then some (k, op) else (track τ).cur j)
    by_cases ek : k = k'
    · rw [if_pos ek, track_snoc]
      show (if j = i then some op else (track (onBuf k' τ)).cur j) = _
      by_cases e : j = i
      · rw [if_pos e, if_pos e]; show _ = if k = k' then some op else none; rw [if_pos ek]
      · rw [if_neg e, if_neg e]; exact h.cur k' j
    · rw [if_neg ek, h.cur k' j]
      by_cases e : j = i
      · rw [if_pos e, e, hc]; show _ = if k = k' then some op else none; rw [if_neg ek]; rfl
      · rw [if_neg e]
  · rw [on]
    have : points (τ ++ [(i, (.start (k, op) : Act (Nat × O) V))]) = points τ := by unfold points; rw [track_snoc]; rfl
    rw [this, ← h.pts k']
    by_cases ek : k = k'
    · rw [if_pos ek]; unfold points; rw [track_snoc]; rfl
    · rw [if_neg ek]
  · rw [on, finished_snoc]
    show _ = donesOn k' (finished j τ ++ [])
    rw [List.append_nil, ← h.dones k' j]
    by_cases ek : k = k'
    · rw [if_pos ek, finished_snoc]; exact List.append_nil _
    · rw [if_neg ek]
  · rw [on, started_snoc, List.filter_append, List.map_append, ← h.began k' j]
    show _ = _ ++ ((if i = j then [(k, op)] else []).filter _).map _
    by_cases ek : k = k'
    · rw [if_pos ek, started_snoc]
      show _ ++ (if i = j then [op] else []) = _
      by_cases e : i = j
      · rw [if_pos e, if_pos e]; simp [ek]
      · rw [if_neg e, if_neg e]; rfl
    · rw [if_neg ek]
      by_cases e : i = j
      · rw [if_pos e]; simp [ek]
      · rw [if_neg e]; simp

theorem Ordered.finish {k i : Nat} {op : O} {p : Prog V} {r : Res V} (h : Ordered c τ) (hi : c.thr i = .busy (k, op) p) :
    Ordered (c.set i .idle c.sh) (τ ++ [(i, .finish (k, op) r)]) := by
  have on : ∀ k', onBuf k' (τ ++ [(i, .finish (k, op) r)]) = if k = k' then onBuf k' τ ++ [(i, .finish op r)] else onBuf k' τ := fun k' => onBuf_snoc _ _ _
  have tr : (track (τ ++ [(i, .finish (k, op) r)])) = match (track τ).cur i with
      | some x => { cur := fun j => if j = i then none else (track τ).cur j, pts := (track τ).pts ++ [(i, x)] }
      | none => track τ := by rw [track_snoc]; cases hx : (track τ).cur i <;> simp [Track.step, hx]
  have tk : ∀ k', (track (onBuf k' τ ++ [(i, .finish op r)])) = match (track (onBuf k' τ)).cur i with
      | some x => { cur := fun j => if j = i then none else (track (onBuf k' τ)).cur j, pts := (track (onBuf k' τ)).pts ++ [(i, x)] }
      | none => track (onBuf k' τ) := fun k' => track_snoc _ _
  have cr : ∀ x, (track τ).cur i = some x → x = (k, op) := fun x hx => by
    obtain ⟨q, hq⟩ := h.busy i x hx
    cases hi.symm.trans hq; rfl
  refine ⟨fun j => ?_, fun j => ?_, fun j x hx => ?_, fun k' j => ?_, fun k' j => ?_, fun k' => ?_, fun k' j => ?_, fun k' j => ?_⟩
  · rw [started_snoc, h.starts j]
    unfold points
    rw [tr]
    show _ ++ [] = _
    rw [List.append_nil]
    cases hx : (track τ).cur i with
    | none => rfl
    | some x =>
      show _ = ofThread j ((track τ).pts ++ [(i, x)]) ++ (if j = i then none else (track τ).cur j).toList
      rw [ofThread_append, ofThread_cons]
      by_cases e : j = i
      · subst e; rw [if_pos rfl, if_pos rfl, hx]; simp [ofThread]
      · rw [if_neg (Ne.symm e), if_neg e]; simp [ofThread]
  · rw [started_snoc, finished_snoc, h.ends j]
    show _ ++ [] = (finished j τ ++ (if i = j then [((k, op), r)] else [])).map _ ++ match (if j = i then Thr.idle else c.thr j) with | .busy x _ => [x] | .idle => []
    rw [List.append_nil, List.map_append]
    by_cases e : i = j
    · subst e; rw [if_pos rfl, if_pos rfl, hi]; simp
    · rw [if_neg e, if_neg (Ne.symm e)]; simp
  · rw [tr] at hx
    show ∃ q, (if j = i then Thr.idle else c.thr j) = .busy x q
    cases hy : (track τ).cur i with
    | none =>
      rw [hy] at hx
      by_cases e : j = i
      · rw [e] at hx; exact nomatch hy.symm.trans hx
      · rw [if_neg e]; exact h.busy j x hx
    | some y =>
      rw [hy] at hx
      change (if j = i then none else (track τ).cur j) = some x at hx
      by_cases e : j = i
      · rw [if_pos e] at hx; exact nomatch hx
      · rw [if_neg e] at hx ⊢; exact h.busy j x hx
  · rw [watch_snoc]
    show (if j = i then none else (Crunch.watch k' τ).cur j) = match (if j = i then Thr.idle else c.thr j) with | .busy (l, _) _ => some l | .idle => none
    by_cases e : j = i
    · rw [if_pos e, if_pos e]
    · rw [if_neg e, if_neg e]; exact h.watch k' j
  · rw [on, tr]
    have hc := h.cur k'
    by_cases ek : k = k'
    · subst ek
      rw [if_pos rfl, tk, hc i]
      cases hx : (track τ).cur i with
      | none => exact hc j
      | some x =>
        cases cr x hx
        simp only [onOne, if_pos]
        show (if j = i then none else (track (onBuf k τ)).cur j) = onOne k (if j = i then none else (track τ).cur j)
        by_cases e : j = i
        · rw [if_pos e, if_pos e]; rfl
        · rw [if_neg e, if_neg e]; exact hc j
    · rw [if_neg ek, hc j]
      cases hx : (track τ).cur i with
      | none => rfl
      | some x =>
        cases cr x hx
        show _ = onOne k' (if j = i then none else (track τ).cur j)
        by_cases e : j = i
        · rw [if_pos e, e, hx]; show (if k = k' then some op else none) = _; rw [if_neg ek]; rfl
        · rw [if_neg e]
  · rw [on]
    unfold points
    rw [tr]
    have hc := h.cur k' i
    by_cases ek : k = k'
    · subst ek
      rw [if_pos rfl, tk, hc]
      cases hx : (track τ).cur i with
      | none => exact h.pts k
      | some x =>
        cases cr x hx
        simp only [onOne, if_pos]
        show points (onBuf k τ) ++ [(i, op)] = callsOn k (points τ ++ [(i, (k, op))])
        rw [callsOn_append, h.pts k]
        show _ = _ ++ if k = k then _ else _
        rw [if_pos rfl]; rfl
    · rw [if_neg ek]
      cases hx : (track τ).cur i with
      | none => exact h.pts k'
      | some x =>
        cases cr x hx
        show points (onBuf k' τ) = callsOn k' (points τ ++ [(i, (k, op))])
        rw [callsOn_append, h.pts k']
        show _ = _ ++ if k = k' then _ else _
        rw [if_neg ek]; exact (List.append_nil _).symm
  · rw [on, finished_snoc, donesOn_append, ← h.dones k' j]
    show _ = _ ++ donesOn k' (if i = j then [((k, op), r)] else [])
    by_cases ek : k = k'
    · rw [if_pos ek, finished_snoc]
      show _ ++ (if i = j then [(op, r)] else []) = _
      by_cases e : i = j
      · rw [if_pos e, if_pos e]; show _ = _ ++ if k = k' then _ else _; rw [if_pos ek]; rfl
      · rw [if_neg e, if_neg e]; rfl
    · rw [if_neg ek]
      by_cases e : i = j
      · rw [if_pos e]; show _ = _ ++ if k = k' then _ else _; rw [if_neg ek]; exact (List.append_nil _).symm
      · rw [if_neg e]; exact (List.append_nil _).symm
  · rw [on, started_snoc, List.filter_append, List.map_append, ← h.began k' j]
    show _ = _ ++ []
    rw [List.append_nil]
    by_cases ek : k = k'
    · rw [if_pos ek, started_snoc]; exact List.append_nil _
    · rw [if_neg ek]

theorem Ordered.did {k i : Nat} {op : O} {p p' : Prog V} {e : Event} (s : Shs) (h : Ordered c τ) (hi : c.thr i = .busy (k, op) p) :
    Ordered (c.set i (.busy (k, op) p') s) (τ ++ [(i, .did e p')]) := by
  have hw : ∀ k', (Crunch.watch k' τ).cur i = some k := fun k' => by rw [h.watch k' i, hi]
  have on : ∀ k', onBuf k' (τ ++ [(i, .did e p')]) = if k = k' then onBuf k' τ ++ [(i, .did e p')] else onBuf k' τ := fun k' => by
    rw [onBuf_snoc]
    show (if (Crunch.watch k' τ).cur i = some k' then onBuf k' τ ++ [(i, .did e p')] else onBuf k' τ) = _
    rw [hw]
    by_cases ek : k = k'
    · rw [if_pos (by rw [ek]), if_pos ek]
    · rw [if_neg (fun x => ek (Option.some.inj x)), if_neg ek]
  have cr : ∀ x, (track τ).cur i = some x → x = (k, op) := fun x hx => by
    obtain ⟨q, hq⟩ := h.busy i x hx
    cases hi.symm.trans hq; rfl
  have st : ∀ {O' : Type} (i j : Nat) (e : Event) (q : Prog V) (σ : Trace O' V), started j (σ ++ [(i, .did e q)]) = started j σ := fun i j e q σ => by
    rw [started_snoc]; exact List.append_nil _
  have fi : ∀ {O' : Type} (i j : Nat) (e : Event) (q : Prog V) (σ : Trace O' V), finished j (σ ++ [(i, .did e q)]) = finished j σ := fun i j e q σ => by
    rw [finished_snoc]; exact List.append_nil _
  have common : (∀ j, started j τ = (finished j τ).map (·.1) ++ match (if j = i then Thr.busy (k, op) p' else c.thr j) with | .busy x _ => [x] | .idle => []) ∧
      (∀ k' j, (Crunch.watch k' (τ ++ [(i, .did e p')])).cur j = match (if j = i then Thr.busy (k, op) p' else c.thr j) with | .busy (l, _) _ => some l | .idle => none) ∧
      (∀ k' j, finished j (onBuf k' (τ ++ [(i, .did e p')])) = donesOn k' (finished j (τ ++ [(i, .did e p')]))) ∧
      (∀ k' j, started j (onBuf k' (τ ++ [(i, .did e p')])) = ((started j (τ ++ [(i, .did e p')])).filter fun x => x.1 == k').map (·.2)) := by
    refine ⟨fun j => ?_, fun k' j => ?_, fun k' j => ?_, fun k' j => ?_⟩
    · rw [h.ends j]
      by_cases ej : j = i
      · rw [if_pos ej, ej, hi]
      · rw [if_neg ej]
    · rw [watch_snoc]
      show (Crunch.watch k' τ).cur j = _
      by_cases ej : j = i
      · rw [if_pos ej, ej]; exact hw k'
      · rw [if_neg ej]; exact h.watch k' j
    · rw [on, fi, ← h.dones k' j]
      by_cases ek : k = k'
      · rw [if_pos ek, fi]
      · rw [if_neg ek]
    · rw [on, st, ← h.began k' j]
      by_cases ek : k = k'
      · rw [if_pos ek, st]
      · rw [if_neg ek]
  have same : e ≠ .lock → Ordered (c.set i (.busy (k, op) p') s) (τ ++ [(i, .did e p')]) := fun ne => by
    have ts : ∀ {O' : Type} (σ : Trace O' V), track (σ ++ [(i, .did e p')]) = track σ := fun σ => by
      rw [track_snoc]; cases e <;> first | rfl | exact absurd rfl ne
    refine ⟨fun j => ?_, fun j => by rw [st, fi]; exact common.1 j, fun j x hx => ?_, common.2.1, fun k' j => ?_, fun k' => ?_, common.2.2.1, common.2.2.2⟩
    · unfold points; rw [st, ts]; exact h.starts j
    · rw [ts] at hx
      show ∃ q, (if j = i then Thr.busy (k, op) p' else c.thr j) = .busy x q
      by_cases ej : j = i
      · rw [if_pos ej]; rw [ej] at hx; cases cr x hx; exact ⟨p', rfl⟩
      · rw [if_neg ej]; exact h.busy j x hx
    · rw [on, ts]
      by_cases ek : k = k'
      · rw [if_pos ek, ts]; exact h.cur k' j
      · rw [if_neg ek]; exact h.cur k' j
    · rw [on]; unfold points; rw [ts]
      by_cases ek : k = k'
      · rw [if_pos ek, ts]; exact h.pts k'
      · rw [if_neg ek]; exact h.pts k'
  by_cases ne : e = .lock
  · subst ne
    have tr : (track (τ ++ [(i, .did .lock p')])) = match (track τ).cur i with
        | some x => { cur := fun j => if j = i then none else (track τ).cur j, pts := (track τ).pts ++ [(i, x)] }
        | none => track τ := by rw [track_snoc]; cases hx : (track τ).cur i <;> simp [Track.step, hx]
    have tk : ∀ k', (track (onBuf k' τ ++ [(i, .did .lock p')])) = match (track (onBuf k' τ)).cur i with
        | some x => { cur := fun j => if j = i then none else (track (onBuf k' τ)).cur j, pts := (track (onBuf k' τ)).pts ++ [(i, x)] }
        | none => track (onBuf k' τ) := fun k' => track_snoc _ _
    refine ⟨fun j => ?_, fun j => by rw [st, fi]; exact common.1 j, fun j x hx => ?_, common.2.1, fun k' j => ?_, fun k' => ?_, common.2.2.1, common.2.2.2⟩
    · rw [st, h.starts j]
      unfold points
      rw [tr]
      cases hx : (track τ).cur i with
      | none => rfl
      | some x =>
        show _ = ofThread j ((track τ).pts ++ [(i, x)]) ++ (if j = i then none else (track τ).cur j).toList
        rw [ofThread_append, ofThread_cons]
        by_cases ej : j = i
        · subst ej; rw [if_pos rfl, if_pos rfl, hx]; simp [ofThread]
        · rw [if_neg (Ne.symm ej), if_neg ej]; simp [ofThread]
    · rw [tr] at hx
      show ∃ q, (if j = i then Thr.busy (k, op) p' else c.thr j) = .busy x q
      cases hy : (track τ).cur i with
      | none =>
        rw [hy] at hx
        by_cases ej : j = i
        · rw [ej] at hx; exact nomatch hy.symm.trans hx
        · rw [if_neg ej]; exact h.busy j x hx
      | some y =>
        rw [hy] at hx
        change (if j = i then none else (track τ).cur j) = some x at hx
        by_cases ej : j = i
        · rw [if_pos ej] at hx; exact nomatch hx
        · rw [if_neg ej] at hx ⊢; exact h.busy j x hx
    · rw [on, tr]
      have hc := h.cur k'
      by_cases ek : k = k'
      · subst ek
        rw [if_pos rfl, tk, hc i]
        cases hx : (track τ).cur i with
        | none => exact hc j
        | some x =>
          cases cr x hx
          simp only [onOne, if_pos]
          show (if j = i then none else (track (onBuf k τ)).cur j) = onOne k (if j = i then none else (track τ).cur j)
          by_cases ej : j = i
          · rw [if_pos ej, if_pos ej]; rfl
          · rw [if_neg ej, if_neg ej]; exact hc j
      · rw [if_neg ek, hc j]
        cases hx : (track τ).cur i with
        | none => rfl
        | some x =>
          cases cr x hx
          show _ = onOne k' (if j = i then none else (track τ).cur j)
          by_cases ej : j = i
          · rw [if_pos ej, ej, hx]; show (if k = k' then some op else none) = _; rw [if_neg ek]; rfl
          · rw [if_neg ej]
    · rw [on]
      unfold points
      rw [tr]
      have hc := h.cur k' i
      by_cases ek : k = k'
      · subst ek
        rw [if_pos rfl, tk, hc]
        cases hx : (track τ).cur i with
        | none => exact h.pts k
        | some x =>
          cases cr x hx
          simp only [onOne, if_pos]
          show points (onBuf k τ) ++ [(i, op)] = callsOn k (points τ ++ [(i, (k, op))])
          rw [callsOn_append, h.pts k]
          show _ = _ ++ if k = k then _ else _
          rw [if_pos rfl]; rfl
      · rw [if_neg ek]
        cases hx : (track τ).cur i with
        | none => exact h.pts k'
        | some x =>
          cases cr x hx
          show points (onBuf k' τ) = callsOn k' (points τ ++ [(i, (k, op))])
          rw [callsOn_append, h.pts k']
          show _ = _ ++ if k = k' then _ else _
          rw [if_neg ek]; exact (List.append_nil _).symm
  · exact same ne

theorem ordered (idle : ∀ i, c0.thr i = .idle) (x : Execs ex allowed c0 τ c) : Ordered c τ := by
  induction x with
  | nil =>
    exact ⟨fun _ => rfl, fun i => by rw [idle i]; rfl, fun _ _ h => (nomatch h), fun k i => by rw [idle i]; rfl, fun _ _ => rfl, fun _ => rfl, fun _ _ => rfl,
      fun _ _ => rfl⟩
  | snoc _ st ih =>
    cases st with
    | start k op hi ha => exact ih.start _ hi
    | did hi hs => exact ih.did _ hi
    | finish hi hr => exact ih.finish hi

/-! ## calls one at a time -/

/-- Calls one at a time on several buffers are calls one at a time on each. -/
theorem seqRuns_on {B : Nat → Slice} {A W : Nat → Nat → Nat → Prop} (hd : Distinct A W) (L : List (Nat × (Nat × O))) (hin : ∀ x ∈ L, (ex x.2.2).In (B x.2.1) (A x.2.1) (W x.2.1)) (s : Shs)
    (hB : ∀ k, (s.b k).buf = B k) :
    (∀ k t, Alike (A k) (s.at k) t → (seqRun ex (callsOn k L) t).1 = outsOn k (seqRuns ex L s).1 ∧
      Alike (A k) ((seqRuns ex L s).2.at k) (seqRun ex (callsOn k L) t).2) ∧
    (∀ a i, (∀ k, ¬ W k a i) → ((seqRuns ex L s).2.mem.array a)[i]? = (s.mem.array a)[i]?) := by
  induction L generalizing s with
  | nil => exact ⟨fun k t h => ⟨rfl, h⟩, fun _ _ _ => rfl⟩
  | cons x L ih =>
    obtain ⟨i, l, op⟩ := x
    obtain ⟨hbuf, hout, hrun⟩ := (hin (i, (l, op)) List.mem_cons_self).run (s := s.at l) (hB l)
    have hB' : ∀ k, ((s.put l ((ex op).run (s.at l)).2).b k).buf = B k := fun k => by
      show (if k = l then ((ex op).run (s.at l)).2.st.b else s.b k).buf = _
      by_cases ek : k = l
      · rw [if_pos ek, ek]; exact hbuf
      · rw [if_neg ek]; exact hB k
    obtain ⟨ih1, ih2⟩ := ih (fun x hx => hin x (List.mem_cons_of_mem _ hx)) (s.put l ((ex op).run (s.at l)).2) hB'
    refine ⟨fun k t al => ?_, fun a j hW => (ih2 a j hW).trans (hout a j (hW l))⟩
    show (seqRun ex (if l = k then (i, op) :: callsOn k L else callsOn k L) t).1 =
        (if l = k then (i, op, ((ex op).run (s.at l)).1) :: outsOn k (seqRuns ex L (s.put l ((ex op).run (s.at l)).2)).1 else
          outsOn k (seqRuns ex L (s.put l ((ex op).run (s.at l)).2)).1) ∧
      Alike (A k) ((seqRuns ex L (s.put l ((ex op).run (s.at l)).2)).2.at k) (seqRun ex (if l = k then (i, op) :: callsOn k L else callsOn k L) t).2
    by_cases ek : l = k
    · subst ek
      rw [if_pos rfl, if_pos rfl]
      obtain ⟨h1, h2⟩ := hrun t al
      obtain ⟨h3, h4⟩ := ih1 l ((ex op).run t).2 (by rw [at_put_same]; exact h2)
      refine ⟨?_, h4⟩
      show (i, op, ((ex op).run t).1) :: (seqRun ex (callsOn l L) ((ex op).run t).2).1 = _
      rw [h1, h3]
    · rw [if_neg ek, if_neg ek]
      refine ih1 k t ?_
      rw [at_put_other _ (Ne.symm ek)]
      exact ⟨al.b, al.locked, fun a j hA => (al.bytes a j hA).trans (Loc.same_symm (hout a j fun hW => hd l k ek a j hW hA))⟩

theorem seqRuns_calls (L : List (Nat × (Nat × O))) (s : Shs) : (seqRuns ex L s).1.map (fun x => (x.1, x.2.1)) = L := by
  induction L generalizing s with
  | nil => rfl
  | cons x L ih =>
    obtain ⟨i, l, op⟩ := x
    show (i, (l, op)) :: ((seqRuns ex L _).1.map fun x => (x.1, x.2.1)) = _
    rw [ih]

theorem ofThread_map {α β : Type} (f : α → β) (i : Nat) (L : List (Nat × α)) : ofThread i (L.map fun x => (x.1, f x.2)) = (ofThread i L).map f := by
  unfold ofThread
  rw [List.filter_map, List.map_map, List.map_map]
  rfl

/-- Several buffers, each linearizable, are linearizable together: one order for all calls. -/
theorem locality {B : Nat → Slice} {A W : Nat → Nat → Nat → Prop} (hd : Distinct A W) (idle : ∀ i, c0.thr i = .idle) (hB : ∀ k, (c0.sh.b k).buf = B k)
    (hin : ∀ k op, allowed k op → (ex op).In (B k) (A k) (W k)) (x : Execs ex allowed c0 τ c) (done : ∀ i, c.thr i = .idle)
    (each : ∀ k d, Exec ex (allowed k) (c0.at k) (onBuf k τ) d → (∀ i, d.thr i = .idle) →
      (∀ i, finished i (onBuf k τ) = ofThread i (seqRun ex (points (onBuf k τ)) (c0.sh.at k)).1) ∧
      d.sh = (seqRun ex (points (onBuf k τ)) (c0.sh.at k)).2)
    (mine : ∀ i, ∀ y ∈ started i τ, (ex y.2).In (B y.1) (A y.1) (W y.1)) :
    (∀ i, started i τ = ofThread i (points τ)) ∧
    (∀ i, finished i τ = ofThread i (seqRuns ex (points τ) c0.sh).1) ∧
    (∀ k, c.sh.b k = (seqRuns ex (points τ) c0.sh).2.b k ∧ c.sh.locked k = (seqRuns ex (points τ) c0.sh).2.locked k) ∧
    (∀ a i, ((∃ k, W k a i) → ∃ k, A k a i) → (c.sh.mem.array a)[i]? = ((seqRuns ex (points τ) c0.sh).2.mem.array a)[i]?) := by
  have sn := seen hd idle hB hin x
  have od := ordered idle x
  have hcur : ∀ i, (track τ).cur i = none := fun i => by
    cases hx : (track τ).cur i with
    | none => rfl
    | some y => obtain ⟨q, hq⟩ := od.busy i y hx; exact nomatch (done i).symm.trans hq
  have hst : ∀ i, started i τ = ofThread i (points τ) := fun i => by rw [od.starts i, hcur i]; exact List.append_nil _
  have hpt : ∀ y ∈ points τ, (ex y.2.2).In (B y.2.1) (A y.2.1) (W y.2.1) := fun y hy =>
    mine y.1 y.2 (by
      rw [hst]
      unfold ofThread
      exact List.mem_map.mpr ⟨y, List.mem_filter.mpr ⟨hy, beq_self_eq_true _⟩, rfl⟩)
  obtain ⟨so, sb⟩ := seqRuns_on hd (points τ) hpt c0.sh hB
  have one : ∀ k, ∃ d, Alike (A k) (c.sh.at k) d ∧ d = (seqRun ex (callsOn k (points τ)) (c0.sh.at k)).2 ∧
      ∀ i, donesOn k (finished i τ) = donesOn k (ofThread i (seqRuns ex (points τ) c0.sh).1) := fun k => by
    obtain ⟨d, ed, ht, al⟩ := sn.one k
    obtain ⟨h1, h2⟩ := each k d ed fun i => by rw [ht]; exact at_thr_idle (done i)
    rw [od.pts k] at h1 h2
    refine ⟨d.sh, al, h2, fun i => ?_⟩
    rw [← od.dones k i, h1 i, ← ofThread_outsOn, (so k _ (Alike.refl _ _)).1]
  refine ⟨hst, fun i => dones_ext ?_ fun k => ?_, fun k => ?_, fun a i ha => ?_⟩
  · rw [← ofThread_map, seqRuns_calls, ← hst i, od.ends i, done i]
    exact (List.append_nil _).symm
  · obtain ⟨_, _, _, h⟩ := one k; exact h i
  · obtain ⟨d, al, hd', _⟩ := one k
    have al' := (so k _ (Alike.refl _ _)).2
    rw [← hd'] at al'
    exact ⟨al.b.symm.trans al'.b, al.locked.symm.trans al'.locked⟩
  · by_cases hw : ∃ k, W k a i
    · obtain ⟨k, hk⟩ := ha hw
      obtain ⟨d, al, hd', _⟩ := one k
      have al' := (so k _ (Alike.refl _ _)).2
      rw [← hd'] at al'
      exact (al.bytes a i hk).symm.trans (al'.bytes a i hk)
    · have hw : ∀ k, ¬ W k a i := fun k hk => hw ⟨k, hk⟩
      exact (sn.bytes a i hw).trans (sb a i hw).symm

end Crunch
