import Verif.Linear
import Verif.Lemmas.Apart
import Verif.Lemmas.Foot

/-! Calls with one section together with calls that look at one byte after theirs. -/

namespace Crunch
open V3 (St)

/-! ## the programs -/

/-- Ends, perhaps after a look at one byte. -/
def LookA : Prog α → Prop
  | .ret _ => True
  | .panic _ => True
  | .load _ _ k => ∀ v, (k v).result.isSome = true
  | _ => False

/-- The rest of a section that leaves everything as it is, in a buffer with the fields of `b`: it looks at fields other than the offsets
and assigns them what they are. -/
def LookS (b : V3.Buf) : Prog α → Prop
  | .getI f k => f.isOff = false ∧ LookS b (k (f.get b))
  | .setI f v k => f.isOff = false ∧ v = f.get b ∧ LookS b k
  | .getBuf k => LookS b (k b.buf)
  | .unlock k => LookA k
  | _ => False

/-- Looks at fields other than the offsets, then ends, perhaps after a look at an offset, or enters its section. -/
def LookB (b : V3.Buf) : Prog α → Prop
  | .ret _ => True
  | .panic _ => True
  | .getI f k => if f.isOff = true then ∀ v, (k v).result.isSome = true else LookB b (k (f.get b))
  | .getBuf k => LookB b (k b.buf)
  | .lock k => LookS b k
  | _ => False

/-- The rest of a section that assigns an offset, once, at its end. -/
def SecO : Prog α → Prop
  | .getI _ k => ∀ v, SecO (k v)
  | .setI f _ (.unlock k) => f.isOff = true ∧ k.result.isSome = true
  | _ => False

/-- Nothing but such a section. -/
def OnceO : Prog α → Prop
  | .lock k => SecO k
  | _ => False

theorem result_map {p : Prog α} (g : α → β) (h : p.result.isSome = true) : (p.bind fun a => .ret (g a)).result.isSome = true := by
  cases p <;> first | rfl | exact nomatch h

theorem LookA.map {p : Prog α} (g : α → β) (h : LookA p) : LookA (p.bind fun a => .ret (g a)) := by
  cases p with
  | ret a => trivial
  | panic q => trivial
  | load t i k => exact fun v => result_map g (h v)
  | _ => exact h.elim

theorem LookS.map {b : V3.Buf} {p : Prog α} (g : α → β) (h : LookS b p) : LookS b (p.bind fun a => .ret (g a)) := by
  induction p with
  | getI f k ih => exact ⟨h.1, ih _ h.2⟩
  | setI f v k ih => exact ⟨h.1, h.2.1, ih h.2.2⟩
  | getBuf k ih => exact ih _ h
  | unlock k ih => exact LookA.map g (show LookA k from h)
  | _ => exact h.elim

theorem LookB.map {b : V3.Buf} {p : Prog α} (g : α → β) (h : LookB b p) : LookB b (p.bind fun a => .ret (g a)) := by
  induction p with
  | ret a => trivial
  | panic q => trivial
  | getI f k ih =>
    change if f.isOff = true then _ else _ at h
    show if f.isOff = true then _ else _
    split at h
    · rename_i hf
      rw [if_pos hf]; exact fun v => result_map g (h v)
    · rename_i hf
      rw [if_neg hf]; exact ih _ h
  | getBuf k ih => exact ih _ h
  | lock k ih => exact LookS.map g (show LookS b k from h)
  | _ => exact h.elim

theorem SecO.map {p : Prog α} (g : α → β) (h : SecO p) : SecO (p.bind fun a => .ret (g a)) := by
  induction p with
  | getI f k ih => exact fun v => ih v (h v)
  | setI f v k ih =>
    cases k with
    | unlock k => exact ⟨h.1, result_map g h.2⟩
    | _ => exact h.elim
  | _ => exact h.elim

theorem OnceO.map {p : Prog α} (g : α → β) (h : OnceO p) : OnceO (p.bind fun a => .ret (g a)) := by
  cases p with
  | lock k => exact SecO.map g (show SecO k from h)
  | _ => exact h.elim

theorem LookA.run {p : Prog α} (h : LookA p) (s : Sh) : (p.run s).2 = s := by
  cases p with
  | ret a => rfl
  | panic q => rfl
  | load t i k =>
    obtain ⟨r, hr⟩ := Option.isSome_iff_exists.mp (h ((s.st.mem.array t.arr).getD (t.off + i) 0))
    show ((k _).run s).2 = s
    rw [run_result hr]
  | _ => exact h.elim

/-- What it ends with depends on one byte. -/
theorem LookA.byte {p : Prog α} (h : LookA p) : ∃ a x : Nat, ∀ s s' : Sh, (s.st.mem.array a)[x]? = (s'.st.mem.array a)[x]? → (p.run s).1 = (p.run s').1 := by
  cases p with
  | ret a => exact ⟨0, 0, fun _ _ _ => rfl⟩
  | panic q => exact ⟨0, 0, fun _ _ _ => rfl⟩
  | load t i k =>
    refine ⟨t.arr, t.off + i, fun s s' e => ?_⟩
    show ((k ((s.st.mem.array t.arr).getD (t.off + i) 0)).run s).1 = ((k ((s'.st.mem.array t.arr).getD (t.off + i) 0)).run s').1
    have e' : (s.st.mem.array t.arr).getD (t.off + i) 0 = (s'.st.mem.array t.arr).getD (t.off + i) 0 := by
      rw [List.getD_eq_getElem?_getD, List.getD_eq_getElem?_getD, e]
    rw [e']
    obtain ⟨r, hr⟩ := Option.isSome_iff_exists.mp (h ((s'.st.mem.array t.arr).getD (t.off + i) 0))
    rw [run_result hr, run_result hr]
  | _ => exact h.elim

theorem LookA.cases {p : Prog α} (h : LookA p) (s : Sh) {e : Event} {p' : Prog α} {s' : Sh} (st : p.step s = some (e, p', s')) :
    e = .look ∧ s' = s ∧ ∃ r, p'.result = some r ∧ (p.run s).1 = r := by
  cases p with
  | ret a => exact nomatch st
  | panic q => exact nomatch st
  | load t i k =>
    cases st
    obtain ⟨r, hr⟩ := Option.isSome_iff_exists.mp (h ((s.st.mem.array t.arr).getD (t.off + i) 0))
    refine ⟨rfl, rfl, r, hr, ?_⟩
    show ((k _).run s).1 = r
    rw [run_result hr]
  | _ => exact h.elim

theorem set_same {f : Field} (hf : f.isOff = false) {b b' : V3.Buf} (h : frame b' = frame b) : f.set b' (f.get b) = b' := by
  rw [← frame_get hf h]
  cases f <;> rfl

theorem LookS.cases {b : V3.Buf} {p : Prog α} (h : LookS b p) (s : Sh) (hs : frame s.st.b = frame b) {e : Event} {p' : Prog α} {s' : Sh}
    (st : p.step s = some (e, p', s')) :
    (s' = s ∧ LookS b p' ∧ ∀ t : Sh, frame t.st.b = frame b → p'.run t = p.run t) ∨
      (e = .unlock ∧ s' = { s with locked := false } ∧ LookA p' ∧ ∀ t : Sh, p.run t = p'.run { t with locked := false }) := by
  cases p with
  | getI f k =>
    cases st
    rw [frame_get h.1 hs]
    refine .inl ⟨rfl, h.2, fun t ht => ?_⟩
    show _ = (k (f.get t.st.b)).run t
    rw [frame_get h.1 ht]
  | setI f v k =>
    cases st
    obtain ⟨h1, rfl, h3⟩ := h
    refine .inl ⟨?_, h3, fun t ht => ?_⟩
    · show ({ s with st := { s.st with b := f.set s.st.b _ } } : Sh) = s
      rw [set_same h1 hs]
    · show _ = p'.run { t with st := { t.st with b := f.set t.st.b _ } }
      rw [set_same h1 ht]
  | getBuf k =>
    cases st
    rw [frame_buf hs]
    refine .inl ⟨rfl, h, fun t ht => ?_⟩
    show _ = (k t.st.b.buf).run t
    rw [frame_buf ht]
  | unlock k =>
    cases st
    exact .inr ⟨rfl, rfl, h, fun t => rfl⟩
  | _ => exact h.elim

theorem LookB.cases {b : V3.Buf} {p : Prog α} (h : LookB b p) (s : Sh) (hs : frame s.st.b = frame b) {e : Event} {p' : Prog α} {s' : Sh}
    (st : p.step s = some (e, p', s')) :
    (s' = s ∧ LookB b p' ∧ ∀ t : Sh, frame t.st.b = frame b → p'.run t = p.run t) ∨
      (s' = s ∧ ∃ r, p'.result = some r ∧ ∀ t : Sh, t.st.b = s.st.b → p.run t = (r, t)) ∨
      (s.locked = false ∧ s' = { s with locked := true } ∧ LookS b p' ∧ ∀ t : Sh, t.locked = false → p.run t = p'.run { t with locked := true }) := by
  cases p with
  | ret a => exact nomatch st
  | panic q => exact nomatch st
  | getI f k =>
    cases st
    change if f.isOff = true then _ else _ at h
    split at h
    · obtain ⟨r, hr⟩ := Option.isSome_iff_exists.mp (h (f.get s.st.b))
      refine .inr (.inl ⟨rfl, r, hr, fun t ht => ?_⟩)
      show (k (f.get t.st.b)).run t = _
      rw [ht, run_result hr]
    · rename_i hf
      have hf : f.isOff = false := by simpa using hf
      rw [frame_get hf hs]
      refine .inl ⟨rfl, h, fun t ht => ?_⟩
      show _ = (k (f.get t.st.b)).run t
      rw [frame_get hf ht]
  | getBuf k =>
    cases st
    rw [frame_buf hs]
    refine .inl ⟨rfl, h, fun t ht => ?_⟩
    show _ = (k t.st.b.buf).run t
    rw [frame_buf ht]
  | lock k =>
    change (if s.locked = true then none else some (Event.lock, k, (⟨s.st, true⟩ : Sh))) = _ at st
    split at st
    · exact nomatch st
    · rename_i hl
      cases st
      refine .inr (.inr ⟨by simpa using hl, rfl, h, fun t ht => ?_⟩)
      show (if t.locked = true then _ else _) = _
      rw [ht]; rfl
  | _ => exact h.elim

/-- In its section: a look, or the assignment, after which there is only the unlock. -/
theorem SecO.cases {p : Prog α} (h : SecO p) (s : Sh) {e : Event} {p' : Prog α} {s' : Sh} (st : p.step s = some (e, p', s')) :
    (s' = s ∧ SecO p' ∧ p'.run s = p.run s) ∨
      (frame s'.st.b = frame s.st.b ∧ s'.st.mem = s.st.mem ∧ s'.locked = s.locked ∧
        ∃ k, p' = .unlock k ∧ k.result.isSome = true ∧ p.run s = p'.run s') := by
  cases p with
  | getI f k => cases st; exact .inl ⟨rfl, h _, rfl⟩
  | setI f v k =>
    cases k with
    | unlock k =>
      cases st
      exact .inr ⟨frame_set h.1 _ _, rfl, rfl, k, rfl, h.2, rfl⟩
    | _ => exact h.elim
  | _ => exact h.elim

theorem SecO.noResult {p : Prog α} (h : SecO p) {r : Res α} (hr : p.result = some r) : False := by
  cases p <;> first | exact h | (cases hr; done)

/-! ## sections that store in increasing order -/

/-- In a buffer whose content is `B`, the program stores at increasing places of the arrays, from `n` on, and assigns no field; when it ends, `Q` holds of the
place behind the last. -/
def Inc (B : Slice) (Q : Nat → α → Prop) : Nat → Prog α → Prop
  | n, .ret a => Q n a
  | _, .panic _ => True
  | n, .getI _ k => ∀ v, Inc B Q n (k v)
  | n, .getBuf k => Inc B Q n (k B)
  | n, .load _ _ k => ∀ v, Inc B Q n (k v)
  | n, .store t i _ k => n ≤ t.off + i ∧ Inc B Q (t.off + i + 1) k
  | n, .lock k => Inc B Q n k
  | n, .unlock k => Inc B Q n k
  | _, _ => False

theorem Inc.bind {B : Slice} {Q : Nat → β → Prop} {p : Prog α} {f : α → Prog β} {n : Nat} (h : Inc B (fun n a => Inc B Q n (f a)) n p) :
    Inc B Q n (p.bind f) := by
  induction p generalizing n with
  | ret a => exact h
  | panic q => trivial
  | getI g k ih => exact fun v => ih v (h v)
  | getBuf k ih => exact ih _ h
  | load t i k ih => exact fun v => ih v (h v)
  | store t i v k ih => exact ⟨h.1, ih h.2⟩
  | lock k ih => exact ih h
  | unlock k ih => exact ih h
  | _ => exact h.elim

theorem Inc.mono {B : Slice} {Q Q' : Nat → α → Prop} {p : Prog α} {n : Nat} (hq : ∀ n a, Q n a → Q' n a) (h : Inc B Q n p) : Inc B Q' n p := by
  induction p generalizing n with
  | ret a => exact hq _ _ h
  | panic q => trivial
  | getI g k ih => exact fun v => ih v (h v)
  | getBuf k ih => exact ih _ h
  | load t i k ih => exact fun v => ih v (h v)
  | store t i v k ih => exact ⟨h.1, ih h.2⟩
  | lock k ih => exact ih h
  | unlock k ih => exact ih h
  | _ => exact h.elim

/-- Places below are not changed any more. -/
theorem Inc.keep {B : Slice} {Q : Nat → α → Prop} {p : Prog α} {n : Nat} (h : Inc B Q n p) (hs : Sec p) (s : Sh) (hb : s.st.b.buf = B) (a : Nat) {x : Nat}
    (hx : x < n) : ((p.run s).2.st.mem.array a)[x]? = (s.st.mem.array a)[x]? := by
  induction p generalizing n s with
  | ret v => exact hs.elim
  | panic q => rfl
  | getI g k ih => exact ih _ (h _) (hs _) s hb hx
  | setI g v k ih => exact h.elim
  | getBuf k ih => subst hb; exact ih _ h (hs _) s rfl hx
  | load t i k ih => exact ih _ (h _) (hs _) s hb hx
  | store t i v k ih =>
    refine (ih h.2 hs { s with st := { s.st with mem := s.st.mem.set t.arr (t.off + i) v } } hb (by have := h.1; omega)).trans ?_
    rw [array_set_get, if_neg fun e => by have := h.1; omega]
  | unlock k ih =>
    change k.result.isSome = true at hs
    obtain ⟨r, hr⟩ := Option.isSome_iff_exists.mp hs
    show ((k.run ⟨s.st, false⟩).2.st.mem.array a)[x]? = _
    rw [run_result hr]
  | _ => exact hs.elim

theorem Inc.run_b {B : Slice} {Q : Nat → α → Prop} {p : Prog α} {n : Nat} (h : Inc B Q n p) (hs : Sec p) (s : Sh) (hb : s.st.b.buf = B) :
    (p.run s).2.st.b = s.st.b := by
  induction p generalizing n s with
  | ret v => exact hs.elim
  | panic q => rfl
  | getI g k ih => exact ih _ (h _) (hs _) s hb
  | getBuf k ih => subst hb; exact ih _ h (hs _) s rfl
  | load t i k ih => exact ih _ (h _) (hs _) s hb
  | store t i v k ih => exact ih h.2 hs _ hb
  | unlock k ih =>
    change k.result.isSome = true at hs
    obtain ⟨r, hr⟩ := Option.isSome_iff_exists.mp hs
    show (k.run ⟨s.st, false⟩).2.st.b = _
    rw [run_result hr]
  | setI g v k ih => exact h.elim
  | _ => exact hs.elim

/-- A step changes only what is then below. -/
theorem Inc.step {B : Slice} {Q : Nat → α → Prop} {p : Prog α} {n : Nat} (h : Inc B Q n p) (hs : Sec p) (s : Sh) (hb : s.st.b.buf = B) {e : Event} {p' : Prog α} {s' : Sh}
    (st : p.step s = some (e, p', s')) :
    s'.st.b = s.st.b ∧ ∃ n', Inc B Q n' p' ∧ ∀ a x, n' ≤ x → (s'.st.mem.array a)[x]? = (s.st.mem.array a)[x]? := by
  cases p with
  | ret v => exact hs.elim
  | panic q => exact nomatch st
  | getI g k => cases st; exact ⟨rfl, n, h _, fun _ _ _ => rfl⟩
  | setI g v k => exact h.elim
  | getBuf k => cases st; subst hb; exact ⟨rfl, n, h, fun _ _ _ => rfl⟩
  | load t i k => cases st; exact ⟨rfl, n, h _, fun _ _ _ => rfl⟩
  | store t i v k =>
    cases st
    refine ⟨rfl, _, h.2, fun a x hx => ?_⟩
    show (Heap.array _ _)[_]? = _
    rw [array_set_get, if_neg fun e => by omega]
  | unlock k => cases st; exact ⟨rfl, n, h, fun _ _ _ => rfl⟩
  | _ => exact hs.elim

/-- A look or the lock changes nothing here either. -/
theorem Inc.once {B : Slice} {Q : Nat → α → Prop} {p : Prog α} {n : Nat} (h : Inc B Q n p) (hs : Once p) (s : Sh) (hb : s.st.b.buf = B) {e : Event} {p' : Prog α} {s' : Sh}
    (st : p.step s = some (e, p', s')) : Inc B Q n p' := by
  cases p with
  | ret v => exact nomatch st
  | panic q => exact nomatch st
  | getI g k => cases st; exact h _
  | getBuf k => cases st; subst hb; exact h
  | lock k =>
    change (if s.locked = true then none else some (Event.lock, k, (⟨s.st, true⟩ : Sh))) = _ at st
    split at st
    · exact nomatch st
    · cases st; exact h
  | _ => exact hs.elim

/-! ## lists -/

theorem ofThread_append (i : Nat) (l m : List (Nat × α)) : ofThread i (l ++ m) = ofThread i l ++ ofThread i m := by
  unfold ofThread
  rw [List.filter_append, List.map_append]

theorem ofThread_cons (i j : Nat) (x : α) (l : List (Nat × α)) : ofThread i ((j, x) :: l) = (if j = i then [x] else []) ++ ofThread i l := by
  unfold ofThread
  by_cases e : j = i <;> simp [e]

theorem ofThread_seqRun (exe : O → Prog V) (i : Nat) (L : List (Nat × O)) (s : Sh) : (ofThread i (seqRun exe L s).1).map (·.1) = ofThread i L := by
  induction L generalizing s with
  | nil => rfl
  | cons x L ih =>
    obtain ⟨j, op⟩ := x
    show (ofThread i ((j, op, _) :: (seqRun exe L _).1)).map _ = _
    rw [ofThread_cons, ofThread_cons, List.map_append, ih]
    split <;> rfl

theorem ofThread_seqRun_length (exe : O → Prog V) (i : Nat) (L : List (Nat × O)) (s : Sh) : (ofThread i (seqRun exe L s).1).length = (ofThread i L).length := by
  rw [← ofThread_seqRun exe i L s, List.length_map]

theorem ofThread_seqRun_nil {exe : O → Prog V} {i : Nat} {L : List (Nat × O)} (s : Sh) (h : ofThread i L = []) : ofThread i (seqRun exe L s).1 = [] :=
  List.eq_nil_of_length_eq_zero (by rw [ofThread_seqRun_length, h]; rfl)

/-- A call that changes nothing, put in the order at `n`. -/
def insertAt (L : List (Nat × O)) (n : Nat) (x : Nat × O) : List (Nat × O) := L.take n ++ x :: L.drop n

theorem ofThread_insertAt_other {L : List (Nat × O)} {n i j : Nat} {op : O} (h : j ≠ i) : ofThread i (insertAt L n (j, op)) = ofThread i L := by
  unfold insertAt
  rw [ofThread_append, ofThread_cons, if_neg h, List.nil_append, ← ofThread_append, List.take_append_drop]

theorem ofThread_insertAt_self {L : List (Nat × O)} {n i : Nat} {op : O} (h : ofThread i (L.drop n) = []) : ofThread i (insertAt L n (i, op)) = ofThread i L ++ [op] := by
  have e : ofThread i L = ofThread i (L.take n) := by
    rw [← List.take_append_drop n L, ofThread_append, h, List.append_nil, List.take_append_drop]
  unfold insertAt
  rw [ofThread_append, ofThread_cons, if_pos rfl, h, e]
  rfl

theorem take_insertAt_le {L : List (Nat × O)} {n m : Nat} {x : Nat × O} (h : m ≤ n) (hn : n ≤ L.length) : (insertAt L n x).take m = L.take m := by
  unfold insertAt
  rw [List.take_append_of_le_length (by rw [List.length_take]; omega), List.take_take, Nat.min_eq_left h]

theorem drop_insertAt_le {L : List (Nat × O)} {n m : Nat} {x : Nat × O} (h : m ≤ n) (hn : n ≤ L.length) : (insertAt L n x).drop m = (L.take n).drop m ++ x :: L.drop n := by
  unfold insertAt
  rw [List.drop_append_of_le_length (by rw [List.length_take]; omega)]

theorem take_insertAt_gt {L : List (Nat × O)} {n m : Nat} {x : Nat × O} (h : n ≤ m) (hm : m ≤ L.length) : (insertAt L n x).take (m + 1) = insertAt (L.take m) n x := by
  unfold insertAt
  rw [List.take_append, List.length_take, Nat.min_eq_left (by omega), List.take_take, List.take_take, Nat.min_eq_right (by omega), Nat.min_eq_left h,
    show m + 1 - n = (m - n) + 1 by omega, List.take_succ_cons, List.take_drop, show n + (m - n) = m by omega]

theorem drop_insertAt_gt {L : List (Nat × O)} {n m : Nat} {x : Nat × O} (h : n ≤ m) (hm : m ≤ L.length) : (insertAt L n x).drop (m + 1) = L.drop m := by
  unfold insertAt
  rw [List.drop_append, List.length_take, Nat.min_eq_left (by omega), List.drop_eq_nil_of_le (by rw [List.length_take]; omega), List.nil_append,
    show m + 1 - n = (m - n) + 1 by omega, List.drop_succ_cons, List.drop_drop, show n + (m - n) = m by omega]

theorem length_insertAt {L : List (Nat × O)} {n : Nat} {x : Nat × O} : (insertAt L n x).length = L.length + 1 := by
  unfold insertAt
  rw [List.length_append, List.length_cons, List.length_take, List.length_drop]
  omega

theorem seqRun_insertAt {exe : O → Prog V} {L : List (Nat × O)} {n i : Nat} {op : O} {s : Sh}
    (h : ((exe op).run (seqRun exe (L.take n) s).2).2 = (seqRun exe (L.take n) s).2) :
    seqRun exe (insertAt L n (i, op)) s =
      ((seqRun exe (L.take n) s).1 ++ (i, op, ((exe op).run (seqRun exe (L.take n) s).2).1) :: (seqRun exe (L.drop n) (seqRun exe (L.take n) s).2).1,
        (seqRun exe L s).2) := by
  unfold insertAt
  rw [seqRun_append]
  show (_ ++ (i, op, _) :: (seqRun exe (L.drop n) ((exe op).run _).2).1, (seqRun exe (L.drop n) ((exe op).run _).2).2) = _
  rw [h]
  congr 1
  have : seqRun exe L s = seqRun exe (L.take n ++ L.drop n) s := by rw [List.take_append_drop]
  rw [this, seqRun_append]

/-! ## the invariant -/

/-- A call about to look at its byte: somewhere in the order, not before any call that had ended when it was started, it would see what it
sees now. -/
def Armed (exe : O → Prog V) (s0 : Sh) (τ : Trace O V) (L : List (Nat × O)) (cut : Nat → Nat) (sh : Sh) (i : Nat) (op : O) (p : Prog V) : Prop :=
  LookA p ∧ (∀ s : Sh, frame s.st.b = frame s0.st.b → s.locked = false → (exe op).run s = p.run s) ∧
    ∃ n, n ≤ L.length ∧ ofThread i (L.drop n) = [] ∧ (∀ k, k < τ.length → (started i (τ.take k)).length ≤ (ofThread i L).length → cut k ≤ n) ∧
      ((exe op).run (seqRun exe (L.take n) s0).2).1 = (p.run sh).1

/-- The part of the order that belongs in front of each moment. -/
def Cuts (τ : Trace O V) (L : List (Nat × O)) (cut : Nat → Nat) : Prop :=
  ∀ k, k < τ.length → cut k ≤ L.length ∧ ∀ i, (finished i (τ.take k)).length ≤ (ofThread i (L.take (cut k))).length ∧
    (ofThread i (L.take (cut k))).length ≤ (started i (τ.take k)).length

/-- Where a goroutine is. -/
inductive Place (exe : O → Prog V) (s0 : Sh) (sh G : Sh) (A : O → Prog V → Prop) (h : Option Nat) (i : Nat) (fin res : List (O × Res V)) :
    Thr O V → Option O → Prop
  | idle : res = fin → h ≠ some i → Place exe s0 sh G A h i fin res .idle none
  | before {op : O} {p : Prog V} : res = fin → Once p → Inc s0.st.b.buf (fun _ _ => True) 0 p →
      (∀ s : Sh, frame s.st.b = frame s0.st.b → p.run s = (exe op).run s) →
      (∀ s : Sh, frame s.st.b = frame s0.st.b → s.locked = false → ((exe op).run s).2.locked = false) → h ≠ some i →
      Place exe s0 sh G A h i fin res (.busy op p) (some op)
  | within {op : O} {p : Prog V} {r : Res V} {n : Nat} : res = fin ++ [(op, r)] → Sec p → Inc s0.st.b.buf (fun _ _ => True) n p → h = some i →
      sh.locked = true → p.run sh = (r, G) → Place exe s0 sh G A h i fin res (.busy op p) none
  | past {op : O} {p : Prog V} {r : Res V} : res = fin ++ [(op, r)] → p.result = some r → h ≠ some i →
      Place exe s0 sh G A h i fin res (.busy op p) none
  | nears {op : O} {p : Prog V} : res = fin → LookB s0.st.b p → (∀ s : Sh, frame s.st.b = frame s0.st.b → p.run s = (exe op).run s) → h ≠ some i →
      Place exe s0 sh G A h i fin res (.busy op p) (some op)
  | looks {op : O} {p : Prog V} : res = fin → LookS s0.st.b p → h = some i → sh = { G with locked := true } →
      (∀ s : Sh, frame s.st.b = frame s0.st.b → s.locked = false → p.run { s with locked := true } = (exe op).run s) →
      Place exe s0 sh G A h i fin res (.busy op p) (some op)
  | waits {op : O} {p : Prog V} : res = fin → OnceO p → (∀ s : Sh, p.run s = (exe op).run s) → h ≠ some i →
      Place exe s0 sh G A h i fin res (.busy op p) (some op)
  | shifts {op : O} {p : Prog V} : res = fin → SecO p → h = some i → sh = { G with locked := true } → p.run sh = (exe op).run G →
      Place exe s0 sh G A h i fin res (.busy op p) (some op)
  | armed {op : O} {p : Prog V} : res = fin → A op p → h ≠ some i → Place exe s0 sh G A h i fin res (.busy op p) (some op)

theorem Place.other {exe : O → Prog V} {s0 sh sh' G G' : Sh} {A A' : O → Prog V → Prop} {h h' : Option Nat} {j : Nat} {fin res : List (O × Res V)}
    {t : Thr O V} {cur : Option O} (w : Place exe s0 sh G A h j fin res t cur) (h1 : h = some j → h' = some j ∧ sh' = sh ∧ G' = G)
    (h2 : h ≠ some j → h' ≠ some j) (ha : ∀ op p, cur = some op → A op p → A' op p) : Place exe s0 sh' G' A' h' j fin res t cur := by
  cases w with
  | idle e n => exact .idle e (h2 n)
  | before e o i r t n => exact .before e o i r t (h2 n)
  | within e s i n l r =>
    obtain ⟨n', es, eg⟩ := h1 n
    subst es eg
    exact .within e s i n' l r
  | past e r n => exact .past e r (h2 n)
  | nears e o r n => exact .nears e o r (h2 n)
  | looks e s n l r =>
    obtain ⟨n', es, eg⟩ := h1 n
    subst es eg
    exact .looks e s n' l r
  | waits e o r n => exact .waits e o r (h2 n)
  | shifts e s n l r =>
    obtain ⟨n', es, eg⟩ := h1 n
    subst es eg
    exact .shifts e s n' l r
  | armed e a n => exact .armed e (ha _ _ rfl a) (h2 n)

structure RInv (exe : O → Prog V) (s0 : Sh) (τ : Trace O V) (c : Conf O V) (L : List (Nat × O)) (cut : Nat → Nat) (cur : Nat → Option O)
    (h : Option Nat) : Prop where
  same : c.sh.st.b = (seqRun exe L s0).2.st.b
  pre : ∀ n, frame (seqRun exe (L.take n) s0).2.st.b = frame s0.st.b ∧ (seqRun exe (L.take n) s0).2.locked = false
  free : h = none → c.sh = (seqRun exe L s0).2
  held : ∀ i, h = some i → c.sh.locked = true
  place : ∀ i, Place exe s0 c.sh (seqRun exe L s0).2 (Armed exe s0 τ L cut c.sh i) h i (finished i τ) (ofThread i (seqRun exe L s0).1) (c.thr i) (cur i)
  starts : ∀ i, started i τ = ofThread i L ++ (cur i).toList
  cuts : Cuts τ L cut

theorem RInv.all {exe : O → Prog V} {s0 : Sh} {τ : Trace O V} {c : Conf O V} {L : List (Nat × O)} {cut : Nat → Nat} {cur : Nat → Option O}
    {h : Option Nat} (v : RInv exe s0 τ c L cut cur h) : frame (seqRun exe L s0).2.st.b = frame s0.st.b ∧ (seqRun exe L s0).2.locked = false := by
  have := v.pre L.length
  rwa [List.take_length] at this

theorem RInv.fields {exe : O → Prog V} {s0 : Sh} {τ : Trace O V} {c : Conf O V} {L : List (Nat × O)} {cut : Nat → Nat} {cur : Nat → Option O}
    {h : Option Nat} (v : RInv exe s0 τ c L cut cur h) : frame c.sh.st.b = frame s0.st.b := by
  rw [v.same]; exact v.all.1

theorem RInv.counts {exe : O → Prog V} {s0 : Sh} {τ : Trace O V} {c : Conf O V} {L : List (Nat × O)} {cut : Nat → Nat} {cur : Nat → Option O}
    {h : Option Nat} (v : RInv exe s0 τ c L cut cur h) (i : Nat) :
    (finished i τ).length ≤ (ofThread i L).length ∧ (ofThread i L).length ≤ (started i τ).length := by
  refine ⟨?_, by rw [v.starts i, List.length_append]; omega⟩
  rw [← ofThread_seqRun_length exe i L s0]
  have w := v.place i
  generalize c.thr i = t at w
  generalize cur i = cu at w
  cases w with
  | idle e => rw [e]; exact Nat.le_refl _
  | before e => rw [e]; exact Nat.le_refl _
  | within e => rw [e, List.length_append]; omega
  | past e => rw [e, List.length_append]; omega
  | nears e => rw [e]; exact Nat.le_refl _
  | looks e => rw [e]; exact Nat.le_refl _
  | waits e => rw [e]; exact Nat.le_refl _
  | shifts e => rw [e]; exact Nat.le_refl _
  | armed e => rw [e]; exact Nat.le_refl _

/-- The next moment: everything in the order belongs in front of it. -/
def cutNow (τ : Trace O V) (L : List (Nat × O)) (cut : Nat → Nat) (k : Nat) : Nat := if k < τ.length then cut k else L.length

theorem RInv.now {exe : O → Prog V} {s0 : Sh} {τ : Trace O V} {c : Conf O V} {L : List (Nat × O)} {cut : Nat → Nat} {cur : Nat → Option O}
    {h : Option Nat} (v : RInv exe s0 τ c L cut cur h) (x : Nat × Act O V) : Cuts (τ ++ [x]) L (cutNow τ L cut) := by
  intro k hk
  rw [List.length_append, List.length_singleton] at hk
  rw [List.take_append_of_le_length (by omega)]
  unfold cutNow
  by_cases hk' : k < τ.length
  · rw [if_pos hk']; exact v.cuts k hk'
  · rw [if_neg hk', show k = τ.length by omega, List.take_length, List.take_length]
    exact ⟨Nat.le_refl _, v.counts⟩

/-- Bytes may change if they change to what they are after the last call in the order. -/
theorem Armed.keep {exe : O → Prog V} {s0 : Sh} {τ : Trace O V} {L : List (Nat × O)} {cut : Nat → Nat} {sh sh' : Sh} {i : Nat} {op : O} {p : Prog V}
    (a : Armed exe s0 τ L cut sh i op p) (hs : (ofThread i L).length < (started i τ).length)
    (hG : frame (seqRun exe L s0).2.st.b = frame s0.st.b ∧ (seqRun exe L s0).2.locked = false) (hc : Cuts τ L cut)
    (hm : ∀ a x : Nat, (sh'.st.mem.array a)[x]? = (sh.st.mem.array a)[x]? ∨ (sh'.st.mem.array a)[x]? = ((seqRun exe L s0).2.st.mem.array a)[x]?)
    (x : Nat × Act O V) : Armed exe s0 (τ ++ [x]) L (cutNow τ L cut) sh' i op p := by
  obtain ⟨hl, hr, n, hn, hd, hw, hv⟩ := a
  obtain ⟨a, y, hb⟩ := hl.byte
  refine ⟨hl, hr, ?_⟩
  rcases hm a y with e | e
  · refine ⟨n, hn, hd, fun k hk hle => ?_, hv.trans (hb _ _ e.symm)⟩
    rw [List.length_append, List.length_singleton] at hk
    rw [List.take_append_of_le_length (by omega)] at hle
    unfold cutNow
    by_cases hk' : k < τ.length
    · rw [if_pos hk']; exact hw k hk' hle
    · rw [show k = τ.length by omega, List.take_length] at hle
      omega
  · refine ⟨L.length, Nat.le_refl _, by rw [List.drop_length]; rfl, fun k hk _ => ?_, ?_⟩
    · unfold cutNow
      split
      · rename_i hk'; exact (hc k hk').1
      · exact Nat.le_refl _
    · rw [List.take_length, hr _ hG.1 hG.2]
      exact hb _ _ e.symm

theorem Armed.append {exe : O → Prog V} {s0 : Sh} {τ : Trace O V} {L : List (Nat × O)} {cut : Nat → Nat} {sh : Sh} {i : Nat} {op : O} {p : Prog V}
    (a : Armed exe s0 τ L cut sh i op p) {j : Nat} (hj : j ≠ i) (oj : O) : Armed exe s0 τ (L ++ [(j, oj)]) cut sh i op p := by
  obtain ⟨hl, hr, n, hn, hd, hw, hv⟩ := a
  refine ⟨hl, hr, n, by rw [List.length_append]; omega, ?_, fun k hk hle => hw k hk ?_, ?_⟩
  · rw [List.drop_append_of_le_length hn, ofThread_snoc, if_neg hj]; exact hd
  · rwa [ofThread_snoc, if_neg hj] at hle
  · rw [List.take_append_of_le_length hn]; exact hv

theorem Armed.insert {exe : O → Prog V} {s0 : Sh} {τ : Trace O V} {L : List (Nat × O)} {cut : Nat → Nat} {sh : Sh} {i : Nat} {op : O} {p : Prog V}
    (a : Armed exe s0 τ L cut sh i op p) {j : Nat} (hj : j ≠ i) {oj : O} {m : Nat} (hm : m ≤ L.length)
    (hp : ((exe oj).run (seqRun exe (L.take m) s0).2).2 = (seqRun exe (L.take m) s0).2) :
    Armed exe s0 τ (insertAt L m (j, oj)) (fun k => if m < cut k then cut k + 1 else cut k) sh i op p := by
  obtain ⟨hl, hr, n, hn, hd, hw, hv⟩ := a
  refine ⟨hl, hr, ?_⟩
  by_cases h : m < n
  · refine ⟨n + 1, by rw [length_insertAt]; omega, ?_, fun k hk hle => ?_, ?_⟩
    · rw [drop_insertAt_gt (by omega) hn]; exact hd
    · rw [ofThread_insertAt_other hj] at hle
      have := hw k hk hle
      dsimp only
      split <;> omega
    · rw [take_insertAt_gt (by omega) hn]
      have e : (L.take n).take m = L.take m := by rw [List.take_take, Nat.min_eq_left (by omega)]
      rw [seqRun_insertAt (by rw [e]; exact hp)]
      exact hv
  · refine ⟨n, by rw [length_insertAt]; omega, ?_, fun k hk hle => ?_, ?_⟩
    · rw [drop_insertAt_le (by omega) hm, ofThread_append, ofThread_cons, if_neg hj, List.nil_append, ← ofThread_append]
      have : List.drop n (List.take m L) ++ List.drop m L = List.drop n L := by
        conv => rhs; rw [← List.take_append_drop m L]
        rw [List.drop_append_of_le_length (by rw [List.length_take]; omega)]
      rw [this]; exact hd
    · rw [ofThread_insertAt_other hj] at hle
      have := hw k hk hle
      dsimp only
      split <;> omega
    · rw [take_insertAt_le (by omega) hm]; exact hv

theorem Cuts.append {τ : Trace O V} {L : List (Nat × O)} {cut : Nat → Nat} (h : Cuts τ L cut) (x : Nat × O) : Cuts τ (L ++ [x]) cut := by
  intro k hk
  obtain ⟨h1, h2⟩ := h k hk
  rw [List.take_append_of_le_length h1]
  exact ⟨by rw [List.length_append]; omega, h2⟩

theorem Cuts.insert {τ : Trace O V} {L : List (Nat × O)} {cut : Nat → Nat} (h : Cuts τ L cut) {i : Nat} {op : O} {n : Nat} (hn : n ≤ L.length)
    (hw : ∀ k, k < τ.length → (started i (τ.take k)).length ≤ (ofThread i L).length → cut k ≤ n) :
    Cuts τ (insertAt L n (i, op)) (fun k => if n < cut k then cut k + 1 else cut k) := by
  intro k hk
  obtain ⟨h1, h2⟩ := h k hk
  dsimp only
  rw [length_insertAt]
  by_cases hc : n < cut k
  · rw [if_pos hc]
    refine ⟨by omega, fun j => ?_⟩
    rw [take_insertAt_gt (by omega) h1]
    obtain ⟨h3, h4⟩ := h2 j
    by_cases hj : i = j
    · subst hj
      have hs : (ofThread i L).length < (started i (τ.take k)).length := by
        rcases Nat.lt_or_ge (ofThread i L).length (started i (τ.take k)).length with hh | hh
        · exact hh
        · exact absurd (hw k hk hh) (by omega)
      have e : (ofThread i (insertAt (L.take (cut k)) n (i, op))).length = (ofThread i (L.take (cut k))).length + 1 := by
        unfold insertAt
        rw [ofThread_append, ofThread_cons, if_pos rfl, List.length_append, List.length_append]
        have : ofThread i (L.take (cut k)) = ofThread i ((L.take (cut k)).take n) ++ ofThread i ((L.take (cut k)).drop n) := by
          rw [← ofThread_append, List.take_append_drop]
        rw [this, List.length_append]
        simp; omega
      have hle : (ofThread i (L.take (cut k))).length ≤ (ofThread i L).length := by
        conv => rhs; rw [← List.take_append_drop (cut k) L, ofThread_append, List.length_append]
        omega
      rw [e]
      omega
    · rw [ofThread_insertAt_other hj]
      exact ⟨h3, h4⟩
  · rw [if_neg hc, take_insertAt_le (by omega) hn]
    exact ⟨by omega, h2⟩

theorem RInv.started_lt {exe : O → Prog V} {s0 : Sh} {τ : Trace O V} {c : Conf O V} {L : List (Nat × O)} {cut : Nat → Nat} {cur : Nat → Option O}
    {h : Option Nat} (v : RInv exe s0 τ c L cut cur h) {i : Nat} {op : O} (hc : cur i = some op) :
    (ofThread i L).length < (started i τ).length := by
  rw [v.starts i, hc, List.length_append]
  exact Nat.lt_succ_self _

/-- A step that leaves the order as it is. -/
theorem RInv.stay {exe : O → Prog V} {s0 : Sh} {τ : Trace O V} {c : Conf O V} {L : List (Nat × O)} {cut : Nat → Nat} {cur : Nat → Option O}
    {h : Option Nat} (v : RInv exe s0 τ c L cut cur h) {i : Nat} {x : Act O V} {t : Thr O V} {sh' : Sh} {h' : Option Nat} {cu : Option O}
    (hb : sh'.st.b = (seqRun exe L s0).2.st.b) (hfree : h' = none → sh' = (seqRun exe L s0).2) (hheld : ∀ j, h' = some j → sh'.locked = true)
    (hm : ∀ a x : Nat, (sh'.st.mem.array a)[x]? = (c.sh.st.mem.array a)[x]? ∨ (sh'.st.mem.array a)[x]? = ((seqRun exe L s0).2.st.mem.array a)[x]?)
    (hs : ∀ j, started j (τ ++ [(i, x)]) = ofThread j L ++ (if j = i then cu else cur j).toList)
    (hf : ∀ j, j ≠ i → finished j (τ ++ [(i, x)]) = finished j τ)
    (h1 : ∀ j, j ≠ i → h = some j → h' = some j ∧ sh' = c.sh) (h2 : ∀ j, j ≠ i → h ≠ some j → h' ≠ some j)
    (hp : Place exe s0 sh' (seqRun exe L s0).2 (Armed exe s0 (τ ++ [(i, x)]) L (cutNow τ L cut) sh' i) h' i (finished i (τ ++ [(i, x)]))
      (ofThread i (seqRun exe L s0).1) t cu) :
    RInv exe s0 (τ ++ [(i, x)]) (c.set i t sh') L (cutNow τ L cut) (fun j => if j = i then cu else cur j) h' := by
  refine ⟨hb, v.pre, hfree, hheld, fun j => ?_, hs, v.now _⟩
  rw [set_thr]
  by_cases hj : j = i
  · subst hj
    rw [if_pos rfl, if_pos rfl]
    exact hp
  · rw [if_neg hj, if_neg hj, hf j hj]
    refine (v.place j).other (fun hh => ⟨(h1 j hj hh).1, (h1 j hj hh).2, rfl⟩) (h2 j hj) fun op p hc a => ?_
    exact a.keep (v.started_lt hc) v.all v.cuts hm _

/-- A step at which a call that changes nothing gets its place in the order. -/
theorem RInv.put {exe : O → Prog V} {s0 : Sh} {τ : Trace O V} {c : Conf O V} {L : List (Nat × O)} {cut : Nat → Nat} {cur : Nat → Option O}
    {h : Option Nat} (v : RInv exe s0 τ c L cut cur h) {i : Nat} {op : O} {x : Act O V} {t : Thr O V} {r : Res V} {n : Nat}
    (hcur : cur i = some op) (hres : ofThread i (seqRun exe L s0).1 = finished i τ) (hn : n ≤ L.length) (hd : ofThread i (L.drop n) = [])
    (hw : ∀ k, k < τ.length → (started i (τ.take k)).length ≤ (ofThread i L).length → cut k ≤ n)
    (hrun : (exe op).run (seqRun exe (L.take n) s0).2 = (r, (seqRun exe (L.take n) s0).2))
    (hs : ∀ j, started j (τ ++ [(i, x)]) = started j τ) (hf : ∀ j, j ≠ i → finished j (τ ++ [(i, x)]) = finished j τ)
    (hp : ∀ A, Place exe s0 c.sh (seqRun exe L s0).2 A h i (finished i (τ ++ [(i, x)])) (finished i τ ++ [(op, r)]) t none) :
    RInv exe s0 (τ ++ [(i, x)]) (c.set i t c.sh) (insertAt L n (i, op)) (fun k => if n < cutNow τ L cut k then cutNow τ L cut k + 1 else cutNow τ L cut k)
      (fun j => if j = i then none else cur j) h := by
  have hpure : ((exe op).run (seqRun exe (L.take n) s0).2).2 = (seqRun exe (L.take n) s0).2 := congrArg Prod.snd hrun
  have e := seqRun_insertAt (i := i) hpure
  have e0 : (seqRun exe L s0).1 = (seqRun exe (L.take n) s0).1 ++ (seqRun exe (L.drop n) (seqRun exe (L.take n) s0).2).1 := by
    have := seqRun_append exe (L.take n) (L.drop n) s0
    rw [List.take_append_drop] at this
    rw [this]
  have ej : ∀ j, j ≠ i → ofThread j (seqRun exe (insertAt L n (i, op)) s0).1 = ofThread j (seqRun exe L s0).1 := by
    intro j hj
    rw [e, e0]
    show ofThread j (_ ++ _ :: _) = _
    rw [ofThread_append, ofThread_append, ofThread_cons, if_neg fun hh => hj hh.symm, List.nil_append]
  have ei : ofThread i (seqRun exe (insertAt L n (i, op)) s0).1 = finished i τ ++ [(op, r)] := by
    rw [← hres, e, e0, hrun]
    show ofThread i (_ ++ _ :: _) = _
    rw [ofThread_append, ofThread_append, ofThread_cons, if_pos rfl, ofThread_seqRun_nil _ hd, List.append_nil, List.append_nil]
  have eG : (seqRun exe (insertAt L n (i, op)) s0).2 = (seqRun exe L s0).2 := by rw [e]
  have hw' : ∀ k, k < (τ ++ [(i, x)]).length → (started i ((τ ++ [(i, x)]).take k)).length ≤ (ofThread i L).length → cutNow τ L cut k ≤ n := by
    intro k hk hle
    rw [List.length_append, List.length_singleton] at hk
    rw [List.take_append_of_le_length (by omega)] at hle
    unfold cutNow
    by_cases hk' : k < τ.length
    · rw [if_pos hk']; exact hw k hk' hle
    · rw [show k = τ.length by omega, List.take_length] at hle
      have := v.started_lt hcur
      omega
  refine ⟨by rw [eG]; exact v.same, fun m => ?_, by rw [eG]; exact v.free, v.held, fun j => ?_, fun j => ?_, (v.now _).insert hn hw'⟩
  · rcases Nat.lt_or_ge n m with hm | hm
    · rcases Nat.lt_or_ge L.length m with hl | hl
      · rw [List.take_of_length_le (by rw [length_insertAt]; omega), eG]
        exact v.all
      · obtain ⟨m, rfl⟩ : ∃ q, m = q + 1 := ⟨m - 1, by omega⟩
        rw [take_insertAt_gt (by omega) (by omega), seqRun_insertAt (by rw [List.take_take, Nat.min_eq_left (by omega)]; exact hpure)]
        exact v.pre m
    · rw [take_insertAt_le hm hn]; exact v.pre m
  · rw [set_thr, eG]
    by_cases hj : j = i
    · subst hj
      rw [if_pos rfl, if_pos rfl, ei]
      exact hp _
    · rw [if_neg hj, if_neg hj, hf j hj, ej j hj]
      refine (v.place j).other (fun hh => ⟨hh, rfl, rfl⟩) (fun hh => hh) fun o p hc a => ?_
      exact (a.keep (v.started_lt hc) v.all v.cuts (fun _ _ => .inl rfl) _).insert (fun hh => hj hh.symm) hn hpure
  · rw [hs]
    by_cases hj : j = i
    · subst hj
      rw [if_pos rfl, ofThread_insertAt_self hd, v.starts j, hcur]
      exact (List.append_nil _).symm
    · rw [if_neg hj, ofThread_insertAt_other fun hh => hj hh.symm]
      exact v.starts j

/-- What is asked of the calls. -/
def Mixed (exe : O → Prog V) (s0 : Sh) (op : O) : Prop :=
  (Once (exe op) ∧ Inc s0.st.b.buf (fun _ _ => True) 0 (exe op) ∧
    ∀ s : Sh, frame s.st.b = frame s0.st.b → s.locked = false → ((exe op).run s).2.locked = false) ∨ LookB s0.st.b (exe op) ∨ OnceO (exe op)

/-- A step at which a call that may change something gets its place, the last, in the order. -/
theorem RInv.push {exe : O → Prog V} {s0 : Sh} {τ : Trace O V} {c : Conf O V} {L : List (Nat × O)} {cut : Nat → Nat} {cur : Nat → Option O}
    {h : Option Nat} (v : RInv exe s0 τ c L cut cur h) {i : Nat} {op : O} {x : Act O V} {p' : Prog V} {sh' : Sh} {n : Nat}
    (hcur : cur i = some op) (hres : ofThread i (seqRun exe L s0).1 = finished i τ) (hh : h = none ∨ h = some i)
    (hs : ∀ j, started j (τ ++ [(i, x)]) = started j τ) (hf : ∀ j, finished j (τ ++ [(i, x)]) = finished j τ)
    (eq : (exe op).run (seqRun exe L s0).2 = p'.run sh') (hl : sh'.locked = true) (hm : sh'.st.mem = c.sh.st.mem) (hb : frame sh'.st.b = frame s0.st.b)
    (hsec : Sec p') (hin : Inc s0.st.b.buf (fun _ _ => True) n p') (ht : ((exe op).run (seqRun exe L s0).2).2.locked = false) :
    RInv exe s0 (τ ++ [(i, x)]) (c.set i (.busy op p') sh') (L ++ [(i, op)]) (cutNow τ L cut) (fun j => if j = i then none else cur j) (some i) := by
  have eG : seqRun exe (L ++ [(i, op)]) s0 = ((seqRun exe L s0).1 ++ [(i, op, (p'.run sh').1)], (p'.run sh').2) := by rw [seqRun_snoc, eq]
  refine ⟨?_, fun m => ?_, fun hx => (nomatch hx), fun _ _ => hl, fun j => ?_, fun j => ?_, (v.now _).append _⟩
  · rw [eG]
    exact (hin.run_b hsec sh' (frame_buf hb)).symm
  · rcases Nat.lt_or_ge L.length m with hm' | hm'
    · rw [List.take_of_length_le (by rw [List.length_append, List.length_singleton]; omega), seqRun_snoc]
      refine ⟨?_, ht⟩
      rw [eq]
      exact (hsec.run_b _).trans hb
    · rw [List.take_append_of_le_length hm']
      exact v.pre m
  · rw [eG, hf, set_thr]
    show Place _ _ _ _ _ _ _ _ (ofThread j (_ ++ [(i, op, _)])) _ _
    rw [ofThread_snoc]
    by_cases hj : j = i
    · subst hj
      rw [if_pos rfl, if_pos rfl, if_pos rfl]
      exact .within (by rw [hres]; rfl) hsec hin rfl hl rfl
    · rw [if_neg hj, if_neg hj, if_neg (fun hh => hj hh.symm)]
      have hnj : h ≠ some j := by
        rcases hh with hh | hh <;> rw [hh]
        · exact fun hx => nomatch hx
        · exact fun hx => hj (Option.some.inj hx).symm
      refine (v.place j).other (fun hx => absurd hx hnj) (fun _ hx => hj (Option.some.inj hx).symm) fun o p hc a => ?_
      exact (a.keep (sh' := sh') (v.started_lt hc) v.all v.cuts (fun _ _ => .inl (by rw [hm])) _).append (fun hh => hj hh.symm) op
  · rw [hs, v.starts j, ofThread_snoc]
    by_cases hj : j = i
    · subst hj
      rw [if_pos rfl, if_pos rfl, hcur]; simp
    · rw [if_neg hj, if_neg (fun hh => hj hh.symm)]

theorem RInv.step {exe : O → Prog V} {allowed : O → Prop} {s0 : Sh} (hex : ∀ op, allowed op → Mixed exe s0 op) {τ : Trace O V} {c c' : Conf O V}
    {L : List (Nat × O)} {cut : Nat → Nat} {cur : Nat → Option O} {h : Option Nat} (v : RInv exe s0 τ c L cut cur h) {i : Nat} {x : Act O V}
    (st : Step exe allowed c i x c') : ∃ L' cut' cur' h', RInv exe s0 (τ ++ [(i, x)]) c' L' cut' cur' h' := by
  have w := v.place i
  have hnone : c.sh.locked = false → h = none := by
    intro hl
    cases hh : h with
    | none => rfl
    | some j => have := v.held j hh; rw [hl] at this; exact nomatch this
  cases st with
  | start op hi hop =>
    rw [hi] at w
    generalize hcur : cur i = cu at w
    cases w with
    | idle e hn =>
      have hs : ∀ j, started j (τ ++ [(i, .start op)]) = ofThread j L ++ (if j = i then some op else cur j).toList := by
        intro j
        rw [started_snoc, v.starts j]
        show _ ++ (if i = j then [op] else []) = _
        by_cases hj : j = i
        · subst hj
          rw [if_pos rfl, if_pos rfl, hcur]; simp
        · rw [if_neg hj, if_neg (fun hh => hj hh.symm), List.append_nil]
      have hf : ∀ j, finished j (τ ++ [(i, .start op)]) = finished j τ := fun j => by rw [finished_snoc]; exact List.append_nil _
      refine ⟨_, _, _, _, v.stay (cu := some op) (h' := h) v.same v.free v.held (fun _ _ => .inl rfl) hs (fun j _ => hf j)
        (fun _ _ hh => ⟨hh, rfl⟩) (fun _ _ hh => hh) ?_⟩
      rw [hf]
      rcases hex op hop with ⟨ho, hi, ht⟩ | hl | hl
      · exact .before e ho hi (fun _ _ => rfl) ht hn
      · exact .nears e hl (fun _ _ => rfl) hn
      · exact .waits e hl (fun _ => rfl) hn
  | @finish op p r hi hr =>
    rw [hi] at w
    generalize hcur : cur i = cu at w
    have hs : ∀ j, started j (τ ++ [(i, .finish op r)]) = started j τ := fun j => by rw [started_snoc]; exact List.append_nil _
    have ef : ∀ j, finished j (τ ++ [(i, .finish op r)]) = if i = j then finished j τ ++ [(op, r)] else finished j τ := fun j => by
      rw [finished_snoc]
      show _ ++ (if i = j then _ else _) = _
      split <;> first | rfl | exact List.append_nil _
    have hf : ∀ j, j ≠ i → finished j (τ ++ [(i, .finish op r)]) = finished j τ := fun j hj => by rw [ef, if_neg fun hh => hj hh.symm]
    have hfi : finished i (τ ++ [(i, .finish op r)]) = finished i τ ++ [(op, r)] := by rw [ef, if_pos rfl]
    have atEnd : ofThread i (seqRun exe L s0).1 = finished i τ → cur i = some op → h ≠ some i →
        (∀ s : Sh, frame s.st.b = frame s0.st.b → p.run s = (exe op).run s) →
        ∃ L' cut' cur' h', RInv exe s0 (τ ++ [(i, .finish op r)]) (c.set i .idle c.sh) L' cut' cur' h' := by
      intro e hc hn er
      refine ⟨_, _, _, _, v.put (r := r) (n := L.length) hc e (Nat.le_refl _) (by rw [List.drop_length]; rfl) (fun k hk _ => (v.cuts k hk).1) ?_ hs hf
        fun A => by rw [hfi]; exact .idle rfl hn⟩
      rw [List.take_length, ← er _ v.all.1, run_result hr]
    cases w with
    | before e ho hin er ht hn => exact atEnd e hcur hn er
    | nears e hb er hn => exact atEnd e hcur hn er
    | @within _ _ r' n e hsec hin hh hl er =>
      have : (r, c.sh) = (r', (seqRun exe L s0).2) := by rw [← er]; exact (run_result hr _).symm
      have e1 : c.sh = (seqRun exe L s0).2 := congrArg Prod.snd this
      have := v.all.2
      rw [← e1, hl] at this
      exact nomatch this
    | @past _ _ r' e er hn =>
      have : r' = r := Option.some.inj (er.symm.trans hr)
      subst this
      refine ⟨_, _, _, _, v.stay (cu := none) (h' := h) v.same v.free v.held (fun _ _ => .inl rfl) (fun j => ?_) hf
        (fun _ _ hh => ⟨hh, rfl⟩) (fun _ _ hh => hh) ?_⟩
      · rw [hs, v.starts j]
        by_cases hj : j = i
        · subst hj; rw [if_pos rfl, hcur]
        · rw [if_neg hj]
      · rw [hfi]; exact .idle e hn
    | looks e hl hh er =>
      exfalso
      cases p <;> first | exact hl | (cases hr; done)
    | waits e ho er hn =>
      exfalso
      cases p <;> first | exact ho | (cases hr; done)
    | shifts e hs' hh eG er => exact (hs'.noResult hr).elim
    | armed e a hn =>
      obtain ⟨hl, hrun, n, hn', hd, hw, hv⟩ := a
      refine ⟨_, _, _, _, v.put (r := r) hcur e hn' hd hw ?_ hs hf fun A => by rw [hfi]; exact .idle rfl hn⟩
      have e1 := hrun _ (v.pre n).1 (v.pre n).2
      rw [e1, run_result hr]
  | @did op p p' ev sh hi hst =>
    rw [hi] at w
    generalize hcur : cur i = cu at w
    have es : ∀ j, started j (τ ++ [(i, .did ev p')]) = started j τ := fun j => by rw [started_snoc]; exact List.append_nil _
    have ef : ∀ j, finished j (τ ++ [(i, .did ev p')]) = finished j τ := fun j => by rw [finished_snoc]; exact List.append_nil _
    have hf : ∀ j, j ≠ i → finished j (τ ++ [(i, .did ev p')]) = finished j τ := fun j _ => ef j
    have hs : ∀ j, started j (τ ++ [(i, .did ev p')]) = ofThread j L ++ (if j = i then cu else cur j).toList := by
      intro j
      rw [es, v.starts j]
      by_cases hj : j = i
      · subst hj; rw [if_pos rfl, hcur]
      · rw [if_neg hj]
    cases w with
    | before e ho hin er ht hn =>
      have hin' := hin.once ho c.sh (frame_buf v.fields) hst
      rcases ho.cases _ c.sh v.fields hst with ⟨h1, h2, h3, h4⟩ | ⟨h1, h2, h3, h4, h5⟩
      · subst h1 h2
        refine ⟨_, _, _, _, v.stay (cu := some op) (h' := h) v.same v.free v.held (fun _ _ => .inl rfl) hs hf
          (fun _ _ hh => ⟨hh, rfl⟩) (fun _ _ hh => hh) ?_⟩
        rw [ef]
        exact .before e h3 hin' (fun s hb => (h4 s hb).trans (er s hb)) ht hn
      · subst h1 h3
        have hno := hnone h2
        have eG0 := v.free hno
        have eq : (exe op).run (seqRun exe L s0).2 = p'.run { c.sh with locked := true } := by
          rw [← er _ v.all.1, ← eG0]; exact h5 _ h2
        exact ⟨_, _, _, _, v.push (sh' := { c.sh with locked := true }) hcur e (.inl hno) es ef eq rfl rfl v.fields h4 hin' (ht _ v.all.1 v.all.2)⟩
    | waits e ho er hn =>
      cases p with
      | lock k =>
        change (if c.sh.locked = true then none else some (Event.lock, k, (⟨c.sh.st, true⟩ : Sh))) = _ at hst
        split at hst
        · exact nomatch hst
        · rename_i hlk
          cases hst
          have hlk : c.sh.locked = false := by simpa using hlk
          have hno := hnone hlk
          have eG0 := v.free hno
          refine ⟨_, _, _, _, v.stay (cu := some op) (h' := some i) v.same (fun hh => (nomatch hh)) (fun _ _ => rfl) (fun _ _ => .inl rfl) hs hf
            (fun j _ hh => by rw [hno] at hh; exact nomatch hh) (fun j hj _ hh => hj (Option.some.inj hh).symm) ?_⟩
          rw [ef]
          refine .shifts e ho rfl (by rw [← eG0]) ?_
          rw [← er, ← eG0]
          show _ = (if c.sh.locked = true then _ else _)
          rw [hlk]
          rfl
      | _ => exact ho.elim
    | shifts e hsec hh eG er =>
      have hlk : c.sh.locked = true := by rw [eG]
      rcases hsec.cases c.sh hst with ⟨h2, h3, h4⟩ | ⟨h1, h2, h3, k, rfl, h5, h6⟩
      · subst h2
        refine ⟨_, _, _, _, v.stay (cu := some op) (h' := h) v.same v.free v.held (fun _ _ => .inl rfl) hs hf
          (fun _ _ hh => ⟨hh, rfl⟩) (fun _ _ hh => hh) ?_⟩
        rw [ef]
        exact .shifts e h3 hh eG (h4.trans er)
      · obtain ⟨r, hr⟩ := Option.isSome_iff_exists.mp h5
        have hin : Inc s0.st.b.buf (fun _ _ => True) 0 (Prog.unlock k) := by
          cases k <;> first | trivial | (cases hr; done)
        refine ⟨_, _, _, _, v.push hcur e (.inr hh) es ef (er.symm.trans h6) (h3.trans hlk) h2 (h1.trans v.fields) h5 hin ?_⟩
        rw [← er, h6]
        show (k.run ⟨sh.st, false⟩).2.locked = false
        rw [run_result hr]
    | nears e hb er hn =>
      rcases hb.cases c.sh v.fields hst with ⟨h2, h3, h4⟩ | ⟨h2, r, h3, h4⟩ | ⟨h2, h3, h4, h5⟩
      · subst h2
        refine ⟨_, _, _, _, v.stay (cu := some op) (h' := h) v.same v.free v.held (fun _ _ => .inl rfl) hs hf
          (fun _ _ hh => ⟨hh, rfl⟩) (fun _ _ hh => hh) ?_⟩
        rw [ef]
        exact .nears e h3 (fun s hb => (h4 s hb).trans (er s hb)) hn
      · subst h2
        refine ⟨_, _, _, _, v.put (r := r) (n := L.length) hcur e (Nat.le_refl _) (by rw [List.drop_length]; rfl) (fun k hk _ => (v.cuts k hk).1) ?_ es hf
          fun A => by rw [ef]; exact .past rfl h3 hn⟩
        rw [List.take_length, ← er _ v.all.1]
        exact h4 _ v.same.symm
      · subst h3
        have hno := hnone h2
        have eG0 := v.free hno
        refine ⟨_, _, _, _, v.stay (cu := some op) (h' := some i) v.same (fun hh => (nomatch hh)) (fun _ _ => rfl) (fun _ _ => .inl rfl) hs hf
          (fun j _ hh => by rw [hno] at hh; exact nomatch hh) (fun j hj _ hh => hj (Option.some.inj hh).symm) ?_⟩
        rw [ef]
        refine .looks e h4 rfl (by rw [← eG0]) fun s hb hl => ?_
        rw [← er s hb, h5 s hl]
    | @within _ _ r n e hsec hin hh hl er =>
      obtain ⟨hbb, n', hin', hsame⟩ := hin.step hsec c.sh (frame_buf v.fields) hst
      rcases hsec.cases c.sh hst with ⟨h1, h2, h3, h4, h5⟩ | ⟨h1, h2, r', h3, h4⟩
      · refine ⟨_, _, _, _, v.stay (cu := none) (h' := h) (hbb.trans v.same) (fun hx => by rw [hh] at hx; exact nomatch hx)
          (fun j hj => h5.trans hl) (fun a y => ?_) hs hf (fun j hj hx => absurd (Option.some.inj (hh.symm.trans hx)).symm hj)
          (fun _ _ hx => hx) ?_⟩
        · rcases Nat.lt_or_ge y n' with hy | hy
          · right
            have := hin'.keep h2 sh (frame_buf (h4.trans v.fields)) a hy
            rw [← h3, er] at this
            exact this.symm
          · exact .inl (hsame a y hy)
        · rw [ef]
          exact .within e h2 hin' hh (h5.trans hl) (h3.symm.trans er)
      · have : (r', sh) = (r, (seqRun exe L s0).2) := h4.symm.trans er
        have e1 := (Prod.mk.inj this).1
        have e2 := (Prod.mk.inj this).2
        refine ⟨_, _, _, _, v.stay (cu := none) (h' := none) (by rw [← v.same, h2]) (fun _ => e2)
          (fun j hj => (nomatch hj)) (fun a y => .inl (by rw [h2])) hs hf (fun j hj hx => absurd (Option.some.inj (hh.symm.trans hx)).symm hj)
          (fun _ _ _ hx => nomatch hx) ?_⟩
        rw [ef]
        exact .past e (h3.trans (by rw [e1])) fun hx => nomatch hx
    | past e er hn =>
      rw [result_step er] at hst
      exact nomatch hst
    | looks e hl hh eG er =>
      rcases hl.cases c.sh v.fields hst with ⟨h2, h3, h4⟩ | ⟨h1, h2, h3, h4⟩
      · subst h2
        refine ⟨_, _, _, _, v.stay (cu := some op) (h' := h) v.same v.free v.held (fun _ _ => .inl rfl) hs hf
          (fun _ _ hh => ⟨hh, rfl⟩) (fun _ _ hh => hh) ?_⟩
        rw [ef]
        exact .looks e h3 hh eG fun s hb hl => (h4 { s with locked := true } hb).trans (er s hb hl)
      · have e2 : sh = (seqRun exe L s0).2 := by
          rw [h2, eG]
          have := v.all.2
          generalize (seqRun exe L s0).2 = g at this
          obtain ⟨st, l⟩ := g
          cases this
          rfl
        refine ⟨_, _, _, _, v.stay (cu := some op) (h' := none) (by rw [← v.same, h2]) (fun _ => e2)
          (fun j hj => (nomatch hj)) (fun a y => .inl (by rw [h2])) hs hf (fun j hj hx => absurd (Option.some.inj (hh.symm.trans hx)).symm hj)
          (fun _ _ _ hx => nomatch hx) ?_⟩
        rw [ef]
        have hrun : ∀ s : Sh, frame s.st.b = frame s0.st.b → s.locked = false → (exe op).run s = p'.run s := by
          intro s hb hl
          rw [← er s hb hl, h4]
          obtain ⟨st, l⟩ := s
          cases hl
          rfl
        refine .armed e ⟨h3, hrun, L.length, Nat.le_refl _, by rw [List.drop_length]; rfl, fun k hk _ => ?_, ?_⟩ fun hx => nomatch hx
        · exact (v.now _ k hk).1
        · rw [List.take_length, hrun _ v.all.1 v.all.2, e2]
    | armed e a hn =>
      obtain ⟨hl, hrun, n, hn', hd, hw, hv⟩ := a
      obtain ⟨h1, h2, r, h3, h4⟩ := hl.cases c.sh hst
      subst h1 h2
      refine ⟨_, _, _, _, v.put (r := r) hcur e hn' hd hw ?_ es hf fun A => by rw [ef]; exact .past rfl h3 hn⟩
      have e1 := hrun _ (v.pre n).1 (v.pre n).2
      refine Prod.ext (hv.trans h4) ?_
      rw [e1, hl.run]

theorem RInv.init {exe : O → Prog V} {c : Conf O V} (q : Quiet c) : RInv exe c.sh [] c [] (fun _ => 0) (fun _ => none) none :=
  ⟨rfl, fun n => by rw [List.take_nil]; exact ⟨rfl, q.free⟩, fun _ => rfl, fun _ h => (nomatch h),
    fun i => (by rw [q.idle i]; exact .idle rfl fun h => nomatch h), fun _ => rfl, fun _ h => absurd h (Nat.not_lt_zero _)⟩

theorem linear_of_mixed {exe : O → Prog V} {allowed : O → Prop} {c0 c : Conf O V} {τ : Trace O V} (q : Quiet c0)
    (hex : ∀ op, allowed op → Mixed exe c0.sh op) (e : Exec exe allowed c0 τ c) : Linear exe c0 τ c := by
  have key : ∃ L cut cur h, RInv exe c0.sh τ c L cut cur h := by
    induction e with
    | nil => exact ⟨_, _, _, _, RInv.init q⟩
    | snoc _ st ih =>
      obtain ⟨L, cut, cur, h, v⟩ := ih
      exact v.step hex st
  obtain ⟨L, cut, cur, h, v⟩ := key
  refine ⟨L, fun i => ?_, fun i => ⟨(cur i).toList, v.starts i, ?_, fun hi => ?_⟩, fun hi => v.free ?_, fun τ1 τ2 hτ => ?_⟩
  · have w := v.place i
    generalize c.thr i = t at w
    generalize cur i = cu at w
    cases w with
    | idle e => exact ⟨[], by rw [e, List.append_nil], Nat.zero_le _, fun _ => rfl⟩
    | before e => exact ⟨[], by rw [e, List.append_nil], Nat.zero_le _, fun _ => rfl⟩
    | within e => exact ⟨_, e, Nat.le_refl _, fun h => nomatch h⟩
    | past e => exact ⟨_, e, Nat.le_refl _, fun h => nomatch h⟩
    | nears e => exact ⟨[], by rw [e, List.append_nil], Nat.zero_le _, fun _ => rfl⟩
    | looks e => exact ⟨[], by rw [e, List.append_nil], Nat.zero_le _, fun _ => rfl⟩
    | waits e => exact ⟨[], by rw [e, List.append_nil], Nat.zero_le _, fun _ => rfl⟩
    | shifts e => exact ⟨[], by rw [e, List.append_nil], Nat.zero_le _, fun _ => rfl⟩
    | armed e => exact ⟨[], by rw [e, List.append_nil], Nat.zero_le _, fun _ => rfl⟩
  · cases cur i <;> simp
  · have w := v.place i
    rw [hi] at w
    generalize cur i = cu at w
    cases w with
    | idle => rfl
  · cases hh : h with
    | none => rfl
    | some i =>
      have w := v.place i
      rw [hi i] at w
      generalize cur i = cu at w
      cases w with
      | idle _ hn => exact absurd hh hn
  · rcases Nat.lt_or_ge τ1.length τ.length with hk | hk
    · obtain ⟨h1, h2⟩ := v.cuts _ hk
      refine ⟨L.take (cut τ1.length), L.drop (cut τ1.length), (List.take_append_drop _ _).symm, fun i => ?_⟩
      have := h2 i
      rwa [hτ, List.take_append_of_le_length (Nat.le_refl _), List.take_length] at this
    · have : τ2 = [] := by
        rw [hτ, List.length_append] at hk
        exact List.eq_nil_of_length_eq_zero (by omega)
      subst this
      rw [List.append_nil] at hτ
      subst hτ
      exact ⟨L, [], (List.append_nil _).symm, v.counts⟩

end Crunch
