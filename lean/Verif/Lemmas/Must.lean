import Verif.Lemmas.Touch

/-! Programs that come to an access of a place whenever they succeed. -/

namespace Crunch
open V3 (Buf)

variable {G : Buf → Prop} {l : Loc}

/-- While the fields are as `G` says, no way to the end misses a change of `l`. -/
def Must (G : Buf → Prop) (l : Loc) : Prog α → Prop
  | .ret _ => False
  | .panic _ => True
  | .getI f k => ∀ b, G b → Must G l (k (f.get b))
  | .setI f v k => l = .field f ∨ (∀ b, G b → G (f.set b v)) ∧ Must G l k
  | .getBuf k => ∀ b, G b → Must G l (k b.buf)
  | .setBuf t k => l = .header ∨ (∀ b, G b → G { b with buf := t }) ∧ Must G l k
  | .load _ _ k => ∀ v, Must G l (k v)
  | .store t i _ k => l = .byte t.arr (t.off + i) ∨ Must G l k
  | .append _ _ k => ∀ r, Must G l (k r)
  | .alloc _ _ k => ∀ r, Must G l (k r)
  | .lock k => Must G l k
  | .unlock k => Must G l k

theorem Must.reach {p : Prog α} {s : Sh} (h : Must G l p) (hg : G s.st.b) {a : α} (hr : (p.run s).1 = .ok a) : ∃ q t, p.Reach s q t ∧ q.writes t l := by
  induction p generalizing s with
  | ret a => exact h.elim
  | panic q => exact nomatch hr
  | getI f k ih => obtain ⟨q, t, r, w⟩ := ih _ (h _ hg) hg hr; exact ⟨q, t, .head rfl r, w⟩
  | setI f v k ih =>
    rcases h with h | h
    · exact ⟨_, _, .refl, h⟩
    · obtain ⟨q, t, r, w⟩ := ih (s := { s with st := { s.st with b := f.set s.st.b v } }) h.2 (h.1 _ hg) hr; exact ⟨q, t, .head rfl r, w⟩
  | getBuf k ih => obtain ⟨q, t, r, w⟩ := ih _ (h _ hg) hg hr; exact ⟨q, t, .head rfl r, w⟩
  | setBuf u k ih =>
    rcases h with h | h
    · exact ⟨_, _, .refl, h⟩
    · obtain ⟨q, t, r, w⟩ := ih (s := { s with st := { s.st with b := { s.st.b with buf := u } } }) h.2 (h.1 _ hg) hr; exact ⟨q, t, .head rfl r, w⟩
  | load u i k ih => obtain ⟨q, t, r, w⟩ := ih _ (h _) hg hr; exact ⟨q, t, .head rfl r, w⟩
  | store u i v k ih =>
    rcases h with h | h
    · exact ⟨_, _, .refl, h⟩
    · obtain ⟨q, t, r, w⟩ := ih (s := { s with st := { s.st with mem := s.st.mem.set u.arr (u.off + i) v } }) h hg hr; exact ⟨q, t, .head rfl r, w⟩
  | append u x k ih =>
    obtain ⟨q, t, r, w⟩ := ih _ (s := { s with st := { s.st with mem := (appendMem u x s.st.mem).2 } }) (h _) hg hr; exact ⟨q, t, .head rfl r, w⟩
  | alloc u n k ih =>
    obtain ⟨q, t, r, w⟩ := ih _ (s := { s with st := { s.st with mem := s.st.mem.alloc u } }) (h _) hg hr; exact ⟨q, t, .head rfl r, w⟩
  | lock k ih =>
    change ((if s.locked = true then (Res.panic Panic.blocked, s) else k.run { s with locked := true }) : Res α × Sh).1 = _ at hr
    split at hr
    · exact nomatch hr
    · rename_i hl
      obtain ⟨q, t, r, w⟩ := ih (s := { s with locked := true }) h hg hr
      exact ⟨q, t, .head (e := .lock) (by show (if s.locked = true then none else some _) = _; rw [if_neg hl]) r, w⟩
  | unlock k ih => obtain ⟨q, t, r, w⟩ := ih (s := { s with locked := false }) h hg hr; exact ⟨q, t, .head rfl r, w⟩

/-- The change is in the first part. -/
theorem Must.left {p : Prog α} (h : Must G l p) (f : α → Prog β) : Must G l (p.bind f) := by
  induction p with
  | ret a => exact h.elim
  | panic q => trivial
  | getI x k ih => exact fun b hb => ih _ (h b hb)
  | setI x v k ih => exact h.imp id fun h => ⟨h.1, ih h.2⟩
  | getBuf k ih => exact fun b hb => ih _ (h b hb)
  | setBuf t k ih => exact h.imp id fun h => ⟨h.1, ih h.2⟩
  | load t i k ih => exact fun v => ih _ (h v)
  | store t i v k ih => exact h.imp id ih
  | append t x k ih => exact fun v => ih _ (h v)
  | alloc a n k ih => exact fun v => ih _ (h v)
  | lock k ih => exact ih h
  | unlock k ih => exact ih h

theorem Must.left' {p : Prog α} (h : Must G l p) (f : α → Prog β) : Must G l (p >>= f) := h.left f

/-- The fields stay as `G` says. -/
def Stay (G : Buf → Prop) : Prog α → Prop
  | .ret _ => True
  | .panic _ => True
  | .getI _ k => ∀ v, Stay G (k v)
  | .setI f v k => (∀ b, G b → G (f.set b v)) ∧ Stay G k
  | .getBuf k => ∀ t, Stay G (k t)
  | .setBuf t k => (∀ b, G b → G { b with buf := t }) ∧ Stay G k
  | .load _ _ k => ∀ v, Stay G (k v)
  | .store _ _ _ k => Stay G k
  | .append _ _ k => ∀ r, Stay G (k r)
  | .alloc _ _ k => ∀ r, Stay G (k r)
  | .lock k => Stay G k
  | .unlock k => Stay G k

/-- The change is in the second part. -/
theorem Must.right {p : Prog α} (hp : Stay G p) {f : α → Prog β} (h : ∀ a, Must G l (f a)) : Must G l (p.bind f) := by
  induction p with
  | ret a => exact h a
  | panic q => trivial
  | getI x k ih => exact fun b hb => ih _ (hp _)
  | setI x v k ih => exact .inr ⟨hp.1, ih hp.2⟩
  | getBuf k ih => exact fun b hb => ih _ (hp _)
  | setBuf t k ih => exact .inr ⟨hp.1, ih hp.2⟩
  | load t i k ih => exact fun v => ih _ (hp v)
  | store t i v k ih => exact .inr (ih hp)
  | append t x k ih => exact fun v => ih _ (hp v)
  | alloc a n k ih => exact fun v => ih _ (hp v)
  | lock k ih => exact ih hp
  | unlock k ih => exact ih hp

theorem Must.right' {p : Prog α} (hp : Stay G p) {f : α → Prog β} (h : ∀ a, Must G l (f a)) : Must G l (p >>= f) := .right hp h

theorem Stay.bind {p : Prog α} (hp : Stay G p) {f : α → Prog β} (h : ∀ a, Stay G (f a)) : Stay G (p.bind f) := by
  induction p with
  | ret a => exact h a
  | panic q => trivial
  | getI x k ih => exact fun v => ih _ (hp v)
  | setI x v k ih => exact ⟨hp.1, ih hp.2⟩
  | getBuf k ih => exact fun v => ih _ (hp v)
  | setBuf t k ih => exact ⟨hp.1, ih hp.2⟩
  | load t i k ih => exact fun v => ih _ (hp v)
  | store t i v k ih => exact ih hp
  | append t x k ih => exact fun v => ih _ (hp v)
  | alloc a n k ih => exact fun v => ih _ (hp v)
  | lock k ih => exact ih hp
  | unlock k ih => exact ih hp

theorem Stay.bind' {p : Prog α} (hp : Stay G p) {f : α → Prog β} (h : ∀ a, Stay G (f a)) : Stay G (p >>= f) := hp.bind h

theorem Stay.any (p : Prog α) : Stay (fun _ => True) p := by
  induction p with
  | ret a => trivial
  | panic q => trivial
  | getI x k ih => exact fun v => ih _
  | setI x v k ih => exact ⟨fun _ _ => trivial, ih⟩
  | getBuf k ih => exact fun v => ih _
  | setBuf t k ih => exact ⟨fun _ _ => trivial, ih⟩
  | load t i k ih => exact fun v => ih _
  | store t i v k ih => exact ih
  | append t x k ih => exact fun v => ih _
  | alloc a n k ih => exact fun v => ih _
  | lock k ih => exact ih
  | unlock k ih => exact ih

theorem Must.deferUnlock {p : Prog α} (h : Must G l p) : Must G l p.deferUnlock := by
  induction p with
  | ret a => exact h.elim
  | panic q => trivial
  | getI x k ih => exact fun b hb => ih _ (h b hb)
  | setI x v k ih => exact h.imp id fun h => ⟨h.1, ih h.2⟩
  | getBuf k ih => exact fun b hb => ih _ (h b hb)
  | setBuf t k ih => exact h.imp id fun h => ⟨h.1, ih h.2⟩
  | load t i k ih => exact fun v => ih _ (h v)
  | store t i v k ih => exact h.imp id ih
  | append t x k ih => exact fun v => ih _ (h v)
  | alloc a n k ih => exact fun v => ih _ (h v)
  | lock k ih => exact ih h
  | unlock k ih => exact ih h

theorem Must.locked {p : Prog α} (h : Must G l p) : Must G l (Prog.locked p) := Must.deferUnlock h

theorem Stay.deferUnlock {p : Prog α} (h : Stay G p) : Stay G p.deferUnlock := by
  induction p with
  | ret a => trivial
  | panic q => trivial
  | getI x k ih => exact fun v => ih _ (h v)
  | setI x v k ih => exact ⟨h.1, ih h.2⟩
  | getBuf k ih => exact fun v => ih _ (h v)
  | setBuf t k ih => exact ⟨h.1, ih h.2⟩
  | load t i k ih => exact fun v => ih _ (h v)
  | store t i v k ih => exact ih h
  | append t x k ih => exact fun v => ih _ (h v)
  | alloc a n k ih => exact fun v => ih _ (h v)
  | lock k ih => exact ih h
  | unlock k ih => exact ih h

theorem Must.field {f : Field} {k : Int64 → Prog α} (h : ∀ b, G b → Must G l (k (f.get b))) : Must G l ((Prog.field f).bind k) := h
theorem Must.panicIf {c : Prop} [Decidable c] {q : Panic} {k : Unit → Prog α} (h : ¬ c → Must G l (k ())) : Must G l ((Prog.panicIf c q).bind k) := by
  unfold Prog.panicIf; split
  · trivial
  · rename_i hc; exact h hc

theorem Must.bufStore {b : Buf} {i : Int64} {v : UInt8} {x : Nat} (h : i.toInt = x) : Must (· = b) (.byte b.buf.arr (b.buf.off + x)) (Prog.bufStore i v) := by
  rintro _ rfl
  show Must _ _ (Prog.storeAt _ i v)
  unfold Prog.storeAt; split
  · refine .inl ?_
    rw [h]; rfl
  · trivial

theorem Stay.loadAt (s : Slice) (i : Int64) : Stay G (Prog.loadAt s i) := by
  unfold Prog.loadAt; split
  · exact fun _ => trivial
  · trivial
theorem Stay.bufLoad (i : Int64) : Stay G (Prog.bufLoad i) := fun _ => Stay.loadAt _ _
theorem Stay.bufStore (i : Int64) (v : UInt8) : Stay G (Prog.bufStore i v) := fun s => by
  show Stay G (Prog.storeAt s i v)
  unfold Prog.storeAt; split
  · trivial
  · trivial
theorem Stay.srcAt (x : Src) (i : Int64) : Stay G (Prog.srcAt x i) := by
  cases x with
  | mem s => exact Stay.loadAt _ _
  | lit bs => unfold Prog.srcAt; dsimp only; split <;> trivial
theorem Stay.idx (d : List α) (i : Int64) : Stay G (Prog.idx d i) := by
  unfold Prog.idx; split
  · split <;> trivial
  · trivial
theorem Stay.panicIf (c : Prop) [Decidable c] (q : Panic) : Stay G (Prog.panicIf c q) := by
  unfold Prog.panicIf; split <;> trivial

/-- The change is in one of the rounds. -/
theorem Must.doLoop {body : Int64 → α → Prog α} {n i j : Int64} (hs : ∀ i a, Stay G (body i a)) (hb : ∀ a, Must G l (body j a)) (h : i = j ∨ i.toInt ≤ j.toInt ∧ j.toInt < n.toInt) (a : α) :
    Must G l (Prog.doLoop body n i a) := by
  fun_induction Prog.doLoop body n i a with
  | case1 i a ih =>
    by_cases e : i = j
    · subst e
      exact (hb a).left _
    · refine .right (hs i a) fun a' => ?_
      have h : i.toInt ≤ j.toInt ∧ j.toInt < n.toInt := h.resolve_left e
      have hij : i.toInt < j.toInt := by
        rcases Int.lt_or_eq_of_le h.1 with h | h
        · exact h
        · exact absurd (Int64.toInt_inj.mp h) e
      have := j.toInt_lt; have := i.le_toInt; have := n.toInt_lt
      have hi : (i + 1).toInt = i.toInt + 1 := by
        rw [Int64.toInt_add]; show (i.toInt + 1).bmod _ = _; unfold Int.bmod; simp; omega
      have hn : i + 1 < n := by rw [Int64.lt_iff_toInt_lt, hi]; omega
      rw [if_pos hn]
      exact ih a' hn (.inr ⟨by omega, h.2⟩)

/-- The rounds of a loop that may have none. -/
theorem Must.forLoop {body : Int64 → α → Prog α} {n i j : Int64} (hs : ∀ i a, Stay G (body i a)) (hb : ∀ a, Must G l (body j a)) (h : i.toInt ≤ j.toInt ∧ j.toInt < n.toInt) (a : α) :
    Must G l (Prog.forLoop body n i a) := by
  fun_induction Prog.forLoop body n i a with
  | case1 i a hi ih =>
    by_cases e : i = j
    · subst e
      exact (hb a).left _
    · refine .right (hs i a) fun a' => ih a' ⟨?_, h.2⟩
      have hij : i.toInt < j.toInt := by
        rcases Int.lt_or_eq_of_le h.1 with h | h
        · exact h
        · exact absurd (Int64.toInt_inj.mp h) e
      have := j.toInt_lt; have := i.le_toInt; have := n.toInt_lt
      have hi : (i + 1).toInt = i.toInt + 1 := by
        rw [Int64.toInt_add]; show (i.toInt + 1).bmod _ = _; unfold Int.bmod; simp; omega
      omega
  | case2 i a hi => rw [Int64.lt_iff_toInt_lt] at hi; omega

/-- Not holding the mutex, or holding it if `m` says so, the program changes nothing and comes to a read of `l` while it does not hold the mutex. -/
def Peeks (G : Buf → Prop) (l : Loc) : Bool → Prog α → Prop
  | _, .ret _ => False
  | _, .panic _ => True
  | m, .getI f k => m = false ∧ l = .field f ∨ ∀ b, G b → Peeks G l m (k (f.get b))
  | m, .getBuf k => m = false ∧ l = .header ∨ ∀ b, G b → Peeks G l m (k b.buf)
  | m, .load t i k => m = false ∧ l = .byte t.arr (t.off + i) ∨ ∀ v, Peeks G l m (k v)
  | _, .lock k => Peeks G l true k
  | _, .unlock k => Peeks G l false k
  | _, .setI .. => False
  | _, .setBuf .. => False
  | _, .store .. => False
  | _, .append .. => False
  | _, .alloc .. => False

theorem Peeks.reach {p : Prog α} {s : V3.St} {m : Bool} (h : Peeks G l m p) (hg : G s.b) {a : α} (hr : (p.run ⟨s, m⟩).1 = .ok a) :
    ∃ q, p.Reach ⟨s, m⟩ q ⟨s, false⟩ ∧ q.reads ⟨s, false⟩ l := by
  induction p generalizing m with
  | ret a => exact h.elim
  | panic q => exact nomatch hr
  | getI f k ih =>
    rcases h with ⟨rfl, h⟩ | h
    · exact ⟨_, .refl, h⟩
    · obtain ⟨q, r, w⟩ := ih _ (h _ hg) hr; exact ⟨q, .head rfl r, w⟩
  | getBuf k ih =>
    rcases h with ⟨rfl, h⟩ | h
    · exact ⟨_, .refl, h⟩
    · obtain ⟨q, r, w⟩ := ih _ (h _ hg) hr; exact ⟨q, .head rfl r, w⟩
  | load u i k ih =>
    rcases h with ⟨rfl, h⟩ | h
    · exact ⟨_, .refl, h⟩
    · obtain ⟨q, r, w⟩ := ih _ (h _) hr; exact ⟨q, .head rfl r, w⟩
  | lock k ih =>
    cases m with
    | true => exact nomatch hr
    | false => obtain ⟨q, r, w⟩ := ih h hr; exact ⟨q, .head (e := .lock) rfl r, w⟩
  | unlock k ih => obtain ⟨q, r, w⟩ := ih h hr; exact ⟨q, .head rfl r, w⟩
  | _ => exact h.elim

theorem Peeks.left {p : Prog α} {m : Bool} (h : Peeks G l m p) (f : α → Prog β) : Peeks G l m (p.bind f) := by
  induction p generalizing m with
  | ret a => exact h.elim
  | panic q => trivial
  | getI x k ih => exact h.imp id fun h b hb => ih _ (h b hb)
  | getBuf k ih => exact h.imp id fun h b hb => ih _ (h b hb)
  | load t i k ih => exact h.imp id fun h v => ih _ (h v)
  | lock k ih => exact ih h
  | unlock k ih => exact ih h
  | _ => exact h.elim

theorem Peeks.left' {p : Prog α} {m : Bool} (h : Peeks G l m p) (f : α → Prog β) : Peeks G l m (p >>= f) := h.left f

theorem Peeks.deferUnlock {p : Prog α} {m : Bool} (h : Peeks G l m p) : Peeks G l m p.deferUnlock := by
  induction p generalizing m with
  | ret a => exact h.elim
  | panic q => trivial
  | getI x k ih => exact h.imp id fun h b hb => ih _ (h b hb)
  | getBuf k ih => exact h.imp id fun h b hb => ih _ (h b hb)
  | load t i k ih => exact h.imp id fun h v => ih _ (h v)
  | lock k ih => exact ih h
  | unlock k ih => exact ih h
  | _ => exact h.elim

theorem Peeks.field {f : Field} {k : Int64 → Prog α} : Peeks G (.field f) false ((Prog.field f).bind k) := .inl ⟨rfl, rfl⟩
theorem Peeks.next {f : Field} {k : Int64 → Prog α} {m : Bool} (h : ∀ b, G b → Peeks G l m (k (f.get b))) : Peeks G l m ((Prog.field f).bind k) := .inr h
theorem Peeks.panicIf {c : Prop} [Decidable c] {q : Panic} {k : Unit → Prog α} {m : Bool} (h : ¬ c → Peeks G l m (k ())) : Peeks G l m ((Prog.panicIf c q).bind k) := by
  unfold Prog.panicIf; split
  · trivial
  · rename_i hc; exact h hc

theorem Peeks.doLoop {body : Int64 → α → Prog α} {n i : Int64} {m : Bool} {a : α} (h : Peeks G l m (body i a)) : Peeks G l m (Prog.doLoop body n i a) := by
  rw [Prog.doLoop]
  exact h.left _

variable {ex : O → Prog V} {allowed : O → Prop}

theorem race_at {s : V3.St} {i j : Nat} (hij : i ≠ j) {op op' : O} (ho : allowed op) (ho' : allowed op') {l : Loc} {q q' : Prog V} {t : Sh}
    (r : (ex op).Reach ⟨s, false⟩ q t) (hw : q.writes t l) (r' : (ex op').Reach ⟨s, false⟩ q' ⟨s, false⟩) (hr : q'.reads ⟨s, false⟩ l) :
    ∃ τ c, Exec ex allowed (rest O V s) τ c ∧ started i τ = [op] ∧ started j τ = [op'] ∧ (∀ k, k ≠ i → k ≠ j → started k τ = []) ∧
      DataRace ex allowed (rest O V s) τ i j op op' l := by
  have e1 := (Exec.nil (ex := ex) (allowed := allowed) (c0 := rest O V s)).snoc (.start (i := j) op' rfl ho')
  obtain ⟨τ1, c1, E1, g1, s1, h1, h2⟩ := e1.reach (by rw [set_thr, if_pos rfl]) r'
  have e2 := E1.snoc (.start (i := i) op (by rw [h2 i hij, set_thr, if_neg hij]; rfl) ho)
  obtain ⟨τ2, c2, E2, g2, rfl, h3, h4⟩ := e2.reach (by rw [set_thr, if_pos rfl]) (by show (ex op).Reach c1.sh _ _; rw [s1]; exact r)
  obtain ⟨τ3, c3, E3, g3, d⟩ := race_happens E2 hij h3 hw ((h4 j hij.symm).trans (by rw [set_thr, if_neg hij.symm]; exact h1)) (.inl (reads_any.1.1 hr))
  have g : ∀ k, started k (([] ++ [(j, Act.start op')] ++ τ1 ++ [(i, Act.start op)] ++ τ2) ++ τ3) = (if j = k then [op'] else []) ++ (if i = k then [op] else []) := by
    intro k
    rw [g3, g2, started_snoc, g1]
    rfl
  refine ⟨_, _, E3, ?_, ?_, fun k k1 k2 => ?_, d⟩
  · rw [g, if_neg hij.symm, if_pos rfl]; rfl
  · rw [g, if_pos rfl, if_neg hij]; rfl
  · rw [g, if_neg k2.symm, if_neg k1.symm]; rfl

end Crunch
