import Verif.Lemmas.Lin

/-! Calls of goroutines each of which has an offset to itself: a call that moves the offset in a second section is linearizable at
its first. -/

namespace Crunch
open V3 (St)

/-- A field that may be looked at by who has the offsets `w`. -/
def mayGet (w : Field → Bool) (f : Field) : Prop := f.isOff = true → w f = true

mutual
/-- After the section in which a call does its work: looks, and sections that touch only offsets in `w`. -/
def Tail (w : Field → Bool) : Prog α → Prop
  | .ret _ => True
  | .panic _ => True
  | .getI f k => mayGet w f ∧ ∀ v, Tail w (k v)
  | .getBuf k => ∀ s, Tail w (k s)
  | .lock k => TailS w k
  | _ => False
/-- Inside such a section. -/
def TailS (w : Field → Bool) : Prog α → Prop
  | .getI f k => mayGet w f ∧ ∀ v, TailS w (k v)
  | .setI f _ k => f.isOff = true ∧ w f = true ∧ TailS w k
  | .getBuf k => ∀ s, TailS w (k s)
  | .unlock k => Tail w k
  | _ => False
end

/-- The section in which a call does its work. -/
def Mid (w : Field → Bool) : Prog α → Prop
  | .ret _ => False
  | .panic _ => True
  | .getI f k => mayGet w f ∧ ∀ v, Mid w (k v)
  | .setI f _ k => f.isOff = true ∧ w f = true ∧ Mid w k
  | .getBuf k => ∀ s, Mid w (k s)
  | .load _ _ k => ∀ v, Mid w (k v)
  | .store _ _ _ k => Mid w k
  | .unlock k => Tail w k
  | _ => False

/-- Looks at fields, of the offsets only those in `w`, then ends or enters the section. -/
def Pre (w : Field → Bool) : Prog α → Prop
  | .ret _ => True
  | .panic _ => True
  | .getI f k => mayGet w f ∧ ∀ v, Pre w (k v)
  | .getBuf k => ∀ s, Pre w (k s)
  | .lock k => Mid w k
  | _ => False

/-- The same to who has the offsets `w`. -/
def Sees (w : Field → Bool) (b b' : V3.Buf) : Prop := frame b = frame b' ∧ ∀ f, f.isOff = true → w f = true → f.get b = f.get b'

theorem Sees.refl (w : Field → Bool) (b : V3.Buf) : Sees w b b := ⟨rfl, fun _ _ _ => rfl⟩
theorem Sees.symm {w : Field → Bool} {b b' : V3.Buf} (h : Sees w b b') : Sees w b' b := ⟨h.1.symm, fun f h1 h2 => (h.2 f h1 h2).symm⟩
theorem Sees.trans {w : Field → Bool} {b b' b'' : V3.Buf} (h : Sees w b b') (h' : Sees w b' b'') : Sees w b b'' :=
  ⟨h.1.trans h'.1, fun f h1 h2 => (h.2 f h1 h2).trans (h'.2 f h1 h2)⟩
theorem Sees.get {w : Field → Bool} {b b' : V3.Buf} (h : Sees w b b') {f : Field} (hf : mayGet w f) : f.get b = f.get b' := by
  cases e : f.isOff with
  | true => exact h.2 f e (hf e)
  | false => exact frame_get e h.1

theorem get_set (f g : Field) (b : V3.Buf) (v : Int64) : g.get (f.set b v) = if g = f then v else g.get b := by
  cases f <;> cases g <;> rfl

theorem Sees.set {w : Field → Bool} {b b' : V3.Buf} (h : Sees w b b') {f : Field} (hf : f.isOff = true) (v : Int64) :
    Sees w (f.set b v) (f.set b' v) := by
  refine ⟨by rw [frame_set hf, frame_set hf, h.1], fun g h1 h2 => ?_⟩
  rw [get_set, get_set, h.2 g h1 h2]

/-- An assignment nobody else sees. -/
theorem Sees.other {w : Field → Bool} (b : V3.Buf) {f : Field} (hf : f.isOff = true) (hw : w f = false) (v : Int64) :
    Sees w (f.set b v) b := by
  refine ⟨frame_set hf _ _, fun g h1 h2 => ?_⟩
  rw [get_set, if_neg]
  rintro rfl
  rw [hw] at h2; exact nomatch h2

theorem buf_ext {b b' : V3.Buf} (h : frame b = frame b') (ho : ∀ f : Field, f.isOff = true → f.get b = f.get b') : b = b' := by
  have e1 := frame_buf h
  have e2 : b.cap = b'.cap := frame_get (f := .cap) rfl h
  have e3 : b.bcap = b'.bcap := frame_get (f := .bcap) rfl h
  have e4 : b.off = b'.off := ho .off rfl
  have e5 : b.boff = b'.boff := ho .boff rfl
  cases b; cases b'
  cases e1; cases e2; cases e3; cases e4; cases e5
  rfl

/-! ## putting calls together -/

theorem tail_bind {w : Field → Bool} {f : α → Prog β} (hf : ∀ a, Tail w (f a)) (p : Prog α) :
    (Tail w p → Tail w (p.bind f)) ∧ (TailS w p → TailS w (p.bind f)) := by
  induction p with
  | ret a => exact ⟨fun _ => hf a, fun h => by simp only [TailS] at h⟩
  | panic q => exact ⟨fun _ => by simp only [Prog.bind, Tail], fun h => by simp only [TailS] at h⟩
  | getI x k ih =>
    constructor <;> intro h
    · simp only [Tail, Prog.bind] at h ⊢
      exact ⟨h.1, fun v => (ih v).1 (h.2 v)⟩
    · simp only [TailS, Prog.bind] at h ⊢
      exact ⟨h.1, fun v => (ih v).2 (h.2 v)⟩
  | setI x v k ih =>
    constructor <;> intro h
    · simp only [Tail] at h
    · simp only [TailS, Prog.bind] at h ⊢
      exact ⟨h.1, h.2.1, ih.2 h.2.2⟩
  | getBuf k ih =>
    constructor <;> intro h
    · simp only [Tail, Prog.bind] at h ⊢
      exact fun v => (ih v).1 (h v)
    · simp only [TailS, Prog.bind] at h ⊢
      exact fun v => (ih v).2 (h v)
  | lock k ih =>
    constructor <;> intro h
    · simp only [Tail, Prog.bind] at h ⊢
      exact ih.2 h
    · simp only [TailS] at h
  | unlock k ih =>
    constructor <;> intro h
    · simp only [Tail] at h
    · simp only [TailS, Prog.bind] at h ⊢
      exact ih.1 h
  | _ => constructor <;> intro h <;> simp only [Tail, TailS] at h

theorem TailS.mid {w : Field → Bool} {p : Prog α} (h : TailS w p) : Mid w p := by
  induction p with
  | getI x k ih => simp only [TailS] at h; exact ⟨h.1, fun v => ih v (h.2 v)⟩
  | setI x v k ih => simp only [TailS] at h; exact ⟨h.1, h.2.1, ih h.2.2⟩
  | getBuf k ih => simp only [TailS] at h; exact fun v => ih v (h v)
  | unlock k ih => simp only [TailS] at h; exact h
  | _ => simp only [TailS] at h

theorem Tail.pre {w : Field → Bool} {p : Prog α} (h : Tail w p) : Pre w p := by
  induction p with
  | ret a => trivial
  | panic q => trivial
  | getI x k ih => simp only [Tail] at h; exact ⟨h.1, fun v => ih v (h.2 v)⟩
  | getBuf k ih => simp only [Tail] at h; exact fun v => ih v (h v)
  | lock k ih => simp only [Tail] at h; exact h.mid
  | _ => simp only [Tail] at h

theorem Mid.bind {w : Field → Bool} {p : Prog α} {f : α → Prog β} (hp : Mid w p) (hf : ∀ a, Tail w (f a)) : Mid w (p.bind f) := by
  induction p with
  | ret a => exact hp.elim
  | panic q => trivial
  | getI x k ih => exact ⟨hp.1, fun v => ih v (hp.2 v)⟩
  | setI x v k ih => exact ⟨hp.1, hp.2.1, ih hp.2.2⟩
  | getBuf k ih => exact fun v => ih v (hp v)
  | load t i k ih => exact fun v => ih v (hp v)
  | store t i v k ih => exact ih hp
  | unlock k ih => exact (tail_bind hf k).1 hp
  | _ => exact hp.elim

theorem Pre.bind {w : Field → Bool} {p : Prog α} {f : α → Prog β} (hp : Pre w p) (hf : ∀ a, Tail w (f a)) : Pre w (p.bind f) := by
  induction p with
  | ret a => exact (hf a).pre
  | panic q => trivial
  | getI x k ih => exact ⟨hp.1, fun v => ih v (hp.2 v)⟩
  | getBuf k ih => exact fun v => ih v (hp v)
  | lock k ih => exact Mid.bind (p := k) hp hf
  | _ => exact hp.elim

theorem mayGet.mono {w w' : Field → Bool} (hw : ∀ f, w f = true → w' f = true) {f : Field} (h : mayGet w f) : mayGet w' f :=
  fun e => hw f (h e)

theorem tail_mono {w w' : Field → Bool} (hw : ∀ f, w f = true → w' f = true) (p : Prog α) :
    (Tail w p → Tail w' p) ∧ (TailS w p → TailS w' p) := by
  induction p with
  | ret a => exact ⟨fun _ => by simp only [Tail], fun h => by simp only [TailS] at h⟩
  | panic q => exact ⟨fun _ => by simp only [Tail], fun h => by simp only [TailS] at h⟩
  | getI x k ih =>
    constructor <;> intro h
    · simp only [Tail] at h ⊢
      exact ⟨h.1.mono hw, fun v => (ih v).1 (h.2 v)⟩
    · simp only [TailS] at h ⊢
      exact ⟨h.1.mono hw, fun v => (ih v).2 (h.2 v)⟩
  | setI x v k ih =>
    constructor <;> intro h
    · simp only [Tail] at h
    · simp only [TailS] at h ⊢
      exact ⟨h.1, hw _ h.2.1, ih.2 h.2.2⟩
  | getBuf k ih =>
    constructor <;> intro h
    · simp only [Tail] at h ⊢
      exact fun v => (ih v).1 (h v)
    · simp only [TailS] at h ⊢
      exact fun v => (ih v).2 (h v)
  | lock k ih =>
    constructor <;> intro h
    · simp only [Tail] at h ⊢
      exact ih.2 h
    · simp only [TailS] at h
  | unlock k ih =>
    constructor <;> intro h
    · simp only [Tail] at h
    · simp only [TailS] at h ⊢
      exact ih.1 h
  | _ => constructor <;> intro h <;> simp only [Tail, TailS] at h

theorem Mid.mono {w w' : Field → Bool} (hw : ∀ f, w f = true → w' f = true) {p : Prog α} (hp : Mid w p) : Mid w' p := by
  induction p with
  | ret a => exact hp.elim
  | panic q => trivial
  | getI x k ih => exact ⟨hp.1.mono hw, fun v => ih v (hp.2 v)⟩
  | setI x v k ih => exact ⟨hp.1, hw _ hp.2.1, ih hp.2.2⟩
  | getBuf k ih => exact fun v => ih v (hp v)
  | load t i k ih => exact fun v => ih v (hp v)
  | store t i v k ih => exact ih hp
  | unlock k ih => exact (tail_mono hw k).1 hp
  | _ => exact hp.elim

theorem Pre.mono {w w' : Field → Bool} (hw : ∀ f, w f = true → w' f = true) {p : Prog α} (hp : Pre w p) : Pre w' p := by
  induction p with
  | ret a => trivial
  | panic q => trivial
  | getI x k ih => exact ⟨hp.1.mono hw, fun v => ih v (hp.2 v)⟩
  | getBuf k ih => exact fun v => ih v (hp v)
  | lock k ih => exact Mid.mono hw (p := k) hp
  | _ => exact hp.elim

/-! ## what the last sections do -/

/-- The outcome of a tail, and the fields after it. -/
def tailRun : Prog α → V3.Buf → Res α × V3.Buf
  | .ret a, b => (.ok a, b)
  | .panic e, b => (.panic e, b)
  | .getI f k, b => tailRun (k (f.get b)) b
  | .setI f v k, b => tailRun k (f.set b v)
  | .getBuf k, b => tailRun (k b.buf) b
  | .lock k, b => tailRun k b
  | .unlock k, b => tailRun k b
  | _, b => (.panic .index, b)

theorem tail_run {w : Field → Bool} (p : Prog α) :
    (Tail w p → ∀ s : Sh, s.locked = false → p.run s = ((tailRun p s.st.b).1, ⟨⟨s.st.mem, (tailRun p s.st.b).2⟩, false⟩)) ∧
    (TailS w p → ∀ s : Sh, s.locked = true → p.run s = ((tailRun p s.st.b).1, ⟨⟨s.st.mem, (tailRun p s.st.b).2⟩, false⟩)) := by
  induction p with
  | ret a => exact ⟨fun _ s hs => by cases s; cases hs; rfl, fun h => by simp only [TailS] at h⟩
  | panic q => exact ⟨fun _ s hs => by cases s; cases hs; rfl, fun h => by simp only [TailS] at h⟩
  | getI x k ih =>
    constructor <;> intro h
    · simp only [Tail] at h
      exact fun s hs => (ih _).1 (h.2 _) s hs
    · simp only [TailS] at h
      exact fun s hs => (ih _).2 (h.2 _) s hs
  | setI x v k ih =>
    constructor <;> intro h
    · simp only [Tail] at h
    · simp only [TailS] at h
      exact fun s hs => ih.2 h.2.2 ⟨⟨s.st.mem, x.set s.st.b v⟩, s.locked⟩ hs
  | getBuf k ih =>
    constructor <;> intro h
    · simp only [Tail] at h
      exact fun s hs => (ih _).1 (h _) s hs
    · simp only [TailS] at h
      exact fun s hs => (ih _).2 (h _) s hs
  | lock k ih =>
    constructor <;> intro h
    · simp only [Tail] at h
      intro s hs
      show (if s.locked = true then _ else _) = _
      rw [hs]
      exact ih.2 h ⟨s.st, true⟩ rfl
    · simp only [TailS] at h
  | unlock k ih =>
    constructor <;> intro h
    · simp only [Tail] at h
    · simp only [TailS] at h
      exact fun s hs => ih.1 h ⟨s.st, false⟩ rfl
  | _ => constructor <;> intro h <;> simp only [Tail, TailS] at h

/-- A tail depends only on what its goroutine sees, and changes nothing else. -/
theorem tail_sees {w : Field → Bool} (p : Prog α) (h : Tail w p ∨ TailS w p) {b b' : V3.Buf} (hb : Sees w b b') :
    (tailRun p b).1 = (tailRun p b').1 ∧ Sees w (tailRun p b).2 (tailRun p b').2 := by
  induction p generalizing b b' with
  | ret a => exact ⟨rfl, hb⟩
  | panic q => exact ⟨rfl, hb⟩
  | getI x k ih =>
    simp only [Tail, TailS] at h
    have hx : mayGet w x := h.elim (·.1) (·.1)
    show (tailRun (k (x.get b)) b).1 = (tailRun (k (x.get b')) b').1 ∧ Sees w (tailRun (k (x.get b)) b).2 (tailRun (k (x.get b')) b').2
    rw [hb.get hx]
    exact ih _ (h.imp (·.2 _) (·.2 _)) hb
  | setI x v k ih =>
    simp only [Tail, TailS, false_or] at h
    exact ih (.inr h.2.2) (hb.set h.1 v)
  | getBuf k ih =>
    simp only [Tail, TailS] at h
    show (tailRun (k b.buf) b).1 = (tailRun (k b'.buf) b').1 ∧ Sees w (tailRun (k b.buf) b).2 (tailRun (k b'.buf) b').2
    rw [frame_buf hb.1]
    exact ih _ (h.imp (· _) (· _)) hb
  | lock k ih =>
    simp only [Tail, TailS, or_false] at h
    exact ih (.inr h) hb
  | unlock k ih =>
    simp only [Tail, TailS, false_or] at h
    exact ih (.inl h) hb
  | _ => simp only [Tail, TailS, or_self] at h

theorem tail_frame {w : Field → Bool} (p : Prog α) (h : Tail w p ∨ TailS w p) (b : V3.Buf) :
    frame (tailRun p b).2 = frame b ∧ ∀ f, f.isOff = true → w f = false → f.get (tailRun p b).2 = f.get b := by
  induction p generalizing b with
  | ret a => exact ⟨rfl, fun _ _ _ => rfl⟩
  | panic q => exact ⟨rfl, fun _ _ _ => rfl⟩
  | getI x k ih =>
    simp only [Tail, TailS] at h
    exact ih _ (h.imp (·.2 _) (·.2 _)) b
  | setI x v k ih =>
    simp only [Tail, TailS, false_or] at h
    obtain ⟨h1, h2⟩ := ih (.inr h.2.2) (x.set b v)
    refine ⟨h1.trans (frame_set h.1 _ _), fun f hf hw => (h2 f hf hw).trans ?_⟩
    rw [get_set, if_neg]
    rintro rfl
    rw [hw] at h; exact nomatch h.2.1
  | getBuf k ih =>
    simp only [Tail, TailS] at h
    exact ih _ (h.imp (· _) (· _)) b
  | lock k ih =>
    simp only [Tail, TailS, or_false] at h
    exact ih (.inr h) b
  | unlock k ih =>
    simp only [Tail, TailS, false_or] at h
    exact ih (.inl h) b
  | _ => simp only [Tail, TailS, or_self] at h

theorem Mid.run_frame {w : Field → Bool} {p : Prog α} (h : Mid w p) (s : Sh) :
    frame (p.run s).2.st.b = frame s.st.b ∧ ∀ f, f.isOff = true → w f = false → f.get (p.run s).2.st.b = f.get s.st.b := by
  induction p generalizing s with
  | ret a => exact h.elim
  | panic q => exact ⟨rfl, fun _ _ _ => rfl⟩
  | getI x k ih => exact ih _ (h.2 _) s
  | setI x v k ih =>
    obtain ⟨h1, h2⟩ := ih h.2.2 ⟨⟨s.st.mem, x.set s.st.b v⟩, s.locked⟩
    refine ⟨h1.trans (frame_set h.1 _ _), fun f hf hw => (h2 f hf hw).trans ?_⟩
    show f.get (x.set s.st.b v) = _
    rw [get_set, if_neg]
    rintro rfl
    exact Bool.noConfusion (hw.symm.trans h.2.1)
  | getBuf k ih => exact ih _ (h _) s
  | load t i k ih => exact ih _ (h _) s
  | store t i v k ih => exact ih h _
  | unlock k ih =>
    show frame (k.run ⟨s.st, false⟩).2.st.b = _ ∧ ∀ f, f.isOff = true → w f = false → f.get (k.run ⟨s.st, false⟩).2.st.b = _
    rw [(tail_run k).1 h ⟨s.st, false⟩ rfl]
    exact tail_frame k (.inl h) s.st.b
  | _ => exact h.elim

/-! ## single steps -/

theorem Pre.cases {w : Field → Bool} {p : Prog α} (h : Pre w p) (s : Sh) {e : Event} {p' : Prog α} {s' : Sh}
    (st : p.step s = some (e, p', s')) :
    (e = .look ∧ s' = s ∧ Pre w p' ∧ ∀ t : Sh, Sees w t.st.b s.st.b → p'.run t = p.run t) ∨
      (e = .lock ∧ s.locked = false ∧ s' = { s with locked := true } ∧ Mid w p' ∧ ∀ t : Sh, t.locked = false → p.run t = p'.run { t with locked := true }) := by
  cases p with
  | ret a => exact nomatch st
  | panic q => exact nomatch st
  | getI f k =>
    cases st
    refine .inl ⟨rfl, rfl, h.2 _, fun t ht => ?_⟩
    show _ = (k (f.get t.st.b)).run t
    rw [ht.get h.1]
  | getBuf k =>
    cases st
    refine .inl ⟨rfl, rfl, h _, fun t ht => ?_⟩
    show _ = (k t.st.b.buf).run t
    rw [frame_buf ht.1]
  | lock k =>
    change (if s.locked = true then none else some (Event.lock, k, (⟨s.st, true⟩ : Sh))) = _ at st
    split at st
    · exact nomatch st
    · rename_i hl
      cases st
      refine .inr ⟨rfl, by simpa using hl, rfl, h, fun t ht => ?_⟩
      show (if t.locked = true then _ else _) = _
      rw [ht]; rfl
  | _ => exact h.elim

/-- A step of a tail, outside a section or inside one. -/
theorem tail_cases {w : Field → Bool} {p : Prog α} (h : Tail w p) (s : Sh) {e : Event} {p' : Prog α} {s' : Sh}
    (st : p.step s = some (e, p', s')) : tailRun p' s.st.b = tailRun p s.st.b ∧ s'.st = s.st ∧
      ((e = .look ∧ s' = s ∧ Tail w p') ∨ (e = .lock ∧ s.locked = false ∧ s'.locked = true ∧ TailS w p')) := by
  cases p with
  | ret a => exact nomatch st
  | panic q => exact nomatch st
  | getI f k =>
    cases st
    simp only [Tail] at h
    exact ⟨rfl, rfl, .inl ⟨rfl, rfl, h.2 _⟩⟩
  | getBuf k =>
    cases st
    simp only [Tail] at h
    exact ⟨rfl, rfl, .inl ⟨rfl, rfl, h _⟩⟩
  | lock k =>
    change (if s.locked = true then none else some (Event.lock, k, (⟨s.st, true⟩ : Sh))) = _ at st
    simp only [Tail] at h
    split at st
    · exact nomatch st
    · rename_i hl
      cases st
      exact ⟨rfl, rfl, .inr ⟨rfl, by simpa using hl, rfl, h⟩⟩
  | _ => simp only [Tail] at h

theorem tailS_cases {w : Field → Bool} {p : Prog α} (h : TailS w p) (s : Sh) {e : Event} {p' : Prog α} {s' : Sh}
    (st : p.step s = some (e, p', s')) : tailRun p' s'.st.b = tailRun p s.st.b ∧ s'.st.mem = s.st.mem ∧ frame s'.st.b = frame s.st.b ∧
      (∀ f, f.isOff = true → w f = false → f.get s'.st.b = f.get s.st.b) ∧ e ≠ .lock ∧
      ((s'.locked = s.locked ∧ TailS w p') ∨ (s'.locked = false ∧ Tail w p')) := by
  cases p with
  | getI f k =>
    cases st
    simp only [TailS] at h
    exact ⟨rfl, rfl, rfl, fun _ _ _ => rfl, by decide, .inl ⟨rfl, h.2 _⟩⟩
  | setI f v k =>
    cases st
    simp only [TailS] at h
    refine ⟨rfl, rfl, frame_set h.1 _ _, fun g hg hw => ?_, by decide, .inl ⟨rfl, h.2.2⟩⟩
    show g.get (f.set s.st.b v) = _
    rw [get_set, if_neg]
    rintro rfl
    rw [hw] at h; exact nomatch h.2.1
  | getBuf k =>
    cases st
    simp only [TailS] at h
    exact ⟨rfl, rfl, rfl, fun _ _ _ => rfl, by decide, .inl ⟨rfl, h _⟩⟩
  | unlock k =>
    cases st
    simp only [TailS] at h
    exact ⟨rfl, rfl, rfl, fun _ _ _ => rfl, by decide, .inr ⟨rfl, h⟩⟩
  | _ => simp only [TailS] at h

/-- A step of the section of work, beside the same step where the fields are `g`. -/
theorem Mid.cases {w : Field → Bool} {p : Prog α} (h : Mid w p) (s : Sh) {e : Event} {p' : Prog α} {s' : Sh} {g : V3.Buf}
    (hg : Sees w s.st.b g) (st : p.step s = some (e, p', s')) : e ≠ .lock ∧ frame s'.st.b = frame s.st.b ∧
      (∀ f, f.isOff = true → w f = false → f.get s'.st.b = f.get s.st.b) ∧
      ((∃ g', Mid w p' ∧ Sees w s'.st.b g' ∧ (∀ f, f.isOff = true → w f = false → f.get g' = f.get g) ∧ s'.locked = s.locked ∧
        p'.run ⟨⟨s'.st.mem, g'⟩, s'.locked⟩ = p.run ⟨⟨s.st.mem, g⟩, s.locked⟩) ∨
      (s' = ⟨s.st, false⟩ ∧ Tail w p' ∧ p.run ⟨⟨s.st.mem, g⟩, s.locked⟩ = ((tailRun p' g).1, ⟨⟨s.st.mem, (tailRun p' g).2⟩, false⟩))) := by
  cases p with
  | ret a => exact nomatch st
  | panic q => exact nomatch st
  | getI f k =>
    cases st
    refine ⟨by decide, rfl, fun _ _ _ => rfl, .inl ⟨g, h.2 _, hg, fun _ _ _ => rfl, rfl, ?_⟩⟩
    show (k (f.get s.st.b)).run _ = (k (f.get g)).run _
    rw [hg.get h.1]
  | setI f v k =>
    cases st
    have other : ∀ (b : V3.Buf) (x : Field), x.isOff = true → w x = false → x.get (f.set b v) = x.get b := fun b x _ hx => by
      rw [get_set, if_neg]
      rintro rfl
      exact Bool.noConfusion (hx.symm.trans h.2.1)
    exact ⟨by decide, frame_set h.1 _ _, other s.st.b, .inl ⟨f.set g v, h.2.2, hg.set h.1 v, other g, rfl, rfl⟩⟩
  | getBuf k =>
    cases st
    refine ⟨by decide, rfl, fun _ _ _ => rfl, .inl ⟨g, h _, hg, fun _ _ _ => rfl, rfl, ?_⟩⟩
    show (k s.st.b.buf).run _ = (k g.buf).run _
    rw [frame_buf hg.1]
  | load t i k => cases st; exact ⟨by decide, rfl, fun _ _ _ => rfl, .inl ⟨g, h _, hg, fun _ _ _ => rfl, rfl, rfl⟩⟩
  | store t i v k => cases st; exact ⟨by decide, rfl, fun _ _ _ => rfl, .inl ⟨g, h, hg, fun _ _ _ => rfl, rfl, rfl⟩⟩
  | unlock k =>
    cases st
    exact ⟨by decide, rfl, fun _ _ _ => rfl, .inr ⟨rfl, h, (tail_run p').1 h ⟨⟨s.st.mem, g⟩, false⟩ rfl⟩⟩
  | _ => exact h.elim

end Crunch
