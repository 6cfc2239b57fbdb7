import Verif.Lemmas.FootOps
import Verif.Lemmas.UnlockedOps

/-! The places the statements of the texts without a mutex access. -/

namespace Crunch.Src
open V3 (Buf)

/-- `Foot` for a text without a mutex: from the fields `b` and with `v` in the caller's variable. -/
def LFoot (R W : Loc → Prop) (Q : Buf → V → α → Prop) (b : Buf) (v : V) (m : LProg α) : Prop :=
  ∀ l, Foot R W (fun _ => True) (fun b' _ r => Q b' r.2 r.1) b l (m v)

variable {R W : Loc → Prop} {Q : Buf → V → α → Prop} {b : Buf} {v : V}

theorem LFoot.mono {m : LProg α} {Q' : Buf → V → α → Prop} (h : LFoot R W Q b v m) (hQ : ∀ b v a, Q b v a → Q' b v a) : LFoot R W Q' b v m :=
  fun l => (h l).mono (fun _ h => h) fun b _ r h => hQ b r.2 r.1 h

theorem lfoot_bind {m : LProg β} {f : β → LProg α} (h : LFoot R W (fun b v a => LFoot R W Q b v (f a)) b v m) : LFoot R W Q b v (m >>= f) :=
  fun l => foot_bind ((h l).mono (fun _ h => h) fun _ l' _ h => h l')

theorem lfoot_lift {p : Prog β} {f : β → LProg α} (h : ∀ l, Foot R W (fun _ => True) (fun b' _ a => LFoot R W Q b' v (f a)) b l p) :
    LFoot R W Q b v (LProg.lift p >>= f) :=
  lfoot_bind fun l => foot_bind ((h l).mono (fun _ h => h) fun _ _ _ h => h)

theorem lfoot_lift' {p : Prog α} (h : ∀ l, Foot R W (fun _ => True) (fun b' _ a => Q b' v a) b l p) : LFoot R W Q b v (LProg.lift p) :=
  fun l => foot_bind ((h l).mono (fun _ h => h) fun _ _ _ h => h)

theorem lfoot_pure {a : α} (h : Q b v a) : LFoot R W Q b v (pure a) := fun _ => h
theorem lfoot_fail {p : Panic} : LFoot R W Q b v (Sem.fail p : LProg α) := fun _ => trivial
theorem lfoot_ite {c : Prop} [Decidable c] {m m' : LProg α} (h : c → LFoot R W Q b v m) (h' : ¬ c → LFoot R W Q b v m') :
    LFoot R W Q b v (if c then m else m') := by
  split
  · exact h ‹_›
  · exact h' ‹_›

theorem lfoot_field {f : Field} {k : Int64 → LProg α} (hr : R (.field f)) (h : LFoot R W Q b v (k (f.get b))) : LFoot R W Q b v (Sem.field f >>= k) :=
  lfoot_lift fun _ => ⟨hr, h⟩
theorem lfoot_assign {f : Field} {x : Int64} {k : Unit → LProg α} (hw : W (.field f)) (h : LFoot R W Q (f.set b x) v (k ())) :
    LFoot R W Q b v (Sem.assign f x >>= k) := lfoot_lift fun _ => ⟨hw, h⟩
theorem lfoot_buf {k : Slice → LProg α} (hr : R .header) (h : LFoot R W Q b v (k b.buf)) : LFoot R W Q b v (Sem.buf >>= k) :=
  lfoot_lift fun _ => ⟨hr, h⟩
theorem lfoot_getOut {k : V → LProg α} (h : LFoot R W Q b v (k v)) : LFoot R W Q b v (Sem.getOut >>= k) := fun l => h l
theorem lfoot_putOut {w : V} {k : Unit → LProg α} (h : LFoot R W Q b w (k ())) : LFoot R W Q b v (Sem.putOut w >>= k) := fun l => h l

theorem lfoot_load {s : Slice} {i : Int64} {k : UInt8 → LProg α}
    (h : 0 ≤ i.toInt → i.toInt < s.len → R (.byte s.arr (s.off + i.toInt.toNat)) ∧ ∀ x, LFoot R W Q b v (k x)) :
    LFoot R W Q b v (Sem.load (Crunch.Src.mem s) i >>= k) := lfoot_lift fun _ => foot_loadAt trivial h
theorem lfoot_store {s : Slice} {i : Int64} {x : UInt8} {k : Unit → LProg α}
    (h : 0 ≤ i.toInt → i.toInt < s.len → W (.byte s.arr (s.off + i.toInt.toNat)) ∧ LFoot R W Q b v (k ())) :
    LFoot R W Q b v (Sem.store s i x >>= k) := lfoot_lift fun _ => foot_storeAt trivial h
theorem lfoot_idx {d : List β} {i : Int64} {k : β → LProg α} (h : 0 ≤ i.toInt → i.toInt < d.length → ∀ x, LFoot R W Q b v (k x)) :
    LFoot R W Q b v (Sem.idx d i >>= k) := lfoot_lift fun _ => foot_idx trivial h
theorem lfoot_setIdx {d : List β} {i : Int64} {x : β} {k : List β → LProg α} (h : ∀ d', LFoot R W Q b v (k d')) :
    LFoot R W Q b v (Sem.setIdx d i x >>= k) := lfoot_lift fun _ => foot_setIdx trivial fun d' _ => h d'
theorem lfoot_makeTyped {w : Nat} {z : β} {n : Int64} {k : List β → LProg α} (h : ∀ d, LFoot R W Q b v (k d)) :
    LFoot R W Q b v (Sem.makeTyped w z n >>= k) := lfoot_lift fun _ => foot_makeTyped trivial h
theorem lfoot_reslice {s : Slice} {lo hi : Int64} {k : Slice → LProg α}
    (h : 0 ≤ lo.toInt → lo.toInt ≤ hi.toInt → hi.toInt ≤ s.cap → ∀ t : Slice, t.arr = s.arr → t.off = s.off + lo.toInt.toNat →
      t.len = hi.toInt.toNat - lo.toInt.toNat → LFoot R W Q b v (k t)) : LFoot R W Q b v (Sem.reslice s lo hi >>= k) :=
  lfoot_lift fun _ => foot_reslice trivial fun h1 h2 h3 t h4 h5 h6 _ => h h1 h2 h3 t h4 h5 h6

theorem lfoot_goto {l : Gen.Str} {step : Env → LProg (Out × Env)} {Q : Buf → V → Out × Env → Prop} (g : A → Int64 → Env) (o : A → V) (I : Int64 → Prop)
    (hb : ∀ i a, I i → LFoot R W (fun b' v' r => b' = b ∧ ∃ a', v' = o a' ∧
      ((r = (.goto l, g a' (i + 1)) ∧ I (i + 1)) ∨ r = (.next, g a' (i + 1)))) b (o a) (step (g a i) >>= pure))
    (hq : ∀ a i, Q b (o a) (.next, g a i)) (fuel : Nat) (i : Int64) (a : A) (hi : I i) : LFoot R W Q b (o a) (loopGoto l step fuel (g a i)) := by
  induction fuel generalizing i a with
  | zero => exact fun _ => trivial
  | succ fuel ih =>
    rw [loopGoto]
    have hb := hb i a hi
    rw [bind_pure] at hb
    refine lfoot_bind (hb.mono fun b' v' r h => ?_)
    obtain ⟨rfl, a', rfl, ⟨rfl, h2⟩ | rfl⟩ := h
    · simp only [if_true]
      exact ih _ _ h2
    · exact lfoot_pure (hq _ _)

/-! ## elements -/

/-- A loop over elements of size `k` at `o`, at its `i`th element: at the first one, or behind one that is inside. -/
structure Elem (b : Buf) (o k i : Int64) : Prop where
  small : b.buf.len < 2 ^ 50
  hk : 0 < k.toInt ∧ k.toInt ≤ 8
  hi : 0 ≤ i.toInt
  inv : i = 0 ∨ 0 ≤ o.toInt ∧ o.toInt + i.toInt * k.toInt ≤ 2 ^ 50

theorem Elem.index {o k i j : Int64} (a : Elem b o k i) (hj : 0 ≤ j.toInt ∧ j.toInt < k.toInt) (h0 : 0 ≤ (o + (j + i * k)).toInt) :
    (o + (j + i * k)).toInt = o.toInt + i.toInt * k.toInt + j.toInt := by
  have hk := a.hk
  rcases a.inv with h | h
  · subst h
    have z : (0 : Int64).toInt = 0 := rfl
    rw [Int64.zero_mul, Int64.add_zero] at h0 ⊢
    rw [z, Int.zero_mul]
    have := o.toInt_lt; have := o.le_toInt
    rw [toInt_add] at h0 ⊢
    omega
  · exact index_toInt h.1 a.hi ⟨hj.1, by omega⟩ hk (.inr h.2) h0

theorem Elem.next {o k i n : Int64} (a : Elem b o k i) (h0 : 0 ≤ o.toInt + i.toInt * k.toInt) (h1 : o.toInt + i.toInt * k.toInt + k.toInt ≤ 2 ^ 50)
    (hn : i + 1 < n) : Elem b o k (i + 1) ∧ (i + 1).toInt = i.toInt + 1 := by
  have hk := a.hk; have hi := a.hi
  have ho : 0 ≤ o.toInt := by
    rcases a.inv with h | h
    · subst h
      have z : (0 : Int64).toInt = 0 := rfl
      rw [z, Int.zero_mul] at h0
      omega
    · exact h.1
  obtain ⟨e1, e2⟩ := (ElemAt.mk a.small ho hk hi (.inr (by omega)) : ElemAt b o k i).next (by omega) hn
  refine ⟨⟨a.small, hk, e1.hi, .inr ⟨ho, ?_⟩⟩, e2⟩
  rw [e2, Int.add_mul, Int.one_mul]; omega

/-- The bytes of `n` elements. -/
def Elems (P : Loc → Prop) (b : Buf) (o k : Int64) (n : Int) : Prop :=
  ∀ x : Nat, o.toInt ≤ x → x < o.toInt + n * k.toInt → x < b.buf.len → P (.byte b.buf.arr (b.buf.off + x))

theorem Elems.at {P : Loc → Prop} {o k i j : Int64} {n : Int} (h : Elems P b o k n) (a : Elem b o k i) (hn : i.toInt < n) (hj : 0 ≤ j.toInt ∧ j.toInt < k.toInt)
    (h0 : 0 ≤ (o + (j + i * k)).toInt) (h1 : (o + (j + i * k)).toInt < b.buf.len) :
    P (.byte b.buf.arr (b.buf.off + (o + (j + i * k)).toInt.toNat)) ∧ 0 ≤ o.toInt + i.toInt * k.toInt + j.toInt ∧
      o.toInt + i.toInt * k.toInt + j.toInt < 2 ^ 50 := by
  have e := a.index hj h0
  have hk := a.hk; have hi := a.hi; have hs := a.small
  have p : 0 ≤ i.toInt * k.toInt := Int.mul_nonneg hi (by omega)
  have q : (i.toInt + 1) * k.toInt ≤ n * k.toInt := Int.mul_le_mul_of_nonneg_right (by omega) (by omega)
  rw [Int.add_mul, Int.one_mul] at q
  exact ⟨h _ (by omega) (by omega) (by omega), by omega, by omega⟩

theorem lfoot_put {o i j k : Int64} {n : Int} {x : UInt8} {f : Unit → LProg α} (a : Elem b o k i) (hw : Elems W b o k n) (hn : i.toInt < n)
    (hj : 0 ≤ j.toInt ∧ j.toInt < k.toInt)
    (h : 0 ≤ o.toInt + i.toInt * k.toInt + j.toInt → o.toInt + i.toInt * k.toInt + j.toInt < 2 ^ 50 → LFoot R W Q b v (f ())) :
    LFoot R W Q b v (Sem.store b.buf (o + (j + i * k)) x >>= f) := lfoot_store fun h0 h1 => by
  obtain ⟨e1, e2, e3⟩ := hw.at a hn hj h0 h1
  exact ⟨e1, h e2 e3⟩

theorem lfoot_put0 {o i k : Int64} {n : Int} {x : UInt8} {f : Unit → LProg α} (a : Elem b o k i) (hw : Elems W b o k n) (hn : i.toInt < n)
    (h : 0 ≤ o.toInt + i.toInt * k.toInt → o.toInt + i.toInt * k.toInt < 2 ^ 50 → LFoot R W Q b v (f ())) :
    LFoot R W Q b v (Sem.store b.buf (o + i * k) x >>= f) := by
  rw [← Int64.zero_add (i * k)]
  refine lfoot_put a hw hn ⟨by decide, a.hk.1⟩ fun h0 h1 => ?_
  have : (0 : Int64).toInt = 0 := rfl
  exact h (by omega) (by omega)

theorem lfoot_get {o i j k : Int64} {n : Int} {f : UInt8 → LProg α} (a : Elem b o k i) (hr : Elems R b o k n) (hn : i.toInt < n)
    (hj : 0 ≤ j.toInt ∧ j.toInt < k.toInt)
    (h : 0 ≤ o.toInt + i.toInt * k.toInt + j.toInt → o.toInt + i.toInt * k.toInt + j.toInt < 2 ^ 50 → ∀ x, LFoot R W Q b v (f x)) :
    LFoot R W Q b v (Sem.load (Crunch.Src.mem b.buf) (o + (j + i * k)) >>= f) := lfoot_load fun h0 h1 => by
  obtain ⟨e1, e2, e3⟩ := hr.at a hn hj h0 h1
  exact ⟨e1, h e2 e3⟩

theorem lfoot_get0 {o i k : Int64} {n : Int} {f : UInt8 → LProg α} (a : Elem b o k i) (hr : Elems R b o k n) (hn : i.toInt < n)
    (h : 0 ≤ o.toInt + i.toInt * k.toInt → o.toInt + i.toInt * k.toInt < 2 ^ 50 → ∀ x, LFoot R W Q b v (f x)) :
    LFoot R W Q b v (Sem.load (Crunch.Src.mem b.buf) (o + i * k) >>= f) := by
  rw [← Int64.zero_add (i * k)]
  refine lfoot_get a hr hn ⟨by decide, a.hk.1⟩ fun h0 h1 => ?_
  have : (0 : Int64).toInt = 0 := rfl
  exact h (by omega) (by omega)

/-! ## fields, bits, copies -/

/-- Fields and the header may be read and changed: this is about bytes. -/
def Fields (R W : Loc → Prop) : Prop := ∀ l : Loc, l.part ≠ .bytes → R l ∧ W l

theorem Fields.rf {R W : Loc → Prop} (h : Fields R W) (f : Field) : R (.field f) := (h (.field f) nofun).1
theorem Fields.wf {R W : Loc → Prop} (h : Fields R W) (f : Field) : W (.field f) := (h (.field f) nofun).2
theorem Fields.rh {R W : Loc → Prop} (h : Fields R W) : R .header := (h .header nofun).1

theorem lfoot_withOut {w : V} {m : LProg Unit} {k : V → LProg α} (h : LFoot R W (fun b w' _ => LFoot R W Q b v (k w')) b w m) :
    LFoot R W Q b v (Sem.withOut w m >>= k) :=
  lfoot_bind fun l => foot_bind ((h l).mono (fun _ h => h) fun _ _ _ h => h)

theorem lfoot_copy {s x : Slice} {off : Int64} {k : Unit → LProg α} (hr : ∀ i, i < x.len → R (.byte x.arr (x.off + i)))
    (hw : 0 ≤ off.toInt → ∀ i, i < x.len → off.toInt.toNat + i < s.len → W (.byte s.arr (s.off + (off.toInt.toNat + i))))
    (h : LFoot R W Q b v (k ())) :
    LFoot R W Q b v (Sem.resliceFrom s off >>= fun t => Sem.copy t (Crunch.Src.mem x) >>= k) := by
  refine lfoot_lift fun l => foot_bind (foot_reslice trivial fun h0 h1 h2 t ha ho hl hc => ?_)
  refine lfoot_lift fun l => ?_
  refine ⟨⟨?_, fun u hu i hi => ?_, fun i hi => ?_⟩, fun n => h⟩
  · show 0 + min x.len t.len ≤ t.len; omega
  · cases hu; exact hr i (by change i < min x.len t.len at hi; omega)
  · change i < min x.len t.len at hi
    show W (.byte t.arr (t.off + 0 + i))
    rw [ha, ho]
    change (Int64.ofNat s.len).toInt ≤ s.len at h2
    change off.toInt ≤ (Int64.ofNat s.len).toInt at h1
    have := hw h0 i (by omega) (by omega)
    rwa [show s.off + off.toInt.toNat + 0 + i = s.off + (off.toInt.toNat + i) by omega]

/-- The bytes of the bits from `x` to `y`. -/
def BitsIn (P : Loc → Prop) (b : Buf) (x y : Int) : Prop := ∀ i : Nat, x.tdiv 8 ≤ i → i ≤ y.tdiv 8 → i < b.buf.len → P (.byte b.buf.arr (b.buf.off + i))

theorem bit_byte (p : Int64) : (p / 8).toInt = p.toInt.tdiv 8 := by rw [toInt_div8, tdiv8]

theorem lfoot_loadBit {p : Int64} {k : UInt8 → LProg α} (hr : BitsIn R b p.toInt p.toInt)
    (h : -8 < p.toInt → p.toInt < 8 * b.buf.len → ∀ x, LFoot R W Q b v (k x)) : LFoot R W Q b v (Sem.load (Crunch.Src.mem b.buf) (p / 8) >>= k) :=
  lfoot_load fun h0 h1 => by
    rw [bit_byte] at h0 h1 ⊢
    have e := tdiv8 p.toInt
    refine ⟨hr _ (by omega) (by omega) (by omega), h ?_ ?_⟩ <;> (rw [e] at h0 h1; split at h0 <;> simp only [*, if_true, if_false] at h1 <;> omega)

theorem lfoot_storeBit {p : Int64} {x : UInt8} {k : Unit → LProg α} (hr : BitsIn W b p.toInt p.toInt)
    (h : LFoot R W Q b v (k ())) : LFoot R W Q b v (Sem.store b.buf (p / 8) x >>= k) :=
  lfoot_store fun h0 h1 => by
    rw [bit_byte] at h0 h1 ⊢
    exact ⟨hr _ (by omega) (by omega) (by omega), h⟩

/-- A loop over bits at `o`, at the `i`th: at the first one, or behind one that is inside. -/
structure BitElem (b : Buf) (o i : Int64) : Prop where
  small : b.buf.len < 2 ^ 50
  hi : 0 ≤ i.toInt
  inv : i = 0 ∨ -8 < o.toInt ∧ o.toInt + i.toInt ≤ 2 ^ 53

theorem BitElem.start {o : Int64} (h : b.buf.len < 2 ^ 50) : BitElem b o 0 := ⟨h, by decide, .inl rfl⟩

theorem BitElem.pos {o i : Int64} (a : BitElem b o i) : (o + i).toInt = o.toInt + i.toInt := by
  rcases a.inv with rfl | h
  · rw [Int64.add_zero]; exact (Int.add_zero _).symm
  · have := a.hi; rw [toInt_add]; omega

theorem BitElem.next {o i n : Int64} (a : BitElem b o i) (h0 : -8 < (o + i).toInt) (h1 : (o + i).toInt < 8 * b.buf.len) (hn : i + 1 < n) :
    BitElem b o (i + 1) ∧ (i + 1).toInt = i.toInt + 1 := by
  have hs := a.small; have hi := a.hi
  rw [a.pos] at h0 h1
  have ho : -8 < o.toInt := by
    rcases a.inv with rfl | h
    · have z : (0 : Int64).toInt = 0 := rfl
      omega
    · exact h.1
  have e : (i + 1).toInt = i.toInt + 1 := by
    have e1 : (1 : Int64).toInt = 1 := rfl
    rw [toInt_add]; omega
  exact ⟨⟨hs, by omega, .inr ⟨ho, by omega⟩⟩, e⟩

theorem BitsIn.at {P : Loc → Prop} {o i : Int64} {n : Int} (h : BitsIn P b o.toInt (o.toInt + n - 1)) (a : BitElem b o i) (hn : i.toInt < n) :
    BitsIn P b (o + i).toInt (o + i).toInt := fun x h1 h2 h3 => by
  have := a.hi
  rw [a.pos] at h1 h2
  have e1 := tdiv8 o.toInt; have e2 := tdiv8 (o.toInt + i.toInt); have e3 := tdiv8 (o.toInt + n - 1)
  exact h x (by omega) (by omega) h3

/-- Through straight lines. -/
macro "lfsteps" h:ident : tactic => `(tactic| (
  repeat' first
    | with_reducible refine lfoot_field (Fields.rf $h _) ?_
    | with_reducible refine lfoot_assign (Fields.wf $h _) ?_
    | with_reducible refine lfoot_buf (Fields.rh $h) ?_
    | with_reducible exact lfoot_fail
    | (with_reducible refine lfoot_ite (fun _ => lfoot_fail) fun _ => ?_)))

/-- Through the statements of a loop over elements. -/
macro "lfelem" a:ident h:ident p:ident n:term : tactic => `(tactic| (
  repeat' first
    | with_reducible refine lfoot_buf (Fields.rh $h) ?_
    | (with_reducible refine lfoot_idx fun _ _ _ => ?_)
    | (with_reducible refine lfoot_setIdx fun _ => ?_)
    | (with_reducible refine lfoot_put0 $a $p $n fun _ _ => ?_)
    | (with_reducible refine lfoot_put $a $p $n (by decide) fun _ _ => ?_)
    | (with_reducible refine lfoot_get0 $a $p $n fun _ _ _ => ?_)
    | (with_reducible refine lfoot_get $a $p $n (by decide) fun _ _ _ => ?_)
    | with_reducible refine lfoot_getOut ?_
    | with_reducible refine lfoot_putOut ?_))

end Crunch.Src
