import Verif.Lemmas.Foot
import Verif.Lemmas.SafeOps

/-! The places the statements of the method bodies access. -/

namespace Crunch
open V3 (St Buf)

/-- `Prog.Uses`, whatever is in memory: from the fields `b` and the state `l` of the mutex, the program ends as `Q` says, and `E` says when
it may panic. -/
def Foot (R W : Loc → Prop) (E : Bool → Prop) (Q : Buf → Bool → α → Prop) : Buf → Bool → Prog α → Prop
  | b, l, .ret a => Q b l a
  | _, l, .panic _ => E l
  | b, l, .getI f k => R (.field f) ∧ Foot R W E Q b l (k (f.get b))
  | b, l, .setI f v k => W (.field f) ∧ Foot R W E Q (f.set b v) l k
  | b, l, .getBuf k => R .header ∧ Foot R W E Q b l (k b.buf)
  | b, l, .setBuf t k => W .header ∧ Foot R W E Q { b with buf := t } l k
  | b, l, .load t i k => R (.byte t.arr (t.off + i)) ∧ ∀ v, Foot R W E Q b l (k v)
  | b, l, .store t i _ k => W (.byte t.arr (t.off + i)) ∧ Foot R W E Q b l k
  | b, l, .append t x k =>
    (t.len + x.len ≤ t.cap ∧ (∀ u, x = .mem u → ∀ i, i < u.len → R (.byte u.arr (u.off + i))) ∧ ∀ i, i < x.len → W (.byte t.arr (t.off + t.len + i))) ∧
      ∀ n, Foot R W E Q b l (k { t with len := n })
  | _, _, .alloc _ _ _ => False
  | b, l, .lock k => l = false → Foot R W E Q b true k
  | b, l, .unlock k => l = true ∧ Foot R W E Q b false k

variable {R W : Loc → Prop} {E : Bool → Prop} {Q : Buf → Bool → α → Prop} {b : Buf} {l : Bool}

theorem Foot.uses {p : Prog α} {s : Sh} (h : Foot R W E Q s.st.b s.locked p) : p.Uses R W s := by
  induction p generalizing s with
  | ret a => exact True.intro
  | panic q => exact True.intro
  | getI f k ih => exact ⟨h.1, ih _ h.2⟩
  | setI f v k ih => exact ⟨h.1, ih h.2⟩
  | getBuf k ih => exact ⟨h.1, ih _ h.2⟩
  | setBuf t k ih => exact ⟨h.1, ih h.2⟩
  | load t i k ih => exact ⟨h.1, ih _ (h.2 _)⟩
  | store t i v k ih => exact ⟨h.1, ih h.2⟩
  | append t x k ih =>
    refine ⟨h.1, ih _ ?_⟩
    rw [append_room h.1.1]
    exact h.2 _
  | alloc a n k ih => exact h.elim
  | lock k ih => exact fun hl => ih (h hl)
  | unlock k ih => exact ⟨h.1, ih h.2⟩

theorem Foot.mono {p : Prog α} {E' : Bool → Prop} {Q' : Buf → Bool → α → Prop} (h : Foot R W E Q b l p) (hE : ∀ l, E l → E' l)
    (hQ : ∀ b l a, Q b l a → Q' b l a) : Foot R W E' Q' b l p := by
  induction p generalizing b l with
  | ret a => exact hQ _ _ _ h
  | panic q => exact hE _ h
  | getI f k ih => exact ⟨h.1, ih _ h.2⟩
  | setI f v k ih => exact ⟨h.1, ih h.2⟩
  | getBuf k ih => exact ⟨h.1, ih _ h.2⟩
  | setBuf t k ih => exact ⟨h.1, ih h.2⟩
  | load t i k ih => exact ⟨h.1, fun v => ih v (h.2 v)⟩
  | store t i v k ih => exact ⟨h.1, ih h.2⟩
  | append t x k ih => exact ⟨h.1, fun n => ih _ (h.2 n)⟩
  | alloc a n k ih => exact h.elim
  | lock k ih => exact fun hl => ih (h hl)
  | unlock k ih => exact ⟨h.1, ih h.2⟩

theorem foot_bind {p : Prog β} {f : β → Prog α} (h : Foot R W E (fun b l a => Foot R W E Q b l (f a)) b l p) :
    Foot R W E Q b l (p.bind f) := by
  induction p generalizing b l with
  | ret a => exact h
  | panic q => exact h
  | getI f k ih => exact ⟨h.1, ih _ h.2⟩
  | setI f v k ih => exact ⟨h.1, ih h.2⟩
  | getBuf k ih => exact ⟨h.1, ih _ h.2⟩
  | setBuf t k ih => exact ⟨h.1, ih h.2⟩
  | load t i k ih => exact ⟨h.1, fun v => ih v (h.2 v)⟩
  | store t i v k ih => exact ⟨h.1, ih h.2⟩
  | append t x k ih => exact ⟨h.1, fun n => ih _ (h.2 n)⟩
  | alloc a n k ih => exact h.elim
  | lock k ih => exact fun hl => ih (h hl)
  | unlock k ih => exact ⟨h.1, ih h.2⟩

theorem foot_bind' {p : Prog β} {f : β → Prog α} (h : Foot R W E (fun b l a => Foot R W E Q b l (f a)) b l p) :
    Foot R W E Q b l (p >>= f) := foot_bind h

theorem foot_defer {p : Prog α} (h : Foot R W (fun l => l = true ∧ E false) (fun b l a => l = true ∧ Q b false a) b l p) :
    Foot R W E Q b l p.deferUnlock := by
  induction p generalizing b l with
  | ret a => exact h
  | panic q => exact h
  | getI f k ih => exact ⟨h.1, ih _ h.2⟩
  | setI f v k ih => exact ⟨h.1, ih h.2⟩
  | getBuf k ih => exact ⟨h.1, ih _ h.2⟩
  | setBuf t k ih => exact ⟨h.1, ih h.2⟩
  | load t i k ih => exact ⟨h.1, fun v => ih v (h.2 v)⟩
  | store t i v k ih => exact ⟨h.1, ih h.2⟩
  | append t x k ih => exact ⟨h.1, fun n => ih _ (h.2 n)⟩
  | alloc a n k ih => exact h.elim
  | lock k ih => exact fun hl => ih (h hl)
  | unlock k ih => exact ⟨h.1, ih h.2⟩

theorem foot_locked {p : Prog α} (h : l = false → Foot R W (fun l => l = true ∧ E false) (fun b l a => l = true ∧ Q b false a) b true p) :
    Foot R W E Q b l (Prog.locked p) := fun hl => foot_defer (h hl)

theorem foot_panicIf {c : Prop} [Decidable c] {q : Panic} {Q : Buf → Bool → Unit → Prop} (h1 : E l) (h2 : ¬ c → Q b l ()) :
    Foot R W E Q b l (Prog.panicIf c q) := by
  unfold Prog.panicIf; split
  · exact h1
  · exact h2 ‹_›

theorem foot_loadAt {s : Slice} {i : Int64} {Q : Buf → Bool → UInt8 → Prop} (hE : E l)
    (h : 0 ≤ i.toInt → i.toInt < s.len → R (.byte s.arr (s.off + i.toInt.toNat)) ∧ ∀ v, Q b l v) : Foot R W E Q b l (Prog.loadAt s i) := by
  unfold Prog.loadAt; split
  · rename_i g; exact h g.1 g.2
  · exact hE

theorem foot_storeAt {s : Slice} {i : Int64} {v : UInt8} {Q : Buf → Bool → Unit → Prop} (hE : E l)
    (h : 0 ≤ i.toInt → i.toInt < s.len → W (.byte s.arr (s.off + i.toInt.toNat)) ∧ Q b l ()) : Foot R W E Q b l (Prog.storeAt s i v) := by
  unfold Prog.storeAt; split
  · rename_i g; exact h g.1 g.2
  · exact hE

theorem foot_bufLoad {i : Int64} {Q : Buf → Bool → UInt8 → Prop} (hE : E l) (hh : R .header)
    (h : 0 ≤ i.toInt → i.toInt < b.buf.len → R (.byte b.buf.arr (b.buf.off + i.toInt.toNat)) ∧ ∀ v, Q b l v) :
    Foot R W E Q b l (Prog.bufLoad i) := foot_bind' ⟨hh, foot_loadAt hE h⟩

theorem foot_bufStore {i : Int64} {v : UInt8} {Q : Buf → Bool → Unit → Prop} (hE : E l) (hh : R .header)
    (h : 0 ≤ i.toInt → i.toInt < b.buf.len → W (.byte b.buf.arr (b.buf.off + i.toInt.toNat)) ∧ Q b l ()) :
    Foot R W E Q b l (Prog.bufStore i v) := foot_bind' ⟨hh, foot_storeAt hE h⟩

/-- The bytes passed may be read. -/
def SrcIn (R : Loc → Prop) : Src → Prop
  | .mem s => ∀ i, i < s.len → R (.byte s.arr (s.off + i))
  | .lit _ => True

theorem foot_srcAt {d : Src} {i : Int64} {Q : Buf → Bool → UInt8 → Prop} (hE : E l) (hs : SrcIn R d)
    (h : 0 ≤ i.toInt → i.toInt < d.len → ∀ v, Q b l v) : Foot R W E Q b l (Prog.srcAt d i) := by
  cases d with
  | mem s => exact foot_loadAt hE fun h0 h1 => ⟨hs _ (by omega), h h0 h1⟩
  | lit bs =>
    unfold Prog.srcAt; simp only []; split
    · rename_i g; exact h g.1 g.2 _
    · exact hE

theorem foot_idx {d : List α} {i : Int64} (hE : E l) (h : 0 ≤ i.toInt → i.toInt < d.length → ∀ v, Q b l v) : Foot R W E Q b l (Prog.idx d i) := by
  unfold Prog.idx; split
  · rename_i g
    split
    · rename_i v e
      obtain ⟨e, _⟩ := List.getElem?_eq_some_iff.mp e
      exact h g (by omega) v
    · exact hE
  · exact hE

theorem foot_setIdx {d : List α} {i : Int64} {v : α} {Q : Buf → Bool → List α → Prop} (hE : E l)
    (h : ∀ d', d'.length = d.length → Q b l d') : Foot R W E Q b l (Prog.setIdx d i v) := by
  unfold Prog.setIdx; split
  · exact h _ (List.length_set ..)
  · exact hE

theorem foot_makeTyped {w : Nat} {z : α} {n : Int64} {Q : Buf → Bool → List α → Prop} (hE : E l) (h : ∀ out, Q b l out) :
    Foot R W E Q b l (Prog.makeTyped w z n) := by
  unfold Prog.makeTyped; split
  · exact hE
  · exact h _

/-- With the length. -/
theorem foot_makeTyped' {w : Nat} {z : α} {n : Int64} {Q : Buf → Bool → List α → Prop} (hE : E l)
    (h : 0 ≤ n.toInt → ∀ out, out.length = n.toInt.toNat → Q b l out) : Foot R W E Q b l (Prog.makeTyped w z n) := by
  unfold Prog.makeTyped; split
  · exact hE
  · rename_i g
    exact h (by omega) _ (List.length_replicate ..)

theorem foot_reslice {s : Slice} {lo hi : Int64} {Q : Buf → Bool → Slice → Prop} (hE : E l)
    (h : 0 ≤ lo.toInt → lo.toInt ≤ hi.toInt → hi.toInt ≤ s.cap → ∀ t : Slice, t.arr = s.arr → t.off = s.off + lo.toInt.toNat →
      t.len = hi.toInt.toNat - lo.toInt.toNat → t.cap ≤ s.cap → Q b l t) : Foot R W E Q b l (Prog.reslice s lo hi) := by
  unfold Prog.reslice; split
  · rename_i g; exact h g.1 g.2.1 g.2.2 _ rfl rfl rfl (Nat.sub_le ..)
  · exact hE

theorem foot_doLoop {body : Int64 → α → Prog α} {n : Int64} (P : Int64 → α → Prop)
    (hb : ∀ i a, P i a → Foot R W E (fun b' l' a' => b' = b ∧ l' = l ∧ (i + 1 < n → P (i + 1) a') ∧ Q b l a') b l (body i a))
    (i : Int64) (a : α) (hi : P i a) : Foot R W E Q b l (Prog.doLoop body n i a) := by
  fun_induction Prog.doLoop body n i a with
  | case1 i a ih =>
    refine foot_bind ((hb i a hi).mono (fun _ h => h) fun b' l' a' h' => ?_)
    obtain ⟨rfl, rfl, h2, h3⟩ := h'
    split
    · rename_i hh; exact ih a' hh (h2 hh)
    · exact h3

theorem foot_forLoop {body : Int64 → α → Prog α} {n : Int64} (P : Int64 → α → Prop)
    (hb : ∀ i a, P i a → i < n → Foot R W E (fun b' l' a' => b' = b ∧ l' = l ∧ P (i + 1) a') b l (body i a))
    (hq : ∀ i a, P i a → Q b l a) (i : Int64) (a : α) (hi : P i a) : Foot R W E Q b l (Prog.forLoop body n i a) := by
  fun_induction Prog.forLoop body n i a with
  | case1 i a hn ih =>
    refine foot_bind ((hb i a hi hn).mono (fun _ h => h) fun b' l' a' h' => ?_)
    obtain ⟨rfl, rfl, h2⟩ := h'
    exact ih a' h2
  | case2 i a hn => exact hq i a hi

/-! ## the bodies shared by v1 and v2 -/

/-- What every call may read. -/
structure Base (R : Loc → Prop) : Prop where
  header : R .header
  cap : R (.field .cap)
  bcap : R (.field .bcap)

/-- The cached sizes are those of the content. -/
structure Sized (b : Buf) : Prop where
  cap : b.cap.toInt = b.buf.len
  bcap : b.bcap.toInt = 8 * b.buf.len
  small : b.buf.len < 2 ^ 50

theorem foot_check {o t : Int64} {e1 e2 : GoError} {rest : Prog α} (h : Base R) (hE : E l)
    (hr : 0 ≤ o.toInt → ¬ t > b.cap → Foot R W E Q b l rest) :
    Foot R W E Q b l (Prog.field .cap >>= fun cap => Prog.panicIf (t > cap) (.err e1) >>= fun _ =>
      Prog.panicIf (o < 0) (.err e2) >>= fun _ => rest) := by
  refine foot_bind' ⟨h.cap, foot_bind' (foot_panicIf hE fun h1 => foot_bind' (foot_panicIf hE fun h2 => hr ?_ h1))⟩
  rw [Int64.lt_iff_toInt_lt] at h2
  have : (0 : Int64).toInt = 0 := rfl
  omega

theorem foot_checkBit {o : Int64} {e1 e2 : GoError} {rest : Prog α} (h : Base R) (hs : Sized b) (hE : E l)
    (hr : 0 ≤ o.toInt → o.toInt < 8 * b.buf.len → Foot R W E Q b l rest) :
    Foot R W E Q b l (Prog.field .bcap >>= fun bcap => Prog.panicIf (o > bcap - 1) (.err e1) >>= fun _ =>
      Prog.panicIf (o < 0) (.err e2) >>= fun _ => rest) := by
  refine foot_bind' ⟨h.bcap, foot_bind' (foot_panicIf hE fun h1 => foot_bind' (foot_panicIf hE fun h2 => ?_))⟩
  rw [Int64.lt_iff_toInt_lt] at h2
  rw [gt_iff_lt, Int64.lt_iff_toInt_lt] at h1
  have h0 : (0 : Int64).toInt = 0 := rfl
  have e : (b.bcap - 1).toInt = 8 * b.buf.len - 1 := by
    have := hs.small; have := hs.bcap
    rw [toInt_sub]; have : (1 : Int64).toInt = 1 := rfl; omega
  change ¬ (b.bcap - 1).toInt < o.toInt at h1
  exact hr (by omega) (by omega)

theorem foot_seek {f : Field} {off : Int64} {relative : Bool} {Q : Buf → Bool → Unit → Prop} (hE : E false) (hr : R (.field f)) (hw : W (.field f))
    (hq : l = false → Q (f.set b (if relative then f.get b + off else off)) false ()) :
    Foot R W E Q b l (Prog.locked do
      if relative then
        let o ← Prog.field f
        Prog.assign f (o + off)
      else Prog.assign f off) := by
  refine foot_locked fun hl => ?_
  cases relative with
  | true => exact ⟨hr, hw, rfl, hq hl⟩
  | false => exact ⟨hw, rfl, hq hl⟩

/-- `off + i` is where it seems to be, as long as the indices before were inside. -/
theorem index_toInt {o i j k : Int64} (ho : 0 ≤ o.toInt) (hi : 0 ≤ i.toInt) (hj : 0 ≤ j.toInt ∧ j.toInt < 8) (hk : 0 < k.toInt ∧ k.toInt ≤ 8)
    (inv : i.toInt = 0 ∨ o.toInt + i.toInt * k.toInt ≤ 2 ^ 50) (h0 : 0 ≤ (o + (j + i * k)).toInt) :
    (o + (j + i * k)).toInt = o.toInt + i.toInt * k.toInt + j.toInt := by
  have e1 : (i * k).toInt = i.toInt * k.toInt ∧ 0 ≤ i.toInt * k.toInt ∧ (i.toInt * k.toInt = 0 ∨ o.toInt + i.toInt * k.toInt ≤ 2 ^ 50) := by
    rcases inv with h | h
    · have e : i = 0 := Int64.toInt_inj.mp h
      subst e
      have : ((0 : Int64) * k).toInt = 0 := by rw [Int64.zero_mul]; rfl
      have z : (0 : Int64).toInt = 0 := rfl
      rw [this, z]; simp
    · have : 0 ≤ i.toInt * k.toInt := Int.mul_nonneg hi (by omega)
      refine ⟨?_, this, .inr h⟩
      rw [toInt_mul]; omega
  obtain ⟨e1, p1, p2⟩ := e1
  have e2 : (j + i * k).toInt = j.toInt + i.toInt * k.toInt := by
    rw [toInt_add, e1]; have := o.toInt_lt; omega
  have := o.toInt_lt
  rw [toInt_add, e2] at h0 ⊢
  omega

/-- A loop over elements of size `k` at `o`, at its `i`th element. -/
structure ElemAt (b : Buf) (o k i : Int64) : Prop where
  small : b.buf.len < 2 ^ 50
  ho : 0 ≤ o.toInt
  hk : 0 < k.toInt ∧ k.toInt ≤ 8
  hi : 0 ≤ i.toInt
  inv : i.toInt = 0 ∨ o.toInt + i.toInt * k.toInt ≤ 2 ^ 50

theorem ElemAt.next {o k i n : Int64} (a : ElemAt b o k i) (h : o.toInt + i.toInt * k.toInt + (k.toInt - 1) < 2 ^ 50) (hn : i + 1 < n) :
    ElemAt b o k (i + 1) ∧ (i + 1).toInt = i.toInt + 1 := by
  have e : (i + 1).toInt = i.toInt + 1 := by
    rw [Int64.lt_iff_toInt_lt] at hn
    have h1 := i.toInt_lt; have := a.hi; have := n.toInt_lt
    have : i.toInt < 2 ^ 63 - 1 := by
      have := a.ho
      have := a.hk.1
      have : i.toInt * 1 ≤ i.toInt * k.toInt := Int.mul_le_mul_of_nonneg_left (by have := a.hk; omega) a.hi
      omega
    rw [toInt_add]; have : (1 : Int64).toInt = 1 := rfl; omega
  have := a.hi
  refine ⟨⟨a.small, a.ho, a.hk, by omega, .inr ?_⟩, e⟩
  rw [e, Int.add_mul, Int.one_mul]; omega

theorem foot_put {o i j k : Int64} {v : UInt8} {n : Nat} {Q : Buf → Bool → Unit → Prop} (a : ElemAt b o k i) (hn : i.toInt < n) (hE : E l) (hh : R .header)
    (hj : 0 ≤ j.toInt ∧ j.toInt < k.toInt)
    (hw : ∀ x : Nat, o.toInt ≤ x → x < o.toInt + n * k.toInt → x < b.buf.len → W (.byte b.buf.arr (b.buf.off + x)))
    (hq : o.toInt + i.toInt * k.toInt + j.toInt < 2 ^ 50 → Q b l ()) : Foot R W E Q b l (Prog.bufStore (o + (j + i * k)) v) := by
  refine foot_bufStore hE hh fun h0 h1 => ?_
  have hk := a.hk; have hi := a.hi; have hs := a.small
  have e := index_toInt a.ho hi ⟨hj.1, by omega⟩ hk a.inv h0
  have p : 0 ≤ i.toInt * k.toInt := Int.mul_nonneg hi (by omega)
  have q : (i.toInt + 1) * k.toInt ≤ n * k.toInt := Int.mul_le_mul_of_nonneg_right (by omega) (by omega)
  rw [Int.add_mul, Int.one_mul] at q
  exact ⟨hw _ (by omega) (by omega) (by omega), hq (by omega)⟩

theorem foot_put0 {o i k : Int64} {v : UInt8} {n : Nat} {Q : Buf → Bool → Unit → Prop} (a : ElemAt b o k i) (hn : i.toInt < n) (hE : E l) (hh : R .header)
    (hw : ∀ x : Nat, o.toInt ≤ x → x < o.toInt + n * k.toInt → x < b.buf.len → W (.byte b.buf.arr (b.buf.off + x)))
    (hq : o.toInt + i.toInt * k.toInt < 2 ^ 50 → Q b l ()) : Foot R W E Q b l (Prog.bufStore (o + i * k) v) := by
  rw [← Int64.zero_add (i * k)]
  refine foot_put a hn hE hh ⟨by decide, a.hk.1⟩ hw fun h => hq ?_
  have : (0 : Int64).toInt = 0 := rfl
  omega

theorem foot_get {o i j k : Int64} {n : Int} {Q : Buf → Bool → UInt8 → Prop} (a : ElemAt b o k i) (hn : i.toInt < n) (hE : E l) (hh : R .header)
    (hj : 0 ≤ j.toInt ∧ j.toInt < k.toInt)
    (hw : ∀ x : Nat, o.toInt ≤ x → x < o.toInt + n * k.toInt → x < b.buf.len → R (.byte b.buf.arr (b.buf.off + x)))
    (hq : o.toInt + i.toInt * k.toInt + j.toInt < 2 ^ 50 → ∀ v, Q b l v) : Foot R W E Q b l (Prog.bufLoad (o + (j + i * k))) := by
  refine foot_bufLoad hE hh fun h0 h1 => ?_
  have hk := a.hk; have hi := a.hi; have hs := a.small
  have e := index_toInt a.ho hi ⟨hj.1, by omega⟩ hk a.inv h0
  have p : 0 ≤ i.toInt * k.toInt := Int.mul_nonneg hi (by omega)
  have q : (i.toInt + 1) * k.toInt ≤ n * k.toInt := Int.mul_le_mul_of_nonneg_right (by omega) (by omega)
  rw [Int.add_mul, Int.one_mul] at q
  exact ⟨hw _ (by omega) (by omega) (by omega), hq (by omega)⟩

theorem foot_get0 {o i k : Int64} {n : Int} {Q : Buf → Bool → UInt8 → Prop} (a : ElemAt b o k i) (hn : i.toInt < n) (hE : E l) (hh : R .header)
    (hw : ∀ x : Nat, o.toInt ≤ x → x < o.toInt + n * k.toInt → x < b.buf.len → R (.byte b.buf.arr (b.buf.off + x)))
    (hq : o.toInt + i.toInt * k.toInt < 2 ^ 50 → ∀ v, Q b l v) : Foot R W E Q b l (Prog.bufLoad (o + i * k)) := by
  rw [← Int64.zero_add (i * k)]
  refine foot_get a hn hE hh ⟨by decide, a.hk.1⟩ hw fun h => hq ?_
  have : (0 : Int64).toInt = 0 := rfl
  omega

end Crunch
