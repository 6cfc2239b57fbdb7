import Verif.Lemmas.Safe
import Verif.Lemmas.TidyOps
import Verif.Lemmas.V1Complex
import Verif.Ranges

/-! What the v1 and v2 `Buffer` calls can fail with while others run. -/

namespace Crunch
open V3 (St)

variable {E : Panic → Bool → Prop} {L : Nat}

/-! ## any call -/

/-- Whatever it fails with. -/
abbrev wpAny (L : Nat) (α : Type) (p : Prog α) : Prop := ∀ m x, wp L (fun _ _ => True) (fun l _ _ _ => l = false) false m x p

theorem Sec.wpAny {p : Prog α} (h : Sec p) (m : Nat) (x : Bool) (hb : Brk true false p) :
    wp L (fun _ _ => True) (fun l _ _ _ => l = false) true m x p := by
  induction p generalizing m x with
  | ret a => exact h.elim
  | panic q => trivial
  | getI f k ih => cases f <;> first | exact fun v => ih v (h v) _ _ (hb v) | exact fun v _ _ => ih v (h v) _ _ (hb v)
  | setI f v k ih => cases f <;> first | exact ih h.2 _ _ hb.2 | exact nomatch h.1
  | getBuf k ih => exact fun v _ _ _ _ => ih v (h v) _ _ (hb v)
  | load t i k ih => exact fun v => ih v (h v) _ _ (hb v)
  | store t i v k ih => exact ih h _ _ hb.2
  | unlock k ih =>
    refine ⟨rfl, ?_⟩
    cases k <;> first | exact rfl | trivial | exact nomatch h
  | _ => exact h.elim

instance : OpClass (wpAny L) where
  ret _ _ _ := rfl
  bind hp hf m x := wp_bind (wp_mono (fun l m x a h => by subst h; exact hf a m x) (hp m x))
  look := by
    intro α p h
    induction p with
    | ret a => exact fun _ _ => rfl
    | panic q => exact fun _ _ => trivial
    | getI f k ih => intro m x; cases f <;> first | exact fun v => ih v (h v) _ _ | exact fun v _ _ => ih v (h v) _ _
    | getBuf k ih => exact fun m x v _ _ _ _ => ih v (h v) _ _
    | load t i k ih => exact fun m x v => ih v (h v) _ _
    | _ => exact h.elim
  once := by
    intro α p hb h
    induction p with
    | ret a => exact fun _ _ => rfl
    | panic q => exact fun _ _ => trivial
    | getI f k ih =>
      intro m x
      cases f <;> first | exact fun v => ih v (hb v) (h.2 v) _ _ | exact fun v _ _ => ih v (hb v) (h.2 v) _ _
    | getBuf k ih => exact fun m x v _ _ _ _ => ih v (hb v) (h v) _ _
    | lock k ih => exact fun m x => ⟨rfl, Sec.wpAny h _ _ hb.2⟩
    | _ => exact h.elim

theorem wp_tidy {p : Prog α} {Q : Bool → Nat → Bool → α → Prop} {l e : Bool} {m : Nat} {x : Bool} (ht : Tidy l e p)
    (h : wp L (fun _ _ => True) Q l m x p) : wp L (fun _ l => l = false) Q l m x p := by
  induction p generalizing l m x with
  | ret a => exact h
  | panic q => exact ht
  | getI f k ih => cases f <;> first | exact fun v => ih v (ht v) (h v) | exact fun v h1 h2 => ih v (ht v) (h v h1 h2)
  | setI f v k ih => cases f <;> first | exact ih ht h | exact ⟨h.1, h.2.1, ih ht h.2.2⟩
  | getBuf k ih => exact fun s h0 h1 h2 h3 => ih s (ht s) (h s h0 h1 h2 h3)
  | setBuf t k ih => exact ⟨h.1, h.2.1, h.2.2.1, h.2.2.2.1, ih ht h.2.2.2.2⟩
  | load t i k ih => exact fun v => ih v (ht v) (h v)
  | store t i v k ih => exact ih ht h
  | append t y k ih =>
    cases y with
    | lit bs => exact ⟨h.1, h.2.1, fun r h1 h2 h3 => ih r (ht r) (h.2.2 r h1 h2 h3)⟩
    | mem s => exact h.elim
  | alloc a n k ih => exact h.elim
  | lock k ih => exact ⟨h.1, ih ht h.2⟩
  | unlock k ih => exact ⟨h.1, ih ht h.2⟩

theorem wp_weaken {p : Prog α} {E' : Panic → Bool → Prop} {Q : Bool → Nat → Bool → α → Prop} {l : Bool} {m : Nat} {x : Bool}
    (hE : ∀ q l, E q l → E' q l) (h : wp L E Q l m x p) : wp L E' Q l m x p := by
  induction p generalizing l m x with
  | ret a => exact h
  | panic q => exact hE _ _ h
  | getI f k ih => cases f <;> first | exact fun v => ih v (h v) | exact fun v h1 h2 => ih v (h v h1 h2)
  | setI f v k ih => cases f <;> first | exact ih h | exact ⟨h.1, h.2.1, ih h.2.2⟩
  | getBuf k ih => exact fun s h0 h1 h2 h3 => ih s (h s h0 h1 h2 h3)
  | setBuf t k ih => exact ⟨h.1, h.2.1, h.2.2.1, h.2.2.2.1, ih h.2.2.2.2⟩
  | load t i k ih => exact fun v => ih v (h v)
  | store t i v k ih => exact ih h
  | append t y k ih =>
    cases y with
    | lit bs => exact ⟨h.1, h.2.1, fun r h1 h2 h3 => ih r (h.2.2 r h1 h2 h3)⟩
    | mem s => exact h.elim
  | alloc a n k ih => exact h.elim
  | lock k ih => exact ⟨h.1, ih h.2⟩
  | unlock k ih => exact ⟨h.1, ih h.2⟩

/-! ## statements -/

variable {α β : Type} {Q : Bool → Nat → Bool → α → Prop} {l x : Bool} {m : Nat}

theorem wp_bind' {p : Prog β} {f : β → Prog α} (h : wp L E (fun l m x a => wp L E Q l m x (f a)) l m x p) :
    wp L E Q l m x (p >>= f) := wp_bind h

theorem wp_panicIf {c : Prop} [Decidable c] {q : Panic} {Q : Bool → Nat → Bool → Unit → Prop} (h1 : c → E q l)
    (h2 : ¬ c → Q l m x ()) : wp L E Q l m x (Prog.panicIf c q) := by
  unfold Prog.panicIf; split
  · exact h1 ‹_›
  · exact h2 ‹_›

theorem wp_buf {Q : Bool → Nat → Bool → Slice → Prop}
    (h : ∀ s : Slice, L ≤ s.len → m ≤ s.len → s.len ≤ s.cap → s.cap ≤ maxAlloc → Q l s.len l s) : wp L E Q l m x Prog.buf := h

theorem wp_loadAt {s : Slice} {i : Int64} {Q : Bool → Nat → Bool → UInt8 → Prop} (h0 : 0 ≤ i.toInt) (h1 : i.toInt < s.len)
    (h : ∀ v, Q l m x v) : wp L E Q l m x (Prog.loadAt s i) := by
  unfold Prog.loadAt; rw [if_pos ⟨h0, h1⟩]; exact h

theorem wp_load {i : Int64} {Q : Bool → Nat → Bool → UInt8 → Prop} (h0 : 0 ≤ i.toInt) (h1 : i.toInt < m)
    (h : ∀ m' x' v, m ≤ m' → Q l m' x' v) : wp L E Q l m x (Prog.bufLoad i) :=
  wp_bind' fun s _ hm _ _ => wp_loadAt h0 (by omega) fun v => h _ _ v hm

theorem wp_store {i : Int64} {v : UInt8} {Q : Bool → Nat → Bool → Unit → Prop} (h0 : 0 ≤ i.toInt) (h1 : i.toInt < m)
    (h : ∀ m' x', m ≤ m' → Q l m' x' ()) : wp L E Q l m x (Prog.bufStore i v) :=
  wp_bind' fun s _ hm _ _ => by
    show wp L E Q l s.len l (Prog.storeAt s i v)
    unfold Prog.storeAt; rw [if_pos ⟨h0, by omega⟩]; exact h _ _ hm

/-- With the bound written as it is found. -/
theorem wp_store_at {T : Int} {i : Int64} {v : UInt8} {Q : Bool → Nat → Bool → Unit → Prop} (h0 : 0 ≤ i.toInt) (h1 : i.toInt < T)
    (hT : T ≤ m) (h : ∀ (m' : Nat) x', T ≤ m' → Q l m' x' ()) : wp L E Q l m x (Prog.bufStore i v) :=
  wp_store h0 (by omega) fun m' x' hm => h m' x' (by omega)
theorem wp_load_at {T : Int} {i : Int64} {Q : Bool → Nat → Bool → UInt8 → Prop} (h0 : 0 ≤ i.toInt) (h1 : i.toInt < T)
    (hT : T ≤ m) (h : ∀ (m' : Nat) x' v, T ≤ m' → Q l m' x' v) : wp L E Q l m x (Prog.bufLoad i) :=
  wp_load h0 (by omega) fun m' x' v hm => h m' x' v (by omega)

theorem wp_idx {d : List α} {i : Int64} (h0 : 0 ≤ i.toInt) (h1 : i.toInt < d.length)
    (h : ∀ v, Q l m x v) : wp L E Q l m x (Prog.idx d i) := by
  unfold Prog.idx
  rw [if_pos h0, List.getElem?_eq_getElem (by omega)]
  exact h _

theorem wp_setIdx {d : List α} {i : Int64} {v : α} {Q : Bool → Nat → Bool → List α → Prop} (h0 : 0 ≤ i.toInt) (h1 : i.toInt < d.length)
    (h : ∀ d', d'.length = d.length → Q l m x d') : wp L E Q l m x (Prog.setIdx d i v) := by
  unfold Prog.setIdx
  rw [if_pos ⟨h0, h1⟩]
  exact h _ (List.length_set ..)

theorem wp_srcAt {d : Src} {i : Int64} {Q : Bool → Nat → Bool → UInt8 → Prop} (h0 : 0 ≤ i.toInt) (h1 : i.toInt < d.len)
    (h : ∀ v, Q l m x v) : wp L E Q l m x (Prog.srcAt d i) := by
  cases d with
  | mem s => exact wp_loadAt h0 h1 h
  | lit bs => unfold Prog.srcAt; simp only []; rw [if_pos ⟨h0, h1⟩]; exact h _

theorem wp_doLoop {body : Int64 → α → Prog α} {n : Int64} (P : Int64 → Prop) (hP : ∀ i, P i → i + 1 < n → P (i + 1))
    (hb : ∀ i l m x a, P i → Q l m x a → wp L E Q l m x (body i a)) (i : Int64) (a : α) (hi : P i) (h : Q l m x a) :
    wp L E Q l m x (Prog.doLoop body n i a) := by
  fun_induction Prog.doLoop body n i a generalizing l m x with
  | case1 i a ih =>
    refine wp_bind (wp_mono (fun l m x a' h' => ?_) (hb i l m x a hi h))
    split
    · rename_i hh
      exact ih a' hh (hP i hi hh) h'
    · exact h'

theorem wp_forLoop {body : Int64 → α → Prog α} {n : Int64} (P : Int64 → Prop) (hP : ∀ i, P i → i < n → P (i + 1))
    (hb : ∀ i l m x a, P i → i < n → Q l m x a → wp L E Q l m x (body i a)) (i : Int64) (a : α) (hi : P i) (h : Q l m x a) :
    wp L E Q l m x (Prog.forLoop body n i a) := by
  fun_induction Prog.forLoop body n i a generalizing l m x with
  | case1 i a hn ih => exact wp_bind (wp_mono (fun l m x a' h' => ih a' (hP i hi hn) h') (hb i l m x a hi hn h))
  | case2 i a hn => exact h

theorem wp_defer {p : Prog α} (h : wp L (fun q l => l = true ∧ E q false) (fun l m _ a => l = true ∧ Q false m false a) l m x p) :
    wp L E Q l m x p.deferUnlock := by
  induction p generalizing l m x with
  | ret a => exact h
  | panic q => exact h
  | getI f k ih => cases f <;> first | exact fun v => ih v (h v) | exact fun v h1 h2 => ih v (h v h1 h2)
  | setI f v k ih => cases f <;> first | exact ih h | exact ⟨h.1, h.2.1, ih h.2.2⟩
  | getBuf k ih => exact fun s h0 h1 h2 h3 => ih s (h s h0 h1 h2 h3)
  | setBuf t k ih => exact ⟨h.1, h.2.1, h.2.2.1, h.2.2.2.1, ih h.2.2.2.2⟩
  | load t i k ih => exact fun v => ih v (h v)
  | store t i v k ih => exact ih h
  | append t y k ih =>
    cases y with
    | lit bs => exact ⟨h.1, h.2.1, fun r h1 h2 h3 => ih r (h.2.2 r h1 h2 h3)⟩
    | mem s => exact h.elim
  | alloc a n k ih => exact h.elim
  | lock k ih => exact ⟨h.1, ih h.2⟩
  | unlock k ih => exact ⟨h.1, ih h.2⟩

theorem wp_locked {p : Prog α} (h : wp L (fun q l => l = true ∧ E q false) (fun l m _ a => l = true ∧ Q false m false a) true m false p) :
    wp L E Q false m x (Prog.locked p) := ⟨rfl, wp_defer h⟩

/-! ## indices -/

theorem count_up {n : Int64} (i : Int64) (h : 0 ≤ i.toInt ∧ i.toInt < n.toInt) (hi : i + 1 < n) :
    0 ≤ (i + 1).toInt ∧ (i + 1).toInt < n.toInt := by
  rw [Int64.lt_iff_toInt_lt] at hi
  refine ⟨?_, hi⟩
  have := n.toInt_lt
  rw [toInt_add]
  have : (1 : Int64).toInt = 1 := rfl
  omega

theorem at_toInt {o i j W n : Int64} (hj : 0 ≤ j.toInt ∧ j.toInt < W.toInt) (ho : 0 ≤ o.toInt)
    (hi : 0 ≤ i.toInt ∧ i.toInt < n.toInt) (hle : o.toInt + n.toInt * W.toInt ≤ maxAlloc) :
    0 ≤ (o + (j + i * W)).toInt ∧ (o + (j + i * W)).toInt < o.toInt + n.toInt * W.toInt := by
  have h1 : (i.toInt + 1) * W.toInt ≤ n.toInt * W.toInt := Int.mul_le_mul_of_nonneg_right (by omega) (by omega)
  rw [Int.add_mul, Int.one_mul] at h1
  have h2 : 0 ≤ i.toInt * W.toInt := Int.mul_nonneg hi.1 (by omega)
  have hm : (maxAlloc : Int) = 2 ^ 48 := rfl
  have e1 : (i * W).toInt = i.toInt * W.toInt := by rw [toInt_mul]; omega
  have e2 : (j + i * W).toInt = j.toInt + i.toInt * W.toInt := by rw [toInt_add, e1]; omega
  have e3 : (o + (j + i * W)).toInt = o.toInt + (j.toInt + i.toInt * W.toInt) := by rw [toInt_add, e2]; omega
  omega

theorem at_toInt0 {o i W n : Int64} (hw : 0 < W.toInt) (ho : 0 ≤ o.toInt)
    (hi : 0 ≤ i.toInt ∧ i.toInt < n.toInt) (hle : o.toInt + n.toInt * W.toInt ≤ maxAlloc) :
    0 ≤ (o + i * W).toInt ∧ (o + i * W).toInt < o.toInt + n.toInt * W.toInt := by
  have := at_toInt (j := 0) ⟨by decide, hw⟩ ho hi hle
  rwa [show (0 : Int64) + i * W = i * W from Int64.zero_add _] at this

theorem at_toInt1 {o i n : Int64} (ho : 0 ≤ o.toInt)
    (hi : 0 ≤ i.toInt ∧ i.toInt < n.toInt) (hle : o.toInt + n.toInt * (1 : Int64).toInt ≤ maxAlloc) :
    0 ≤ (o + i).toInt ∧ (o + i).toInt < o.toInt + n.toInt * (1 : Int64).toInt := by
  have := at_toInt0 (W := 1) (by decide) ho hi hle
  rwa [show i * (1 : Int64) = i from Int64.mul_one _] at this

/-- The range `n` elements of size `W` take from `o` is inside `L` bytes. -/
def Within (L : Nat) (o n W : Int64) : Prop := 0 ≤ o.toInt ∧ o.toInt + n.toInt * W.toInt ≤ L

theorem total_toInt {o n W : Int64} (hn : 0 ≤ n.toInt * W.toInt) (ho : 0 ≤ o.toInt)
    (h : o.toInt + n.toInt * W.toInt < 2 ^ 63) : (o + n * W).toInt = o.toInt + n.toInt * W.toInt := by
  have e1 : (n * W).toInt = n.toInt * W.toInt := by rw [toInt_mul]; omega
  rw [toInt_add, e1]; omega

/-! ## shapes -/

/-- What the check before a section leaves. -/
theorem wp_check {o n W : Int64} {t : Int64} {e1 e2 : GoError} {rest : Prog α} (ht : 0 ≤ o.toInt → t.toInt = o.toInt + n.toInt * W.toInt)
    (hE : ¬ Within L o n W → ∀ e, E (.err e) false)
    (hr : ∀ m : Nat, 0 ≤ o.toInt → o.toInt + n.toInt * W.toInt ≤ m → o.toInt + n.toInt * W.toInt ≤ maxAlloc → wp L E Q false m x rest) :
    wp L E Q false m x (Prog.field .cap >>= fun cap => Prog.panicIf (t > cap) (.err e1) >>= fun _ =>
      Prog.panicIf (o < 0) (.err e2) >>= fun _ => rest) := by
  refine wp_bind' fun v hv1 hv2 => wp_bind' (wp_panicIf (fun h => hE (fun hw => ?_) _) fun h => ?_)
  · have := ht hw.1
    have h2 := hw.2
    rw [gt_iff_lt, Int64.lt_iff_toInt_lt] at h
    omega
  · refine wp_bind' (wp_panicIf (fun h' => hE (fun hw => ?_) _) fun h' => ?_)
    · rw [Int64.lt_iff_toInt_lt] at h'
      have : (0 : Int64).toInt = 0 := rfl
      have := hw.1
      omega
    · rw [gt_iff_lt, Int64.lt_iff_toInt_lt] at h
      rw [Int64.lt_iff_toInt_lt] at h'
      have : (0 : Int64).toInt = 0 := rfl
      have h0 : 0 ≤ o.toInt := by omega
      have := ht h0
      exact hr _ h0 (by omega) (by omega)

/-- The loop of a write, between `Lock` and `Unlock`. -/
theorem wp_writeLoop {o n W : Int64} {body : Int64 → Unit → Prog Unit} (hn : 0 < n.toInt) (hm : o.toInt + n.toInt * W.toInt ≤ m)
    (hb : ∀ i (m : Nat) x, (0 ≤ i.toInt ∧ i.toInt < n.toInt) → o.toInt + n.toInt * W.toInt ≤ m →
      wp L E (fun l m _ _ => l = true ∧ o.toInt + n.toInt * W.toInt ≤ (m : Int)) true m x (body i ())) :
    wp L E Fin false m x (Prog.Lock >>= fun _ => Prog.doLoop body n 0 () >>= fun _ => Prog.Unlock) := by
  refine wp_bind' ⟨rfl, wp_bind' (wp_mono (fun l m x _ h => ?_) (wp_doLoop (Q := fun l m _ _ => l = true ∧ o.toInt + n.toInt * W.toInt ≤ (m : Int))
    (fun i => 0 ≤ i.toInt ∧ i.toInt < n.toInt) count_up (fun i l m x a hi h => by rw [h.1]; exact hb i m x hi h.2) 0 ()
    ⟨Int.le_refl _, hn⟩ ⟨rfl, hm⟩))⟩
  exact ⟨h.1, rfl⟩

/-- The loop of a read, inside a section released by `defer`. -/
theorem wp_readLoop {o n W : Int64} {body : Int64 → List α → Prog (List α)} {out : List α} (hn : 0 < n.toInt)
    (hm : o.toInt + n.toInt * W.toInt ≤ m) (ho : out.length = n.toInt)
    (hb : ∀ i (m : Nat) x out, (0 ≤ i.toInt ∧ i.toInt < n.toInt) → o.toInt + n.toInt * W.toInt ≤ m → (out.length : Int) = n.toInt →
      wp L (fun q l => l = true ∧ E q false) (fun l m _ out => l = true ∧ o.toInt + n.toInt * W.toInt ≤ (m : Int) ∧ (out.length : Int) = n.toInt)
        true m x (body i out)) :
    wp L E Fin false m x (Prog.locked (Prog.doLoop body n 0 out)) := by
  refine wp_locked (wp_mono (fun l m x _ h => ⟨h.1, rfl⟩) (wp_doLoop
    (Q := fun l m _ out => l = true ∧ o.toInt + n.toInt * W.toInt ≤ (m : Int) ∧ (out.length : Int) = n.toInt)
    (fun i => 0 ≤ i.toInt ∧ i.toInt < n.toInt) count_up (fun i l m x a hi h => by rw [h.1]; exact hb i m x a hi h.2.1 h.2.2) 0 out
    ⟨Int.le_refl _, hn⟩ ⟨rfl, hm, ho⟩))

theorem wp_makeTyped {w : Nat} {z : α} {n : Int64} {Q : Bool → Nat → Bool → List α → Prop} (h0 : 0 ≤ n.toInt)
    (h1 : n.toInt * w ≤ maxAlloc) (h : ∀ out, (out.length : Int) = n.toInt → Q l m x out) : wp L E Q l m x (Prog.makeTyped w z n) := by
  unfold Prog.makeTyped
  rw [if_neg (by omega)]
  exact h _ (by rw [List.length_replicate]; omega)

end Crunch

namespace Crunch.V2
open Spec (Endian)

variable {E : Panic → Bool → Prop} {L : Nat} {m : Nat} {x : Bool}

/-- An index below `T`. -/
abbrev At (x : Int64) (T : Int) : Prop := 0 ≤ x.toInt ∧ x.toInt < T

theorem at2 {o i n : Int64} (ho : 0 ≤ o.toInt) (hi : 0 ≤ i.toInt ∧ i.toInt < n.toInt) (hle : o.toInt + n.toInt * (2 : Int64).toInt ≤ maxAlloc) :
    At (o + i * 2) (o.toInt + n.toInt * (2 : Int64).toInt) ∧
    At (o + (1 + i * 2)) (o.toInt + n.toInt * (2 : Int64).toInt) :=
  ⟨at_toInt0 (by decide) ho hi hle, at_toInt (by decide) ho hi hle⟩
theorem at4 {o i n : Int64} (ho : 0 ≤ o.toInt) (hi : 0 ≤ i.toInt ∧ i.toInt < n.toInt) (hle : o.toInt + n.toInt * (4 : Int64).toInt ≤ maxAlloc) :
    At (o + i * 4) (o.toInt + n.toInt * (4 : Int64).toInt) ∧
    At (o + (1 + i * 4)) (o.toInt + n.toInt * (4 : Int64).toInt) ∧
    At (o + (2 + i * 4)) (o.toInt + n.toInt * (4 : Int64).toInt) ∧
    At (o + (3 + i * 4)) (o.toInt + n.toInt * (4 : Int64).toInt) :=
  ⟨at_toInt0 (by decide) ho hi hle, at_toInt (by decide) ho hi hle, at_toInt (by decide) ho hi hle, at_toInt (by decide) ho hi hle⟩
theorem at8 {o i n : Int64} (ho : 0 ≤ o.toInt) (hi : 0 ≤ i.toInt ∧ i.toInt < n.toInt) (hle : o.toInt + n.toInt * (8 : Int64).toInt ≤ maxAlloc) :
    At (o + i * 8) (o.toInt + n.toInt * (8 : Int64).toInt) ∧
    At (o + (1 + i * 8)) (o.toInt + n.toInt * (8 : Int64).toInt) ∧
    At (o + (2 + i * 8)) (o.toInt + n.toInt * (8 : Int64).toInt) ∧
    At (o + (3 + i * 8)) (o.toInt + n.toInt * (8 : Int64).toInt) ∧
    At (o + (4 + i * 8)) (o.toInt + n.toInt * (8 : Int64).toInt) ∧
    At (o + (5 + i * 8)) (o.toInt + n.toInt * (8 : Int64).toInt) ∧
    At (o + (6 + i * 8)) (o.toInt + n.toInt * (8 : Int64).toInt) ∧
    At (o + (7 + i * 8)) (o.toInt + n.toInt * (8 : Int64).toInt) :=
  ⟨at_toInt0 (by decide) ho hi hle, at_toInt (by decide) ho hi hle, at_toInt (by decide) ho hi hle, at_toInt (by decide) ho hi hle, at_toInt (by decide) ho hi hle, at_toInt (by decide) ho hi hle, at_toInt (by decide) ho hi hle, at_toInt (by decide) ho hi hle⟩

macro "w_safe" hi:term:max hd:term:max : tactic => `(tactic| repeat' (first
  | with_reducible refine wp_bind' (wp_idx ($hi).1 $hd fun _ => ?_)
  | with_reducible refine wp_bind' (wp_store_at (by with_reducible assumption) (by with_reducible assumption) (by assumption) fun _ _ hm => ?_)
  | with_reducible refine wp_store_at (by with_reducible assumption) (by with_reducible assumption) (by assumption) fun _ _ hm => ?_))

theorem len_toInt {o : Int64} {n w : Nat} (hf : Fits o n w) (hw : 0 < w) (ho : 0 ≤ o.toInt) : (Int64.ofNat n).toInt = n := by
  have := hf ho
  have h : (n : Int) * 1 ≤ n * w := Int.mul_le_mul_of_nonneg_left (by omega) (by omega)
  exact toInt_ofNat (by omega)

theorem total_len {o : Int64} {n w : Nat} {W : Int64} (hf : Fits o n w) (hW : W.toInt = w) (hw : 0 < w) (ho : 0 ≤ o.toInt) :
    (o + Int64.ofNat n * W).toInt = o.toInt + (Int64.ofNat n).toInt * W.toInt := by
  have h := hf ho
  have hn := len_toInt hf hw ho
  refine total_toInt (Int.mul_nonneg (by omega) (by omega)) ho ?_
  rw [hn, hW]; exact h

theorem not_inside {o : Int64} {n w : Nat} {W : Int64} (hf : Fits o n w) (hW : W.toInt = w) (hw : 0 < w)
    (h : ¬ Within L o (Int64.ofNat n) W) : ¬ Inside L o n w := by
  intro hi
  apply h
  refine ⟨hi.1, ?_⟩
  rw [len_toInt hf hw hi.1, hW]
  exact hi.2

theorem write_safe (k : UKind) (e : Endian) (o : Int64) (data : List k.kind.Ty) (hn : data ≠ []) (hf : Fits o data.length k.kind.size)
    (hE : ¬ Inside L o data.length k.kind.size → ∀ e, E (.err e) false) :
    wp L E Fin false m x (Buffer.Write k e o data) := by
  have hp : 0 < data.length := List.length_pos_iff.mpr hn
  cases k <;> cases e
  · refine wp_check (W := 2) (n := len data) (total_len hf rfl (by decide)) (fun h => hE (not_inside hf rfl (by decide) h))
      fun m ho hm hle => ?_
    have hl : (len data).toInt = data.length := len_toInt hf (by decide) ho
    refine wp_writeLoop (by omega) hm fun i m x hi hm => ?_
    have hd : i.toInt < (data.length : Int) := by omega
    obtain ⟨⟨a0, b0⟩, ⟨a1, b1⟩⟩ := at2 ho hi hle
    w_safe hi hd
    exact ⟨rfl, by assumption⟩
  · refine wp_check (W := 2) (n := len data) (total_len hf rfl (by decide)) (fun h => hE (not_inside hf rfl (by decide) h))
      fun m ho hm hle => ?_
    have hl : (len data).toInt = data.length := len_toInt hf (by decide) ho
    refine wp_writeLoop (by omega) hm fun i m x hi hm => ?_
    have hd : i.toInt < (data.length : Int) := by omega
    obtain ⟨⟨a0, b0⟩, ⟨a1, b1⟩⟩ := at2 ho hi hle
    w_safe hi hd
    exact ⟨rfl, by assumption⟩
  · refine wp_check (W := 4) (n := len data) (total_len hf rfl (by decide)) (fun h => hE (not_inside hf rfl (by decide) h))
      fun m ho hm hle => ?_
    have hl : (len data).toInt = data.length := len_toInt hf (by decide) ho
    refine wp_writeLoop (by omega) hm fun i m x hi hm => ?_
    have hd : i.toInt < (data.length : Int) := by omega
    obtain ⟨⟨a0, b0⟩, ⟨a1, b1⟩, ⟨a2, b2⟩, ⟨a3, b3⟩⟩ := at4 ho hi hle
    w_safe hi hd
    exact ⟨rfl, by assumption⟩
  · refine wp_check (W := 4) (n := len data) (total_len hf rfl (by decide)) (fun h => hE (not_inside hf rfl (by decide) h))
      fun m ho hm hle => ?_
    have hl : (len data).toInt = data.length := len_toInt hf (by decide) ho
    refine wp_writeLoop (by omega) hm fun i m x hi hm => ?_
    have hd : i.toInt < (data.length : Int) := by omega
    obtain ⟨⟨a0, b0⟩, ⟨a1, b1⟩, ⟨a2, b2⟩, ⟨a3, b3⟩⟩ := at4 ho hi hle
    w_safe hi hd
    exact ⟨rfl, by assumption⟩
  · refine wp_check (W := 8) (n := len data) (total_len hf rfl (by decide)) (fun h => hE (not_inside hf rfl (by decide) h))
      fun m ho hm hle => ?_
    have hl : (len data).toInt = data.length := len_toInt hf (by decide) ho
    refine wp_writeLoop (by omega) hm fun i m x hi hm => ?_
    have hd : i.toInt < (data.length : Int) := by omega
    obtain ⟨⟨a0, b0⟩, ⟨a1, b1⟩, ⟨a2, b2⟩, ⟨a3, b3⟩, ⟨a4, b4⟩, ⟨a5, b5⟩, ⟨a6, b6⟩, ⟨a7, b7⟩⟩ := at8 ho hi hle
    w_safe hi hd
    exact ⟨rfl, by assumption⟩
  · refine wp_check (W := 8) (n := len data) (total_len hf rfl (by decide)) (fun h => hE (not_inside hf rfl (by decide) h))
      fun m ho hm hle => ?_
    have hl : (len data).toInt = data.length := len_toInt hf (by decide) ho
    refine wp_writeLoop (by omega) hm fun i m x hi hm => ?_
    have hd : i.toInt < (data.length : Int) := by omega
    obtain ⟨⟨a0, b0⟩, ⟨a1, b1⟩, ⟨a2, b2⟩, ⟨a3, b3⟩, ⟨a4, b4⟩, ⟨a5, b5⟩, ⟨a6, b6⟩, ⟨a7, b7⟩⟩ := at8 ho hi hle
    w_safe hi hd
    exact ⟨rfl, by assumption⟩

macro "r_safe" hi:term:max hout:term:max : tactic => `(tactic| repeat' (first
  | with_reducible refine wp_bind' (wp_load_at (by with_reducible assumption) (by with_reducible assumption) (by assumption) fun _ _ _ hm => ?_)
  | with_reducible exact wp_setIdx ($hi).1 (by rw [$hout:term]; exact ($hi).2) fun _ h => ⟨rfl, by assumption, by rw [h]; exact $hout⟩))

theorem le_of_sum {a b c : Int} (ha : 0 ≤ a) (h : a + b ≤ c) : b ≤ c := by omega

theorem read_safe (k : UKind) (e : Endian) (o n : Int64) (hn : 0 < n.toInt) (hf : Fits o n.toInt.toNat k.kind.size)
    (hE : ¬ Inside L o n.toInt.toNat k.kind.size → ∀ e, E (.err e) false) :
    wp L E Fin false m x (Buffer.Read k e o n) := by
  have hf' : 0 ≤ o.toInt → o.toInt + n.toInt * k.kind.size < 2 ^ 63 := by
    intro h
    have := hf h
    rwa [Int.toNat_of_nonneg (by omega)] at this
  have hI' : ¬ (0 ≤ o.toInt ∧ o.toInt + n.toInt * k.kind.size ≤ L) → ¬ Inside L o n.toInt.toNat k.kind.size := by
    intro h h'
    unfold Inside at h'
    rw [Int.toNat_of_nonneg (by omega)] at h'
    exact h h'
  cases k <;> cases e
  · refine wp_check (W := 2) (n := n) (fun ho => total_toInt (Int.mul_nonneg (by omega) (by decide)) ho (hf' ho)) (fun h => hE (hI' h)) fun m ho hm hle => ?_
    refine wp_bind' (wp_makeTyped (by omega) (le_of_sum ho hle) fun out hout => wp_readLoop hn hm hout fun i m x out hi hm hout => ?_)
    obtain ⟨⟨a0, b0⟩, ⟨a1, b1⟩⟩ := at2 ho hi hle
    r_safe hi hout
  · refine wp_check (W := 2) (n := n) (fun ho => total_toInt (Int.mul_nonneg (by omega) (by decide)) ho (hf' ho)) (fun h => hE (hI' h)) fun m ho hm hle => ?_
    refine wp_bind' (wp_makeTyped (by omega) (le_of_sum ho hle) fun out hout => wp_readLoop hn hm hout fun i m x out hi hm hout => ?_)
    obtain ⟨⟨a0, b0⟩, ⟨a1, b1⟩⟩ := at2 ho hi hle
    r_safe hi hout
  · refine wp_check (W := 4) (n := n) (fun ho => total_toInt (Int.mul_nonneg (by omega) (by decide)) ho (hf' ho)) (fun h => hE (hI' h)) fun m ho hm hle => ?_
    refine wp_bind' (wp_makeTyped (by omega) (le_of_sum ho hle) fun out hout => wp_readLoop hn hm hout fun i m x out hi hm hout => ?_)
    obtain ⟨⟨a0, b0⟩, ⟨a1, b1⟩, ⟨a2, b2⟩, ⟨a3, b3⟩⟩ := at4 ho hi hle
    r_safe hi hout
  · refine wp_check (W := 4) (n := n) (fun ho => total_toInt (Int.mul_nonneg (by omega) (by decide)) ho (hf' ho)) (fun h => hE (hI' h)) fun m ho hm hle => ?_
    refine wp_bind' (wp_makeTyped (by omega) (le_of_sum ho hle) fun out hout => wp_readLoop hn hm hout fun i m x out hi hm hout => ?_)
    obtain ⟨⟨a0, b0⟩, ⟨a1, b1⟩, ⟨a2, b2⟩, ⟨a3, b3⟩⟩ := at4 ho hi hle
    r_safe hi hout
  · refine wp_check (W := 8) (n := n) (fun ho => total_toInt (Int.mul_nonneg (by omega) (by decide)) ho (hf' ho)) (fun h => hE (hI' h)) fun m ho hm hle => ?_
    refine wp_bind' (wp_makeTyped (by omega) (le_of_sum ho hle) fun out hout => wp_readLoop hn hm hout fun i m x out hi hm hout => ?_)
    obtain ⟨⟨a0, b0⟩, ⟨a1, b1⟩, ⟨a2, b2⟩, ⟨a3, b3⟩, ⟨a4, b4⟩, ⟨a5, b5⟩, ⟨a6, b6⟩, ⟨a7, b7⟩⟩ := at8 ho hi hle
    r_safe hi hout
  · refine wp_check (W := 8) (n := n) (fun ho => total_toInt (Int.mul_nonneg (by omega) (by decide)) ho (hf' ho)) (fun h => hE (hI' h)) fun m ho hm hle => ?_
    refine wp_bind' (wp_makeTyped (by omega) (le_of_sum ho hle) fun out hout => wp_readLoop hn hm hout fun i m x out hi hm hout => ?_)
    obtain ⟨⟨a0, b0⟩, ⟨a1, b1⟩, ⟨a2, b2⟩, ⟨a3, b3⟩, ⟨a4, b4⟩, ⟨a5, b5⟩, ⟨a6, b6⟩, ⟨a7, b7⟩⟩ := at8 ho hi hle
    r_safe hi hout

/-! ## the other methods -/

theorem writeSrc_safe (o : Int64) (d : Src) (hn : 0 < d.len) (hf : Fits o d.len 1)
    (hE : ¬ Inside L o d.len 1 → ∀ e, E (.err e) false) : wp L E Fin false m x (Buffer.write o d) := by
  refine wp_check (W := 1) (n := Int64.ofNat d.len) (fun ho => ?_) (fun h => hE (not_inside hf rfl (by decide) h)) fun m ho hm hle => ?_
  · have := total_len (W := 1) hf rfl (by decide) ho
    rwa [show Int64.ofNat d.len * 1 = Int64.ofNat d.len from Int64.mul_one _] at this
  · have hl := len_toInt hf (by decide) ho
    refine wp_writeLoop (W := 1) (by omega) hm fun i m x hi hm => ?_
    have ha := at_toInt1 ho hi hle
    exact wp_bind' (wp_srcAt hi.1 (by omega) fun _ => wp_store_at ha.1 ha.2 hm fun _ _ h => ⟨rfl, h⟩)

theorem readRaw_safe (o n : Int64) (hn : 0 ≤ n.toInt) (hf : Fits o n.toInt.toNat 1)
    (hE : ¬ Inside L o n.toInt.toNat 1 → ∀ e, E (.err e) false) :
    wp L E (fun l _ _ s => l = false ∧ s.len = n.toInt.toNat ∧ (L : Int) ≤ o.toInt + s.cap) false m x (Buffer.read o n) := by
  have ht : 0 ≤ o.toInt → (o + n).toInt = o.toInt + n.toInt := fun ho => by
    have := hf ho
    rw [toInt_add]; omega
  refine wp_check (W := 1) (n := n) (fun ho => ?_) (fun h => hE fun hi => h ?_) fun m ho hm hle => ?_
  · rw [ht ho]; show _ = _ + n.toInt * 1; omega
  · exact ⟨hi.1, by have := hi.2; show _ + n.toInt * 1 ≤ _; omega⟩
  · refine wp_locked (wp_bind' (wp_buf fun s hL hs hc _ => ?_))
    have := ht ho
    have hm' : o.toInt + n.toInt * 1 ≤ m := hm
    unfold Prog.reslice
    rw [if_pos ⟨ho, by omega, by omega⟩]
    refine ⟨rfl, rfl, ?_, ?_⟩
    · show (o + n).toInt.toNat - o.toInt.toNat = _
      omega
    · show (L : Int) ≤ o.toInt + (s.cap - o.toInt.toNat : Nat)
      omega

theorem readByte_safe (o : Int64) (hf : Fits o 1 1) (hE : ¬ Inside L o 1 1 → ∀ e, E (.err e) false) :
    wp L E Fin false m x (Buffer.ReadByte o) := by
  refine wp_bind' (wp_mono (fun l m x s h => ?_) (readRaw_safe o 1 (by decide) hf hE))
  exact wp_loadAt (by decide) (by rw [h.2.1]; decide) fun _ => h.1

/-- The check of the bit methods. -/
theorem wp_bitCheck {o : Int64} {e1 e2 : GoError} {rest : Prog α} {Q : Bool → Nat → Bool → α → Prop}
    (hE : ¬ (0 ≤ o.toInt ∧ o.toInt < 8 * L) → ∀ e, E (.err e) false)
    (hr : ∀ m : Nat, 0 ≤ (o / 8).toInt → (o / 8).toInt < m → wp L E Q false m x rest) :
    wp L E Q false m x (Prog.field .bcap >>= fun bcap => Prog.panicIf (o > bcap - 1) (.err e1) >>= fun _ =>
      Prog.panicIf (o < 0) (.err e2) >>= fun _ => rest) := by
  refine wp_bind' fun v hv1 hv2 => ?_
  have h1 : (1 : Int64).toInt = 1 := rfl
  have h0 : (0 : Int64).toInt = 0 := rfl
  have hm : (maxAlloc : Int) = 2 ^ 48 := rfl
  have hv : (v - 1).toInt = v.toInt - 1 := by rw [toInt_sub]; omega
  refine wp_bind' (wp_panicIf (fun h => hE (fun hw => ?_) _) fun h => ?_)
  · rw [gt_iff_lt, Int64.lt_iff_toInt_lt] at h; omega
  · refine wp_bind' (wp_panicIf (fun h' => hE (fun hw => ?_) _) fun h' => ?_)
    · rw [Int64.lt_iff_toInt_lt] at h'; omega
    · rw [gt_iff_lt, Int64.lt_iff_toInt_lt] at h
      rw [Int64.lt_iff_toInt_lt] at h'
      have hd := V3.div8_toInt (off := o) (by omega)
      exact hr _ (by omega) (by omega)

theorem readbit_safe (o : Int64) (hE : ¬ (0 ≤ o.toInt ∧ o.toInt < 8 * L) → ∀ e, E (.err e) false) :
    wp L E Fin false m x (Buffer.readbit o) :=
  wp_bitCheck hE fun _ h0 h1 => wp_locked (wp_bind' (wp_load h0 h1 fun _ _ _ _ => ⟨rfl, rfl⟩))

theorem flipbit_safe (o : Int64) (hE : ¬ (0 ≤ o.toInt ∧ o.toInt < 8 * L) → ∀ e, E (.err e) false) :
    wp L E Fin false m x (Buffer.flipbit o) :=
  wp_bitCheck hE fun _ h0 h1 => wp_locked (wp_bind' (wp_load h0 h1 fun _ _ _ _ => wp_store h0 (by omega) fun _ _ _ => ⟨rfl, rfl⟩))

theorem setbit_safe (o : Int64) (v : UInt8) (hE : ¬ (0 ≤ o.toInt ∧ o.toInt < 8 * L ∧ (v = 0 ∨ v = 1)) → ∀ e, E (.err e) false) :
    wp L E Fin false m x (Buffer.setbit o v) := by
  refine wp_bitCheck (fun h => hE fun h' => h ⟨h'.1, h'.2.1⟩) fun _ h0 h1 => wp_locked ?_
  split
  · exact wp_bind' (wp_load h0 h1 fun _ _ _ _ => wp_store h0 (by omega) fun _ _ _ => ⟨rfl, rfl⟩)
  · split
    · exact wp_bind' (wp_load h0 h1 fun _ _ _ _ => wp_store h0 (by omega) fun _ _ _ => ⟨rfl, rfl⟩)
    · rename_i n0 n1
      exact ⟨rfl, hE (fun h => h.2.2.elim n0 n1) _⟩

theorem bits_at {o n i : Int64} (hL : L ≤ maxAlloc) (h : BitsInside L o n) (hi : 0 ≤ i.toInt ∧ i.toInt < n.toInt) :
    0 ≤ (o + i).toInt ∧ (o + i).toInt < 8 * L := by
  obtain ⟨h1, h2, h3⟩ := h
  have hm : (maxAlloc : Int) = 2 ^ 48 := rfl
  have : (o + i).toInt = o.toInt + i.toInt := by rw [toInt_add]; omega
  omega

/-- A loop over bits: each step is fine if its index is in range, or else may fail with an error of the library. -/
theorem wp_bitLoop {o n : Int64} {body : Int64 → α → Prog α} {a : α} (hL : L ≤ maxAlloc)
    (hE : ¬ BitsInside L o n → ∀ e, E (.err e) false)
    (hb : ∀ i a m x, (¬ (0 ≤ (o + i).toInt ∧ (o + i).toInt < 8 * L) → ∀ e, E (.err e) false) → wp L E Fin false m x (body i a)) :
    wp L E Fin false m x (Prog.doLoop body n 0 a) := by
  by_cases hi : BitsInside L o n
  · refine wp_doLoop (Q := Fin) (fun i => 0 ≤ i.toInt ∧ i.toInt < n.toInt) count_up (fun i l m x a h hl => ?_) 0 a
      ⟨Int.le_refl _, hi.1⟩ rfl
    cases hl
    exact hb i a m x fun h' => absurd (bits_at hL hi h) h'
  · refine wp_doLoop (Q := Fin) (fun _ => True) (fun _ _ _ => trivial) (fun i l m x a h hl => ?_) 0 a trivial rfl
    cases hl
    exact hb i a m x fun _ => hE hi

theorem readbits_safe (o n : Int64) (hL : L ≤ maxAlloc) (hE : ¬ BitsInside L o n → ∀ e, E (.err e) false) :
    wp L E Fin false m x (Buffer.readbits o n) :=
  wp_bitLoop hL hE fun i _ _ _ h => wp_bind' (wp_mono (fun _ _ _ _ h => h) (readbit_safe (o + i) h))

theorem and_one (v : UInt64) : (v &&& 1).toUInt8 = 0 ∨ (v &&& 1).toUInt8 = 1 := by
  have h : (v &&& 1).toNat = v.toNat % 2 := by
    rw [UInt64.toNat_and]; exact Nat.and_one_is_mod _
  rcases Nat.mod_two_eq_zero_or_one v.toNat with h' | h'
  · left; apply UInt8.toNat_inj.mp; rw [UInt64.toNat_toUInt8, h, h']; rfl
  · right; apply UInt8.toNat_inj.mp; rw [UInt64.toNat_toUInt8, h, h']; rfl

theorem setbits_safe (o : Int64) (d : UInt64) (n : Int64) (hL : L ≤ maxAlloc) (hE : ¬ BitsInside L o n → ∀ e, E (.err e) false) :
    wp L E Fin false m x (Buffer.setbits o d n) :=
  wp_bitLoop hL hE fun i _ _ _ h => setbit_safe (o + i) _ fun h' => h fun h'' => h' ⟨h''.1, h''.2, and_one _⟩

theorem seek_safe (o : Int64) (r : Bool) : wp L E Fin false m x (Buffer.seek o r) := by
  refine wp_locked ?_
  cases r
  · exact ⟨rfl, rfl⟩
  · exact fun _ => ⟨rfl, rfl⟩
theorem seekbit_safe (o : Int64) (r : Bool) : wp L E Fin false m x (Buffer.seekbit o r) := by
  refine wp_locked ?_
  cases r
  · exact ⟨rfl, rfl⟩
  · exact fun _ => ⟨rfl, rfl⟩
theorem alignbit_safe : wp L E Fin false m x Buffer.alignbit := wp_locked fun _ => ⟨rfl, rfl⟩
theorem alignbyte_safe : wp L E Fin false m x Buffer.alignbyte := wp_locked fun _ => ⟨rfl, rfl⟩

theorem refresh_safe : wp L E Fin false m x Buffer.refresh := by
  refine wp_locked (wp_bind' fun s h0 h1 h2 h3 => wp_bind' ⟨?_, ?_, ?_⟩)
  · rw [toInt_ofNat (by have : maxAlloc = 2 ^ 48 := rfl; omega)]; omega
  · rw [toInt_ofNat (by have : maxAlloc = 2 ^ 48 := rfl; omega)]; omega
  · refine wp_bind' fun v hv1 hv2 => ?_
    have hm : (maxAlloc : Int) = 2 ^ 48 := rfl
    have h8 : (8 : Int64).toInt = 8 := rfl
    have : (v * 8).toInt = v.toInt * 8 := by rw [toInt_mul, h8]; omega
    exact ⟨by omega, by omega, rfl, rfl⟩

theorem grow_any (n : Int64) : wpAny L Unit (Buffer.grow n) := by
  intro m x
  rw [grow_split]
  refine ⟨rfl, fun s h0 h1 h2 h3 => ?_⟩
  rcases growSec_cases n s with ⟨q, e⟩ | ⟨bs, hx, e⟩
  · rw [e]; trivial
  · rw [e]
    exact ⟨h3, hx, fun r g1 g2 g3 => ⟨rfl, by omega, g2, g3, rfl, refresh_safe⟩⟩

/-- The loops over all bytes, `n` of them. -/
theorem wp_allLoop {s : Slice} {body : Int64 → Unit → Prog Unit} (hL : 0 < L) (h0 : L ≤ s.len) (h2 : s.len ≤ maxAlloc)
    (hb : ∀ (i : Int64) (m : Nat) x, 0 ≤ i.toInt → i.toInt < (s.len : Int) → s.len ≤ m → wp L E (fun l m _ _ => l = true ∧ s.len ≤ m) true m x (body i ())) :
    wp L E (fun l m _ _ => l = true ∧ s.len ≤ m) true s.len x (Prog.doLoop body (Int64.ofNat s.len) 0 ()) := by
  have hl : (Int64.ofNat s.len).toInt = s.len := toInt_ofNat (by have : maxAlloc = 2 ^ 48 := rfl; omega)
  refine wp_doLoop (fun i => 0 ≤ i.toInt ∧ i.toInt < (Int64.ofNat s.len).toInt) count_up (fun i l m x a hi h => ?_) 0 ()
    ⟨Int.le_refl _, by show (0 : Int) < _; omega⟩ ⟨rfl, Nat.le_refl _⟩
  rw [h.1]
  exact hb i m x hi.1 (by omega) h.2

theorem clear_safe (hL : 0 < L) : wp L E Fin false m x Buffer.clearallbits :=
  wp_locked (wp_bind' (wp_buf fun s h0 _ h2 h3 => wp_mono (fun _ _ _ _ h => ⟨h.1, rfl⟩) (wp_allLoop hL h0 (by omega)
    fun _ _ _ h0 h1 hm => wp_store h0 (by omega) fun _ _ _ => ⟨rfl, by omega⟩)))
theorem setall_safe (hL : 0 < L) : wp L E Fin false m x Buffer.setallbits :=
  wp_locked (wp_bind' (wp_buf fun s h0 _ h2 h3 => wp_mono (fun _ _ _ _ h => ⟨h.1, rfl⟩) (wp_allLoop hL h0 (by omega)
    fun _ _ _ h0 h1 hm => wp_store h0 (by omega) fun _ _ _ => ⟨rfl, by omega⟩)))
theorem flipall_safe (hL : 0 < L) : wp L E Fin false m x Buffer.flipallbits :=
  wp_locked (wp_bind' (wp_buf fun s h0 _ h2 h3 => wp_mono (fun _ _ _ _ h => ⟨h.1, rfl⟩) (wp_allLoop hL h0 (by omega)
    fun _ _ _ h0 h1 hm => wp_bind' (wp_load h0 (by omega) fun _ _ _ _ => wp_store h0 (by omega) fun _ _ _ => ⟨rfl, by omega⟩))))

/-! ## all methods -/

theorem Inside.fits {o : Int64} {n w : Nat} (hL : L ≤ maxAlloc) (h : Inside L o n w) : Fits o n w := by
  intro _
  have := h.2
  have : maxAlloc = 2 ^ 48 := rfl
  omega

theorem InRange.decent (hL : L ≤ maxAlloc) {op : Op2} (h : InRange L op) : Decent L op := by
  cases op with
  | write k e p d => cases p with
    | none => exact h
    | some o => exact ⟨h.1, h.2.fits hL⟩
  | read k e p n => cases p with
    | none => exact h
    | some o => exact ⟨h.1, h.2.fits hL⟩
  | writeBytes p s => cases p with
    | none => exact h
    | some o => exact ⟨h.1, h.2.fits hL⟩
  | writeByte p v => cases p with
    | none => exact h
    | some o => exact Inside.fits hL h
  | readBytes p n => cases p with
    | none => exact h
    | some o => exact ⟨h.1, h.2.fits hL⟩
  | readByte p => cases p with
    | none => exact h
    | some o => exact Inside.fits hL h
  | _ => first | trivial | exact h

theorem wp_map {p : Prog α} {f : α → V3.Val} (h : wp L E Fin false m x p) : wp L E Fin false m x (wrapVal f p) :=
  wp_bind (wp_mono (fun _ _ _ _ h => h) h)

/-- Decent calls fail with errors of the library only, holding no lock, and not at all if they are in range. -/
theorem exec_decent (op : Op2) (hL : L ≤ maxAlloc) (h : Decent L op) (hE : ¬ InRange L op → ∀ e, E (.err e) false) :
    wp L E Fin false m x (exec op) := by
  have hE' : ¬ Decent L op → ∀ e, E (.err e) false := fun h' => absurd h h'
  cases op with
  | write k e p d => cases p with
    | none => exact h.elim
    | some o => exact wp_map (write_safe k e o d h.1 h.2 fun hn => hE fun hi => hn hi.2)
  | read k e p n => cases p with
    | none => exact h.elim
    | some o => exact wp_map (read_safe k e o n h.1 h.2 fun hn => hE fun hi => hn hi.2)
  | writeBytes p s => cases p with
    | none => exact h.elim
    | some o => exact wp_map (writeSrc_safe o (.mem s) h.1 h.2 fun hn => hE fun hi => hn hi.2)
  | writeByte p v => cases p with
    | none => exact h.elim
    | some o => exact wp_map (writeSrc_safe o (.lit [v]) Nat.one_pos h fun hn => hE fun hi => hn hi)
  | readBytes p n => cases p with
    | none => exact h.elim
    | some o => exact wp_map (wp_mono (fun _ _ _ _ h => h.1) (readRaw_safe o n h.1 h.2 fun hn => hE fun hi => hn hi.2))
  | readByte p => cases p with
    | none => exact h.elim
    | some o => exact wp_map (readByte_safe o h fun hn => hE fun hi => hn hi)
  | readBit p => cases p with
    | some o => exact wp_map (readbit_safe o hE)
    | none =>
      exact wp_map (wp_bind' fun o => wp_bind' (wp_mono (fun _ _ _ _ h => by cases h; exact wp_bind' (wp_mono (fun _ _ _ _ h => h)
        (seekbit_safe _ _))) (readbit_safe o fun _ => hE id)))
  | readBits p n => cases p with
    | some o => exact wp_map (readbits_safe o n hL hE)
    | none =>
      exact wp_map (wp_bind' fun o => wp_bind' (wp_mono (fun _ _ _ _ h => by cases h; exact wp_bind' (wp_mono (fun _ _ _ _ h => h)
        (seekbit_safe _ _))) (readbits_safe o n hL fun _ => hE id)))
  | setBit p v => cases p with
    | some o => exact wp_map (setbit_safe o v hE)
    | none =>
      exact wp_map (wp_bind' fun o => wp_bind' (wp_mono (fun _ _ _ _ h => by cases h; exact seekbit_safe _ _)
        (setbit_safe o v fun _ => hE id)))
  | flipBit p => cases p with
    | some o => exact wp_map (flipbit_safe o hE)
    | none =>
      exact wp_map (wp_bind' fun o => wp_bind' (wp_mono (fun _ _ _ _ h => by cases h; exact seekbit_safe _ _)
        (flipbit_safe o fun _ => hE id)))
  | setBits p d n => cases p with
    | some o => exact wp_map (setbits_safe o d n hL hE)
    | none =>
      exact wp_map (wp_bind' fun o => wp_bind' (wp_mono (fun _ _ _ _ h => by cases h; exact seekbit_safe _ _)
        (setbits_safe o d n hL fun _ => hE id)))
  | clearAll => exact wp_map (clear_safe h)
  | setAll => exact wp_map (setall_safe h)
  | flipAll => exact wp_map (flipall_safe h)
  | seek o r => exact wp_map (seek_safe o r)
  | seekBit o r => exact wp_map (seekbit_safe o r)
  | after o => cases o with
    | nil => exact fun _ _ _ _ => rfl
    | cons => exact fun _ _ _ => rfl
  | afterBit o => cases o with
    | nil => exact fun _ _ _ _ => rfl
    | cons => exact fun _ _ _ => rfl
  | alignByte => exact wp_map alignbyte_safe
  | alignBit => exact wp_map alignbit_safe
  | refresh => exact wp_map refresh_safe
  | bytes => exact fun _ _ _ _ _ => rfl
  | capacity => exact fun _ _ _ => rfl
  | bitCapacity => exact fun _ _ _ => rfl
  | offset => exact fun _ => rfl
  | bitOffset => exact fun _ => rfl
  | grow n => exact h.elim
  | reset => exact h.elim

/-- Any call but `Reset` leaves the others what they rely on. -/
theorem exec_any (op : Op2) (h : op ≠ .reset) : wpAny L _ (exec op) :=
  (exec_is (P := wpAny L) op (fun n _ => ⟨grow_any n⟩) ⟨fun _ _ => refresh_safe⟩ fun e => absurd e h).out

/-- How a call may fail. -/
def Fails (L : Nat) (op : Op2) (q : Panic) (l : Bool) : Prop :=
  (Decent L op → (∃ e, q = .err e) ∧ ¬ InRange L op ∧ l = false) ∧ (leaks op = false → l = false)

theorem exec_fails (op : Op2) (hL : L ≤ maxAlloc) (h : op ≠ .reset) : wp L (Fails L op) Fin false m x (exec op) := by
  by_cases hd : Decent L op
  · exact exec_decent op hL hd fun hi e => ⟨fun _ => ⟨⟨e, rfl⟩, hi, rfl⟩, fun _ => rfl⟩
  · cases hl : leaks op with
    | true => exact wp_weaken (fun q l _ => ⟨fun h => absurd h hd, fun h => nomatch hl.symm.trans h⟩) (exec_any op h m x)
    | false =>
      exact wp_weaken (fun q l h => ⟨fun h => absurd h hd, fun _ => h⟩) (wp_tidy (exec_tidy op hl) (exec_any op h m x))

end Crunch.V2

namespace Crunch.V1
open Spec (Endian)

variable {E : Panic → Bool → Prop} {L : Nat} {m : Nat} {x : Bool}

theorem writeComplex_safe {o : Int64} {d : Any} {w : Int64} {e : ByteOrder} {n z : Nat} (h : elems d w e = some (n, z)) (hn : 0 < n)
    (ha : n * z ≤ maxAlloc) (hf : V2.Fits o n z) (hE : ¬ V2.Inside L o n z → ∀ e, E (.err e) false) :
    wp L E Fin false m x (Buffer.writeComplex o d w e) := by
  have lit : ∀ bs : List UInt8, bs.length = n * z → 0 < z → wp L E Fin false m x (Buffer.write o (.lit bs)) := by
    intro bs hb hz
    refine V2.writeSrc_safe o (.lit bs) ?_ ?_ ?_
    · show 0 < bs.length; rw [hb]; exact Nat.mul_pos hn hz
    · intro ho; have := hf ho; show _ + ((bs.length : Int) * 1) < _; rw [hb, Int.natCast_mul]; omega
    · intro h'; refine hE fun hi => h' ⟨hi.1, ?_⟩
      have := hi.2; show _ + ((bs.length : Int) * 1) ≤ _; rw [hb, Int.natCast_mul]; omega
  cases d with
  | bytes s =>
    simp only [elems] at h
    split at h
    · rename_i hw; cases h; subst hw
      exact V2.writeSrc_safe o (.mem s) hn hf hE
    · exact nomatch h
  | other => cases e <;> exact nomatch h
  | u16 l =>
    cases e with
    | none => exact nomatch h
    | some e =>
      simp only [elems] at h
      split at h
      · rename_i hw; cases h; subst hw
        rw [writeComplex_u16 o l e ha]
        exact lit _ (V3.length_enc .u16 e l) (by decide)
      · exact nomatch h
  | u32 l =>
    cases e with
    | none => exact nomatch h
    | some e =>
      simp only [elems] at h
      split at h
      · rename_i hw; cases h; subst hw
        rw [writeComplex_u32 o l e ha]
        exact lit _ (V3.length_enc .u32 e l) (by decide)
      · exact nomatch h
  | u64 l =>
    cases e with
    | none => exact nomatch h
    | some e =>
      simp only [elems] at h
      split at h
      · rename_i hw; cases h; subst hw
        rw [writeComplex_u64 o l e ha]
        exact lit _ (V3.length_enc .u64 e l) (by decide)
      · exact nomatch h

theorem wp_resliceAt {s : Slice} {i n W o : Int64} {l : Bool} {Q : Bool → Nat → Bool → Slice → Prop} (hL : L ≤ maxAlloc)
    (hW : 0 < W.toInt) (ho : 0 ≤ o.toInt)
    (hi : 0 ≤ i.toInt) (hn : i.toInt < n.toInt) (hr : o.toInt + n.toInt * W.toInt ≤ L) (hc : (L : Int) ≤ o.toInt + s.cap)
    (h : ∀ t : Slice, (t.len : Int) = W.toInt → Q l m x t) : wp L E Q l m x (Prog.reslice s (i * W) ((i + 1) * W)) := by
  have hm : (maxAlloc : Int) = 2 ^ 48 := rfl
  have h1 : (1 : Int64).toInt = 1 := rfl
  have hnn : n.toInt < 2 ^ 63 := n.toInt_lt
  have g1 : (i.toInt + 1) * W.toInt ≤ n.toInt * W.toInt := Int.mul_le_mul_of_nonneg_right (by omega) (by omega)
  have g2 : 0 ≤ i.toInt * W.toInt := Int.mul_nonneg hi (by omega)
  have g3 : (i.toInt + 1) * W.toInt = i.toInt * W.toInt + W.toInt := by rw [Int.add_mul, Int.one_mul]
  have e0 : (i + 1).toInt = i.toInt + 1 := by rw [toInt_add]; omega
  have e1 : (i * W).toInt = i.toInt * W.toInt := by rw [toInt_mul]; omega
  have e2 : ((i + 1) * W).toInt = i.toInt * W.toInt + W.toInt := by rw [toInt_mul, e0, g3]; omega
  unfold Prog.reslice
  rw [if_pos ⟨by omega, by omega, by omega⟩]
  refine h _ ?_
  show ((((i + 1) * W).toInt.toNat - (i * W).toInt.toNat : Nat) : Int) = _
  omega

macro "loads" ht:term:max : tactic => `(tactic| repeat' (first
  | exact fun _ => ‹_›
  | with_reducible refine wp_bind' (wp_loadAt (by decide) (by rw [$ht:term]; decide) fun _ => ?_)))

theorem loadU16_safe {e : Endian} {t : Slice} {l : Bool} {Q : Bool → Nat → Bool → UInt16 → Prop} (ht : (t.len : Int) = (2 : Int64).toInt)
    (h : ∀ v, Q l m x v) : wp L E Q l m x (loadU16 (some e) t) := by
  unfold loadU16
  refine wp_bind' (show wp L E _ l m x (.ret e) from ?_)
  show wp L E Q l m x (Prog.loadAt t 1 >>= _)
  loads ht
  exact h _
theorem loadU32_safe {e : Endian} {t : Slice} {l : Bool} {Q : Bool → Nat → Bool → UInt32 → Prop} (ht : (t.len : Int) = (4 : Int64).toInt)
    (h : ∀ v, Q l m x v) : wp L E Q l m x (loadU32 (some e) t) := by
  unfold loadU32
  refine wp_bind' (show wp L E _ l m x (.ret e) from ?_)
  show wp L E Q l m x (Prog.loadAt t 3 >>= _)
  loads ht
  exact h _
theorem loadU64_safe {e : Endian} {t : Slice} {l : Bool} {Q : Bool → Nat → Bool → UInt64 → Prop} (ht : (t.len : Int) = (8 : Int64).toInt)
    (h : ∀ v, Q l m x v) : wp L E Q l m x (loadU64 (some e) t) := by
  unfold loadU64
  refine wp_bind' (show wp L E _ l m x (.ret e) from ?_)
  show wp L E Q l m x (Prog.loadAt t 7 >>= _)
  loads ht
  exact h _

/-- The loop of `ReadComplex`. -/
theorem wp_decodeLoop {α : Type} {o n W : Int64} {s : Slice} {load : Slice → Prog α} {out : List α} (hL : L ≤ maxAlloc) (hW : 0 < W.toInt)
    (ho : 0 ≤ o.toInt) (hr : o.toInt + n.toInt * W.toInt ≤ L) (hc : (L : Int) ≤ o.toInt + s.cap) (hout : (out.length : Int) = n.toInt)
    (hl : ∀ t Q m x, ((t.len : Int) = W.toInt) → (∀ v, Q false m x v) → wp L E Q false m x (load t)) :
    wp L E Fin false m x (Prog.forLoop (fun i out => Prog.reslice s (i * W) ((i + 1) * W) >>= fun t => load t >>= fun v =>
      Prog.setIdx out i v) n 0 out) := by
  refine wp_mono (fun _ _ _ _ h => h.1) (wp_forLoop (Q := fun l _ _ out => l = false ∧ (out.length : Int) = n.toInt)
    (fun i => 0 ≤ i.toInt) (fun i hi hn => ?_) (fun i l m x out hi hn h => ?_) 0 out (Int.le_refl _) ⟨rfl, hout⟩)
  · rw [Int64.lt_iff_toInt_lt] at hn
    have := n.toInt_lt
    have h1 : (1 : Int64).toInt = 1 := rfl
    rw [toInt_add]; omega
  · obtain ⟨rfl, hlen⟩ := h
    rw [Int64.lt_iff_toInt_lt] at hn
    refine wp_bind' (wp_resliceAt hL hW ho hi hn hr hc fun t ht => wp_bind' (hl t _ _ _ ht fun v => ?_))
    exact wp_setIdx hi (by omega) fun d hd => ⟨rfl, by omega⟩

theorem readComplex_safe {o n w : Int64} {e : ByteOrder} {z : Nat} (hz : elemSize w e = some z) (hL : L ≤ maxAlloc) (hn : 0 ≤ n.toInt)
    (hi : V2.Inside L o n.toInt.toNat z) : wp L E Fin false m x (Buffer.readComplex o n w e) := by
  have hm : (maxAlloc : Int) = 2 ^ 48 := rfl
  have hi2 := hi.2
  rw [Int.toNat_of_nonneg hn] at hi2
  have hz0 : 0 < z := by
    unfold elemSize at hz
    repeat' split at hz
    all_goals first | cases hz; decide | exact nomatch hz
  have h1 : n.toInt * 1 ≤ n.toInt * z := Int.mul_le_mul_of_nonneg_left (by omega) hn
  have hi1 : V2.Inside L o n.toInt.toNat 1 := ⟨hi.1, by rw [Int.toNat_of_nonneg hn]; omega⟩
  refine wp_bind' (wp_mono (fun l m x s h => ?_) (V2.readRaw_safe o n hn (hi1.fits hL) fun h => absurd hi1 h))
  obtain ⟨rfl, _, hc⟩ := h
  have hmake : n.toInt * z ≤ maxAlloc := by have := hi.1; omega
  unfold elemSize at hz
  split at hz
  · rename_i hw
    cases hz; rw [if_pos hw]; rfl
  · rename_i hw1
    rw [if_neg hw1]
    split at hz
    · rename_i hw; cases hz
      rw [if_pos hw.1]
      obtain ⟨e, rfl⟩ := Option.isSome_iff_exists.mp hw.2
      exact wp_bind' (wp_makeTyped hn hmake fun out hout => wp_bind' (wp_mono (fun _ _ _ _ h => h)
        (wp_decodeLoop (W := 2) hL (by decide) hi.1 hi2 hc hout fun t Q m x ht hQ => loadU16_safe ht hQ)))
    · rename_i hw2
      split at hz
      · rename_i hw; cases hz
        have : w ≠ Unsigned16 := by rw [hw.1]; decide
        rw [if_neg this, if_pos hw.1]
        obtain ⟨e, rfl⟩ := Option.isSome_iff_exists.mp hw.2
        exact wp_bind' (wp_makeTyped hn hmake fun out hout => wp_bind' (wp_mono (fun _ _ _ _ h => h)
          (wp_decodeLoop (W := 4) hL (by decide) hi.1 hi2 hc hout fun t Q m x ht hQ => loadU32_safe ht hQ)))
      · split at hz
        · rename_i hw; cases hz
          have g2 : w ≠ Unsigned16 := by rw [hw.1]; decide
          have g4 : w ≠ Unsigned32 := by rw [hw.1]; decide
          rw [if_neg g2, if_neg g4, if_pos hw.1]
          obtain ⟨e, rfl⟩ := Option.isSome_iff_exists.mp hw.2
          exact wp_bind' (wp_makeTyped hn hmake fun out hout => wp_bind' (wp_mono (fun _ _ _ _ h => h)
            (wp_decodeLoop (W := 8) hL (by decide) hi.1 hi2 hc hout fun t Q m x ht hQ => loadU64_safe ht hQ)))
        · exact nomatch hz

/-! ## all methods -/

theorem wp_allFor {s : Slice} {body : Int64 → Unit → Prog Unit} (h2 : s.len ≤ maxAlloc)
    (hb : ∀ (i : Int64) (m : Nat) x, 0 ≤ i.toInt → i.toInt < (s.len : Int) → s.len ≤ m → wp L E (fun l m _ _ => l = true ∧ s.len ≤ m) true m x (body i ())) :
    wp L E (fun l m _ _ => l = true ∧ s.len ≤ m) true s.len x (Prog.forLoop body (Int64.ofNat s.len) 0 ()) := by
  have hM : maxAlloc = 2 ^ 48 := rfl
  have hl : (Int64.ofNat s.len).toInt = s.len := toInt_ofNat (by omega)
  have h1 : (1 : Int64).toInt = 1 := rfl
  refine wp_forLoop (fun i => 0 ≤ i.toInt) (fun i hi hn => ?_) (fun i l m x a hi hn h => ?_) 0 () (Int.le_refl _) ⟨rfl, Nat.le_refl _⟩
  · rw [Int64.lt_iff_toInt_lt] at hn; rw [toInt_add]; omega
  · rw [Int64.lt_iff_toInt_lt] at hn
    rw [h.1]
    exact hb i m x hi (by omega) h.2

theorem clear_safe : wp L E Fin false m x Buffer.clearallbits :=
  wp_locked (wp_bind' (wp_buf fun s h0 _ h2 h3 => wp_mono (fun _ _ _ _ h => ⟨h.1, rfl⟩) (wp_allFor (by omega)
    fun _ _ _ h0 h1 hm => wp_store h0 (by omega) fun _ _ _ => ⟨rfl, by omega⟩)))
theorem setall_safe : wp L E Fin false m x Buffer.setallbits :=
  wp_locked (wp_bind' (wp_buf fun s h0 _ h2 h3 => wp_mono (fun _ _ _ _ h => ⟨h.1, rfl⟩) (wp_allFor (by omega)
    fun _ _ _ h0 h1 hm => wp_store h0 (by omega) fun _ _ _ => ⟨rfl, by omega⟩)))
theorem flipall_safe : wp L E Fin false m x Buffer.flipallbits :=
  wp_locked (wp_bind' (wp_buf fun s h0 _ h2 h3 => wp_mono (fun _ _ _ _ h => ⟨h.1, rfl⟩) (wp_allFor (by omega)
    fun _ _ _ h0 h1 hm => wp_bind' (wp_load h0 (by omega) fun _ _ _ _ => wp_store h0 (by omega) fun _ _ _ => ⟨rfl, by omega⟩))))

theorem readbits_safe (o n : Int64) (hL : L ≤ maxAlloc) (hE : ¬ (n.toInt ≤ 0 ∨ V2.BitsInside L o n) → ∀ e, E (.err e) false) :
    wp L E Fin false m x (Buffer.readbits o n) := by
  refine wp_forLoop (fun i => 0 ≤ i.toInt) (fun i hi hn => ?_) (fun i l m x a hi hn h => ?_) 0 0 (Int.le_refl _) rfl
  · rw [Int64.lt_iff_toInt_lt] at hn
    have := n.toInt_lt
    have h1 : (1 : Int64).toInt = 1 := rfl
    rw [toInt_add]; omega
  · cases h
    rw [Int64.lt_iff_toInt_lt] at hn
    exact wp_bind' (wp_mono (fun _ _ _ _ h => h) (V2.readbit_safe (o + i) fun hn' => hE fun hb => hn' (by
      rcases hb with hb | hb
      · omega
      · exact V2.bits_at hL hb ⟨hi, hn⟩)))

theorem setbits_safe (o : Int64) (d : UInt64) (n : Int64) (hL : L ≤ maxAlloc)
    (hE : ¬ (n.toInt ≤ 0 ∨ V2.BitsInside L o n) → ∀ e, E (.err e) false) : wp L E Fin false m x (Buffer.setbits o d n) := by
  refine wp_forLoop (fun i => 0 ≤ i.toInt) (fun i hi hn => ?_) (fun i l m x a hi hn h => ?_) 0 () (Int.le_refl _) rfl
  · rw [Int64.lt_iff_toInt_lt] at hn
    have := n.toInt_lt
    have h1 : (1 : Int64).toInt = 1 := rfl
    rw [toInt_add]; omega
  · cases h
    rw [Int64.lt_iff_toInt_lt] at hn
    exact wp_mono (fun _ _ _ _ h => h) (V2.setbit_safe (o + i) _ fun hn' => hE fun hb => hn' (by
      rcases hb with hb | hb
      · omega
      · exact ⟨(V2.bits_at hL hb ⟨hi, hn⟩).1, (V2.bits_at hL hb ⟨hi, hn⟩).2, V2.and_one _⟩))

theorem wp_wrap {p : Prog α} {f : α → V3.Val} (h : wp L E Fin false m x p) : wp L E Fin false m x (wrap1 f p) :=
  wp_bind (wp_mono (fun _ _ _ _ h => h) h)

/-- Calls that are decent or in range fail with errors of the library only, holding no lock, and not at all if they are in range. -/
theorem exec1_decent (op : Op1) (hL : L ≤ maxAlloc) (h : Decent L op ∨ InRange L op) (hE : ¬ InRange L op → ∀ e, E (.err e) false) :
    wp L E Fin false m x (exec1 op) := by
  have key : ∀ op2, toV2 op = some op2 → Shared op = true → (Decent L op → V2.Decent L op2) → (InRange L op ↔ V2.InRange L op2) →
      wp L E Fin false m x (exec1 op) := by
    intro op2 h1 h2 h3 h4
    rw [exec1_v2 op op2 h1 h2]
    have hd : V2.Decent L op2 := h.elim h3 fun h => (h4.mp h).decent hL
    exact wp_bind (wp_mono (fun _ _ _ _ h => h) (V2.exec_decent op2 hL hd fun h => hE fun h' => h (h4.mp h')))
  have one : ∀ {P : V2.Op2 → Prop} {op2 : V2.Op2}, (∃ o, some op2 = some o ∧ P o) ↔ P op2 :=
    ⟨fun ⟨_, e, h⟩ => by cases e; exact h, fun h => ⟨_, rfl, h⟩⟩
  cases op with
  | writeComplex p d w e => cases p with
    | none => exact (h.elim id id).elim
    | some o =>
      have h' : Decent L (.writeComplex (some o) d w e) := h.elim id fun ⟨n, z, h1, h2, h3⟩ =>
        ⟨n, z, h1, h2, by have := h3.1; have := h3.2; rw [← Int.natCast_mul] at this; omega, h3.fits hL⟩
      obtain ⟨n, z, h1, h2, h3, h4⟩ := h'
      exact wp_wrap (writeComplex_safe h1 h2 h3 h4 fun hn => hE fun ⟨n', z', g1, _, g3⟩ => by
        cases h1.symm.trans g1; exact hn g3)
  | readComplex p n w e => cases p with
    | none => exact (h.elim id id).elim
    | some o =>
      refine wp_bind (wp_mono (fun _ _ _ _ h => h) ?_)
      by_cases hi : InRange L (.readComplex (some o) n w e)
      · obtain ⟨z, h1, h2, h3⟩ := hi
        exact readComplex_safe h1 hL h2 h3
      · obtain ⟨hw, hn, hf⟩ := h.resolve_right hi
        refine wp_bind' (wp_mono (fun l m x s h => ?_) (V2.readRaw_safe o n hn hf fun _ => hE hi))
        rw [if_pos hw]; exact h.1
  | readBits p n => cases p with
    | some o => exact wp_wrap (readbits_safe o n hL hE)
    | none =>
      exact wp_wrap (wp_bind' fun o => wp_bind' (wp_mono (fun _ _ _ _ h => by cases h; exact wp_bind' (wp_mono (fun _ _ _ _ h => h)
        (V2.seekbit_safe _ _))) (readbits_safe o n hL fun _ => hE fun h => one.mp h)))
  | setBits p d n => cases p with
    | some o => exact wp_wrap (setbits_safe o d n hL hE)
    | none =>
      exact wp_wrap (wp_bind' fun o => wp_bind' (wp_mono (fun _ _ _ _ h => by cases h; exact V2.seekbit_safe _ _)
        (setbits_safe o d n hL fun _ => hE fun h => one.mp h)))
  | clearAll => exact wp_wrap clear_safe
  | setAll => exact wp_wrap setall_safe
  | flipAll => exact wp_wrap flipall_safe
  | _ => exact key _ rfl rfl one.mp one

/-- Any call leaves the others what they rely on. -/
theorem exec1_any (op : Op1) : wpAny L _ (exec1 op) :=
  (exec1_is (P := wpAny L) op (fun n _ => ⟨V2.grow_any n⟩) ⟨fun _ _ => V2.refresh_safe⟩).out

/-- How a call may fail. -/
def Fails (L : Nat) (op : Op1) (q : Panic) (l : Bool) : Prop :=
  (Decent L op ∨ InRange L op → (∃ e, q = .err e) ∧ ¬ InRange L op ∧ l = false) ∧ (leaks1 op = false → l = false)

theorem exec1_fails (op : Op1) (hL : L ≤ maxAlloc) : wp L (Fails L op) Fin false m x (exec1 op) := by
  by_cases hd : Decent L op ∨ InRange L op
  · exact exec1_decent op hL hd fun hi e => ⟨fun _ => ⟨⟨e, rfl⟩, hi, rfl⟩, fun _ => rfl⟩
  · cases hl : leaks1 op with
    | true => exact wp_weaken (fun q l _ => ⟨fun h => absurd h hd, fun h => nomatch hl.symm.trans h⟩) (exec1_any op m x)
    | false =>
      exact wp_weaken (fun q l h => ⟨fun h => absurd h hd, fun _ => h⟩) (wp_tidy (exec1_tidy op hl) (exec1_any op m x))

end Crunch.V1
