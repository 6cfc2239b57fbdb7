import Verif.Lemmas.Heap
import Verif.Lemmas.Encode

/-! Runs of byte stores and loads through the receiver. -/

namespace Crunch.V3
open Spec

/-- The visible bytes of the buffer. -/
def St.bytes (s : St) : List UInt8 := s.mem.view s.b.buf

/-- The state after storing `bs` at position `p` of the buffer's slice. -/
def St.write (s : St) (p : Nat) (bs : List UInt8) : St :=
  { s with mem := s.mem.blit s.b.buf.arr (s.b.buf.off + p) bs }

/-- The receiver's slice fits its array. -/
abbrev St.OK (s : St) : Prop := SliceOK s.mem s.b.buf

@[simp] theorem write_b (s : St) (p : Nat) (bs : List UInt8) : (s.write p bs).b = s.b := rfl

theorem write_ok {s : St} (h : s.OK) (p : Nat) (bs : List UInt8) : (s.write p bs).OK :=
  SliceOK.blit h _ _ _

theorem write_nil (s : St) (p : Nat) : s.write p [] = s := by
  unfold St.write; rw [blit_nil]

theorem bytes_write {s : St} (h : s.OK) {p : Nat} {bs : List UInt8} (hp : p + bs.length ≤ s.b.buf.len) :
    (s.write p bs).bytes = patch s.bytes p bs := view_blit_self h hp

theorem length_bytes {s : St} (h : s.OK) : s.bytes.length = s.b.buf.len := length_view h

theorem write_adj {s : St} (h : s.OK) {p : Nat} {xs ys : List UInt8}
    (hp : p + xs.length + ys.length ≤ s.b.buf.len) :
    (s.write p xs).write (p + xs.length) ys = s.write p (xs ++ ys) := by
  have := h.len_le; have := h.fits
  unfold St.write
  simp only [← Nat.add_assoc]
  rw [blit_adj (by omega)]

/-- The bytes determine what a write at a fixed place does. -/
theorem write_congr {s : St} (h : s.OK) {p q : Nat} {bs cs : List UInt8}
    (hp : p + bs.length ≤ s.b.buf.len) (hq : q + cs.length ≤ s.b.buf.len)
    (e : patch s.bytes p bs = patch s.bytes q cs) : s.write p bs = s.write q cs := by
  have h1 := h.len_le; have h2 := h.fits
  unfold St.write
  rw [blit_congr (q := s.b.buf.off + q) (cs := cs) (by omega) (by omega)]
  apply List.ext_getElem?
  intro i
  rw [getElem?_patch (by omega), getElem?_patch (by omega)]
  have hb := length_bytes h
  have ei := congrArg (·[i - s.b.buf.off]?) e
  simp only [getElem?_patch (show p + bs.length ≤ s.bytes.length by omega),
    getElem?_patch (show q + cs.length ≤ s.bytes.length by omega)] at ei
  simp only [St.bytes, Heap.view, List.getElem?_take, List.getElem?_drop] at ei
  by_cases hi : i < s.b.buf.off
  · rw [if_neg (by omega), if_neg (by omega)]
  · by_cases hj : i - s.b.buf.off < s.b.buf.len
    · simp only [hj, if_true, show s.b.buf.off + (i - s.b.buf.off) = i by omega] at ei
      simp only [show i - (s.b.buf.off + p) = i - s.b.buf.off - p by omega,
        show i - (s.b.buf.off + q) = i - s.b.buf.off - q by omega]
      have e1 : (s.b.buf.off + p ≤ i ∧ i < s.b.buf.off + p + bs.length) ↔
          (p ≤ i - s.b.buf.off ∧ i - s.b.buf.off < p + bs.length) := by omega
      have e2 : (s.b.buf.off + q ≤ i ∧ i < s.b.buf.off + q + cs.length) ↔
          (q ≤ i - s.b.buf.off ∧ i - s.b.buf.off < q + cs.length) := by omega
      simp only [e1, e2]; exact ei
    · rw [if_neg (by omega), if_neg (by omega)]

@[simp] theorem getB_bind (f : Buf → GoM St α) (s : St) : (getB >>= f) s = f s.b s := rfl
@[simp] theorem modB_run (f : Buf → Buf) (s : St) : modB f s = (.ok (), { s with b := f s.b }) := rfl
@[simp] theorem modB_bind (f : Buf → Buf) (g : Unit → GoM St α) (s : St) :
    (modB f >>= g) s = g () { s with b := f s.b } := rfl

theorem bufStore_run {s : St} (h : s.OK) (i : Int64) (v : UInt8) :
    bufStore i v s =
      if 0 ≤ i.toInt ∧ i.toInt < s.b.buf.len then (.ok (), s.write i.toInt.toNat [v])
      else (.panic .index, s) := by
  have := h.len_le; have := h.fits
  unfold bufStore
  simp only [getB_bind, onMem, storeAt]
  split
  · rw [set_eq_blit (by omega)]; rfl
  · rfl

theorem bufLoad_run {s : St} (h : s.OK) (i : Int64) :
    bufLoad i s =
      if 0 ≤ i.toInt ∧ i.toInt < s.b.buf.len then (.ok (s.bytes.getD i.toInt.toNat 0), s)
      else (.panic .index, s) := by
  have := h.len_le; have := h.fits
  unfold bufLoad
  simp only [getB_bind, onMem, loadAt]
  split
  · simp only [St.bytes, Heap.view, List.getD, List.getElem?_take, List.getElem?_drop]
    rw [if_pos (by omega)]
  · rfl

/-! ## consecutive stores -/

/-- Store `bs` at `off + j`, `off + j + 1`, …, one bounds-checked store at a time. -/
def storeFrom (off : Int64) : Nat → List UInt8 → GoM St Unit
  | _, [] => pure ()
  | j, b :: bs => bufStore (off + Int64.ofNat j) b >>= fun _ => storeFrom off (j + 1) bs

theorem storeFrom_append (off : Int64) (j : Nat) (xs ys : List UInt8) :
    storeFrom off j (xs ++ ys) = storeFrom off j xs >>= fun _ => storeFrom off (j + xs.length) ys := by
  induction xs generalizing j with
  | nil => rfl
  | cons x xs ih =>
    simp only [List.cons_append, storeFrom, bind_assoc', ih, List.length_cons]
    congr 1; funext _; congr 1; funext _; congr 1; omega

/-- Result of a run of stores: complete, cut short at the end of the buffer, or nothing. -/
theorem storeFrom_run' (L : Nat) (off : Int64) (bs : List UInt8) : ∀ (j : Nat) (s : St), s.OK → s.b.buf.len = L →
    j + bs.length < 2 ^ 62 → bs ≠ [] →
    storeFrom off j bs s =
      if 0 ≤ off.toInt + j ∧ off.toInt + j + bs.length ≤ L then
        (.ok (), s.write (off.toInt + j).toNat bs)
      else if 0 ≤ off.toInt + j ∧ off.toInt + j < L then
        (.panic .index, s.write (off.toInt + j).toNat (bs.take (L - (off.toInt + j).toNat)))
      else (.panic .index, s) := by
  induction bs with
  | nil => intro _ _ _ _ _ h; exact absurd rfl h
  | cons b bs ih =>
    intro j s hs hl hj _
    have hL := hs.len_le_max; have hM := maxAlloc_lt
    simp only [List.length_cons] at hj
    simp only [storeFrom]
    rw [bind_run, bufStore_run hs, hl]
    rw [hl] at hL
    have ha := @addr off j L (by omega) (by omega)
    by_cases h1 : 0 ≤ off.toInt + j ∧ off.toInt + j < L
    · rw [if_pos (ha.mpr h1), addr_val (by omega) (by omega)]
      simp only []
      by_cases hb : bs = []
      · subst hb
        rw [if_pos (by simp; omega)]; rfl
      · rw [ih (j + 1) _ (write_ok hs _ _) hl (by omega) hb]
        simp only [List.length_cons]
        have e : (off.toInt + ((j + 1 : Nat) : Int)).toNat = (off.toInt + j).toNat + [b].length := by
          simp; omega
        by_cases h2 : off.toInt + j + (bs.length + 1) ≤ L
        · rw [if_pos (by omega), if_pos (by omega), e, write_adj hs (by simp; omega)]; rfl
        · rw [if_neg (by omega)]
          by_cases h3 : off.toInt + ((j + 1 : Nat) : Int) < L
          · rw [if_pos (by omega), if_neg (by omega), if_pos h1, e, write_adj hs (by simp; omega)]
            congr 2
            rw [show L - (off.toInt + j).toNat = (L - ((off.toInt + j).toNat + [b].length)) + 1 by
              simp; omega]
            rfl
          · rw [if_neg (by omega), if_neg (by omega), if_pos h1]
            rw [show L - (off.toInt + j).toNat = 1 by omega]
            rfl
    · rw [if_neg (fun h => h1 (ha.mp h))]
      simp only [List.length_cons]
      rw [if_neg (by omega), if_neg h1]

theorem storeFrom_run (off : Int64) (bs : List UInt8) (j : Nat) (s : St) (hs : s.OK)
    (hj : j + bs.length < 2 ^ 62) (hb : bs ≠ []) :
    storeFrom off j bs s =
      if 0 ≤ off.toInt + j ∧ off.toInt + j + bs.length ≤ s.b.buf.len then
        (.ok (), s.write (off.toInt + j).toNat bs)
      else if 0 ≤ off.toInt + j ∧ off.toInt + j < s.b.buf.len then
        (.panic .index, s.write (off.toInt + j).toNat (bs.take (s.b.buf.len - (off.toInt + j).toNat)))
      else (.panic .index, s) := storeFrom_run' _ off bs j s hs rfl hj hb

/-! ## loops with an invariant -/

theorem iter_congr_inv {f g : Nat → α → GoM σ α} (P : σ → Prop) :
    ∀ (c m : Nat) (a : α) (s : σ), P s →
      (∀ k a s, m ≤ k → k < m + c → P s → f k a s = g k a s ∧ P (g k a s).2) →
      iter f c m a s = iter g c m a s := by
  intro c
  induction c with
  | zero => intros; rfl
  | succ c ih =>
    intro m a s hs h
    simp only [iter, bind_run]
    obtain ⟨h1, h2⟩ := h m a s (by omega) (by omega) hs
    rw [h1]
    revert h2
    rcases g m a s with ⟨_ | _, s'⟩
    · intro h2
      exact ih (m + 1) _ s' h2 fun k a s k1 k2 => h k a s (by omega) (by omega)
    · intro _; rfl

/-! ## typed stores -/

/-- The bytes a typed slice is written as. -/
def enc (k : Kind) (e : Endian) (data : List k.Ty) : List UInt8 :=
  data.flatMap fun x => encode e k.size (k.pat x)

theorem length_enc (k : Kind) (e : Endian) (data : List k.Ty) :
    (enc k e data).length = data.length * k.size := by
  induction data with
  | nil => simp [enc]
  | cons x xs ih =>
    simp only [enc, List.flatMap_cons, List.length_append, length_encode] at ih ⊢
    simp only [ih, List.length_cons, Nat.add_mul]; omega

/-- A loop whose body stores one encoded element stores the whole encoding. -/
theorem iter_store (k : Kind) (e : Endian) (off : Int64) (data : List k.Ty)
    (f : Nat → Unit → GoM St Unit)
    (hf : ∀ m (h : m < data.length), f m () = storeFrom off (m * k.size) (encode e k.size (k.pat data[m]))) :
    ∀ c m, m + c = data.length →
      iter f c m () = storeFrom off (m * k.size) (enc k e (data.drop m)) := by
  intro c
  induction c with
  | zero =>
    intro m h
    rw [List.drop_of_length_le (by omega)]; rfl
  | succ c ih =>
    intro m h
    have hm : m < data.length := by omega
    rw [iter, hf m hm, List.drop_eq_getElem_cons hm]
    simp only [enc, List.flatMap_cons]
    rw [storeFrom_append, length_encode]
    congr 1; funext _
    rw [ih (m + 1) (by omega), Nat.add_mul]; simp [enc]

end Crunch.V3
