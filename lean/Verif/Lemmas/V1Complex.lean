import Verif.Lemmas.V2Copy
import Verif.V1.Mini

/-! v1 `WriteComplex` and `ReadComplex`: the bytes they write and the integers they read. -/

namespace Crunch.V1
open Spec
open V3 (St getB modB onMem WF Kind enc dec storeFrom)

/-! ## loops -/

theorem prog_forLoop_ret (body : Int64 → α → Prog α) (n : Nat) (hn : n < 2 ^ 63) (F : Nat → α)
    (h : ∀ k, k < n → body (Int64.ofNat k) (F k) = .ret (F (k + 1))) :
    ∀ c m, m + c = n → Prog.forLoop body (Int64.ofNat n) (Int64.ofNat m) (F m) = .ret (F n) := by
  intro c
  induction c with
  | zero =>
    intro m hm
    rw [Prog.forLoop, if_neg (by rw [Int64.lt_iff_toInt_lt, toInt_ofNat (by omega), toInt_ofNat (by omega)]; omega)]
    rw [show m = n by omega]
  | succ c ih =>
    intro m hm
    rw [Prog.forLoop, if_pos (by rw [Int64.lt_iff_toInt_lt, toInt_ofNat (by omega), toInt_ofNat (by omega)]; omega),
      h m (by omega)]
    have := ih (m + 1) (by omega)
    rw [ofNat_add] at this
    exact this

/-- `c` rounds from `m` on, each taking the value and the state of the loop one further. -/
theorem iter_ok {f : Nat → α → GoM σ α} (F : Nat → α) (S : Nat → σ) :
    ∀ c m, (∀ k, m ≤ k → k < m + c → f k (F k) (S k) = (.ok (F (k + 1)), S (k + 1))) →
      iter f c m (F m) (S m) = (.ok (F (m + c)), S (m + c)) := by
  intro c
  induction c with
  | zero => intro m _; rfl
  | succ c ih =>
    intro m h
    rw [iter, bind_ok (h m (by omega) (by omega)), ih (m + 1) fun k h1 h2 => h k (by omega) (by omega)]
    rw [show m + 1 + c = m + (c + 1) by omega]

/-- The round numbered `j` panics. -/
theorem iter_panic {f : Nat → α → GoM σ α} {p : Panic} (F : Nat → α) (S : Nat → σ) (j : Nat) (t : σ)
    (hp : f j (F j) (S j) = (.panic p, t)) :
    ∀ c m, m ≤ j → j < m + c → (∀ k, m ≤ k → k < j → f k (F k) (S k) = (.ok (F (k + 1)), S (k + 1))) →
      iter f c m (F m) (S m) = (.panic p, t) := by
  intro c
  induction c with
  | zero => intro m h1 h2; omega
  | succ c ih =>
    intro m h1 h2 h
    rw [iter]
    by_cases e : m = j
    · subst e
      exact bind_panic hp
    · rw [bind_ok (h m (by omega) (by omega))]
      exact ih (m + 1) (by omega) (by omega) fun k k1 k2 => h k (by omega) k2

/-! ## `encoding/binary` -/

theorem put16_eq (e : Endian) (v : UInt16) : put16 e v = encode e 2 v.toNat := by
  have h := V3.bytes_u16 v
  cases e
  · exact h
  · exact congrArg List.reverse h
theorem put32_eq (e : Endian) (v : UInt32) : put32 e v = encode e 4 v.toNat := by
  have h := V3.bytes_u32 v
  cases e
  · exact h
  · exact congrArg List.reverse h
theorem put64_eq (e : Endian) (v : UInt64) : put64 e v = encode e 8 v.toNat := by
  have h := V3.bytes_u64 v
  cases e
  · exact h
  · exact congrArg List.reverse h

theorem get16_eq (e : Endian) (b0 b1 : UInt8) : get16 e b0 b1 = Kind.u16.ofPat (decode e [b0, b1]) := by
  cases e
  · exact V3.eq_ofPat .u16 _ _ (V3.val_u16 b0 b1)
  · exact V3.eq_ofPat .u16 _ _ (V3.val_u16 b1 b0)
theorem get32_eq (e : Endian) (b0 b1 b2 b3 : UInt8) : get32 e b0 b1 b2 b3 = Kind.u32.ofPat (decode e [b0, b1, b2, b3]) := by
  cases e
  · exact V3.eq_ofPat .u32 _ _ (V3.val_u32 b0 b1 b2 b3)
  · exact V3.eq_ofPat .u32 _ _ (V3.val_u32 b3 b2 b1 b0)
theorem get64_eq (e : Endian) (b0 b1 b2 b3 b4 b5 b6 b7 : UInt8) :
    get64 e b0 b1 b2 b3 b4 b5 b6 b7 = Kind.u64.ofPat (decode e [b0, b1, b2, b3, b4, b5, b6, b7]) := by
  cases e
  · exact V3.eq_ofPat .u64 _ _ (V3.val_u64 b0 b1 b2 b3 b4 b5 b6 b7)
  · exact V3.eq_ofPat .u64 _ _ (V3.val_u64 b7 b6 b5 b4 b3 b2 b1 b0)

/-! ## the bytes built -/

theorem prog_idx_ofNat {l : List α} {m : Nat} (h : m < l.length) (hl : l.length < 2 ^ 63) :
    Prog.idx l (Int64.ofNat m) = .ret l[m] := by
  unfold Prog.idx
  rw [toInt_ofNat (by omega), if_pos (by omega)]
  simp [h]

theorem prog_setIdx {l : List α} {m : Nat} (i : Int64) (hi : i = Int64.ofNat m) (h : m < l.length) (hl : l.length < 2 ^ 63) (v : α) :
    Prog.setIdx l i v = .ret (l.set m v) := by
  subst hi
  unfold Prog.setIdx
  rw [toInt_ofNat (by omega), if_pos (by omega)]
  simp

theorem set_at (P R : List α) (k : Nat) (v : α) : (P ++ R).set (P.length + k) v = P ++ R.set k v := by
  rw [List.set_append_right _ _ (by omega), Nat.add_sub_cancel_left]

/-- The bytes of the first `k` elements, and zeros. -/
def filled (kd : Kind) (e : Endian) (l : List kd.Ty) (k : Nat) : List UInt8 :=
  enc kd e (l.take k) ++ List.replicate ((l.length - k) * kd.size) 0

theorem filled_zero (kd : Kind) (e : Endian) (l : List kd.Ty) : filled kd e l 0 = List.replicate (l.length * kd.size) 0 := by
  simp [filled, enc]
theorem filled_all (kd : Kind) (e : Endian) (l : List kd.Ty) : filled kd e l l.length = enc kd e l := by
  simp [filled]
theorem length_filled (kd : Kind) (e : Endian) (l : List kd.Ty) {k : Nat} (h : k ≤ l.length) :
    (filled kd e l k).length = l.length * kd.size := by
  rw [filled, List.length_append, V3.length_enc, List.length_take, List.length_replicate, ← Nat.add_mul]
  congr 1; omega

theorem filled_split (kd : Kind) (e : Endian) (l : List kd.Ty) {k : Nat} (h : k < l.length) :
    filled kd e l k = enc kd e (l.take k) ++ (List.replicate kd.size 0 ++ List.replicate ((l.length - (k + 1)) * kd.size) 0) := by
  rw [filled, List.replicate_append_replicate]
  congr 2
  rw [show l.length - k = (l.length - (k + 1)) + 1 by omega, Nat.add_mul]; omega

theorem filled_succ (kd : Kind) (e : Endian) (l : List kd.Ty) {k : Nat} (h : k < l.length) :
    filled kd e l (k + 1) =
      enc kd e (l.take k) ++ (encode e kd.size (kd.pat l[k]) ++ List.replicate ((l.length - (k + 1)) * kd.size) 0) := by
  rw [filled, ← List.append_assoc]
  congr 1
  rw [show l.take (k + 1) = l.take k ++ [l[k]] by simp]
  simp only [enc, List.flatMap_append, List.flatMap_cons, List.flatMap_nil, List.append_nil]

theorem length_enc_take (kd : Kind) (e : Endian) (l : List kd.Ty) {k : Nat} (h : k ≤ l.length) :
    (enc kd e (l.take k)).length = k * kd.size := by
  rw [V3.length_enc, List.length_take, Nat.min_eq_left h]

/-- The index expression `j + i*w`. -/
theorem index_eq (j k w : Nat) : Int64.ofNat j + Int64.ofNat k * Int64.ofNat w = Int64.ofNat (k * w + j) := V3.adr k w j

/-- The chain of stores of one element: `data[j + i*w] = t[j]` for each `j`. -/
def setAll (w : Int64) (i : Int64) : Nat → List UInt8 → List UInt8 → Prog (List UInt8)
  | _, [], data => .ret data
  | j, [t], data => Prog.setIdx data (Int64.ofNat j + i * w) t
  | j, t :: ts, data => Prog.setIdx data (Int64.ofNat j + i * w) t >>= fun data => setAll w i (j + 1) ts data

theorem set_mid (P X R : List UInt8) (z t : UInt8) {q : Nat} (hq : q = P.length + X.length) :
    (P ++ X ++ (z :: R)).set q t = P ++ (X ++ [t]) ++ R := by
  subst hq
  rw [← List.length_append, List.set_append_right _ _ (by omega), Nat.sub_self]
  simp

theorem setAll_eq (w k : Nat) (ts : List UInt8) : ∀ (P X Z R : List UInt8), P.length = k * w → Z.length = ts.length →
    P.length + X.length + Z.length + R.length < 2 ^ 62 →
    setAll (Int64.ofNat w) (Int64.ofNat k) X.length ts (P ++ X ++ (Z ++ R)) = .ret (P ++ (X ++ ts) ++ R) := by
  induction ts with
  | nil =>
    intro P X Z R hp hz hl
    obtain rfl := List.eq_nil_of_length_eq_zero hz
    simp [setAll]
  | cons t ts ih =>
    intro P X Z R hp hz hl
    obtain ⟨z, Z', rfl⟩ := List.exists_cons_of_length_eq_add_one hz
    simp only [List.length_cons] at hz hl
    have e : Prog.setIdx (P ++ X ++ (z :: Z' ++ R)) (Int64.ofNat X.length + Int64.ofNat k * Int64.ofNat w) t =
        .ret (P ++ (X ++ [t]) ++ (Z' ++ R)) := by
      rw [prog_setIdx _ (index_eq X.length k w) (by simp only [List.length_append, List.length_cons]; omega)
        (by simp only [List.length_append, List.length_cons]; omega)]
      rw [List.cons_append, set_mid P X _ z t (by omega)]
    cases ts with
    | nil =>
      obtain rfl := List.eq_nil_of_length_eq_zero (show Z'.length = 0 by simpa using hz)
      exact e
    | cons u us =>
      show Prog.setIdx _ (Int64.ofNat X.length + Int64.ofNat k * Int64.ofNat w) t >>= _ = _
      rw [e]
      show setAll (Int64.ofNat w) (Int64.ofNat k) (X.length + 1) (u :: us) _ = _
      have := ih P (X ++ [t]) Z' R hp (by omega) (by simp only [List.length_append, List.length_singleton]; omega)
      rw [List.length_append, List.length_singleton] at this
      rw [this]
      simp

theorem setAll_filled (kd : Kind) (e : Endian) (l : List kd.Ty) (hl : l.length * kd.size ≤ maxAlloc) {k : Nat} (hk : k < l.length) :
    setAll (Int64.ofNat kd.size) (Int64.ofNat k) 0 (encode e kd.size (kd.pat l[k])) (filled kd e l k) = .ret (filled kd e l (k + 1)) := by
  have hM := maxAlloc_lt
  have h1 := length_filled kd e l (Nat.le_of_lt hk)
  rw [filled_split kd e l hk] at h1
  simp only [List.length_append, List.length_replicate] at h1
  have := setAll_eq kd.size k (encode e kd.size (kd.pat l[k])) (enc kd e (l.take k)) [] (List.replicate kd.size 0)
    (List.replicate ((l.length - (k + 1)) * kd.size) 0) (length_enc_take kd e l (Nat.le_of_lt hk))
    (by rw [List.length_replicate, V3.length_encode]) (by simp only [List.length_replicate, List.length_nil]; omega)
  rw [List.append_nil, List.nil_append, List.length_nil, List.append_assoc] at this
  rw [filled_split kd e l hk, filled_succ kd e l hk]
  exact this

theorem step16 (e : Endian) (l : List UInt16) (hl : l.length * 2 ≤ maxAlloc) (k : Nat) (hk : k < l.length) :
    (do
      let v ← Prog.idx l (Int64.ofNat k)
      let tdata := put16 e v
      let t0 ← Prog.idx tdata 0
      let data ← Prog.setIdx (filled .u16 e l k) (0 + Int64.ofNat k * 2) t0
      let t1 ← Prog.idx tdata 1
      Prog.setIdx data (1 + Int64.ofNat k * 2) t1 : Prog (List UInt8)) = .ret (filled .u16 e l (k + 1)) := by
  have hM := maxAlloc_lt
  rw [prog_idx_ofNat hk (by omega), ← setAll_filled .u16 e l hl hk]
  rw [show encode e Kind.u16.size (Kind.u16.pat l[k]) = put16 e l[k] from (put16_eq e l[k]).symm]
  cases e <;> rfl

theorem step32 (e : Endian) (l : List UInt32) (hl : l.length * 4 ≤ maxAlloc) (k : Nat) (hk : k < l.length) :
    (do
      let v ← Prog.idx l (Int64.ofNat k)
      let tdata := put32 e v
      let t0 ← Prog.idx tdata 0
      let data ← Prog.setIdx (filled .u32 e l k) (0 + Int64.ofNat k * 4) t0
      let t1 ← Prog.idx tdata 1
      let data ← Prog.setIdx data (1 + Int64.ofNat k * 4) t1
      let t2 ← Prog.idx tdata 2
      let data ← Prog.setIdx data (2 + Int64.ofNat k * 4) t2
      let t3 ← Prog.idx tdata 3
      Prog.setIdx data (3 + Int64.ofNat k * 4) t3 : Prog (List UInt8)) = .ret (filled .u32 e l (k + 1)) := by
  have hM := maxAlloc_lt
  rw [prog_idx_ofNat hk (by omega), ← setAll_filled .u32 e l hl hk]
  rw [show encode e Kind.u32.size (Kind.u32.pat l[k]) = put32 e l[k] from (put32_eq e l[k]).symm]
  cases e <;> rfl

theorem step64 (e : Endian) (l : List UInt64) (hl : l.length * 8 ≤ maxAlloc) (k : Nat) (hk : k < l.length) :
    (do
      let v ← Prog.idx l (Int64.ofNat k)
      let tdata := put64 e v
      let t0 ← Prog.idx tdata 0
      let data ← Prog.setIdx (filled .u64 e l k) (0 + Int64.ofNat k * 8) t0
      let t1 ← Prog.idx tdata 1
      let data ← Prog.setIdx data (1 + Int64.ofNat k * 8) t1
      let t2 ← Prog.idx tdata 2
      let data ← Prog.setIdx data (2 + Int64.ofNat k * 8) t2
      let t3 ← Prog.idx tdata 3
      let data ← Prog.setIdx data (3 + Int64.ofNat k * 8) t3
      let t4 ← Prog.idx tdata 4
      let data ← Prog.setIdx data (4 + Int64.ofNat k * 8) t4
      let t5 ← Prog.idx tdata 5
      let data ← Prog.setIdx data (5 + Int64.ofNat k * 8) t5
      let t6 ← Prog.idx tdata 6
      let data ← Prog.setIdx data (6 + Int64.ofNat k * 8) t6
      let t7 ← Prog.idx tdata 7
      Prog.setIdx data (7 + Int64.ofNat k * 8) t7 : Prog (List UInt8)) = .ret (filled .u64 e l (k + 1)) := by
  have hM := maxAlloc_lt
  rw [prog_idx_ofNat hk (by omega), ← setAll_filled .u64 e l hl hk]
  rw [show encode e Kind.u64.size (Kind.u64.pat l[k]) = put64 e l[k] from (put64_eq e l[k]).symm]
  cases e <;> rfl

theorem make_bytes (kd : Kind) (e : Endian) (l : List kd.Ty) (hl : l.length * kd.size ≤ maxAlloc) :
    Prog.makeTyped 1 (0 : UInt8) (Int64.ofNat kd.size * Int64.ofNat l.length) = .ret (filled kd e l 0) := by
  have hM := maxAlloc_lt
  unfold Prog.makeTyped
  rw [← ofNat_mul, Nat.mul_comm, toInt_ofNat (by omega), if_neg (by omega), filled_zero]
  rfl

theorem lt_of_size (kd : Kind) {n : Nat} (h : n * kd.size ≤ maxAlloc) : n < 2 ^ 62 := by
  have hM := maxAlloc_lt; have := V3.size_pos kd
  have : n * 1 ≤ n * kd.size := Nat.mul_le_mul_left _ this
  omega

theorem bytes16_eq (e : Endian) (l : List UInt16) (hl : l.length * 2 ≤ maxAlloc) :
    bytes16 (some e) l = .ret (enc .u16 e l) := by
  unfold bytes16
  rw [show Prog.makeTyped 1 (0 : UInt8) (2 * Int64.ofNat l.length) = _ from make_bytes .u16 e l hl, ← filled_all]
  exact prog_forLoop_ret _ l.length (Nat.lt_trans (lt_of_size .u16 hl) (by decide)) _ (step16 e l hl) l.length 0 (by omega)

theorem bytes32_eq (e : Endian) (l : List UInt32) (hl : l.length * 4 ≤ maxAlloc) :
    bytes32 (some e) l = .ret (enc .u32 e l) := by
  unfold bytes32
  rw [show Prog.makeTyped 1 (0 : UInt8) (4 * Int64.ofNat l.length) = _ from make_bytes .u32 e l hl, ← filled_all]
  exact prog_forLoop_ret _ l.length (Nat.lt_trans (lt_of_size .u32 hl) (by decide)) _ (step32 e l hl) l.length 0 (by omega)

theorem bytes64_eq (e : Endian) (l : List UInt64) (hl : l.length * 8 ≤ maxAlloc) :
    bytes64 (some e) l = .ret (enc .u64 e l) := by
  unfold bytes64
  rw [show Prog.makeTyped 1 (0 : UInt8) (8 * Int64.ofNat l.length) = _ from make_bytes .u64 e l hl, ← filled_all]
  exact prog_forLoop_ret _ l.length (Nat.lt_trans (lt_of_size .u64 hl) (by decide)) _ (step64 e l hl) l.length 0 (by omega)

/-! ## the write of a literal -/

theorem lit_iter (off : Int64) (bs : List UInt8) (hl : bs.length ≤ maxAlloc) :
    ∀ c m, m + c = bs.length →
      iter (fun k _ => idx bs (Int64.ofNat k) >>= fun x => V3.bufStore (off + Int64.ofNat k) x) c m () = storeFrom off m (bs.drop m) := by
  have hM := maxAlloc_lt
  intro c
  induction c with
  | zero => intro m h; rw [List.drop_of_length_le (by omega)]; rfl
  | succ c ih =>
    intro m h
    rw [iter, List.drop_eq_getElem_cons (by omega), idx_ofNat (by omega) (by omega)]
    simp only [storeFrom]
    rw [pure_bind']
    congr 1
    funext _
    exact ih (m + 1) (by omega)

/-- The loop of `write` over a literal. -/
theorem lit_loop (off : Int64) (bs : List UInt8) (hl : bs.length ≤ maxAlloc) (h0 : bs ≠ []) :
    doLoop (fun i _ => idx bs i >>= fun x => V3.bufStore (off + i) x) (Int64.ofNat bs.length) 0 () = storeFrom off 0 bs := by
  have hM := maxAlloc_lt
  have := List.length_pos_iff.mpr h0
  rw [doLoop_pos _ _ this (by omega)]
  exact lit_iter off bs hl bs.length 0 (by omega)

theorem lit_loop_nil (off : Int64) :
    doLoop (fun i _ => idx ([] : List UInt8) i >>= fun x => V3.bufStore (off + i) x) (Int64.ofNat 0) 0 () = throwP .index := by
  rw [doLoop_le_one _ _ (by decide), idx_nil]
  rfl

theorem srcAt_lit (bs : List UInt8) (i : Int64) : Prog.srcAt (.lit bs) i = Prog.idx bs i := by
  unfold Prog.srcAt Prog.idx
  by_cases h : 0 ≤ i.toInt
  · by_cases h1 : i.toInt < bs.length
    · simp only []
      rw [if_pos ⟨h, h1⟩, if_pos h, List.getD, List.getElem?_eq_getElem (show i.toInt.toNat < bs.length by omega)]
      rfl
    · simp only []
      rw [if_neg (by omega), if_pos h, List.getElem?_eq_none (by omega)]
  · simp only []
    rw [if_neg (by omega), if_neg h]

theorem write_lit_leaky (off : Int64) (bs : List UInt8) :
    Leaky (Buffer.write off (.lit bs)) (getB >>= fun b =>
      Crunch.panicIf (off + Int64.ofNat bs.length > b.cap) (.err BufferOverwriteError) >>= fun _ =>
        Crunch.panicIf (off < 0) (.err BufferUnderwriteError) >>= fun _ =>
          doLoop (fun i _ => idx bs i >>= fun x => V3.bufStore (off + i) x) (Int64.ofNat bs.length) 0 ()) := by
  refine V2.write_leaky (fun cap => off + Int64.ofNat bs.length > cap) (off < 0) (body := fun i _ => do
      let x ← Prog.srcAt (.lit bs) i
      Prog.bufStore (off + i) x) (m := fun i _ => idx bs i >>= fun x => V3.bufStore (off + i) x) (Int64.ofNat bs.length) ?_ ?_
  · intro i a
    rw [Prog.run_bind', lift_bind, lift_idx, ← Prog.run_idx, srcAt_lit]
    congr 1
    funext x
    rw [Prog.run_bufStore]
  · intro i a
    exact (noErr_idx _ _).bind fun _ => noErr_bufStore _ _

/-- `write` of a slice nothing else refers to, executed alone. -/
theorem write_lit_run {s : St} (h : WF s) (off : Int64) (bs : List UInt8) (hl : bs.length ≤ maxAlloc) :
    (Buffer.write off (.lit bs)).run ⟨s, false⟩ =
      if 0 < bs.length ∧ 0 ≤ off.toInt ∧ off.toInt + bs.length ≤ s.b.buf.len then
        (.ok (), ⟨s.write off.toInt.toNat bs, false⟩)
      else (.panic (V2.writePanic off.toInt bs.length s.b.buf.len), ⟨s, (V2.writePanic off.toInt bs.length s.b.buf.len).runtime⟩) := by
  have hM := maxAlloc_lt; have hL := h.len_lt
  have o1 := toInt_lt' off; have o2 := le_toInt' off
  refine (write_lit_leaky off bs s).trans ?_
  simp only [V3.getB_bind, panicIf_bind, GT.gt, Int64.lt_iff_toInt_lt, h.cap_toInt, toInt_add, toInt_zero', V2.writePanic]
  rw [toInt_ofNat (show bs.length < 2 ^ 63 by omega)]
  have hz : bs = [] → bs.length = 0 := fun e => by rw [e]; rfl
  have key : doLoop (fun i _ => idx bs i >>= fun x => V3.bufStore (off + i) x) (Int64.ofNat bs.length) 0 () s =
      if 0 < bs.length ∧ 0 ≤ off.toInt ∧ off.toInt + bs.length ≤ s.b.buf.len then
        (.ok (), s.write off.toInt.toNat bs)
      else if 0 < bs.length ∧ 0 ≤ off.toInt ∧ off.toInt < s.b.buf.len then
        (.panic .index, s.write off.toInt.toNat (bs.take (s.b.buf.len - off.toInt.toNat)))
      else (.panic .index, s) := by
    by_cases e : bs = []
    · subst e
      rw [if_neg (by simp), if_neg (by simp)]
      show doLoop _ (Int64.ofNat 0) 0 () s = _
      rw [lit_loop_nil]; rfl
    · have hp := List.length_pos_iff.mpr e
      rw [lit_loop off bs hl e, V3.storeFrom_run off bs 0 s h.ok (by omega) e]
      simp only [Int.natCast_zero, Int.add_zero, hp, true_and]
  rw [key]
  by_cases h1 : off.toInt + bs.length < 2 ^ 63
  · rw [show (off.toInt + bs.length + 2 ^ 63) % 2 ^ 64 - 2 ^ 63 = off.toInt + bs.length by omega]
    by_cases h2 : (s.b.buf.len : Int) < off.toInt + bs.length
    · rw [if_pos h2, if_neg (by omega), if_pos (by omega)]; rfl
    · rw [if_neg h2]
      by_cases h3 : off.toInt < 0
      · rw [if_pos h3, if_neg (by omega), if_neg (by omega), if_pos h3]; rfl
      · rw [if_neg h3]
        by_cases h4 : bs.length = 0
        · rw [if_neg (by omega), if_neg (by omega), if_neg (by omega), if_neg (by omega), if_neg h3]; rfl
        · rw [if_pos (by omega), if_pos (by omega)]; rfl
  · rw [if_neg (by omega), if_neg (by omega), if_neg (by omega), if_neg (by omega), if_neg (by omega), if_neg (by omega),
      if_neg (by omega)]
    rfl

/-! ## elements read -/

/-- The bytes of memory from the start of the slice `data` on. -/
def bytesFrom (h : Heap) (data : Slice) : List UInt8 := (h.array data.arr).drop data.off

/-- The `w` bytes at index `k * w` of `data`, as loads see them. -/
theorem run_loadAt_ok (s : Slice) {j : Nat} (hj : j < s.len) (hs : s.len < 2 ^ 62) (sh : Sh) :
    (Prog.loadAt s (Int64.ofNat j)).run sh = (.ok ((sh.st.mem.array s.arr).getD (s.off + j) 0), sh) := by
  unfold Prog.loadAt
  rw [toInt_ofNat (by omega), if_pos (by omega)]
  rfl

/-- A load of one element of kind `kd` from a slice of exactly that size. -/
def LoadsAs (kd : Kind) (e : Endian) (ld : Slice → Prog kd.Ty) : Prop :=
  ∀ (t : Slice) (sh : Sh), t.len = kd.size → t.off + t.len ≤ (sh.st.mem.array t.arr).length →
    (ld t).run sh = (.ok (kd.ofPat (decode e (Spec.slice (bytesFrom sh.st.mem t) 0 kd.size))), sh)

theorem slice_from {h : Heap} {t : Slice} {w : Nat} (hf : t.off + w ≤ (h.array t.arr).length) :
    Spec.slice (bytesFrom h t) 0 w = (List.range w).map fun j => (h.array t.arr).getD (t.off + j) 0 := by
  rw [bytesFrom, V3.slice_drop, V3.map_getD_range _ _ _ (by omega), Nat.add_zero]

theorem loadU16_loads (e : Endian) : LoadsAs .u16 e (loadU16 (some e)) := by
  intro t sh ht hf
  change t.len = 2 at ht
  rw [slice_from (by rw [show Kind.u16.size = 2 from rfl, ← ht]; exact hf)]
  show (Prog.loadAt t (Int64.ofNat 1) >>= fun b1 => Prog.loadAt t (Int64.ofNat 0) >>= fun b0 =>
    (.ret (get16 e b0 b1) : Prog UInt16)).run sh = _
  simp only [Prog.run_bind']
  rw [bind_ok (run_loadAt_ok t (by omega) (by omega) sh), bind_ok (run_loadAt_ok t (by omega) (by omega) sh), get16_eq]
  rfl
theorem loadU32_loads (e : Endian) : LoadsAs .u32 e (loadU32 (some e)) := by
  intro t sh ht hf
  change t.len = 4 at ht
  rw [slice_from (by rw [show Kind.u32.size = 4 from rfl, ← ht]; exact hf)]
  show (Prog.loadAt t (Int64.ofNat 3) >>= fun b3 => Prog.loadAt t (Int64.ofNat 2) >>= fun b2 =>
    Prog.loadAt t (Int64.ofNat 1) >>= fun b1 => Prog.loadAt t (Int64.ofNat 0) >>= fun b0 =>
    (.ret (get32 e b0 b1 b2 b3) : Prog UInt32)).run sh = _
  simp only [Prog.run_bind']
  rw [bind_ok (run_loadAt_ok t (by omega) (by omega) sh), bind_ok (run_loadAt_ok t (by omega) (by omega) sh),
    bind_ok (run_loadAt_ok t (by omega) (by omega) sh), bind_ok (run_loadAt_ok t (by omega) (by omega) sh), get32_eq]
  rfl
theorem loadU64_loads (e : Endian) : LoadsAs .u64 e (loadU64 (some e)) := by
  intro t sh ht hf
  change t.len = 8 at ht
  rw [slice_from (by rw [show Kind.u64.size = 8 from rfl, ← ht]; exact hf)]
  show (Prog.loadAt t (Int64.ofNat 7) >>= fun b7 => Prog.loadAt t (Int64.ofNat 6) >>= fun b6 =>
    Prog.loadAt t (Int64.ofNat 5) >>= fun b5 => Prog.loadAt t (Int64.ofNat 4) >>= fun b4 =>
    Prog.loadAt t (Int64.ofNat 3) >>= fun b3 => Prog.loadAt t (Int64.ofNat 2) >>= fun b2 =>
    Prog.loadAt t (Int64.ofNat 1) >>= fun b1 => Prog.loadAt t (Int64.ofNat 0) >>= fun b0 =>
    (.ret (get64 e b0 b1 b2 b3 b4 b5 b6 b7) : Prog UInt64)).run sh = _
  simp only [Prog.run_bind']
  rw [bind_ok (run_loadAt_ok t (by omega) (by omega) sh), bind_ok (run_loadAt_ok t (by omega) (by omega) sh),
    bind_ok (run_loadAt_ok t (by omega) (by omega) sh), bind_ok (run_loadAt_ok t (by omega) (by omega) sh),
    bind_ok (run_loadAt_ok t (by omega) (by omega) sh), bind_ok (run_loadAt_ok t (by omega) (by omega) sh),
    bind_ok (run_loadAt_ok t (by omega) (by omega) sh), bind_ok (run_loadAt_ok t (by omega) (by omega) sh), get64_eq]
  rfl

/-- Element `k` of `data`, which must lie within its capacity but not within its length. -/
theorem elem_run {kd : Kind} {e : Endian} {ld : Slice → Prog kd.Ty} (hld : LoadsAs kd e ld) (data : Slice) (sh : Sh)
    (hf : data.off + data.cap ≤ (sh.st.mem.array data.arr).length) (hc : data.cap ≤ maxAlloc) {k : Nat} (hk : k * kd.size < 2 ^ 60) :
    (Prog.reslice data (Int64.ofNat k * Int64.ofNat kd.size) ((Int64.ofNat k + 1) * Int64.ofNat kd.size) >>= ld).run sh =
      if (k + 1) * kd.size ≤ data.cap then
        (.ok (kd.ofPat (decode e (Spec.slice (bytesFrom sh.st.mem data) (k * kd.size) kd.size))), sh)
      else (.panic .sliceBounds, sh) := by
  have hM := maxAlloc_lt; have h8 := V3.size_le kd
  have e1 : (Int64.ofNat k + 1) = Int64.ofNat (k + 1) := (ofNat_add k 1).symm
  have e2 : (k + 1) * kd.size = k * kd.size + kd.size := Nat.succ_mul ..
  rw [e1, ← ofNat_mul, ← ofNat_mul, Prog.run_bind']
  unfold Prog.reslice
  rw [toInt_ofNat (by omega), toInt_ofNat (by omega)]
  by_cases h : (k + 1) * kd.size ≤ data.cap
  · rw [if_pos (by omega), if_pos h]
    simp only [Int.toNat_natCast]
    show (ld ⟨data.arr, data.off + k * kd.size, (k + 1) * kd.size - k * kd.size, data.cap - k * kd.size⟩).run sh = _
    rw [hld _ sh (show (k + 1) * kd.size - k * kd.size = kd.size by omega) (by simp only []; omega)]
    simp only [bytesFrom, V3.slice_drop]
    rfl
  · rw [if_neg (by omega), if_neg h]
    rfl

/-- The elements decoded so far, and zeros. -/
def decoded (kd : Kind) (e : Endian) (n : Nat) (l : List UInt8) (k : Nat) : List kd.Ty :=
  dec kd e k l ++ List.replicate (n - k) kd.zero

theorem length_decoded (kd : Kind) (e : Endian) {n : Nat} (l : List UInt8) {k : Nat} (h : k ≤ n) : (decoded kd e n l k).length = n := by
  simp [decoded]; omega

theorem decoded_succ (kd : Kind) (e : Endian) {n : Nat} (l : List UInt8) {k : Nat} (h : k < n) :
    (decoded kd e n l k).set k (kd.ofPat (decode e (Spec.slice l (k * kd.size) kd.size))) = decoded kd e n l (k + 1) := by
  unfold decoded
  rw [List.set_append_right _ _ (by simp), V3.length_dec, Nat.sub_self, show n - k = (n - (k + 1)) + 1 by omega,
    List.replicate_succ, List.set_cons_zero]
  simp [dec, List.range_succ]

theorem decoded_zero (kd : Kind) (e : Endian) (n : Nat) (l : List UInt8) : decoded kd e n l 0 = List.replicate n kd.zero := by
  simp [decoded, dec]
theorem decoded_all (kd : Kind) (e : Endian) (n : Nat) (l : List UInt8) : decoded kd e n l n = dec kd e n l := by
  simp [decoded]

/-- The loop of `readComplex` at one element size. -/
def readElems (kd : Kind) (ld : Slice → Prog kd.Ty) (data : Slice) (n : Int64) : Prog (List kd.Ty) := do
  let idata ← Prog.makeTyped kd.size kd.zero n
  Prog.forLoop (fun i idata => do
    let t ← Prog.reslice data (i * Int64.ofNat kd.size) ((i + 1) * Int64.ofNat kd.size)
    let v ← ld t
    Prog.setIdx idata i v) n 0 idata

/-- The panic of a `readElems` that fails. -/
def elemsPanic (n w : Nat) : Panic := if n * w > maxAlloc then .makeSlice else .sliceBounds

theorem lt_of_mul_lt {a b c : Nat} (h : a * c < b * c) : a < b := Nat.lt_of_mul_lt_mul_right h

theorem readElems_run {kd : Kind} {e : Endian} {ld : Slice → Prog kd.Ty} (hld : LoadsAs kd e ld) (data : Slice) (sh : Sh)
    (hf : data.off + data.cap ≤ (sh.st.mem.array data.arr).length) (hc : data.cap ≤ maxAlloc) (n : Nat) (hn : n < 2 ^ 62) :
    (readElems kd ld data (Int64.ofNat n)).run sh =
      if n * kd.size ≤ data.cap then (.ok (dec kd e n (bytesFrom sh.st.mem data)), sh)
      else (.panic (elemsPanic n kd.size), sh) := by
  have hM := maxAlloc_lt; have h8 := V3.size_le kd; have hp := V3.size_pos kd
  unfold readElems elemsPanic
  rw [Prog.run_bind']
  unfold Prog.makeTyped
  rw [toInt_ofNat (by omega)]
  have hcast : ((n : Int) * (kd.size : Int) > maxAlloc) ↔ n * kd.size > maxAlloc := by
    rw [← Int.natCast_mul]; exact Int.ofNat_lt
  by_cases h1 : n * kd.size > maxAlloc
  · rw [if_pos (.inr (hcast.mpr h1)), if_neg (by omega), if_pos h1]
    rfl
  · rw [if_neg (by rw [hcast]; omega), if_neg h1]
    simp only [Int.toNat_natCast]
    show (Prog.forLoop _ (Int64.ofNat n) 0 (List.replicate n kd.zero)).run sh = _
    rw [Prog.run_forLoop, ← decoded_zero kd e n (bytesFrom sh.st.mem data)]
    have hi := forLoop_iter (fun i idata => (do
      let t ← Prog.reslice data (i * Int64.ofNat kd.size) ((i + 1) * Int64.ofNat kd.size)
      let v ← ld t
      Prog.setIdx idata i v : Prog (List kd.Ty)).run) n (by omega) n 0 (decoded kd e n (bytesFrom sh.st.mem data) 0) (by omega)
    have hi' := congrFun hi sh
    refine hi'.trans ?_
    have hb : ∀ k a, k < n → (do
        let t ← Prog.reslice data (Int64.ofNat k * Int64.ofNat kd.size) ((Int64.ofNat k + 1) * Int64.ofNat kd.size)
        let v ← ld t
        Prog.setIdx a (Int64.ofNat k) v : Prog (List kd.Ty)).run sh =
          if (k + 1) * kd.size ≤ data.cap then
            (Prog.setIdx a (Int64.ofNat k) (kd.ofPat (decode e (Spec.slice (bytesFrom sh.st.mem data) (k * kd.size) kd.size)))).run sh
          else (.panic .sliceBounds, sh) := by
      intro k a hk
      have hkn := V3.mul_le_of_lt (w := kd.size) hk
      have he := elem_run hld data sh hf hc (k := k) (by omega)
      rw [Prog.run_bind'] at he
      rw [Prog.run_bind', show (fun t => (ld t >>= fun v => Prog.setIdx a (Int64.ofNat k) v).run) =
        fun t => (ld t).run >>= fun v => (Prog.setIdx a (Int64.ofNat k) v).run from funext fun t => Prog.run_bind' _ _,
        ← bind_assoc', bind_run, he]
      by_cases hc' : (k + 1) * kd.size ≤ data.cap
      · rw [if_pos hc', if_pos hc']
      · rw [if_neg hc', if_neg hc']
    have hok : ∀ k, k < n → (k + 1) * kd.size ≤ data.cap → (do
        let t ← Prog.reslice data (Int64.ofNat k * Int64.ofNat kd.size) ((Int64.ofNat k + 1) * Int64.ofNat kd.size)
        let v ← ld t
        Prog.setIdx (decoded kd e n (bytesFrom sh.st.mem data) k) (Int64.ofNat k) v : Prog (List kd.Ty)).run sh =
          (.ok (decoded kd e n (bytesFrom sh.st.mem data) (k + 1)), sh) := by
      intro k hk hk'
      have hlen := length_decoded kd e (bytesFrom sh.st.mem data) (Nat.le_of_lt hk)
      rw [hb k _ hk, if_pos hk', prog_setIdx _ rfl (by omega) (by omega), decoded_succ kd e _ hk]
      rfl
    by_cases h2 : n * kd.size ≤ data.cap
    · rw [if_pos h2]
      have := iter_ok (f := fun k idata => (do
        let t ← Prog.reslice data (Int64.ofNat k * Int64.ofNat kd.size) ((Int64.ofNat k + 1) * Int64.ofNat kd.size)
        let v ← ld t
        Prog.setIdx idata (Int64.ofNat k) v : Prog (List kd.Ty)).run) (decoded kd e n (bytesFrom sh.st.mem data)) (fun _ => sh) n 0
        fun k _ hk => hok k (by omega) (Nat.le_trans (Nat.mul_le_mul_right _ (by omega)) h2)
      rw [Nat.zero_add, decoded_all] at this
      exact this
    · rw [if_neg h2]
      -- the first element that does not fit
      have hj : data.cap / kd.size < n := Nat.div_lt_of_lt_mul (by rw [Nat.mul_comm]; omega)
      have hq : ¬ (data.cap / kd.size + 1) * kd.size ≤ data.cap := by
        have := Nat.lt_mul_div_succ data.cap hp
        rw [Nat.mul_comm]; omega
      exact iter_panic (f := fun k idata => (do
        let t ← Prog.reslice data (Int64.ofNat k * Int64.ofNat kd.size) ((Int64.ofNat k + 1) * Int64.ofNat kd.size)
        let v ← ld t
        Prog.setIdx idata (Int64.ofNat k) v : Prog (List kd.Ty)).run) (decoded kd e n (bytesFrom sh.st.mem data)) (fun _ => sh)
        (data.cap / kd.size) sh (by rw [hb _ _ hj, if_neg hq]) n 0 (Nat.zero_le _) (by rw [Nat.zero_add]; exact hj)
        fun k _ hk => hok k (Nat.lt_trans hk hj) (by
          have := Nat.div_mul_le_self data.cap kd.size
          exact Nat.le_trans (Nat.mul_le_mul_right _ hk) this)

/-! ## `ReadComplex` -/

/-- The memory from position `off` of the buffer to the end of the array, past the end of the buffer. -/
def St.from (s : St) (off : Nat) : List UInt8 := (s.mem.array s.b.buf.arr).drop (s.b.buf.off + off)

/-- What a `ReadComplex` of `n` elements of kind `kd` does. -/
def complexRead (kd : Kind) (e : Endian) (con : List kd.Ty → Any) (off n : Int64) (s : St) : Res Any :=
  if 0 ≤ n.toInt ∧ 0 ≤ off.toInt ∧ off.toInt + n.toInt ≤ s.b.buf.len then
    if off.toInt.toNat + n.toInt.toNat * kd.size ≤ s.b.buf.cap then .ok (con (dec kd e n.toInt.toNat (St.from s off.toInt.toNat)))
    else .panic (elemsPanic n.toInt.toNat kd.size)
  else .panic (V3.readBytesPanic off.toInt n.toInt s.b.buf.len)

theorem read_run {s : St} (h : WF s) (off n : Int64) :
    (Buffer.read off n).run ⟨s, false⟩ =
      if 0 ≤ n.toInt ∧ 0 ≤ off.toInt ∧ off.toInt + n.toInt ≤ s.b.buf.len then
        (.ok { arr := s.b.buf.arr, off := s.b.buf.off + off.toInt.toNat, len := n.toInt.toNat,
               cap := s.b.buf.cap - off.toInt.toNat }, ⟨s, false⟩)
      else (.panic (V3.readBytesPanic off.toInt n.toInt s.b.buf.len), ⟨s, false⟩) := by
  refine (V2.read_alone off n s).trans ?_
  rw [V3.buffer_readBytes_run h]
  split <;> rfl

theorem readElems_complex {kd : Kind} {e : Endian} {ld : Slice → Prog kd.Ty} (hld : LoadsAs kd e ld) (con : List kd.Ty → Any)
    {s : St} (h : WF s) (off n : Int64) :
    (Buffer.read off n >>= fun data => readElems kd ld data n >>= fun l => Prog.ret (con l)).run ⟨s, false⟩ =
      (complexRead kd e con off n s, ⟨s, false⟩) := by
  have hM := maxAlloc_lt; have hL := h.len_lt; have hc := h.ok.cap_le; have hf := h.ok.fits; have hlc := h.ok.len_le
  rw [Prog.run_bind', bind_run, read_run h]
  unfold complexRead
  by_cases hr : 0 ≤ n.toInt ∧ 0 ≤ off.toInt ∧ off.toInt + n.toInt ≤ s.b.buf.len
  · rw [if_pos hr, if_pos hr]
    show (readElems kd ld _ n >>= fun l => Prog.ret (con l)).run ⟨s, false⟩ = _
    have hn : n = Int64.ofNat n.toInt.toNat := eq_ofNat n hr.1
    generalize hm : n.toInt.toNat = m at hn
    subst hn
    rw [Prog.run_bind', bind_run, readElems_run hld _ _ (by simp only []; omega) (by simp only []; omega) m (by omega)]
    by_cases h2 : off.toInt.toNat + m * kd.size ≤ s.b.buf.cap
    · rw [if_pos (by simp only []; omega), if_pos h2]
      rfl
    · rw [if_neg (by simp only []; omega), if_neg h2]
  · rw [if_neg hr, if_neg hr]

theorem prog_bind_assoc (p : Prog α) (f : α → Prog β) (g : β → Prog γ) :
    ((p >>= f) >>= g).run = (p >>= fun a => f a >>= g).run := by
  simp only [Prog.run_bind', bind_assoc']

theorem readComplex_u16 {s : St} (h : WF s) (off n : Int64) (e : Endian) :
    (Buffer.readComplex off n Unsigned16 (some e)).run ⟨s, false⟩ = (complexRead .u16 e .u16 off n s, ⟨s, false⟩) := by
  rw [← readElems_complex (loadU16_loads e) .u16 h]
  show (Buffer.read off n >>= _).run _ = _
  rw [Prog.run_bind', Prog.run_bind']
  exact congrFun (congrArg (fun k => (Buffer.read off n).run >>= k) (funext fun data => (prog_bind_assoc _ _ _).symm)) _
theorem readComplex_u32 {s : St} (h : WF s) (off n : Int64) (e : Endian) :
    (Buffer.readComplex off n Unsigned32 (some e)).run ⟨s, false⟩ = (complexRead .u32 e .u32 off n s, ⟨s, false⟩) := by
  rw [← readElems_complex (loadU32_loads e) .u32 h]
  show (Buffer.read off n >>= _).run _ = _
  rw [Prog.run_bind', Prog.run_bind']
  exact congrFun (congrArg (fun k => (Buffer.read off n).run >>= k) (funext fun data => (prog_bind_assoc _ _ _).symm)) _
theorem readComplex_u64 {s : St} (h : WF s) (off n : Int64) (e : Endian) :
    (Buffer.readComplex off n Unsigned64 (some e)).run ⟨s, false⟩ = (complexRead .u64 e .u64 off n s, ⟨s, false⟩) := by
  rw [← readElems_complex (loadU64_loads e) .u64 h]
  show (Buffer.read off n >>= _).run _ = _
  rw [Prog.run_bind', Prog.run_bind']
  exact congrFun (congrArg (fun k => (Buffer.read off n).run >>= k) (funext fun data => (prog_bind_assoc _ _ _).symm)) _

theorem readComplex_u8 {s : St} (h : WF s) (off n : Int64) (o : ByteOrder) :
    (Buffer.readComplex off n Unsigned8 o).run ⟨s, false⟩ =
      if 0 ≤ n.toInt ∧ 0 ≤ off.toInt ∧ off.toInt + n.toInt ≤ s.b.buf.len then
        (.ok (.bytes ⟨s.b.buf.arr, s.b.buf.off + off.toInt.toNat, n.toInt.toNat, s.b.buf.cap - off.toInt.toNat⟩), ⟨s, false⟩)
      else (.panic (V3.readBytesPanic off.toInt n.toInt s.b.buf.len), ⟨s, false⟩) := by
  show (Buffer.read off n >>= fun data => Prog.ret (Any.bytes data)).run _ = _
  rw [Prog.run_bind', bind_run, read_run h]
  by_cases hr : 0 ≤ n.toInt ∧ 0 ≤ off.toInt ∧ off.toInt + n.toInt ≤ s.b.buf.len
  · rw [if_pos hr, if_pos hr]; rfl
  · rw [if_neg hr, if_neg hr]

theorem readComplex_other {s : St} (h : WF s) (off n size : Int64) (o : ByteOrder) (h1 : size ≠ Unsigned8)
    (h2 : size ≠ Unsigned16) (h4 : size ≠ Unsigned32) (h8 : size ≠ Unsigned64) :
    (Buffer.readComplex off n size o).run ⟨s, false⟩ =
      (.panic (if 0 ≤ n.toInt ∧ 0 ≤ off.toInt ∧ off.toInt + n.toInt ≤ s.b.buf.len then .err BufferInvalidIntegerSizeError
        else V3.readBytesPanic off.toInt n.toInt s.b.buf.len), ⟨s, false⟩) := by
  have e : Buffer.readComplex off n size o = Buffer.read off n >>= fun _ => .panic (.err BufferInvalidIntegerSizeError) := by
    unfold Buffer.readComplex
    congr 1
    funext data
    rw [if_neg h1, if_neg h2, if_neg h4, if_neg h8]
  rw [e, Prog.run_bind', bind_run, read_run h]
  by_cases hr : 0 ≤ n.toInt ∧ 0 ≤ off.toInt ∧ off.toInt + n.toInt ≤ s.b.buf.len
  · rw [if_pos hr, if_pos hr]; rfl
  · rw [if_neg hr, if_neg hr]

/-! ## `WriteComplex` -/

theorem writeComplex_u8 (off : Int64) (src : Slice) (o : ByteOrder) :
    Buffer.writeComplex off (.bytes src) Unsigned8 o = V2.Buffer.WriteBytes off src := rfl

theorem writeComplex_u16 (off : Int64) (l : List UInt16) (e : Endian) (hl : l.length * 2 ≤ maxAlloc) :
    Buffer.writeComplex off (.u16 l) Unsigned16 (some e) = Buffer.write off (.lit (enc .u16 e l)) := by
  show (bytes16 (some e) l >>= fun data => Buffer.write off (.lit data)) = _
  rw [bytes16_eq e l hl]
  rfl
theorem writeComplex_u32 (off : Int64) (l : List UInt32) (e : Endian) (hl : l.length * 4 ≤ maxAlloc) :
    Buffer.writeComplex off (.u32 l) Unsigned32 (some e) = Buffer.write off (.lit (enc .u32 e l)) := by
  show (bytes32 (some e) l >>= fun data => Buffer.write off (.lit data)) = _
  rw [bytes32_eq e l hl]
  rfl
theorem writeComplex_u64 (off : Int64) (l : List UInt64) (e : Endian) (hl : l.length * 8 ≤ maxAlloc) :
    Buffer.writeComplex off (.u64 l) Unsigned64 (some e) = Buffer.write off (.lit (enc .u64 e l)) := by
  show (bytes64 (some e) l >>= fun data => Buffer.write off (.lit data)) = _
  rw [bytes64_eq e l hl]
  rfl

theorem writeComplex_other (off : Int64) (d : Any) (size : Int64) (o : ByteOrder) (h1 : size ≠ Unsigned8)
    (h2 : size ≠ Unsigned16) (h4 : size ≠ Unsigned32) (h8 : size ≠ Unsigned64) :
    Buffer.writeComplex off d size o = .panic (.err BufferInvalidIntegerSizeError) := by
  unfold Buffer.writeComplex
  simp only []
  rw [if_neg h1, if_neg h2, if_neg h4, if_neg h8]
  rfl

/-- What was written is what is read. -/
theorem dec_written {s : St} (h : s.OK) (kd : Kind) (e : Endian) (data : List kd.Ty) {p : Nat}
    (hp : p + data.length * kd.size ≤ s.b.buf.len) :
    dec kd e data.length (St.from (s.write p (enc kd e data)) p) = data := by
  have hf := h.fits; have hl := h.len_le
  have hlen := V3.length_enc kd e data
  conv => rhs; rw [← V3.dec_enc kd e data]
  apply V3.dec_congr
  rw [St.from, V3.slice_drop, V3.write_b, Nat.add_zero]
  have e1 : (s.write p (enc kd e data)).mem.array s.b.buf.arr = patch (s.mem.array s.b.buf.arr) (s.b.buf.off + p) (enc kd e data) := by
    unfold V3.St.write
    simp only []
    rw [array_blit _ _ _ _ _ (by omega), if_pos rfl]
  rw [e1, ← hlen, slice_patch_self (by omega), Spec.slice, List.drop_zero, List.take_length]

/-! ## `MiniBuffer` -/

open V3.Mini (onB getOut putOut callOut)

theorem plain_of_run {p : Prog α} {s : St} {r : Res α} {t : St} {l : Bool} (h : p.run ⟨s, false⟩ = (r, ⟨t, l⟩)) :
    Mini.plain p s = (r, t) := by
  unfold Mini.plain; rw [h]

theorem plain_ret (a : α) : Mini.plain (.ret a) = (pure a : GoM St α) := rfl

theorem onB_eq {m : GoM St α} {s t : St} {r : Res α} (o : β) (h : m s = (r, t)) : onB m (s, o) = (r, (t, o)) := by
  simp only [onB, h]

/-- The loop body of `MiniBuffer.readComplex` at one element size. -/
def miniElem (kd : Kind) (ld : Slice → Prog kd.Ty) (out : GoM (St × Any) (List kd.Ty)) (con : List kd.Ty → Any) (data : Slice)
    (i : Int64) (_ : Unit) : GoM (St × Any) Unit := do
  let l ← out
  let t ← onB (onMem (reslice data (i * Int64.ofNat kd.size) ((i + 1) * Int64.ofNat kd.size)))
  let v ← onB (Mini.plain (ld t))
  let l ← setIdx l i v
  putOut (con l)

theorem miniElem_run {kd : Kind} {e : Endian} {ld : Slice → Prog kd.Ty} (hld : LoadsAs kd e ld)
    {out : GoM (St × Any) (List kd.Ty)} {con : List kd.Ty → Any} (hout : ∀ s l, out (s, con l) = (.ok l, (s, con l)))
    (data : Slice) (s : St) (hf : data.off + data.cap ≤ (s.mem.array data.arr).length) (hc : data.cap ≤ maxAlloc) {n k : Nat}
    (hk : k < n) (hn : n * kd.size ≤ maxAlloc) :
    miniElem kd ld out con data (Int64.ofNat k) () (s, con (decoded kd e n (bytesFrom s.mem data) k)) =
      if (k + 1) * kd.size ≤ data.cap then (.ok (), (s, con (decoded kd e n (bytesFrom s.mem data) (k + 1))))
      else (.panic .sliceBounds, (s, con (decoded kd e n (bytesFrom s.mem data) k))) := by
  have hM := maxAlloc_lt; have h8 := V3.size_le kd
  have hkn := V3.mul_le_of_lt (w := kd.size) hk
  have hlt := lt_of_size kd hn
  have e1 : (Int64.ofNat k + 1) = Int64.ofNat (k + 1) := (ofNat_add k 1).symm
  have e2 : (k + 1) * kd.size = k * kd.size + kd.size := Nat.succ_mul ..
  unfold miniElem
  rw [bind_ok (hout _ _), e1, ← ofNat_mul, ← ofNat_mul]
  by_cases h : (k + 1) * kd.size ≤ data.cap
  · rw [if_pos h]
    have r1 : onMem (reslice data (Int64.ofNat (k * kd.size)) (Int64.ofNat ((k + 1) * kd.size))) s =
        (.ok ⟨data.arr, data.off + k * kd.size, (k + 1) * kd.size - k * kd.size, data.cap - k * kd.size⟩, s) := by
      simp only [onMem, reslice]
      rw [toInt_ofNat (by omega), toInt_ofNat (by omega), if_pos (by omega)]
      simp only [Int.toNat_natCast]
    rw [bind_ok (onB_eq _ r1)]
    have r2 := hld ⟨data.arr, data.off + k * kd.size, (k + 1) * kd.size - k * kd.size, data.cap - k * kd.size⟩ ⟨s, false⟩
      (show (k + 1) * kd.size - k * kd.size = kd.size by omega) (by simp only []; omega)
    rw [bind_ok (onB_eq _ (plain_of_run r2))]
    have hlen := length_decoded kd e (bytesFrom s.mem data) (Nat.le_of_lt hk)
    rw [setIdx_ofNat (by omega) (by omega)]
    have e3 : Spec.slice (bytesFrom s.mem ⟨data.arr, data.off + k * kd.size, (k + 1) * kd.size - k * kd.size, data.cap - k * kd.size⟩)
        0 kd.size = Spec.slice (bytesFrom s.mem data) (k * kd.size) kd.size := by
      simp only [bytesFrom, V3.slice_drop]; rfl
    rw [show (_ : Heap) = s.mem from rfl] at e3
    simp only []
    rw [e3, decoded_succ kd e _ hk]
    rfl
  · rw [if_neg h]
    have r1 : onMem (reslice data (Int64.ofNat (k * kd.size)) (Int64.ofNat ((k + 1) * kd.size))) s = (.panic .sliceBounds, s) := by
      simp only [onMem, reslice]
      rw [toInt_ofNat (by omega), toInt_ofNat (by omega), if_neg (by omega)]
    exact bind_panic (onB_eq _ r1)

/-- What `MiniBuffer.readComplex` does after `read` has returned `data`. -/
theorem miniElems_run {kd : Kind} {e : Endian} {ld : Slice → Prog kd.Ty} (hld : LoadsAs kd e ld)
    {out : GoM (St × Any) (List kd.Ty)} {con : List kd.Ty → Any} (hout : ∀ s l, out (s, con l) = (.ok l, (s, con l)))
    (data : Slice) (s : St) (o : Any) (hf : data.off + data.cap ≤ (s.mem.array data.arr).length) (hc : data.cap ≤ maxAlloc) (n : Nat)
    (hn : n < 2 ^ 62) :
    (do
      let made ← makeTyped kd.size kd.zero (Int64.ofNat n)
      putOut (con made)
      forLoop (miniElem kd ld out con data) (Int64.ofNat n) 0 () : GoM (St × Any) Unit) (s, o) =
      if n * kd.size ≤ data.cap then (.ok (), (s, con (dec kd e n (bytesFrom s.mem data))))
      else if n * kd.size ≤ maxAlloc then
        (.panic .sliceBounds, (s, con (decoded kd e n (bytesFrom s.mem data) (data.cap / kd.size))))
      else (.panic .makeSlice, (s, o)) := by
  have hM := maxAlloc_lt; have h8 := V3.size_le kd; have hp := V3.size_pos kd
  have hcast : ((n : Int) * (kd.size : Int) > maxAlloc) ↔ n * kd.size > maxAlloc := by
    rw [← Int.natCast_mul]; exact Int.ofNat_lt
  unfold makeTyped
  rw [toInt_ofNat (by omega)]
  by_cases h1 : n * kd.size > maxAlloc
  · rw [if_pos (.inr (hcast.mpr h1)), if_neg (by omega), if_neg (by omega)]
    rfl
  · rw [if_neg (by rw [hcast]; omega)]
    simp only [Int.toNat_natCast]
    show (forLoop (miniElem kd ld out con data) (Int64.ofNat n) (Int64.ofNat 0) ()) (s, con (List.replicate n kd.zero)) = _
    rw [forLoop_iter _ n (by omega) n 0 () (by omega), ← decoded_zero kd e n (bytesFrom s.mem data)]
    by_cases h2 : n * kd.size ≤ data.cap
    · rw [if_pos h2]
      have := iter_ok (f := fun k => miniElem kd ld out con data (Int64.ofNat k)) (fun _ => ())
        (fun k => (s, con (decoded kd e n (bytesFrom s.mem data) k))) n 0 fun k _ hk => by
          rw [miniElem_run hld hout data s hf hc (n := n) (by omega) (by omega),
            if_pos (Nat.le_trans (Nat.mul_le_mul_right _ (by omega)) h2)]
      rw [Nat.zero_add, decoded_all] at this
      exact this
    · rw [if_neg h2, if_pos (by omega)]
      have hj : data.cap / kd.size < n := Nat.div_lt_of_lt_mul (by rw [Nat.mul_comm]; omega)
      have hq : ¬ (data.cap / kd.size + 1) * kd.size ≤ data.cap := by
        have := Nat.lt_mul_div_succ data.cap hp
        rw [Nat.mul_comm]; omega
      exact iter_panic (f := fun k => miniElem kd ld out con data (Int64.ofNat k)) (fun _ => ())
        (fun k => (s, con (decoded kd e n (bytesFrom s.mem data) k))) (data.cap / kd.size)
        (s, con (decoded kd e n (bytesFrom s.mem data) (data.cap / kd.size)))
        (by rw [miniElem_run hld hout data s hf hc (n := n) hj (by omega), if_neg hq]) n 0 (Nat.zero_le _)
        (by rw [Nat.zero_add]; exact hj)
        fun k _ hk => by
          have := Nat.div_mul_le_self data.cap kd.size
          rw [miniElem_run hld hout data s hf hc (n := n) (Nat.lt_trans hk hj) (by omega),
            if_pos (Nat.le_trans (Nat.mul_le_mul_right _ hk) this)]

/-- The result of `MiniBuffer.readComplex`. -/
def miniRead (kd : Kind) (e : Endian) (con : List kd.Ty → Any) (off n : Int64) (s : St) (o : Any) : Res Unit × (St × Any) :=
  if 0 ≤ n.toInt ∧ 0 ≤ off.toInt ∧ off.toInt + n.toInt ≤ s.b.buf.cap then
    if off.toInt.toNat + n.toInt.toNat * kd.size ≤ s.b.buf.cap then
      (.ok (), (s, con (dec kd e n.toInt.toNat (St.from s off.toInt.toNat))))
    else if n.toInt.toNat * kd.size ≤ maxAlloc then
      (.panic .sliceBounds, (s, con (decoded kd e n.toInt.toNat (St.from s off.toInt.toNat) ((s.b.buf.cap - off.toInt.toNat) / kd.size))))
    else (.panic .makeSlice, (s, o))
  else (.panic .sliceBounds, (s, o))

theorem mini_read_run {s : St} (h : s.OK) (off n : Int64) (t : Slice) :
    Mini.read off n (s, t) =
      if 0 ≤ n.toInt ∧ 0 ≤ off.toInt ∧ off.toInt + n.toInt ≤ s.b.buf.cap then
        (.ok (), (s, ⟨s.b.buf.arr, s.b.buf.off + off.toInt.toNat, n.toInt.toNat, s.b.buf.cap - off.toInt.toNat⟩))
      else (.panic .sliceBounds, (s, t)) := by
  have hM := maxAlloc_lt; have hc := h.cap_le
  have o1 := toInt_lt' off; have o2 := le_toInt' off
  have n1 := toInt_lt' n; have n2 := le_toInt' n
  have key : onMem (reslice s.b.buf off (off + n)) s =
      if 0 ≤ n.toInt ∧ 0 ≤ off.toInt ∧ off.toInt + n.toInt ≤ s.b.buf.cap then
        (.ok ⟨s.b.buf.arr, s.b.buf.off + off.toInt.toNat, n.toInt.toNat, s.b.buf.cap - off.toInt.toNat⟩, s)
      else (.panic .sliceBounds, s) := by
    simp only [onMem, reslice, toInt_add]
    by_cases hr : 0 ≤ n.toInt ∧ 0 ≤ off.toInt ∧ off.toInt + n.toInt ≤ s.b.buf.cap
    · rw [if_pos (by omega), if_pos hr]
      simp only [Prod.mk.injEq, Res.ok.injEq, Slice.mk.injEq, and_true, true_and]
      omega
    · rw [if_neg (by omega), if_neg hr]
  unfold Mini.read
  show (onB (onMem (reslice s.b.buf off (off + n))) >>= fun r => putOut r) (s, t) = _
  by_cases hr : 0 ≤ n.toInt ∧ 0 ≤ off.toInt ∧ off.toInt + n.toInt ≤ s.b.buf.cap
  · rw [if_pos hr] at key
    rw [if_pos hr, bind_ok (onB_eq t key)]
    rfl
  · rw [if_neg hr] at key
    rw [if_neg hr, bind_panic (onB_eq t key)]

theorem mini_callRead_run {s : St} (h : s.OK) (off n : Int64) (o : Any) :
    onB (callOut (Mini.read off n) ⟨0, 0, 0, 0⟩) (s, o) =
      if 0 ≤ n.toInt ∧ 0 ≤ off.toInt ∧ off.toInt + n.toInt ≤ s.b.buf.cap then
        (.ok ⟨s.b.buf.arr, s.b.buf.off + off.toInt.toNat, n.toInt.toNat, s.b.buf.cap - off.toInt.toNat⟩, (s, o))
      else (.panic .sliceBounds, (s, o)) := by
  simp only [onB, callOut, mini_read_run h]
  by_cases hr : 0 ≤ n.toInt ∧ 0 ≤ off.toInt ∧ off.toInt + n.toInt ≤ s.b.buf.cap
  · rw [if_pos hr, if_pos hr]
  · rw [if_neg hr, if_neg hr]

theorem mini_read_complex {kd : Kind} {e : Endian} {ld : Slice → Prog kd.Ty} (hld : LoadsAs kd e ld)
    {out : GoM (St × Any) (List kd.Ty)} {con : List kd.Ty → Any} (hout : ∀ s l, out (s, con l) = (.ok l, (s, con l)))
    {s : St} (h : s.OK) (off n : Int64) (o : Any) :
    (onB (callOut (Mini.read off n) ⟨0, 0, 0, 0⟩) >>= fun data => (do
      let made ← makeTyped kd.size kd.zero n
      putOut (con made)
      forLoop (miniElem kd ld out con data) n 0 () : GoM (St × Any) Unit)) (s, o) = miniRead kd e con off n s o := by
  have hM := maxAlloc_lt; have hc := h.cap_le; have hf := h.fits; have hl := h.len_le
  unfold miniRead
  by_cases hr : 0 ≤ n.toInt ∧ 0 ≤ off.toInt ∧ off.toInt + n.toInt ≤ s.b.buf.cap
  · have key := mini_callRead_run h off n o
    rw [if_pos hr] at key
    rw [bind_ok key, if_pos hr]
    have hn : n = Int64.ofNat n.toInt.toNat := eq_ofNat n hr.1
    generalize hm : n.toInt.toNat = m at hn
    subst hn
    rw [miniElems_run hld hout _ s o (by simp only []; omega) (by simp only []; omega) m (by omega)]
    by_cases h2 : off.toInt.toNat + m * kd.size ≤ s.b.buf.cap
    · rw [if_pos (by simp only []; omega), if_pos h2]
      rfl
    · rw [if_neg (by simp only []; omega), if_neg h2]
      rfl
  · have key := mini_callRead_run h off n o
    rw [if_neg hr] at key
    rw [bind_panic key, if_neg hr]

theorem mini_readComplex_u16 {s : St} (h : s.OK) (off n : Int64) (e : Endian) (o : Any) :
    Mini.readComplex off n Unsigned16 (some e) (s, o) = miniRead .u16 e .u16 off n s o :=
  mini_read_complex (loadU16_loads e) (out := Mini.outU16) (con := .u16) (fun _ _ => rfl) h off n o
theorem mini_readComplex_u32 {s : St} (h : s.OK) (off n : Int64) (e : Endian) (o : Any) :
    Mini.readComplex off n Unsigned32 (some e) (s, o) = miniRead .u32 e .u32 off n s o :=
  mini_read_complex (loadU32_loads e) (out := Mini.outU32) (con := .u32) (fun _ _ => rfl) h off n o
theorem mini_readComplex_u64 {s : St} (h : s.OK) (off n : Int64) (e : Endian) (o : Any) :
    Mini.readComplex off n Unsigned64 (some e) (s, o) = miniRead .u64 e .u64 off n s o :=
  mini_read_complex (loadU64_loads e) (out := Mini.outU64) (con := .u64) (fun _ _ => rfl) h off n o

theorem mini_readComplex_u8 {s : St} (h : s.OK) (off n : Int64) (bo : ByteOrder) (o : Any) :
    Mini.readComplex off n Unsigned8 bo (s, o) =
      if 0 ≤ n.toInt ∧ 0 ≤ off.toInt ∧ off.toInt + n.toInt ≤ s.b.buf.cap then
        (.ok (), (s, .bytes ⟨s.b.buf.arr, s.b.buf.off + off.toInt.toNat, n.toInt.toNat, s.b.buf.cap - off.toInt.toNat⟩))
      else (.panic .sliceBounds, (s, o)) := by
  show (onB (callOut (Mini.read off n) ⟨0, 0, 0, 0⟩) >>= fun data => putOut (Any.bytes data)) (s, o) = _
  have key := mini_callRead_run h off n o
  by_cases hr : 0 ≤ n.toInt ∧ 0 ≤ off.toInt ∧ off.toInt + n.toInt ≤ s.b.buf.cap
  · rw [if_pos hr] at key
    rw [bind_ok key, if_pos hr]
    rfl
  · rw [if_neg hr] at key
    rw [bind_panic key, if_neg hr]

theorem mini_readComplex_other {s : St} (h : s.OK) (off n size : Int64) (bo : ByteOrder) (o : Any) (h1 : size ≠ Unsigned8)
    (h2 : size ≠ Unsigned16) (h4 : size ≠ Unsigned32) (h8 : size ≠ Unsigned64) :
    Mini.readComplex off n size bo (s, o) =
      (.panic (if 0 ≤ n.toInt ∧ 0 ≤ off.toInt ∧ off.toInt + n.toInt ≤ s.b.buf.cap then .err BufferInvalidIntegerSizeError
        else .sliceBounds), (s, o)) := by
  have e : Mini.readComplex off n size bo =
      onB (callOut (Mini.read off n) ⟨0, 0, 0, 0⟩) >>= fun _ => throwP (.err BufferInvalidIntegerSizeError) := by
    unfold Mini.readComplex
    congr 1
    funext data
    rw [if_neg h1, if_neg h2, if_neg h4, if_neg h8]
  rw [e]
  have key := mini_callRead_run h off n o
  by_cases hr : 0 ≤ n.toInt ∧ 0 ≤ off.toInt ∧ off.toInt + n.toInt ≤ s.b.buf.cap
  · rw [if_pos hr] at key
    rw [bind_ok key, if_pos hr]
    rfl
  · rw [if_neg hr] at key
    rw [bind_panic key, if_neg hr]

theorem mini_writeLit_run {s : St} (h : s.OK) (off : Int64) (bs : List UInt8) (hl : bs.length ≤ maxAlloc) :
    Mini.writeLit off bs s =
      if 0 < bs.length ∧ 0 ≤ off.toInt ∧ off.toInt + bs.length ≤ s.b.buf.len then
        (.ok (), s.write off.toInt.toNat bs)
      else if 0 < bs.length ∧ 0 ≤ off.toInt ∧ off.toInt < s.b.buf.len then
        (.panic .index, s.write off.toInt.toNat (bs.take (s.b.buf.len - off.toInt.toNat)))
      else (.panic .index, s) := by
  have hM := maxAlloc_lt
  unfold Mini.writeLit
  by_cases e : bs = []
  · subst e
    rw [if_neg (by simp), if_neg (by simp)]
    show doLoop _ (Int64.ofNat 0) 0 () s = _
    rw [lit_loop_nil]; rfl
  · have hp := List.length_pos_iff.mpr e
    rw [lit_loop off bs hl e, V3.storeFrom_run off bs 0 s h (by omega) e]
    simp only [Int.natCast_zero, Int.add_zero, hp, true_and]

theorem mini_writeComplex_u8 (off : Int64) (src : Slice) (o : ByteOrder) :
    Mini.writeComplex off (.bytes src) Unsigned8 o = V2.Mini.WriteBytes off src := rfl
theorem mini_writeComplex_u16 (off : Int64) (l : List UInt16) (e : Endian) (hl : l.length * 2 ≤ maxAlloc) :
    Mini.writeComplex off (.u16 l) Unsigned16 (some e) = Mini.writeLit off (enc .u16 e l) := by
  show (Mini.plain (bytes16 (some e) l) >>= fun data => Mini.writeLit off data) = _
  rw [bytes16_eq e l hl]; rfl
theorem mini_writeComplex_u32 (off : Int64) (l : List UInt32) (e : Endian) (hl : l.length * 4 ≤ maxAlloc) :
    Mini.writeComplex off (.u32 l) Unsigned32 (some e) = Mini.writeLit off (enc .u32 e l) := by
  show (Mini.plain (bytes32 (some e) l) >>= fun data => Mini.writeLit off data) = _
  rw [bytes32_eq e l hl]; rfl
theorem mini_writeComplex_u64 (off : Int64) (l : List UInt64) (e : Endian) (hl : l.length * 8 ≤ maxAlloc) :
    Mini.writeComplex off (.u64 l) Unsigned64 (some e) = Mini.writeLit off (enc .u64 e l) := by
  show (Mini.plain (bytes64 (some e) l) >>= fun data => Mini.writeLit off data) = _
  rw [bytes64_eq e l hl]; rfl

theorem mini_writeComplex_other (off : Int64) (d : Any) (size : Int64) (o : ByteOrder) (h1 : size ≠ Unsigned8)
    (h2 : size ≠ Unsigned16) (h4 : size ≠ Unsigned32) (h8 : size ≠ Unsigned64) :
    Mini.writeComplex off d size o = throwP (.err BufferInvalidIntegerSizeError) := by
  unfold Mini.writeComplex
  rw [if_neg h1, if_neg h2, if_neg h4, if_neg h8]

end Crunch.V1
