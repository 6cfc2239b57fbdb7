import Verif.Lemmas.TypedWrite

/-! The 32 typed readers in one uniform shape. -/

namespace Crunch.V3
open Spec Mini

/-! ## consecutive loads -/

/-- Load the bytes at `off + j` for the listed `j`, in this order. -/
def loadMany (off : Int64) : List Nat → GoM St (List UInt8)
  | [] => pure []
  | j :: js => bufLoad (off + Int64.ofNat j) >>= fun x => loadMany off js >>= fun xs => pure (x :: xs)

theorem loadMany_run {s : St} (h : s.OK) (off : Int64) (js : List Nat) (hj : ∀ j ∈ js, j < 2 ^ 62) :
    loadMany off js s =
      if ∀ j ∈ js, 0 ≤ off.toInt + j ∧ off.toInt + j < s.b.buf.len then
        (.ok (js.map fun (j : Nat) => s.bytes.getD (off.toInt + j).toNat 0), s)
      else (.panic .index, s) := by
  have hL := h.len_le_max; have hM := maxAlloc_lt
  induction js with
  | nil => simp [loadMany]
  | cons j js ih =>
    have hj0 := hj j (by simp)
    rw [loadMany, bind_run, bufLoad_run h]
    have ha := @addr off j s.b.buf.len (by omega) (by omega)
    by_cases h1 : 0 ≤ off.toInt + j ∧ off.toInt + j < s.b.buf.len
    · rw [if_pos (ha.mpr h1), addr_val (by omega) (by omega)]
      simp only []
      rw [bind_run, ih fun i hi => hj i (by simp [hi])]
      by_cases h2 : ∀ j ∈ js, 0 ≤ off.toInt + j ∧ off.toInt + j < s.b.buf.len
      · rw [if_pos h2, if_pos (by simp only [List.mem_cons, forall_eq_or_imp]; exact ⟨h1, h2⟩)]; rfl
      · rw [if_neg h2, if_neg (by simp only [List.mem_cons, forall_eq_or_imp]; exact fun h => h2 h.2)]
    · rw [if_neg (fun h => h1 (ha.mp h)),
        if_neg (by simp only [List.mem_cons, forall_eq_or_imp]; exact fun h => h1 h.1)]

/-- The offsets of the bytes of one element, least significant byte first. -/
def order : Endian → Nat → Nat → List Nat
  | .le, w, j => (List.range w).map (j + ·)
  | .be, w, j => ((List.range w).map (j + ·)).reverse

theorem mem_order {e : Endian} {w j i : Nat} : i ∈ order e w j ↔ j ≤ i ∧ i < j + w := by
  have : i ∈ (List.range w).map (j + ·) ↔ j ≤ i ∧ i < j + w := by
    simp only [List.mem_map, List.mem_range]
    constructor
    · rintro ⟨a, h, rfl⟩; omega
    · intro h; exact ⟨i - j, by omega, by omega⟩
  cases e <;> simp only [order, List.mem_reverse, this]

theorem map_getD_range (l : List UInt8) (p w : Nat) (h : p + w ≤ l.length) :
    (List.range w).map (fun i => l.getD (p + i) 0) = slice l p w := by
  apply List.ext_getElem?
  intro i
  simp only [slice, List.getElem?_map, List.getElem?_take, List.getElem?_drop, List.getD,
    List.getElem?_range]
  by_cases hi : i < w
  · simp [hi]
    rw [List.getElem?_eq_getElem (show p + i < l.length by omega)]; rfl
  · simp [hi]

/-- Read one element. -/
def loadVal (k : Kind) (e : Endian) (off : Int64) (j : Nat) : GoM St k.Ty :=
  loadMany off (order e k.size j) >>= fun bs => pure (k.ofPat (value bs))

theorem size_pos (k : Kind) : 0 < k.size := by cases k <;> decide
theorem size_le (k : Kind) : k.size ≤ 8 := by cases k <;> decide

theorem loadVal_run {s : St} (h : s.OK) (k : Kind) (e : Endian) (off : Int64) (j : Nat) (hj : j < 2 ^ 61) :
    loadVal k e off j s =
      if 0 ≤ off.toInt + j ∧ off.toInt + j + k.size ≤ s.b.buf.len then
        (.ok (k.ofPat (decode e (slice s.bytes (off.toInt + j).toNat k.size))), s)
      else (.panic .index, s) := by
  have h8 := size_le k; have h1 := size_pos k
  rw [loadVal, bind_run, loadMany_run h off _ (by intro i hi; rw [mem_order] at hi; omega)]
  have hc : (∀ i ∈ order e k.size j, 0 ≤ off.toInt + (i : Int) ∧ off.toInt + i < s.b.buf.len) ↔
      (0 ≤ off.toInt + j ∧ off.toInt + j + k.size ≤ s.b.buf.len) := by
    constructor
    · intro hh
      have a := hh j (by rw [mem_order]; omega)
      have b := hh (j + k.size - 1) (by rw [mem_order]; omega)
      omega
    · intro hh i hi
      rw [mem_order] at hi; omega
  by_cases hr : 0 ≤ off.toInt + j ∧ off.toInt + j + k.size ≤ s.b.buf.len
  · rw [if_pos (hc.mpr hr), if_pos hr]
    simp only [pure_run]
    have hb := length_bytes h
    have e1 : (List.range k.size).map ((fun (j : Nat) => s.bytes.getD (off.toInt + j).toNat 0) ∘ (j + ·))
        = slice s.bytes (off.toInt + j).toNat k.size := by
      rw [← map_getD_range _ _ _ (by omega)]
      apply List.map_congr_left
      intro i hi
      simp only [Function.comp]
      congr 1; omega
    cases e
    · simp only [order, List.map_map, e1, decode]
    · simp only [order, List.map_reverse, List.map_map, e1, decode]
  · rw [if_neg (fun h => hr (hc.mp h)), if_neg hr]

/-! ## the out parameter -/

theorem callOut_onB (m : GoM St α) (f : α → GoM (St × X) Unit) (x : X) :
    callOut (onB m >>= f) x = m >>= fun a => callOut (f a) x := by
  funext s
  simp only [callOut, bind_run, onB]
  rcases m s with ⟨_ | _, _⟩ <;> rfl

theorem callOut_getOut (f : X → GoM (St × X) Unit) (x : X) :
    callOut (getOut >>= f) x = callOut (f x) x := rfl

theorem callOut_putOut (v x : X) : callOut (putOut v) x = pure v := rfl

theorem callOut_setIdx (l : List β) (i : Int64) (v : β) (f : List β → GoM (St × X) Unit) (x : X) :
    callOut (setIdx l i v >>= f) x = setIdx l i v >>= fun a => callOut (f a) x := by
  unfold setIdx; split <;> rfl

theorem callOut_pure (x : X) (u : Unit) : callOut (pure u) x = pure x := rfl

theorem callOut_bind (m : GoM (St × X) Unit) (f : Unit → GoM (St × X) Unit) (x : X) :
    callOut (m >>= f) x = callOut m x >>= fun y => callOut (f ()) y := by
  funext s
  simp only [callOut, bind_run]
  rcases m (s, x) with ⟨_ | _, _⟩ <;> rfl

theorem doLoop_callOut (f : Int64 → X → GoM St X) (g : Int64 → Unit → GoM (St × X) Unit)
    (h : ∀ i x, f i x = callOut (g i ()) x) (n i : Int64) (x : X) :
    doLoop f n i x = callOut (doLoop g n i ()) x := by
  fun_induction doLoop f n i x with
  | case1 i x ih =>
    rw [doLoop, callOut_bind, h]
    congr 1; funext y
    split
    · exact ih y ‹_›
    · rfl

/-- `Buffer`'s readers: two checks, an allocation, then `MiniBuffer`'s reader into it. -/
theorem buffer_read_mini (k : Kind) (e : Endian) (off n : Int64) :
    Buffer.Read k e off n = (do
      let b ← getB
      panicIf (off + n * Int64.ofNat k.size > b.cap) (.err BufferOverreadError)
      panicIf (off < 0) (.err BufferUnderreadError)
      let out ← makeTyped k.size k.zero n
      callOut (Mini.Read k e off n) out) := by
  cases k <;> cases e <;>
    (refine congrArg (getB >>= ·) ?_; funext b
     refine congrArg (panicIf _ _ >>= ·) ?_; funext _
     refine congrArg (panicIf _ _ >>= ·) ?_; funext _
     refine congrArg (makeTyped _ _ _ >>= ·) ?_; funext out
     refine doLoop_callOut _ _ ?_ n 0 out
     intro i x
     simp only [callOut_onB, callOut_getOut, callOut_setIdx, callOut_putOut, bind_pure'])

/-! ## the loop of the readers -/

/-- The elements found in the bytes `l`. -/
def dec (k : Kind) (e : Endian) (c : Nat) (l : List UInt8) : List k.Ty :=
  (List.range c).map fun m => k.ofPat (decode e (slice l (m * k.size) k.size))

@[simp] theorem length_dec (k : Kind) (e : Endian) (c : Nat) (l : List UInt8) : (dec k e c l).length = c := by
  simp [dec]

theorem dec_succ (k : Kind) (e : Endian) (c : Nat) (l : List UInt8) :
    dec k e (c + 1) l = dec k e c l ++ [k.ofPat (decode e (slice l (c * k.size) k.size))] := by
  simp [dec, List.range_succ]

/-- The body of every typed reader: load one element, store it in `*out`. -/
def readBody (k : Kind) (e : Endian) (off : Int64) (m : Nat) : GoM (St × List k.Ty) Unit :=
  onB (loadVal k e off (m * k.size)) >>= fun v =>
  getOut >>= fun out => setIdx out (Int64.ofNat m) v >>= fun out => putOut out

theorem onB_bind (m : GoM St α) (f : α → GoM St β) :
    (onB (m >>= f) : GoM (St × X) β) = onB m >>= fun a => onB (f a) := by
  funext s
  simp only [onB, bind_run]
  rcases m s.1 with ⟨_ | _, _⟩ <;> rfl

theorem onB_pure (a : α) : (onB (pure a) : GoM (St × X) α) = pure a := rfl

theorem order2 (m : Nat) (e : Endian) : order e 2 (m * 2) = match e with
    | .le => [m * 2, m * 2 + 1] | .be => [m * 2 + 1, m * 2] := by cases e <;> rfl
theorem order4 (m : Nat) (e : Endian) : order e 4 (m * 4) = match e with
    | .le => [m * 4, m * 4 + 1, m * 4 + 2, m * 4 + 3]
    | .be => [m * 4 + 3, m * 4 + 2, m * 4 + 1, m * 4] := by cases e <;> rfl
theorem order8 (m : Nat) (e : Endian) : order e 8 (m * 8) = match e with
    | .le => [m * 8, m * 8 + 1, m * 8 + 2, m * 8 + 3, m * 8 + 4, m * 8 + 5, m * 8 + 6, m * 8 + 7]
    | .be => [m * 8 + 7, m * 8 + 6, m * 8 + 5, m * 8 + 4, m * 8 + 3, m * 8 + 2, m * 8 + 1, m * 8] := by
  cases e <;> rfl

theorem ov_u16 (a b : UInt8) : conv UInt16 a ||| conv UInt16 b <<< 8 = Kind.u16.ofPat (value [a, b]) :=
  eq_ofPat .u16 _ _ (val_u16 ..)
theorem ov_i16 (a b : UInt8) : conv Int16 a ||| conv Int16 b <<< 8 = Kind.i16.ofPat (value [a, b]) :=
  eq_ofPat .i16 _ _ ((pat_i16 _).trans (val_i16 ..))
theorem ov_u32 (a b c d : UInt8) :
    conv UInt32 a ||| conv UInt32 b <<< 8 ||| conv UInt32 c <<< 16 ||| conv UInt32 d <<< 24 =
      Kind.u32.ofPat (value [a, b, c, d]) := eq_ofPat .u32 _ _ (val_u32 ..)
theorem ov_i32 (a b c d : UInt8) :
    conv Int32 a ||| conv Int32 b <<< 8 ||| conv Int32 c <<< 16 ||| conv Int32 d <<< 24 =
      Kind.i32.ofPat (value [a, b, c, d]) := eq_ofPat .i32 _ _ ((pat_i32 _).trans (val_i32 ..))
theorem ov_f32 (n : Nat) : (⟨Kind.u32.ofPat n⟩ : F32) = Kind.f32.ofPat n := rfl
theorem ov_u64 (a b c d e f g h : UInt8) :
    conv UInt64 a ||| conv UInt64 b <<< 8 ||| conv UInt64 c <<< 16 ||| conv UInt64 d <<< 24 |||
      conv UInt64 e <<< 32 ||| conv UInt64 f <<< 40 ||| conv UInt64 g <<< 48 ||| conv UInt64 h <<< 56 =
      Kind.u64.ofPat (value [a, b, c, d, e, f, g, h]) := eq_ofPat .u64 _ _ (val_u64 ..)
theorem ov_i64 (a b c d e f g h : UInt8) :
    conv Int64 a ||| conv Int64 b <<< 8 ||| conv Int64 c <<< 16 ||| conv Int64 d <<< 24 |||
      conv Int64 e <<< 32 ||| conv Int64 f <<< 40 ||| conv Int64 g <<< 48 ||| conv Int64 h <<< 56 =
      Kind.i64.ofPat (value [a, b, c, d, e, f, g, h]) := eq_ofPat .i64 _ _ ((pat_i64 _).trans (val_i64 ..))
theorem ov_f64 (n : Nat) : (⟨Kind.u64.ofPat n⟩ : F64) = Kind.f64.ofPat n := rfl

/-- `MiniBuffer`'s readers, for a positive count. -/
theorem mini_read_iter (k : Kind) (e : Endian) (off : Int64) (n : Nat) (h0 : 0 < n) (hn : n < 2 ^ 63) :
    Mini.Read k e off (Int64.ofNat n) = iter (fun m _ => readBody k e off m) n 0 () := by
  cases k <;> cases e <;> (
    refine (doLoop_pos _ n h0 hn ()).trans (congrArg (fun f => iter f n 0 ()) ?_)
    funext m _
    simp only [readBody, loadVal, Kind.size, order2, order4, order8, loadMany, bind_assoc', pure_bind',
      onB_bind, onB_pure, ov_u16, ov_i16, ov_u32, ov_i32, ov_f32, ov_u64, ov_i64, ov_f64,
      ← adr, ← adr0, Int64.reduceOfNat])

theorem doLoop_le_one_eq (body : Int64 → α → GoM σ α) (n n' : Int64) (h : n.toInt ≤ 1) (h' : n'.toInt ≤ 1)
    (a : α) : doLoop body n 0 a = doLoop body n' 0 a := by
  rw [doLoop_le_one _ n h, doLoop_le_one _ n' h']

/-- With a non-positive count the body runs once, for element 0. -/
theorem mini_read_nonpos (k : Kind) (e : Endian) (off n : Int64) (h : n.toInt ≤ 0) :
    Mini.Read k e off n = Mini.Read k e off 1 := by
  cases k <;> cases e <;>
    exact doLoop_le_one_eq _ n 1 (by omega) (by decide) ()

theorem mini_readNext (k : Kind) (e : Endian) (n : Int64) :
    Mini.ReadNext k e n = (do
      let b ← onB getB
      Mini.Read k e b.off n
      onB (Mini.SeekByte (n * Int64.ofNat k.size) true)) := by
  cases k <;> cases e <;> rfl

theorem buffer_readNext (k : Kind) (e : Endian) (n : Int64) :
    Buffer.ReadNext k e n = (do
      let b ← getB
      let out ← Buffer.Read k e b.off n
      Buffer.SeekByte (n * Int64.ofNat k.size) true
      return out) := by
  cases k <;> cases e <;> rfl

/-- How many elements a reader can produce: room in `*out` and complete elements in the buffer. -/
def canRead (k : Kind) (off : Int64) (outLen L : Nat) : Nat :=
  if off.toInt < 0 then 0 else min outLen ((L - off.toInt.toNat) / k.size)

theorem readBody_run {s : St} (h : s.OK) (k : Kind) (e : Endian) (off : Int64) (m : Nat)
    (hm : m < 2 ^ 57) (out : List k.Ty) :
    readBody k e off m (s, out) =
      if 0 ≤ off.toInt + (m * k.size : Nat) ∧ off.toInt + (m * k.size : Nat) + k.size ≤ s.b.buf.len ∧ m < out.length then
        (.ok (), (s, out.set m (k.ofPat (decode e (slice s.bytes (off.toInt + (m * k.size : Nat)).toNat k.size)))))
      else (.panic .index, (s, out)) := by
  have h8 := size_le k
  have hms : m * k.size < 2 ^ 61 := by
    calc m * k.size ≤ m * 8 := Nat.mul_le_mul_left _ h8
      _ < 2 ^ 61 := by omega
  unfold readBody
  rw [bind_run]
  simp only [onB, loadVal_run h k e off _ hms]
  by_cases h1 : 0 ≤ off.toInt + (m * k.size : Nat) ∧ off.toInt + (m * k.size : Nat) + k.size ≤ s.b.buf.len
  · rw [if_pos h1]
    simp only []
    rw [bind_run]
    simp only [getOut, setIdx]
    rw [toInt_ofNat (by omega)]
    by_cases h2 : m < out.length
    · rw [if_pos (by omega), if_pos ⟨h1.1, h1.2, h2⟩]; simp [putOut]
    · rw [if_neg (by omega), if_neg (fun h => h2 h.2.2)]; rfl
  · rw [if_neg h1, if_neg (fun h => h1 ⟨h.1, h.2.1⟩)]

theorem iter_read {s : St} (h : s.OK) (k : Kind) (e : Endian) (off : Int64) (out : List k.Ty)
    (F : Nat) (hF : F = canRead k off out.length s.b.buf.len) (hm : out.length < 2 ^ 57) :
    ∀ c m, m ≤ F →
      iter (fun m _ => readBody k e off m) c m ()
          (s, dec k e m (s.bytes.drop off.toInt.toNat) ++ out.drop m) =
        if m + c ≤ F then
          (.ok (), (s, dec k e (m + c) (s.bytes.drop off.toInt.toNat) ++ out.drop (m + c)))
        else (.panic .index, (s, dec k e F (s.bytes.drop off.toInt.toNat) ++ out.drop F)) := by
  have h1 := size_pos k
  have hFo : F ≤ out.length := by
    rw [hF]; unfold canRead; split <;> omega
  intro c
  induction c with
  | zero => intro m hmF; simp [iter, hmF]
  | succ c ih =>
    intro m hmF
    rw [iter, bind_run, readBody_run h k e off m (by omega)]
    have hl : (dec k e m (s.bytes.drop off.toInt.toNat) ++ out.drop m).length = out.length := by
      simp; omega
    rw [hl]
    have key : (0 ≤ off.toInt + (m * k.size : Nat) ∧
        off.toInt + (m * k.size : Nat) + k.size ≤ s.b.buf.len ∧ m < out.length) ↔ m < F := by
      subst hF
      unfold canRead at hmF ⊢
      split at hmF
      · rename_i hneg
        have : m = 0 := by omega
        subst this
        simp only [hneg, if_true, Nat.zero_mul]; omega
      · rename_i hneg
        simp only [hneg, if_false]
        rw [Nat.lt_min, ← Nat.succ_le_iff (n := _ / _), Nat.le_div_iff_mul_le h1, Nat.succ_mul]
        omega
    by_cases hc : m < F
    · rw [if_pos (key.mpr hc)]
      simp only []
      have hk := key.mpr hc
      have hoff : 0 ≤ off.toInt := by
        subst hF; unfold canRead at hc; split at hc <;> omega
      have e1 : (dec k e m (s.bytes.drop off.toInt.toNat) ++ out.drop m).set m
          (k.ofPat (decode e (slice s.bytes (off.toInt + (m * k.size : Nat)).toNat k.size))) =
          dec k e (m + 1) (s.bytes.drop off.toInt.toNat) ++ out.drop (m + 1) := by
        rw [List.set_append_right _ _ (by simp), length_dec, Nat.sub_self,
          List.drop_eq_getElem_cons hk.2.2, List.set_cons_zero, dec_succ, List.append_assoc]
        simp only [slice, List.drop_drop, List.singleton_append]
        congr 4
        rw [show (off.toInt + ((m * k.size : Nat) : Int)).toNat = off.toInt.toNat + m * k.size by omega]
      rw [e1, ih (m + 1) (by omega), show m + 1 + c = m + (c + 1) by omega]
    · rw [if_neg (fun h => hc (key.mp h)), if_neg (by omega)]
      have : m = F := by omega
      subst this; rfl

/-- A reader with a positive count, in full: how many elements arrive, which ones, and
that the buffer is untouched. -/
theorem mini_read_run {s : St} (h : s.OK) (k : Kind) (e : Endian) (off : Int64) (n : Nat) (h0 : 0 < n)
    (hn : n < 2 ^ 63) (out : List k.Ty) (ho : out.length < 2 ^ 57) :
    Mini.Read k e off (Int64.ofNat n) (s, out) =
      if n ≤ canRead k off out.length s.b.buf.len then
        (.ok (), (s, dec k e n (s.bytes.drop off.toInt.toNat) ++ out.drop n))
      else (.panic .index, (s, dec k e (canRead k off out.length s.b.buf.len) (s.bytes.drop off.toInt.toNat)
        ++ out.drop (canRead k off out.length s.b.buf.len))) := by
  rw [mini_read_iter k e off n h0 hn]
  have := iter_read h k e off out _ rfl ho n 0 (Nat.zero_le _)
  simpa [dec] using this

end Crunch.V3
