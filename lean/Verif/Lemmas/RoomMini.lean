import Verif.Lemmas.Room

/-!
# The reference machines of `MiniBuffer` and the room behind the bytes (C136)
-/

namespace Crunch.Ref
open Spec

/-- The call keeps to the bytes: it reads none behind them, and it does not ask for a longer buffer by `TruncateRight` of a negative
number. -/
def Inside : Op → Ref → Prop
  | .readBytes pos n, r => 0 ≤ n → 0 ≤ pos.getD r.cur → pos.getD r.cur + n ≤ r.data.length
  | .truncateRight n, _ => 0 ≤ n
  | _, _ => True

/-- Only zero bytes are given up at the end: by `TruncateRight`, by `Grow` of a negative number, by `Reset`. -/
def MiniCut : Op → Ref → Prop
  | .truncateRight n, r => n ≤ r.data.length → Zeros (r.data.drop (r.data.length - n.toNat))
  | .grow n, r => n < 0 → 0 ≤ r.data.length + n → Zeros (r.data.drop (r.data.length + n).toNat)
  | .reset, r => Zeros r.data
  | _, _ => True

theorem miniWrite_room (r : Ref) (sp : List UInt8) (w : Nat) (e : Endian) (o : Int) (d : List Nat) :
    ∃ sp', miniWrite w e o d (r.room sp) = ((miniWrite w e o d r).1, (miniWrite w e o d r).2.room sp') := by
  unfold miniWrite
  show ∃ sp', (if d = [] ∨ o < 0 ∨ r.data.length ≤ o then _ else _) = _
  split <;> exact ⟨sp, rfl⟩

theorem miniRead_room (r : Ref) (sp : List UInt8) (prev : List Nat) (w : Nat) (e : Endian) (o n : Int) :
    ∃ sp', miniRead prev w e o n (r.room sp) = ((miniRead prev w e o n r).1, (miniRead prev w e o n r).2.room sp') := by
  unfold miniRead
  show ∃ sp', (if 0 ≤ o ∧ o + count n * w ≤ r.data.length ∧ count n ≤ prev.length then _ else _) = _
  split <;> exact ⟨sp, rfl⟩

theorem miniWriteBytes_room (r : Ref) (sp : List UInt8) (o : Int) (bs : List UInt8) :
    ∃ sp', miniWriteBytes o bs (r.room sp) = ((miniWriteBytes o bs r).1, (miniWriteBytes o bs r).2.room sp') := by
  unfold miniWriteBytes
  show ∃ sp', (if 0 ≤ o ∧ o ≤ r.data.length then _ else _) = _
  split <;> exact ⟨sp, rfl⟩

theorem miniReadBytes_inside {r : Ref} {o n : Int} (h : 0 ≤ n → 0 ≤ o → o + n ≤ r.data.length) :
    miniReadBytes o n r = (if 0 ≤ o ∧ 0 ≤ n then .ok (.bytes (slice r.data o.toNat n.toNat)) else .panic .sliceBounds, r) := by
  unfold miniReadBytes
  by_cases hc : 0 ≤ o ∧ 0 ≤ n
  · have := h hc.2 hc.1
    rw [if_pos ⟨hc.1, hc.2, by omega⟩, if_pos hc]
    unfold slice
    rw [List.drop_append_of_le_length (by omega), List.take_append_of_le_length (by rw [List.length_drop]; omega)]
  · rw [if_neg fun g => hc ⟨g.1, g.2.1⟩, if_neg hc]

theorem miniReadBytes_room (r : Ref) (sp : List UInt8) {o n : Int} (h : 0 ≤ n → 0 ≤ o → o + n ≤ r.data.length) :
    ∃ sp', miniReadBytes o n (r.room sp) = ((miniReadBytes o n r).1, (miniReadBytes o n r).2.room sp') := by
  rw [miniReadBytes_inside h, miniReadBytes_inside (r := r.room sp) h]
  exact ⟨sp, rfl⟩

theorem miniReadBit_room (r : Ref) (sp : List UInt8) (o : Int) :
    ∃ sp', miniReadBit o (r.room sp) = ((miniReadBit o r).1, (miniReadBit o r).2.room sp') := by
  unfold miniReadBit
  show ∃ sp', (if startsAt r o ∧ o < 8 * r.data.length then _ else _) = _
  split <;> exact ⟨sp, rfl⟩

theorem miniReadBits_room (r : Ref) (sp : List UInt8) (prev : Nat) (o n : Int) :
    ∃ sp', miniReadBits prev o n (r.room sp) = ((miniReadBits prev o n r).1, (miniReadBits prev o n r).2.room sp') := by
  unfold miniReadBits
  show ∃ sp', (if startsAt r o ∧ o + count n ≤ 8 * r.data.length then _ else _) = _
  split <;> exact ⟨sp, rfl⟩

theorem miniSetBits_room (r : Ref) (sp : List UInt8) (o : Int) (f : Nat → Bool) (n : Nat) :
    ∃ sp', miniSetBits o f n (r.room sp) = ((miniSetBits o f n r).1, (miniSetBits o f n r).2.room sp') := by
  unfold miniSetBits
  show ∃ sp', (if startsAt r o then _ else _) = _
  split <;> exact ⟨sp, rfl⟩

theorem miniResize_le {r : Ref} {n : Int} (h : n ≤ r.data.length) :
    miniResize n r = if 0 ≤ n then (.ok .unit, { r with data := r.data.take n.toNat, spare := r.data.drop n.toNat ++ r.spare }) else (.panic .sliceBounds, r) := by
  unfold miniResize
  by_cases h0 : 0 ≤ n
  · rw [if_pos ⟨h0, by omega⟩, if_pos h0]
    unfold resize
    rw [List.take_append_of_le_length (by omega), List.drop_append_of_le_length (by omega)]
  · rw [if_neg fun g => h0 g.1, if_neg h0]

theorem miniResize_room (r : Ref) (sp : List UInt8) {n : Int} (h : n ≤ r.data.length) :
    ∃ sp', miniResize n (r.room sp) = ((miniResize n r).1, (miniResize n r).2.room sp') := by
  rw [miniResize_le h, miniResize_le (r := r.room sp) h]
  split
  · exact ⟨_, rfl⟩
  · exact ⟨sp, rfl⟩

/-- Whatever the spare bytes are, calls other than `Grow` that keep to the bytes answer the same and lead to machines that agree. -/
theorem miniStep_room (a : Nat) (b : List Nat) (op : Op) (h : op.isGrow = false) (r : Ref) (hi : Inside op r) (sp : List UInt8) :
    ∃ sp', miniStep a b op (r.room sp) = ((miniStep a b op r).1, (miniStep a b op r).2.room sp') := by
  cases op with
  | write w e pos data => cases pos with
    | none => exact stepCur_room _ (miniWrite_room r sp _ _ _ _)
    | some o => exact miniWrite_room r sp _ _ _ _
  | read w e pos n => cases pos with
    | none => exact stepCur_room _ (miniRead_room r sp _ _ _ _ _)
    | some o => exact miniRead_room r sp _ _ _ _ _
  | writeBytes pos bs => cases pos with
    | none => exact stepCur_room _ (miniWriteBytes_room r sp _ _)
    | some o => exact miniWriteBytes_room r sp _ _
  | readBytes pos n => cases pos with
    | none => exact stepCur_room _ (miniReadBytes_room r sp hi)
    | some o => exact miniReadBytes_room r sp hi
  | readBit pos => cases pos with
    | none => exact stepBcur_room _ (miniReadBit_room r sp _)
    | some o => exact miniReadBit_room r sp _
  | readBits pos n => cases pos with
    | none => exact stepBcur_room _ (miniReadBits_room r sp _ _ _)
    | some o => exact miniReadBits_room r sp _ _ _
  | setBit pos => cases pos with
    | none => exact stepBcur_room 1 (miniSetBits_room r sp r.bcur (fun _ => true) 1)
    | some o => exact miniSetBits_room r sp o (fun _ => true) 1
  | clearBit pos => cases pos with
    | none => exact stepBcur_room 1 (miniSetBits_room r sp r.bcur (fun _ => false) 1)
    | some o => exact miniSetBits_room r sp o (fun _ => false) 1
  | flipBit pos => cases pos with
    | none => exact stepBcur_room 1 (miniSetBits_room r sp r.bcur (fun _ => !bitAt r.data r.bcur) 1)
    | some o => exact miniSetBits_room r sp o (fun _ => !bitAt r.data o) 1
  | setBits pos v n => cases pos with
    | none => exact stepBcur_room _ (miniSetBits_room r sp _ _ _)
    | some o => exact miniSetBits_room r sp _ _ _
  | truncateLeft n =>
    simp only [miniStep]
    show ∃ sp', (if 0 ≤ n ∧ n ≤ r.data.length then _ else _) = _
    split <;> exact ⟨sp, rfl⟩
  | truncateRight n => exact miniResize_room r sp (n := r.data.length - n) (by have : 0 ≤ n := hi; omega)
  | grow n => exact nomatch h
  | writeByte pos v => exact step_room (.writeByte pos v) rfl r sp
  | readByte pos => exact step_room (.readByte pos) rfl r sp
  | clearAll => exact step_room .clearAll rfl r sp
  | setAll => exact step_room .setAll rfl r sp
  | flipAll => exact step_room .flipAll rfl r sp
  | reset => exact ⟨_, rfl⟩
  | _ => exact ⟨sp, rfl⟩

/-! ## v3 -/

theorem stepCur_spare (d : Int) (x : Res Val × Ref) : (stepCur d x).2.spare = x.2.spare := by
  obtain ⟨a | a, b⟩ := x <;> rfl

theorem stepBcur_spare (d : Int) (x : Res Val × Ref) : (stepBcur d x).2.spare = x.2.spare := by
  obtain ⟨a | a, b⟩ := x <;> rfl

theorem miniStep_zeros (a : Nat) (b : List Nat) (op : Op) (r : Ref) (hz : Zeros r.spare) (hi : Inside op r) (hc : MiniCut op r) :
    Zeros (miniStep a b op r).2.spare := by
  cases op with
  | write w e pos data =>
    cases pos <;> (simp only [miniStep, stepCur_spare, miniWrite]; split <;> exact hz)
  | read w e pos n => cases pos <;> (simp only [miniStep, stepCur_spare, miniRead]; split <;> exact hz)
  | writeBytes pos bs => cases pos <;> (simp only [miniStep, stepCur_spare, miniWriteBytes]; split <;> exact hz)
  | readBytes pos n => cases pos <;> (simp only [miniStep, stepCur_spare, miniReadBytes]; split <;> exact hz)
  | readBit pos => cases pos <;> (simp only [miniStep, stepBcur_spare, miniReadBit]; split <;> exact hz)
  | readBits pos n => cases pos <;> (simp only [miniStep, stepBcur_spare, miniReadBits]; split <;> exact hz)
  | setBit pos => cases pos <;> (simp only [miniStep, stepBcur_spare, miniSetBits]; split <;> exact hz)
  | clearBit pos => cases pos <;> (simp only [miniStep, stepBcur_spare, miniSetBits]; split <;> exact hz)
  | flipBit pos => cases pos <;> (simp only [miniStep, stepBcur_spare, miniSetBits]; split <;> exact hz)
  | setBits pos v n => cases pos <;> (simp only [miniStep, stepBcur_spare, miniSetBits]; split <;> exact hz)
  | truncateLeft n => simp only [miniStep]; split <;> exact hz
  | truncateRight n =>
    have h0 : 0 ≤ n := hi
    simp only [miniStep]
    rw [miniResize_le (by omega)]
    split
    · refine zeros_append ?_ hz
      rw [show ((r.data.length : Int) - n).toNat = r.data.length - n.toNat by omega]
      exact hc (by omega)
    · exact hz
  | grow n =>
    simp only [miniStep]
    split
    · by_cases hn : n < 0
      · rw [miniResize_le (by omega)]
        split
        · next h0 => exact zeros_append (hc hn h0) hz
        · exact hz
      · rw [miniResize, if_pos ⟨by omega, by omega⟩]
        show Zeros ((r.data ++ r.spare).drop _)
        rw [List.drop_append, List.drop_of_length_le (by omega), List.nil_append]
        exact fun b hb => hz b (List.mem_of_mem_drop hb)
    · split
      · exact zeros_replicate _
      · exact hz
  | writeByte pos v => exact step_zeros (.writeByte pos v) r hz trivial
  | readByte pos => exact step_zeros (.readByte pos) r hz trivial
  | clearAll => exact step_zeros .clearAll r hz trivial
  | setAll => exact step_zeros .setAll r hz trivial
  | flipAll => exact step_zeros .flipAll r hz trivial
  | reset => exact step_zeros .reset r hz hc
  | _ => exact hz

theorem miniStep_alike (a : Nat) (b : List Nat) (op : Op) {r t : Ref} (h : Alike r t) (hr : Zeros r.spare) (ht : Zeros t.spare) (hi : Inside op r)
    (mr : (miniStep a b op r).1 ≠ .panic .makeSlice) (mt : (miniStep a b op t).1 ≠ .panic .makeSlice) :
    (miniStep a b op t).1 = (miniStep a b op r).1 ∧ Alike (miniStep a b op r).2 (miniStep a b op t).2 := by
  by_cases hg : op.isGrow = false
  · obtain ⟨sp, e⟩ := miniStep_room a b op hg r hi t.spare
    rw [← h.eq] at e
    rw [e]
    exact ⟨rfl, alike_room _ _⟩
  · cases op <;> first | exact absurd rfl hg | skip
    rename_i n
    by_cases hn : n < 0
    · simp only [miniStep]
      rw [if_pos (by omega), if_pos (by omega), miniResize_le (by omega), miniResize_le (by omega), ← h.1]
      split
      · exact ⟨rfl, rfl, h.2.1, h.2.2⟩
      · exact ⟨rfl, h⟩
    · have key : ∀ q : Ref, Zeros q.spare → (miniStep a b (.grow n) q).1 ≠ .panic .makeSlice →
          (miniStep a b (.grow n) q).1 = .ok .unit ∧
          (miniStep a b (.grow n) q).2.data = q.data ++ List.replicate n.toNat 0 ∧
          (miniStep a b (.grow n) q).2.cur = q.cur ∧ (miniStep a b (.grow n) q).2.bcur = q.bcur := by
        intro q hq hm
        simp only [miniStep] at hm ⊢
        split
        · next hl =>
          rw [miniResize, if_pos ⟨by omega, hl⟩]
          refine ⟨rfl, ?_, rfl, rfl⟩
          show (q.data ++ q.spare).take ((q.data.length : Int) + n).toNat = _
          rw [List.take_append, List.take_of_length_le (by omega), show ((q.data.length : Int) + n).toNat - q.data.length = n.toNat by omega,
            zeros_eq hq, List.take_replicate, Nat.min_eq_left (by omega)]
        · next hl =>
          rw [if_neg hl] at hm
          split
          · exact ⟨rfl, rfl, rfl, rfl⟩
          · next hx => rw [if_neg hx] at hm; exact absurd rfl hm
      obtain ⟨a1, a2, a3, a4⟩ := key r hr mr
      obtain ⟨b1, b2, b3, b4⟩ := key t ht mt
      exact ⟨by rw [a1, b1], by rw [a2, b2, h.1], by rw [a3, b3, h.2.1], by rw [a4, b4, h.2.2]⟩

theorem inside_alike (op : Op) {r t : Ref} (h : Alike r t) (hi : Inside op r) : Inside op t := by
  cases op <;> first | trivial | exact hi | skip
  rename_i pos n
  show 0 ≤ n → 0 ≤ pos.getD t.cur → pos.getD t.cur + n ≤ t.data.length
  rw [← h.1, ← h.2.1]; exact hi

theorem miniCut_alike (op : Op) {r t : Ref} (h : Alike r t) (hc : MiniCut op r) : MiniCut op t := by
  cases op <;> first | trivial | skip
  · rename_i n
    show n ≤ t.data.length → Zeros (t.data.drop (t.data.length - n.toNat))
    rw [← h.1]; exact hc
  · rename_i n
    show n < 0 → 0 ≤ t.data.length + n → Zeros (t.data.drop (t.data.length + n).toNat)
    rw [← h.1]; exact hc
  · show Zeros t.data
    rw [← h.1]; exact hc

/-- All along a history. -/
def MiniKeeps : List (Nat × List Nat × Op) → Ref → Prop
  | [], _ => True
  | (a, b, op) :: ops, r => Inside op r ∧ MiniCut op r ∧ MiniKeeps ops (miniStep a b op r).2

theorem miniRun_alike (ops : List (Nat × List Nat × Op)) {r t : Ref} (h : Alike r t) (hr : Zeros r.spare) (ht : Zeros t.spare) (hk : MiniKeeps ops r)
    (mr : ∀ x ∈ (miniRun ops r).1, x ≠ .panic .makeSlice) (mt : ∀ x ∈ (miniRun ops t).1, x ≠ .panic .makeSlice) :
    (miniRun ops t).1 = (miniRun ops r).1 ∧ Alike (miniRun ops r).2 (miniRun ops t).2 ∧ Zeros (miniRun ops r).2.spare ∧ Zeros (miniRun ops t).2.spare := by
  induction ops generalizing r t with
  | nil => exact ⟨rfl, h, hr, ht⟩
  | cons x ops ih =>
    obtain ⟨a, b, op⟩ := x
    obtain ⟨e, al⟩ := miniStep_alike a b op h hr ht hk.1 (mr _ (List.mem_cons_self ..)) (mt _ (List.mem_cons_self ..))
    obtain ⟨e', c⟩ := ih al (miniStep_zeros a b op r hr hk.1 hk.2.1) (miniStep_zeros a b op t ht (inside_alike op h hk.1) (miniCut_alike op h hk.2.1)) hk.2.2
      (fun x hx => mr x (List.mem_cons_of_mem _ hx)) (fun x hx => mt x (List.mem_cons_of_mem _ hx))
    exact ⟨by simp only [miniRun, e, e'], c⟩

/-- A byte behind the bytes can be read. -/
theorem miniReadBytes_sees {r : Ref} {k : Nat} {b : UInt8} (hk : r.spare[k]? = some b) :
    (miniReadBytes (r.data.length + k) 1 r).1 = .ok (.bytes [b]) ∧
    ∀ sp : List UInt8, sp.length ≤ k → (miniReadBytes (r.data.length + k) 1 (r.room sp)).1 = .panic .sliceBounds := by
  obtain ⟨hl, hx⟩ := List.getElem?_eq_some_iff.mp hk
  refine ⟨?_, fun sp hs => ?_⟩
  · unfold miniReadBytes
    rw [if_pos ⟨by omega, by omega, by omega⟩]
    show Res.ok (Val.bytes _) = _
    congr 2
    unfold slice
    rw [show ((r.data.length : Int) + k).toNat = r.data.length + k by omega, List.drop_append, List.drop_of_length_le (by omega), List.nil_append,
      Nat.add_sub_cancel_left, List.drop_eq_getElem_cons hl, hx]
    rfl
  · unfold miniReadBytes
    rw [if_neg]
    intro g
    have : ((r.data.length : Int) + k) + 1 ≤ (r.data.length + sp.length : Nat) := g.2.2
    omega

/-! ## v2 -/

/-- As above, for v2. -/
def Inside2 : Op2 → Ref → Prop
  | .base op, r => Inside op r
  | _, _ => True

theorem miniCopy_room (r : Ref) (sp : List UInt8) (o : Int) (bs : List UInt8) :
    ∃ sp', miniCopy o bs (r.room sp) = ((miniCopy o bs r).1, (miniCopy o bs r).2.room sp') := by
  unfold miniCopy
  show ∃ sp', (if bs = [] ∨ o < 0 ∨ r.data.length ≤ o then _ else _) = _
  split <;> exact ⟨sp, rfl⟩

theorem miniStep2_alike (a : Nat) (b : List Nat) {op op' : Op2} (ho : op'.forget = op.forget) (hp : op.plain = true) {r t : Ref} (h : Alike r t)
    (hi : Inside2 op r) :
    (miniStep2 a b op' t).1 = (miniStep2 a b op r).1 ∧ Alike (miniStep2 a b op r).2 (miniStep2 a b op' t).2 := by
  have room : ∀ {o o' : Op2}, o' = o → (∃ sp, miniStep2 a b o (r.room t.spare) = ((miniStep2 a b o r).1, (miniStep2 a b o r).2.room sp)) →
      (miniStep2 a b o' t).1 = (miniStep2 a b o r).1 ∧ Alike (miniStep2 a b o r).2 (miniStep2 a b o' t).2 := by
    intro o o' e ⟨sp, e'⟩
    rw [e, h.eq, e']
    exact ⟨rfl, alike_room _ _⟩
  cases op with
  | grow n x =>
    cases op' <;> first | (exact step2_alike ho hp h) | (simp only [Op2.forget, reduceCtorEq] at ho)
  | base op =>
    have e : op' = .base op := by cases op' <;> simp_all [Op2.forget]
    exact room e (miniStep_room a b op (by simpa [Op2.plain] using hp) r hi _)
  | writeBytes pos bs src =>
    have e : op' = .writeBytes pos bs src := by cases op' <;> simp_all [Op2.forget]
    refine room e ?_
    cases pos with
    | none => exact stepCur_room _ (miniCopy_room r _ _ _)
    | some o => exact miniCopy_room r _ _ _
  | writeByte pos v =>
    have e : op' = .writeByte pos v := by cases op' <;> simp_all [Op2.forget]
    rw [e]
    exact step2_alike (op := .writeByte pos v) (op' := .writeByte pos v) rfl rfl h
  | badBit pos =>
    have e : op' = .badBit pos := by cases op' <;> simp_all [Op2.forget]
    exact room e ⟨t.spare, rfl⟩
  | reset =>
    have e : op' = .reset := by cases op' <;> simp_all [Op2.forget]
    exact room e ⟨[], rfl⟩

/-- A call and what was in its result variables, but for what the runtime allocates ahead. -/
def forgetMini (x : Nat × List Nat × Op2) : Nat × List Nat × Op2 := (x.1, x.2.1, x.2.2.forget)

def MiniKeeps2 : List (Nat × List Nat × Op2) → Ref → Prop
  | [], _ => True
  | (a, b, op) :: ops, r => Inside2 op r ∧ MiniKeeps2 ops (miniStep2 a b op r).2

theorem miniRun2_alike {ops ops' : List (Nat × List Nat × Op2)} (ho : ops'.map forgetMini = ops.map forgetMini) (hp : ∀ x ∈ ops, x.2.2.plain = true)
    {r t : Ref} (h : Alike r t) (hk : MiniKeeps2 ops r) :
    (miniRun2 ops' t).1 = (miniRun2 ops r).1 ∧ Alike (miniRun2 ops r).2 (miniRun2 ops' t).2 := by
  induction ops generalizing ops' r t with
  | nil =>
    obtain rfl := List.map_eq_nil_iff.mp ho
    exact ⟨rfl, h⟩
  | cons x ops ih =>
    cases ops' with
    | nil => exact nomatch ho
    | cons x' ops' =>
      obtain ⟨a, b, op⟩ := x
      obtain ⟨a', b', op'⟩ := x'
      simp only [List.map_cons, List.cons.injEq, forgetMini, Prod.mk.injEq] at ho
      obtain ⟨⟨rfl, rfl, ho1⟩, ho2⟩ := ho
      obtain ⟨e, al⟩ := miniStep2_alike a' b' ho1 (hp _ (List.mem_cons_self ..)) h hk.1
      obtain ⟨e1, e2⟩ := ih ho2 (fun o m => hp o (List.mem_cons_of_mem _ m)) al hk.2
      exact ⟨by simp only [miniRun2, e, e1], e2⟩

/-! ## v1 -/

/-- The bytes and integers that `ReadBytes` and `ReadComplex` are asked for lie within the bytes. -/
def Inside1 : Op1 → Ref → Prop
  | .base op, r => Inside2 op r
  | .readComplex pos n size _, r => 0 ≤ n → 0 ≤ pos.getD r.cur → pos.getD r.cur + n ≤ r.data.length ∧
      (size = 2 ∨ size = 4 ∨ size = 8 → pos.getD r.cur + n * size ≤ r.data.length)
  | _, _ => True

theorem miniReadComplex_alike {r t : Ref} (h : Alike r t) (o n size : Int) (order : Option Endian)
    (hw : 0 ≤ n → 0 ≤ o → o + n ≤ r.data.length ∧ (size = 2 ∨ size = 4 ∨ size = 8 → o + n * size ≤ r.data.length)) :
    (miniReadComplex o n size order t).1 = (miniReadComplex o n size order r).1 ∧
    Alike (miniReadComplex o n size order r).2 (miniReadComplex o n size order t).2 := by
  unfold miniReadComplex
  rw [miniReadBytes_inside fun x y => (hw x y).1, miniReadBytes_inside (r := t) fun x y => by rw [← h.1]; exact (hw x y).1, ← h.1]
  split
  · next hc =>
    have hw := hw hc.2 hc.1
    refine ⟨?_, h⟩
    simp only [complexOf]
    split
    · rfl
    · split
      · next hsz =>
        have hw := hw.2 hsz
        refine decodeInts_alike h _ _ _ _ ?_
        have : ((n.toNat * size.toNat : Nat) : Int) = n * size := by
          rw [Int.natCast_mul, Int.toNat_of_nonneg hc.2, Int.toNat_of_nonneg (by omega)]
        omega
      · rfl
  · exact ⟨rfl, h⟩

theorem miniWriteComplex_alike {r t : Ref} (h : Alike r t) (o : Int) (arg : Arg) (size : Int) (order : Option Endian) :
    (miniWriteComplex o arg size order t).1 = (miniWriteComplex o arg size order r).1 ∧
    Alike (miniWriteComplex o arg size order r).2 (miniWriteComplex o arg size order t).2 := by
  unfold miniWriteComplex
  split
  · next bs _ =>
    obtain ⟨sp, e⟩ := miniCopy_room r t.spare o bs
    rw [← h.eq] at e
    rw [e]
    exact ⟨rfl, alike_room _ _⟩
  · exact ⟨rfl, h⟩

theorem miniStep1_alike (a : Nat) {op op' : Op1} (ho : op'.forget = op.forget) (hp : op.plain = true) {r t : Ref} (h : Alike r t) (hi : Inside1 op r) :
    (miniStep1 a op' t).1 = (miniStep1 a op r).1 ∧ Alike (miniStep1 a op r).2 (miniStep1 a op' t).2 := by
  cases op with
  | base op =>
    cases op' <;> simp only [Op1.forget, Op1.base.injEq, reduceCtorEq] at ho
    rename_i op'
    simp only [miniStep1, idle_forget a ho]
    rcases idle_alike a op h with ⟨x, y⟩ | ⟨_, _, x, y, e⟩
    · rw [x, y]; exact miniStep2_alike a [] ho hp h hi
    · rw [x, y]; exact e
  | writeComplex pos arg size order =>
    have e : op' = .writeComplex pos arg size order := by cases op' <;> simp_all [Op1.forget]
    rw [e]
    cases pos with
    | none =>
      simp only [miniStep1]
      rw [← h.2.1]
      exact stepCur_alike _ (miniWriteComplex_alike h _ _ _ _)
    | some o => exact miniWriteComplex_alike h _ _ _ _
  | readComplex pos n size order =>
    have e : op' = .readComplex pos n size order := by cases op' <;> simp_all [Op1.forget]
    rw [e]
    cases pos with
    | none =>
      simp only [miniStep1]
      rw [← h.2.1]
      exact stepCur_alike _ (miniReadComplex_alike h _ _ _ _ hi)
    | some o => exact miniReadComplex_alike h _ _ _ _ hi

def MiniKeeps1 : List (Nat × Op1) → Ref → Prop
  | [], _ => True
  | (a, op) :: ops, r => Inside1 op r ∧ MiniKeeps1 ops (miniStep1 a op r).2

def forgetMini1 (x : Nat × Op1) : Nat × Op1 := (x.1, x.2.forget)

theorem miniRun1_alike {ops ops' : List (Nat × Op1)} (ho : ops'.map forgetMini1 = ops.map forgetMini1) (hp : ∀ x ∈ ops, x.2.plain = true)
    {r t : Ref} (h : Alike r t) (hk : MiniKeeps1 ops r) :
    (miniRun1 ops' t).1 = (miniRun1 ops r).1 ∧ Alike (miniRun1 ops r).2 (miniRun1 ops' t).2 := by
  induction ops generalizing ops' r t with
  | nil =>
    obtain rfl := List.map_eq_nil_iff.mp ho
    exact ⟨rfl, h⟩
  | cons x ops ih =>
    cases ops' with
    | nil => exact nomatch ho
    | cons x' ops' =>
      obtain ⟨a, op⟩ := x
      obtain ⟨a', op'⟩ := x'
      simp only [List.map_cons, List.cons.injEq, forgetMini1, Prod.mk.injEq] at ho
      obtain ⟨⟨rfl, ho1⟩, ho2⟩ := ho
      obtain ⟨e, al⟩ := miniStep1_alike a' ho1 (hp _ (List.mem_cons_self ..)) h hk.1
      obtain ⟨e1, e2⟩ := ih ho2 (fun o m => hp o (List.mem_cons_of_mem _ m)) al hk.2
      exact ⟨by simp only [miniRun1, e, e1], e2⟩

end Crunch.Ref
