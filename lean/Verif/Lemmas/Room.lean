import Verif.Ref1

/-!
# The reference machines and the room behind the bytes (C135)

The part `spare` of a machine is what lies between the end of the bytes and the end of the capacity.
-/

namespace Crunch.Ref
open Spec

/-- The same machine with other spare bytes. -/
def Ref.room (r : Ref) (sp : List UInt8) : Ref := { r with spare := sp }

/-- The machines agree but for the spare bytes. -/
def Alike (r t : Ref) : Prop := r.data = t.data ∧ r.cur = t.cur ∧ r.bcur = t.bcur

theorem Alike.eq {r t : Ref} (h : Alike r t) : t = r.room t.spare := by
  obtain ⟨a, b, c, d⟩ := r
  obtain ⟨a', b', c', d'⟩ := t
  obtain ⟨rfl, rfl, rfl⟩ := h
  rfl

theorem alike_room (r : Ref) (sp : List UInt8) : Alike r (r.room sp) := ⟨rfl, rfl, rfl⟩

/-- Every call but `Grow`. -/
def Op.isGrow : Op → Bool
  | .grow _ => true
  | _ => false

theorem stepCur_room (d : Int) {x y : Res Val × Ref} (h : ∃ sp, y = (x.1, x.2.room sp)) : ∃ sp, stepCur d y = ((stepCur d x).1, (stepCur d x).2.room sp) := by
  obtain ⟨sp, rfl⟩ := h
  obtain ⟨a | a, b⟩ := x <;> exact ⟨sp, rfl⟩

theorem stepBcur_room (d : Int) {x y : Res Val × Ref} (h : ∃ sp, y = (x.1, x.2.room sp)) :
    ∃ sp, stepBcur d y = ((stepBcur d x).1, (stepBcur d x).2.room sp) := by
  obtain ⟨sp, rfl⟩ := h
  obtain ⟨a | a, b⟩ := x <;> exact ⟨sp, rfl⟩

theorem put_room (r : Ref) (sp : List UInt8) (o : Int) (bs : List UInt8) (fit : Prop) [Decidable fit] (other : Panic) :
    ∃ sp', put (r.room sp) o bs fit other = ((put r o bs fit other).1, (put r o bs fit other).2.room sp') := by
  unfold put
  show ∃ sp', (if fit ∧ 0 ≤ o ∧ o + bs.length ≤ r.data.length then _ else _) = _
  split <;> exact ⟨sp, rfl⟩

theorem putBit_room (r : Ref) (sp : List UInt8) (o : Int) (f : Bool → Bool) :
    ∃ sp', putBit (r.room sp) o f = ((putBit r o f).1, (putBit r o f).2.room sp') := by
  unfold putBit
  show ∃ sp', (if 0 ≤ o ∧ o < 8 * r.data.length then _ else _) = _
  split <;> exact ⟨sp, rfl⟩

theorem read_room (r : Ref) (sp : List UInt8) (w : Nat) (e : Endian) (o n : Int) :
    ∃ sp', read w e o n (r.room sp) = ((read w e o n r).1, (read w e o n r).2.room sp') := by
  unfold read
  show ∃ sp', (if 1 ≤ n ∧ 0 ≤ o ∧ o + n * w ≤ r.data.length then _ else _) = _
  split <;> exact ⟨sp, rfl⟩

theorem readBytes_room (r : Ref) (sp : List UInt8) (o n : Int) :
    ∃ sp', readBytes o n (r.room sp) = ((readBytes o n r).1, (readBytes o n r).2.room sp') := by
  unfold readBytes
  show ∃ sp', (if 0 ≤ n ∧ 0 ≤ o ∧ o + n ≤ r.data.length then _ else _) = _
  split <;> exact ⟨sp, rfl⟩

theorem readByte_room (r : Ref) (sp : List UInt8) (o : Int) :
    ∃ sp', readByte o (r.room sp) = ((readByte o r).1, (readByte o r).2.room sp') := by
  unfold readByte
  show ∃ sp', (if 0 ≤ o ∧ o < r.data.length then _ else _) = _
  split <;> exact ⟨sp, rfl⟩

theorem readBit_room (r : Ref) (sp : List UInt8) (o : Int) :
    ∃ sp', readBit o (r.room sp) = ((readBit o r).1, (readBit o r).2.room sp') := by
  unfold readBit
  show ∃ sp', (if 0 ≤ o ∧ o < 8 * r.data.length then _ else _) = _
  split <;> exact ⟨sp, rfl⟩

theorem readBits_room (r : Ref) (sp : List UInt8) (o n : Int) :
    ∃ sp', readBits o n (r.room sp) = ((readBits o n r).1, (readBits o n r).2.room sp') := by
  unfold readBits
  show ∃ sp', (if 0 ≤ o ∧ o + count n ≤ 8 * r.data.length then _ else _) = _
  split <;> exact ⟨sp, rfl⟩

theorem setBits_room (r : Ref) (sp : List UInt8) (o : Int) (v : Nat) (n : Int) :
    ∃ sp', setBits o v n (r.room sp) = ((setBits o v n r).1, (setBits o v n r).2.room sp') := by
  unfold setBits
  show ∃ sp', (if 0 ≤ o ∧ o + count n ≤ 8 * r.data.length then _ else _) = _
  split
  · exact ⟨sp, rfl⟩
  · refine ⟨sp, Prod.ext rfl ?_⟩
    show (if 0 ≤ o then _ else _) = Ref.room (if 0 ≤ o then _ else _) _
    split <;> rfl

theorem all_room (f : UInt8 → UInt8) (r : Ref) (sp : List UInt8) :
    ∃ sp', all f (r.room sp) = ((all f r).1, (all f r).2.room sp') := by
  unfold all
  show ∃ sp', (if r.data = [] then _ else _) = _
  split <;> exact ⟨sp, rfl⟩

/-- Whatever the spare bytes are, calls other than `Grow` answer the same and lead to machines that agree. -/
theorem step_room (op : Op) (h : op.isGrow = false) (r : Ref) (sp : List UInt8) :
    ∃ sp', step op (r.room sp) = ((step op r).1, (step op r).2.room sp') := by
  cases op with
  | write w e pos data => cases pos with
    | none => exact stepCur_room _ (put_room r sp _ _ _ _)
    | some o => exact put_room r sp _ _ _ _
  | read w e pos n => cases pos with
    | none => exact stepCur_room _ (read_room r sp _ _ _ _)
    | some o => exact read_room r sp _ _ _ _
  | writeBytes pos bs => cases pos with
    | none => exact stepCur_room _ (put_room r sp _ _ _ _)
    | some o => exact put_room r sp _ _ _ _
  | writeByte pos v => cases pos with
    | none => exact stepCur_room _ (put_room r sp _ _ _ _)
    | some o => exact put_room r sp _ _ _ _
  | readBytes pos n => cases pos with
    | none => exact stepCur_room _ (readBytes_room r sp _ _)
    | some o => exact readBytes_room r sp _ _
  | readByte pos => cases pos with
    | none => exact stepCur_room _ (readByte_room r sp _)
    | some o => exact readByte_room r sp _
  | readBit pos => cases pos with
    | none => exact stepBcur_room _ (readBit_room r sp _)
    | some o => exact readBit_room r sp _
  | readBits pos n => cases pos with
    | none => exact stepBcur_room _ (readBits_room r sp _ _)
    | some o => exact readBits_room r sp _ _
  | setBit pos => cases pos with
    | none => exact stepBcur_room 1 (putBit_room r sp r.bcur fun _ => true)
    | some o => exact putBit_room r sp o fun _ => true
  | clearBit pos => cases pos with
    | none => exact stepBcur_room 1 (putBit_room r sp r.bcur fun _ => false)
    | some o => exact putBit_room r sp o fun _ => false
  | flipBit pos => cases pos with
    | none => exact stepBcur_room 1 (putBit_room r sp r.bcur fun b => !b)
    | some o => exact putBit_room r sp o fun b => !b
  | setBits pos v n => cases pos with
    | none => exact stepBcur_room _ (setBits_room r sp _ _ _)
    | some o => exact setBits_room r sp _ _ _
  | clearAll => exact all_room _ r sp
  | setAll => exact all_room _ r sp
  | flipAll => exact all_room _ r sp
  | seekByte o rel => exact ⟨sp, rfl⟩
  | seekBit o rel => exact ⟨sp, rfl⟩
  | afterByte o => exact ⟨sp, rfl⟩
  | afterBit o => exact ⟨sp, rfl⟩
  | alignByte => exact ⟨sp, rfl⟩
  | alignBit => exact ⟨sp, rfl⟩
  | truncateLeft n =>
    simp only [step]
    show ∃ sp', (if n < 0 then _ else if r.data.length < n then _ else _) = _
    split
    · exact ⟨sp, rfl⟩
    · split <;> exact ⟨sp, rfl⟩
  | truncateRight n =>
    simp only [step]
    show ∃ sp', (if n < 0 then _ else if r.data.length < n then _ else _) = _
    split
    · exact ⟨sp, rfl⟩
    · split
      · exact ⟨sp, rfl⟩
      · exact ⟨_, rfl⟩
  | grow n => exact nomatch h
  | refresh => exact ⟨sp, rfl⟩
  | reset => exact ⟨_, rfl⟩
  | bytes => exact ⟨sp, rfl⟩
  | byteCapacity => exact ⟨sp, rfl⟩
  | bitCapacity => exact ⟨sp, rfl⟩
  | byteOffset => exact ⟨sp, rfl⟩
  | bitOffset => exact ⟨sp, rfl⟩

/-! ## v3 -/

/-- All bytes are zero. -/
def Zeros (l : List UInt8) : Prop := ∀ b ∈ l, b = 0

theorem zeros_eq {l : List UInt8} (h : Zeros l) : l = List.replicate l.length 0 := List.eq_replicate_iff.mpr ⟨rfl, h⟩

theorem zeros_append {l m : List UInt8} (h : Zeros l) (g : Zeros m) : Zeros (l ++ m) := by
  intro b hb
  rcases List.mem_append.mp hb with hb | hb
  · exact h b hb
  · exact g b hb

theorem zeros_replicate (n : Nat) : Zeros (List.replicate n 0) := fun _ hb => (List.mem_replicate.mp hb).2

/-- Only zero bytes are given up at the end: by `TruncateRight` the last `n`, by `Reset` all. -/
def Cut : Op → Ref → Prop
  | .truncateRight n, r => 0 ≤ n → n ≤ r.data.length → Zeros (r.data.drop (r.data.length - n.toNat))
  | .reset, r => Zeros r.data
  | _, _ => True

/-- All along a history. -/
def Cuts : List Op → Ref → Prop
  | [], _ => True
  | op :: ops, r => Cut op r ∧ Cuts ops (step op r).2

/-- No call runs out of memory. -/
def Affords : List Op → Ref → Prop
  | [], _ => True
  | op :: ops, r => (step op r).1 ≠ .panic .makeSlice ∧ Affords ops (step op r).2

/-- Zeros behind the bytes stay zeros. -/
theorem step_zeros (op : Op) (r : Ref) (hz : Zeros r.spare) (hc : Cut op r) : Zeros (step op r).2.spare := by
  by_cases hg : op.isGrow = false
  · cases op with
    | truncateRight n =>
      simp only [step]
      split
      · exact hz
      · split
        · exact hz
        · exact zeros_append (hc (by omega) (by omega)) hz
    | reset => exact zeros_append hc hz
    | grow n => exact nomatch hg
    | clearAll => simp only [step, all]; split <;> exact hz
    | setAll => simp only [step, all]; split <;> exact hz
    | flipAll => simp only [step, all]; split <;> exact hz
    | truncateLeft n =>
      simp only [step]
      split
      · exact hz
      · split <;> exact hz
    | write w e pos data => cases pos <;> (simp only [step, write, put]; split <;> exact hz)
    | read w e pos data => cases pos <;> (simp only [step, read]; split <;> exact hz)
    | writeBytes pos bs => cases pos <;> (simp only [step, put]; split <;> exact hz)
    | writeByte pos bs => cases pos <;> (simp only [step, put]; split <;> exact hz)
    | readBytes pos n => cases pos <;> (simp only [step, readBytes]; split <;> exact hz)
    | readByte pos => cases pos <;> (simp only [step, readByte]; split <;> exact hz)
    | readBit pos => cases pos <;> (simp only [step, readBit]; split <;> exact hz)
    | readBits pos n => cases pos <;> (simp only [step, readBits]; split <;> exact hz)
    | setBit pos => cases pos <;> (simp only [step, putBit]; split <;> exact hz)
    | clearBit pos => cases pos <;> (simp only [step, putBit]; split <;> exact hz)
    | flipBit pos => cases pos <;> (simp only [step, putBit]; split <;> exact hz)
    | setBits pos v n => cases pos <;> (simp only [step, setBits]; split <;> first | exact hz | (simp only [stepBcur]; split <;> exact hz) | (split <;> exact hz))
    | _ => exact hz
  · cases op <;> first | exact absurd rfl hg | skip
    rename_i n
    simp only [step]
    split
    · exact hz
    · split
      · exact fun b hb => hz b (List.mem_of_mem_drop hb)
      · split
        · exact zeros_replicate _
        · exact hz

/-- With zeros behind the bytes, a call answers the same however many they are. -/
theorem step_alike (op : Op) {r t : Ref} (h : Alike r t) (hr : Zeros r.spare) (ht : Zeros t.spare)
    (mr : (step op r).1 ≠ .panic .makeSlice) (mt : (step op t).1 ≠ .panic .makeSlice) :
    (step op t).1 = (step op r).1 ∧ Alike (step op r).2 (step op t).2 := by
  by_cases hg : op.isGrow = false
  · obtain ⟨sp, e⟩ := step_room op hg r t.spare
    rw [← h.eq] at e
    rw [e]
    exact ⟨rfl, alike_room _ _⟩
  · cases op <;> first | exact absurd rfl hg | skip
    rename_i n
    have key : ∀ q : Ref, Zeros q.spare → (step (.grow n) q).1 ≠ .panic .makeSlice →
        (step (.grow n) q).1 = (if n < 0 then .panic (.err V3.BufferInvalidByteCountError) else .ok .unit) ∧
        (step (.grow n) q).2.data = q.data ++ List.replicate n.toNat 0 ∧
        (step (.grow n) q).2.cur = q.cur ∧ (step (.grow n) q).2.bcur = q.bcur := by
      intro q hq hm
      simp only [step] at hm ⊢
      split
      · next hn => refine ⟨rfl, ?_, rfl, rfl⟩; rw [show n.toNat = 0 by omega]; simp
      · next hn =>
        rw [if_neg hn] at hm
        split
        · next hl =>
          refine ⟨rfl, ?_, rfl, rfl⟩
          show q.data ++ q.spare.take n.toNat = _
          rw [zeros_eq hq, List.take_replicate, Nat.min_eq_left (by omega)]
        · next hl =>
          rw [if_neg hl] at hm
          split
          · exact ⟨rfl, rfl, rfl, rfl⟩
          · next hx => rw [if_neg hx] at hm; exact absurd rfl hm
    obtain ⟨a1, a2, a3, a4⟩ := key r hr mr
    obtain ⟨b1, b2, b3, b4⟩ := key t ht mt
    exact ⟨by rw [a1, b1], by rw [a2, b2, h.1], by rw [a3, b3, h.2.1], by rw [a4, b4, h.2.2]⟩

theorem cut_alike (op : Op) {r t : Ref} (h : Alike r t) (hc : Cut op r) : Cut op t := by
  cases op <;> first | trivial | skip
  · rename_i n
    intro h0 h1
    rw [← h.1] at h1 ⊢
    exact hc h0 h1
  · show Zeros t.data
    rw [← h.1]; exact hc

theorem run_alike (ops : List Op) {r t : Ref} (h : Alike r t) (hr : Zeros r.spare) (ht : Zeros t.spare) (hc : Cuts ops r)
    (mr : Affords ops r) (mt : Affords ops t) :
    (run ops t).1 = (run ops r).1 ∧ Alike (run ops r).2 (run ops t).2 ∧ Zeros (run ops r).2.spare ∧ Zeros (run ops t).2.spare := by
  induction ops generalizing r t with
  | nil => exact ⟨rfl, h, hr, ht⟩
  | cons op ops ih =>
    obtain ⟨e, a⟩ := step_alike op h hr ht mr.1 mt.1
    obtain ⟨e', b⟩ := ih a (step_zeros op r hr hc.1) (step_zeros op t ht (cut_alike op h hc.1)) hc.2 mr.2 mt.2
    exact ⟨by simp only [run, e, e'], b⟩

/-- A byte that is not zero behind the bytes can be seen: the same machine without it and what follows gives another answer. -/
theorem run_sees {r : Ref} {k : Nat} {b : UInt8} (hk : r.spare[k]? = some b) (hb : b ≠ 0)
    (hm : 2 * (r.data.length + k + (k + 1)) ≤ maxAlloc) :
    (run [.grow (k + 1), .bytes] r).1 ≠ (run [.grow (k + 1), .bytes] (r.room (r.spare.take k))).1 := by
  obtain ⟨hl, hx⟩ := List.getElem?_eq_some_iff.mp hk
  have e1 : (run [.grow (k + 1), .bytes] r).1 = [.ok .unit, .ok (.bytes (r.data ++ r.spare.take (k + 1)))] := by
    simp only [run, step]
    rw [if_neg (by omega), if_pos (by omega), show ((k : Int) + 1).toNat = k + 1 by omega]
  have e2 : (run [.grow (k + 1), .bytes] (r.room (r.spare.take k))).1 = [.ok .unit, .ok (.bytes (r.data ++ List.replicate (k + 1) 0))] := by
    have hlen : (r.room (r.spare.take k)).spare.length = k := by show (r.spare.take k).length = k; rw [List.length_take]; omega
    simp only [run, step]
    rw [hlen, if_neg (by omega), if_neg (by omega), if_pos (by show 2 * ((r.data.length : Int) + k + (k + 1)) ≤ maxAlloc; omega), show ((k : Int) + 1).toNat = k + 1 by omega]
    rfl
  rw [e1, e2]
  intro h
  injection h with _ h
  injection h with h _
  injection h with h
  injection h with h
  have h := List.append_cancel_left h
  have := congrArg (fun l => l[k]?) h
  simp only [List.getElem?_take, List.getElem?_replicate] at this
  rw [if_pos (by omega), if_pos (by omega), hk] at this
  injection this with this
  exact hb this

/-! ## v2 -/

/-- Not the rules of v3 for `Grow`, which v2 does not have. -/
def Op2.plain : Op2 → Bool
  | .base op => !op.isGrow
  | _ => true

/-- The calls, but for what the runtime allocates ahead. -/
def Op2.forget : Op2 → Op2
  | .grow n _ => .grow n 0
  | op => op

theorem step2_alike {op op' : Op2} (ho : op'.forget = op.forget) (hp : op.plain = true) {r t : Ref} (h : Alike r t) :
    (step2 op' t).1 = (step2 op r).1 ∧ Alike (step2 op r).2 (step2 op' t).2 := by
  have room : ∀ {o o' : Op2}, o' = o → (∃ sp, step2 o (r.room t.spare) = ((step2 o r).1, (step2 o r).2.room sp)) →
      (step2 o' t).1 = (step2 o r).1 ∧ Alike (step2 o r).2 (step2 o' t).2 := by
    intro o o' e ⟨sp, e'⟩
    rw [e, h.eq, e']
    exact ⟨rfl, alike_room _ _⟩
  cases op with
  | grow n a =>
    cases op' <;> simp only [Op2.forget, Op2.grow.injEq, reduceCtorEq] at ho
    obtain ⟨rfl, _⟩ := ho
    simp only [step2, grow2, ← h.1]
    split
    · exact ⟨rfl, h⟩
    · exact ⟨rfl, rfl, h.2.1, h.2.2⟩
  | base op =>
    have e : op' = .base op := by cases op' <;> simp_all [Op2.forget]
    refine room e (step_room op (by simpa [Op2.plain] using hp) r _)
  | writeBytes pos bs src =>
    have e : op' = .writeBytes pos bs src := by cases op' <;> simp_all [Op2.forget]
    refine room e ?_
    cases pos with
    | none => exact stepCur_room _ (put_room r _ _ _ _ _)
    | some o => exact put_room r _ _ _ _ _
  | writeByte pos v =>
    have e : op' = .writeByte pos v := by cases op' <;> simp_all [Op2.forget]
    refine room e ?_
    cases pos with
    | none => exact stepCur_room _ (put_room r _ _ _ _ _)
    | some o => exact put_room r _ _ _ _ _
  | badBit pos =>
    have e : op' = .badBit pos := by cases op' <;> simp_all [Op2.forget]
    exact room e ⟨t.spare, rfl⟩
  | reset =>
    have e : op' = .reset := by cases op' <;> simp_all [Op2.forget]
    exact room e ⟨[], rfl⟩

theorem sticks_forget (op : Op2) (p : Res Val) : sticks op.forget p = sticks op p := by
  cases op <;> rfl

theorem run2_alike {ops ops' : List Op2} (ho : ops'.map Op2.forget = ops.map Op2.forget) (hp : ∀ op ∈ ops, op.plain = true)
    {r t : Ref} (h : Alike r t) :
    (run2 ops' t).1 = (run2 ops r).1 ∧ Alike (run2 ops r).2.1 (run2 ops' t).2.1 ∧ (run2 ops' t).2.2 = (run2 ops r).2.2 := by
  induction ops generalizing ops' r t with
  | nil =>
    obtain rfl := List.map_eq_nil_iff.mp ho
    exact ⟨rfl, h, rfl⟩
  | cons op ops ih =>
    cases ops' with
    | nil => exact nomatch ho
    | cons op' ops' =>
      simp only [List.map_cons, List.cons.injEq] at ho
      obtain ⟨e, a⟩ := step2_alike ho.1 (hp op (List.mem_cons_self ..)) h
      obtain ⟨e1, e2, e3⟩ := ih ho.2 (fun o m => hp o (List.mem_cons_of_mem _ m)) a
      have hs : sticks op' (step2 op' t).1 = sticks op (step2 op r).1 := by
        rw [← sticks_forget, ho.1, sticks_forget, e]
      simp only [run2, hs]
      split
      · exact ⟨by rw [e], a, rfl⟩
      · exact ⟨by rw [e, e1], e2, e3⟩

/-! ## v1 -/

/-- The integers `ReadComplex` is asked for lie within the bytes; calls it rejects do not matter, nor does reading single bytes. -/
def Within (r : Ref) : Op1 → Prop
  | .readComplex pos n size _ =>
    size = 2 ∨ size = 4 ∨ size = 8 → 0 ≤ n → 0 ≤ pos.getD r.cur → pos.getD r.cur + n ≤ r.data.length →
      pos.getD r.cur + n * size ≤ r.data.length
  | _ => True

/-- All along a history, up to the call that leaves the mutex locked. -/
def Withins : List Op1 → Ref → Prop
  | [], _ => True
  | op :: ops, r => Within r op ∧ (sticks1 op (step1 op r).1 = false → Withins ops (step1 op r).2)

def Op1.plain : Op1 → Bool
  | .base op => op.plain
  | _ => true

def Op1.forget : Op1 → Op1
  | .base op => .base op.forget
  | op => op

theorem decodeInts_alike {r t : Ref} (h : Alike r t) (o n w : Nat) (order : Option Endian) (hw : o + n * w ≤ r.data.length) :
    decodeInts o n w order t = decodeInts o n w order r := by
  unfold decodeInts
  split
  · rfl
  · split
    · rfl
    · next hn =>
      have hnw : w ≤ n * w := Nat.le_mul_of_pos_left w (by omega)
      cases order with
      | none => simp only; rw [if_pos (by rw [← h.1]; omega), if_pos (by omega)]
      | some e =>
        simp only
        rw [if_pos (by rw [← h.1]; omega), if_pos (by omega), ← h.1]
        congr 2
        apply List.map_congr_left
        intro i hi
        have hi := List.mem_range.mp hi
        have hm : i * w + w ≤ n * w := by rw [← Nat.succ_mul]; exact Nat.mul_le_mul_right w hi
        have key : ∀ sp : List UInt8, slice (r.data ++ sp) (o + i * w) w = slice r.data (o + i * w) w := by
          intro sp
          unfold slice
          rw [List.drop_append_of_le_length (by omega), List.take_append_of_le_length (by rw [List.length_drop]; omega)]
        rw [key, key]

theorem readComplex_alike {r t : Ref} (h : Alike r t) (o n size : Int) (order : Option Endian)
    (hw : size = 2 ∨ size = 4 ∨ size = 8 → 0 ≤ n → 0 ≤ o → o + n ≤ r.data.length → o + n * size ≤ r.data.length) :
    (readComplex o n size order t).1 = (readComplex o n size order r).1 ∧ Alike (readComplex o n size order r).2 (readComplex o n size order t).2 := by
  unfold readComplex readBytes
  rw [← h.1]
  split
  · next hc =>
    refine ⟨?_, h⟩
    simp only [complexOf]
    split
    · rfl
    · split
      · next hsz =>
        have hw := hw hsz hc.1 hc.2.1 hc.2.2
        refine decodeInts_alike h _ _ _ _ ?_
        have : ((n.toNat * size.toNat : Nat) : Int) = n * size := by
          rw [Int.natCast_mul, Int.toNat_of_nonneg hc.1, Int.toNat_of_nonneg (by omega)]
        omega
      · rfl
  · exact ⟨by simp only [complexOf, reject, h.1], h⟩

theorem stepCur_alike (d : Int) {x y : Res Val × Ref} (h : y.1 = x.1 ∧ Alike x.2 y.2) :
    (stepCur d y).1 = (stepCur d x).1 ∧ Alike (stepCur d x).2 (stepCur d y).2 := by
  obtain ⟨a, b⟩ := x
  obtain ⟨a', b'⟩ := y
  obtain ⟨rfl, h1, h2, h3⟩ := h
  cases a'
  · exact ⟨rfl, h1, by show wrap64 _ = wrap64 _; rw [h2], h3⟩
  · exact ⟨rfl, h1, h2, h3⟩

theorem stepBcur_alike (d : Int) {x y : Res Val × Ref} (h : y.1 = x.1 ∧ Alike x.2 y.2) :
    (stepBcur d y).1 = (stepBcur d x).1 ∧ Alike (stepBcur d x).2 (stepBcur d y).2 := by
  obtain ⟨a, b⟩ := x
  obtain ⟨a', b'⟩ := y
  obtain ⟨rfl, h1, h2, h3⟩ := h
  cases a'
  · exact ⟨rfl, h1, h2, by show wrap64 _ = wrap64 _; rw [h3]⟩
  · exact ⟨rfl, h1, h2, h3⟩

theorem writeComplex_alike {r t : Ref} (h : Alike r t) (o : Int) (arg : Arg) (size : Int) (order : Option Endian) :
    (writeComplex o arg size order t).1 = (writeComplex o arg size order r).1 ∧
    Alike (writeComplex o arg size order r).2 (writeComplex o arg size order t).2 := by
  unfold writeComplex
  split
  · next bs _ =>
    obtain ⟨sp, e⟩ := put_room r t.spare o bs (bs ≠ []) .index
    rw [← h.eq] at e
    rw [e]
    exact ⟨rfl, alike_room _ _⟩
  · exact ⟨rfl, h⟩

theorem idle_alike (num : Nat) (op : Op2) {r t : Ref} (h : Alike r t) :
    (idle num op t = none ∧ idle num op r = none) ∨
      ∃ x y, idle num op r = some x ∧ idle num op t = some y ∧ y.1 = x.1 ∧ Alike x.2 y.2 := by
  unfold idle
  split
  · split
    · exact .inr ⟨_, _, rfl, rfl, rfl, h⟩
    · exact .inl ⟨rfl, rfl⟩
  · split
    · refine .inr ⟨_, _, rfl, rfl, stepBcur_alike _ (x := (_, r)) (y := (_, t)) ⟨rfl, h⟩⟩
    · exact .inl ⟨rfl, rfl⟩
  · split
    · exact .inr ⟨_, _, rfl, rfl, rfl, h⟩
    · exact .inl ⟨rfl, rfl⟩
  · split
    · refine .inr ⟨_, _, rfl, rfl, stepBcur_alike _ (x := (_, r)) (y := (_, t)) ⟨rfl, h⟩⟩
    · exact .inl ⟨rfl, rfl⟩
  · rw [← h.1]; split
    · exact .inr ⟨_, _, rfl, rfl, rfl, h⟩
    · exact .inl ⟨rfl, rfl⟩
  · rw [← h.1]; split
    · exact .inr ⟨_, _, rfl, rfl, rfl, h⟩
    · exact .inl ⟨rfl, rfl⟩
  · rw [← h.1]; split
    · exact .inr ⟨_, _, rfl, rfl, rfl, h⟩
    · exact .inl ⟨rfl, rfl⟩
  · exact .inl ⟨rfl, rfl⟩

theorem idle_forget (num : Nat) {op op' : Op2} (ho : op'.forget = op.forget) (r : Ref) : idle num op' r = idle num op r := by
  have : ∀ o : Op2, idle num o.forget r = idle num o r := by intro o; cases o <;> rfl
  rw [← this op', ho, this]

theorem step1_alike {op op' : Op1} (ho : op'.forget = op.forget) (hp : op.plain = true) {r t : Ref} (h : Alike r t) (hw : Within r op) :
    (step1 op' t).1 = (step1 op r).1 ∧ Alike (step1 op r).2 (step1 op' t).2 := by
  cases op with
  | base op =>
    cases op' <;> simp only [Op1.forget, Op1.base.injEq, reduceCtorEq] at ho
    rename_i op'
    simp only [step1, idle_forget 0 ho]
    rcases idle_alike 0 op h with ⟨a, b⟩ | ⟨x, y, a, b, e⟩
    · rw [a, b]; exact step2_alike ho hp h
    · rw [a, b]; exact e
  | writeComplex pos arg size order =>
    have e : op' = .writeComplex pos arg size order := by cases op' <;> simp_all [Op1.forget]
    rw [e]
    cases pos with
    | none =>
      simp only [step1]
      rw [← h.2.1]
      exact stepCur_alike _ (writeComplex_alike h _ _ _ _)
    | some o => exact writeComplex_alike h _ _ _ _
  | readComplex pos n size order =>
    have e : op' = .readComplex pos n size order := by cases op' <;> simp_all [Op1.forget]
    rw [e]
    cases pos with
    | none =>
      simp only [step1]
      rw [← h.2.1]
      exact stepCur_alike _ (readComplex_alike h _ _ _ _ hw)
    | some o => exact readComplex_alike h _ _ _ _ hw

theorem sticks1_forget {op op' : Op1} (ho : op'.forget = op.forget) (p : Res Val) : sticks1 op' p = sticks1 op p := by
  have : ∀ o : Op1, sticks1 o.forget p = sticks1 o p := by
    intro o; cases o <;> first | rfl | exact sticks_forget _ p
  rw [← this op', ho, this]

theorem run1_alike {ops ops' : List Op1} (ho : ops'.map Op1.forget = ops.map Op1.forget) (hp : ∀ op ∈ ops, op.plain = true)
    {r t : Ref} (h : Alike r t) (hw : Withins ops r) :
    (run1 ops' t).1 = (run1 ops r).1 ∧ Alike (run1 ops r).2.1 (run1 ops' t).2.1 ∧ (run1 ops' t).2.2 = (run1 ops r).2.2 := by
  induction ops generalizing ops' r t with
  | nil =>
    obtain rfl := List.map_eq_nil_iff.mp ho
    exact ⟨rfl, h, rfl⟩
  | cons op ops ih =>
    cases ops' with
    | nil => exact nomatch ho
    | cons op' ops' =>
      simp only [List.map_cons, List.cons.injEq] at ho
      obtain ⟨e, a⟩ := step1_alike ho.1 (hp op (List.mem_cons_self ..)) h hw.1
      have hs : sticks1 op' (step1 op' t).1 = sticks1 op (step1 op r).1 := by
        rw [sticks1_forget ho.1, e]
      simp only [run1, hs]
      split
      · exact ⟨by rw [e], a, rfl⟩
      · next hl =>
        obtain ⟨e1, e2, e3⟩ := ih ho.2 (fun o m => hp o (List.mem_cons_of_mem _ m)) a (hw.2 (Bool.eq_false_iff.mpr hl))
        exact ⟨by rw [e, e1], e2, e3⟩

/-- Beyond the bytes the room is what is read: without it the call panics, with enough of it it does not. -/
theorem readComplex_sees {r : Ref} {o n size : Int} (e : Endian) (hs : size = 2 ∨ size = 4 ∨ size = 8) (hn : 0 ≤ n) (h0 : 0 ≤ o)
    (hf : o + n ≤ r.data.length) (hx : r.data.length < o + n * size) (hm : n * size ≤ maxAlloc) :
    (step1 (.readComplex (some o) n size (some e)) (r.room [])).1 = .panic .sliceBounds ∧
    ∀ sp : List UInt8, o + n * size ≤ r.data.length + sp.length →
      (step1 (.readComplex (some o) n size (some e)) (r.room sp)).1 =
        .ok (.nums ((List.range n.toNat).map fun i => decode e (slice (r.data ++ sp) (o.toNat + i * size.toNat) size.toNat))) := by
  have hmul : ((n.toNat * size.toNat : Nat) : Int) = n * size := by
    rw [Int.natCast_mul, Int.toNat_of_nonneg hn, Int.toNat_of_nonneg (by omega)]
  have hn0 : n.toNat ≠ 0 := by
    intro hz
    rw [show n = 0 by omega] at hx hf
    omega
  have key : ∀ sp : List UInt8, (step1 (.readComplex (some o) n size (some e)) (r.room sp)).1 =
      decodeInts o.toNat n.toNat size.toNat (some e) (r.room sp) := by
    intro sp
    simp only [step1, readComplex, readBytes]
    rw [if_pos (show 0 ≤ n ∧ 0 ≤ o ∧ o + n ≤ (r.room sp).data.length from ⟨hn, h0, hf⟩)]
    simp only [complexOf]
    rw [if_neg (by omega), if_pos hs]
  refine ⟨?_, fun sp hsp => ?_⟩
  · rw [key]
    unfold decodeInts
    rw [if_neg (by omega), if_neg hn0]
    simp only
    rw [if_neg (by show ¬ _ ≤ r.data.length + 0; omega)]
  · rw [key]
    unfold decodeInts
    rw [if_neg (by omega), if_neg hn0]
    simp only
    rw [if_pos (by show _ ≤ r.data.length + sp.length; omega)]
    rfl

end Crunch.Ref
