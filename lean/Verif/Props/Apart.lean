import Verif.Props.Parts
import Verif.Lemmas.Apart
import Verif.Props.V1Seq

/-!
# Goroutines that use different parts of a shared buffer (C108)
-/

namespace Crunch.V2
open Spec
open V3 (St WF Val demo demo_wf)

theorem bitwise_of {s : St} {op : Op2} (w : Within s op) : Bitwise op := by
  obtain ⟨lo, hi, h, _⟩ := w.span
  cases op with
  | write k e p d => cases p with
    | none => exact nomatch h
    | some => rfl
  | read k e p d => cases p with
    | none => exact nomatch h
    | some => rfl
  | writeBytes p d => cases p with
    | none => exact nomatch h
    | some => rfl
  | writeByte p d => cases p with
    | none => exact nomatch h
    | some => rfl
  | readBit p => cases p with
    | none => exact nomatch h
    | some => rfl
  | setBit p d => cases p with
    | none => exact nomatch h
    | some => rfl
  | flipBit p => cases p with
    | none => exact nomatch h
    | some => rfl
  | readBits p d => cases p with
    | none => exact nomatch h
    | some => rfl
  | setBits p d n => cases p with
    | none => exact nomatch h
    | some => rfl
  | _ => exact nomatch h

/-- A part of a call is within what the call is about. -/
theorem part_within {s : St} (h0 : WF s) {op e : Op2} (w : Within s op) (u : (bits op).Uses e) :
    Within s e ∧ changes e = changes op ∧ ∀ x, Touches e x → Touches op x := by
  have other : (Script.call op Script.done : Script Op2 Val Val).Uses e → e = op := by
    intro hu
    cases hu with
    | here => rfl
    | later hu => exact nomatch hu
  have same : e = op → Within s e ∧ changes e = changes op ∧ ∀ x, Touches e x → Touches op x := by
    rintro rfl
    exact ⟨w, rfl, fun _ h => h⟩
  have hL := h0.len_lt
  have pos : ∀ {o n : Int64} {i : Nat}, 0 ≤ o.toInt → o.toInt + max 1 n.toInt ≤ 8 * s.b.buf.len → i < max 1 n.toInt.toNat →
      (o + Int64.ofNat i).toInt = o.toInt + i := by
    intro o n i h1 h2 h3
    have hm := maxAlloc_lt; have := h0.ok.len_le_max
    rw [toInt_add, toInt_ofNat (by omega)]
    omega
  cases op with
  | readBits p n =>
    cases p with
    | none => obtain ⟨_, _, h, _⟩ := w.span; exact nomatch h
    | some o =>
      obtain ⟨lo, hi, h, h1, h2⟩ := w.span
      cases h
      obtain ⟨i, hi, rfl⟩ := List.mem_map.mp (mem_all u)
      have hi := List.mem_range.mp hi
      have hp := pos h1 h2 hi
      refine ⟨⟨⟨_, _, rfl, by omega, by omega⟩, fun _ _ h => nomatch h⟩, rfl, fun x ⟨_, _, h, t1, t2⟩ => ?_⟩
      cases h
      exact ⟨_, _, rfl, by omega, by omega⟩
  | setBits p d n =>
    cases p with
    | none => obtain ⟨_, _, h, _⟩ := w.span; exact nomatch h
    | some o =>
      obtain ⟨lo, hi, h, h1, h2⟩ := w.span
      cases h
      obtain ⟨i, hi, rfl⟩ := List.mem_map.mp (mem_all u)
      have hi := List.mem_range.mp hi
      have hp := pos h1 h2 hi
      refine ⟨⟨⟨_, _, rfl, by omega, by omega⟩, fun _ _ h => nomatch h⟩, rfl, fun x ⟨_, _, h, t1, t2⟩ => ?_⟩
      cases h
      exact ⟨_, _, rfl, by omega, by omega⟩
  | _ => exact same (other u)

/-- The calls `i` has finished, made without anybody else. -/
abbrev solo (i : Nat) (τ : Trace Op2 Val) (s : Sh) : List (Nat × Op2 × Res Val) × Sh := soloRun exec i τ s

/-- Goroutines calling positioned methods on a shared buffer within its length, none touching a bit that another changes: everyone gets
the results it would get alone.  When nobody is running, every bit is as the goroutine that changes it would have left it alone,
bits that nobody changes are as they were, and so are the fields and all other memory. -/
theorem C108_no_interference {c0 c : Conf Op2 Val} {τ : Trace Op2 Val} (q : Quiet c0) (h0 : WF c0.sh.st) (e : Exec exec anyOp c0 τ c)
    (within : ∀ i, ∀ op ∈ started i τ, Within c0.sh.st op)
    (apart : ∀ i j, i ≠ j → ∀ op ∈ started i τ, ∀ op' ∈ started j τ, changes op = true → ∀ x, Touches op x → ¬ Touches op' x) :
    (∀ i, (finished i τ).map (fun x => (i, x.1, x.2)) = (solo i τ c0.sh).1) ∧
      ((∀ i, c.thr i = .idle) → c.sh.locked = false ∧ c.sh.st.b = c0.sh.st.b ∧
        (∀ a i, (a ≠ c0.sh.st.b.buf.arr ∨ i < c0.sh.st.b.buf.off ∨ c0.sh.st.b.buf.off + c0.sh.st.b.buf.len ≤ i) →
          (c.sh.st.mem.array a)[i]? = (c0.sh.st.mem.array a)[i]?) ∧
        (∀ i, ∀ op ∈ started i τ, changes op = true → ∀ x, Touches op x → bit c.sh.st.bytes x = bit (solo i τ c0.sh).2.st.bytes x) ∧
        ∀ x, (∀ i, ∀ op ∈ started i τ, changes op = true → ¬ Touches op x) → bit c.sh.st.bytes x = bit c0.sh.st.bytes x) := by
  have e := e.restrict fun i op ho => bitwise_of (within i op ho)
  obtain ⟨L, hat, ex, _, hid, hsh⟩ := C107_made_of_single_bits q e
  have part : ∀ i e, (i, e) ∈ L → ∃ op ∈ started i τ, Within c0.sh.st e ∧ changes e = changes op ∧ ∀ x, Touches e x → Touches op x :=
    fun i e h => by
      obtain ⟨op, ho, hu⟩ := ex.mem h
      exact ⟨op, ho, part_within h0 (within i op ho) hu⟩
  refine no_interference q h0 ex hid hsh (fun a h => ?_) (fun i op ho => exec_bits op ((e.allows q).2 i op ho))
    (fun i e h => let ⟨op, ho, _, h1, h2⟩ := part i e h; ⟨op, ho, h1, h2⟩) apart
  obtain ⟨_, _, hw, _⟩ := part a.1 a.2 h
  exact acts h0 hw (hat a h)

/-- Two goroutines set the two halves of one byte, a third reads the second byte. -/
def demoApart : List (Nat × Option Op2) :=
  (0, some (.setBits (some 4) 15 4)) :: (1, some (.setBits (some 0) 10 4)) :: (2, some (.readBits (some 8) 8)) ::
    steps 0 14 ++ steps 1 14 ++ steps 2 20 ++ steps 0 15 ++ steps 1 15 ++ steps 2 21

/-- The theorem applies to this execution and gives the bytes it ends with. -/
theorem demoApart_runs : ∃ τ c, Exec exec anyOp (rest _ _ demo) τ c ∧ (∀ i, c.thr i = .idle) ∧
    (∀ i, ∀ op ∈ started i τ, Within demo op) ∧
    (∀ i j, i ≠ j → ∀ op ∈ started i τ, ∀ op' ∈ started j τ, changes op = true → ∀ x, Touches op x → ¬ Touches op' x) ∧
    started 0 τ = [.setBits (some 4) 15 4] ∧ started 1 τ = [.setBits (some 0) 10 4] ∧
    c.sh.st.bytes = [0xAF, 4, 5, 6, 7, 8, 9, 10, 11, 12, 13, 14] ∧ finished 2 τ = [(.readBits (some 8) 8, .ok (.u64 4))] := by
  obtain ⟨τ, c, e, hi, hn, h⟩ := sched_ex_only (allowed := Bitwise) (ex := byBits) (rest_quiet demo) 3 demoApart
    (fun τ c => (started 0 τ matches [.setBits (some 4) 15 4]) && (started 1 τ matches [.setBits (some 0) 10 4]) &&
      (started 2 τ matches [.readBits (some 8) 8]) && (c.sh.st.bytes == [0xAF, 4, 5, 6, 7, 8, 9, 10, 11, 12, 13, 14]) &&
      (finished 2 τ matches [(.readBits (some 8) 8, .ok (.u64 4))]))
    (allowed_of fun op ho => by
      rcases (by simpa [demoApart, steps, List.filterMap_cons, List.filterMap_append, List.filterMap_replicate_of_none] using ho :
        op = _ ∨ op = _ ∨ op = _) with rfl | rfl | rfl <;> rfl) (by decide) (by decide +kernel)
  simp only [Bool.and_eq_true, beq_iff_eq] at h
  obtain ⟨⟨⟨⟨h0, h1⟩, h2⟩, h3⟩, h4⟩ := h
  have h0 : started 0 τ = [.setBits (some 4) 15 4] := by split at h0 <;> first | assumption | exact nomatch h0
  have h1 : started 1 τ = [.setBits (some 0) 10 4] := by split at h1 <;> first | assumption | exact nomatch h1
  have h2 : started 2 τ = [.readBits (some 8) 8] := by split at h2 <;> first | assumption | exact nomatch h2
  have h4 : finished 2 τ = [(.readBits (some 8) 8, .ok (.u64 4))] := by split at h4 <;> first | assumption | exact nomatch h4
  have cases3 : ∀ i, ∀ op ∈ started i τ, (i = 0 ∧ op = .setBits (some 4) 15 4) ∨ (i = 1 ∧ op = .setBits (some 0) 10 4) ∨
      (i = 2 ∧ op = .readBits (some 8) 8) := by
    intro i op ho
    match i with
    | 0 => rw [h0] at ho; exact .inl ⟨rfl, List.mem_singleton.mp ho⟩
    | 1 => rw [h1] at ho; exact .inr (.inl ⟨rfl, List.mem_singleton.mp ho⟩)
    | 2 => rw [h2] at ho; exact .inr (.inr ⟨rfl, List.mem_singleton.mp ho⟩)
    | i + 3 => rw [(hn (i + 3) (by omega)).1] at ho; exact nomatch ho
  refine ⟨τ, c, (e.congr fun op ho => (exec_bits op ho).symm).restrict fun _ _ _ => trivial, hi, fun i op ho => ?_, ?_, h0, h1, h3, h4⟩
  · rcases cases3 i op ho with ⟨_, rfl⟩ | ⟨_, rfl⟩ | ⟨_, rfl⟩ <;> exact ⟨⟨_, _, rfl, by decide, by decide⟩, fun _ _ h => nomatch h⟩
  · rintro i j hij op ho op' ho' hc x ⟨lo, hi, hs, t1, t2⟩ ⟨lo', hi', hs', t1', t2'⟩
    rcases cases3 i op ho with ⟨rfl, rfl⟩ | ⟨rfl, rfl⟩ | ⟨rfl, rfl⟩ <;> rcases cases3 j op' ho' with ⟨rfl, rfl⟩ | ⟨rfl, rfl⟩ | ⟨rfl, rfl⟩ <;>
      first | exact absurd rfl hij | (cases hs; cases hs'; simp at t1 t2 t1' t2'; omega)

end Crunch.V2

namespace Crunch.V1
open Spec
open V3 (St WF Val demo demo_wf)
open V2 (ActsLike Near)

theorem bitwise1_of {s : St} {op : Op1} (w : Within1 s op) : Bitwise1 op := by
  obtain ⟨lo, hi, h, _⟩ := w.span
  cases op with
  | writeComplex p d w e => cases p with
    | none => exact nomatch h
    | some => rfl
  | writeBytes p d => cases p with
    | none => exact nomatch h
    | some => rfl
  | writeByte p d => cases p with
    | none => exact nomatch h
    | some => rfl
  | readBit p => cases p with
    | none => exact nomatch h
    | some => rfl
  | setBit p d => cases p with
    | none => exact nomatch h
    | some => rfl
  | flipBit p => cases p with
    | none => exact nomatch h
    | some => rfl
  | readBits p d => cases p with
    | none => exact nomatch h
    | some => rfl
  | setBits p d n => cases p with
    | none => exact nomatch h
    | some => rfl
  | _ => exact nomatch h

/-- A v1 call that does what a v2 call does. -/
theorem acts_v2 {s0 : St} (h0 : WF s0) {op : Op1} {op2 : V2.Op2} (w : Within1 s0 op) (ha : V2.Atomic op2) (hs : span1 op = V2.span op2)
    (hc : changes1 op = V2.changes op2) (hsrc : ∀ p src, op2 = .writeBytes p src → source1 op = some src)
    (hr : ∀ s, Near s0 s → (exec1 op).run ⟨s, false⟩ = asV1 ((V2.exec op2).run ⟨s, false⟩)) :
    ActsLike s0 (exec1 op) (changes1 op) (Touches1 op) := by
  have w2 : V2.Within s0 op2 := ⟨hs ▸ w.span, fun p src h => w.source src (hsrc p src h)⟩
  obtain ⟨f, lf, h⟩ := V2.acts h0 w2 ha
  have ht : Touches1 op = V2.Touches op2 := by
    funext x
    unfold Touches1 V2.Touches
    rw [hs]
  rw [ht, hc]
  have k : ∀ l s, asV1 ((f l).1, s) = ((asV1 ((f l).1, s)).1, s) := fun _ _ => rfl
  refine ⟨fun l => ((asV1 ((f l).1, ⟨s0, false⟩)).1, (f l).2), ⟨lf.len, lf.outside, fun hl hl' hx => ?_⟩, fun s hn => ?_⟩
  · obtain ⟨h1, h2⟩ := lf.same hl hl' hx
    exact ⟨by dsimp only; rw [h1], h2⟩
  · rw [hr s hn, h s hn]
    rfl

theorem acts1 {s0 : St} (h0 : WF s0) {op : Op1} (w : Within1 s0 op) (ha : Atomic1 op) : ActsLike s0 (exec1 op) (changes1 op) (Touches1 op) := by
  have hM := h0.ok.len_le_max
  have same : ∀ op2, toV2 op = some op2 → Shared op = true → V2.Atomic op2 → span1 op = V2.span op2 → changes1 op = V2.changes op2 →
      (∀ p src, op2 = .writeBytes p src → source1 op = some src) → ActsLike s0 (exec1 op) (changes1 op) (Touches1 op) := by
    intro op2 h1 h2 h3 h4 h5 h6
    refine acts_v2 h0 w h3 h4 h5 h6 fun s _ => ?_
    rw [exec1_v2 op op2 h1 h2, valOf_run]
  cases op with
  | writeComplex p d sz e =>
    cases p with
    | none => exact nomatch ha
    | some o =>
      obtain ⟨lo, hi, hs, h1, h2⟩ := w.span
      have typed : ∀ (k : V2.UKind) (e' : Endian) (l : List k.kind.Ty), d = asAny k l → sz = sizeOf k → e = some e' →
          complexSize d sz e = l.length * k.kind.size → ActsLike s0 (exec1 (.writeComplex (some o) d sz e)) true (Touches1 (.writeComplex (some o) d sz e)) := by
        intro k e' l hd hz he hn
        have hne : complexSize d sz e ≠ 0 := fun h => by dsimp only [span1] at hs; rw [if_pos h] at hs; exact nomatch hs
        have hl : l ≠ [] := by rintro rfl; exact hne (hn.trans (Nat.zero_mul _))
        have hsp : span1 (.writeComplex (some o) d sz e) = V2.span (.write k e' (some o) l) := by
          dsimp only [span1, V2.span]
          rw [if_neg hne, if_neg hl, hn, Int.natCast_mul]
        refine acts_v2 (op2 := .write k e' (some o) l) h0 w rfl hsp rfl (fun _ _ h => nomatch h) fun s hn' => ?_
        subst hd hz he
        refine C71_writeComplex_is_write hn'.wf k e' o l ?_
        dsimp only [span1] at hs
        rw [if_neg hne] at hs
        cases hs
        rw [hn] at h2
        omega
      have none : complexSize d sz e ≠ 0 := fun h => by dsimp only [span1] at hs; rw [if_pos h] at hs; exact nomatch hs
      cases d with
      | bytes src =>
        by_cases hz : sz = Unsigned8
        · subst hz
          refine acts_v2 (op2 := .writeBytes (some o) src) h0 w rfl rfl rfl (fun _ _ h => by cases h; rfl) fun s _ => ?_
          rw [← valOf_run]
          show (wrap1 _ (Buffer.write o (.mem src))).run _ = _
          rw [wrap1_eq]
          rfl
        · exact absurd (if_neg hz) none
      | u16 l =>
        cases e with
        | none => exact absurd rfl none
        | some e' =>
          by_cases hz : sz = Unsigned16
          · exact typed .u16 e' l rfl hz rfl ((if_pos hz).trans (Nat.mul_comm _ _))
          · exact absurd (if_neg hz) none
      | u32 l =>
        cases e with
        | none => exact absurd rfl none
        | some e' =>
          by_cases hz : sz = Unsigned32
          · exact typed .u32 e' l rfl hz rfl ((if_pos hz).trans (Nat.mul_comm _ _))
          · exact absurd (if_neg hz) none
      | u64 l =>
        cases e with
        | none => exact absurd rfl none
        | some e' =>
          by_cases hz : sz = Unsigned64
          · exact typed .u64 e' l rfl hz rfl ((if_pos hz).trans (Nat.mul_comm _ _))
          · exact absurd (if_neg hz) none
      | other => exact absurd rfl none
  | writeBytes p src => cases p with
    | none => exact nomatch ha
    | some o => exact same _ rfl rfl rfl rfl rfl (fun _ _ h => by cases h; rfl)
  | writeByte p v => cases p with
    | none => exact nomatch ha
    | some o => exact same _ rfl rfl rfl rfl rfl (fun _ _ h => nomatch h)
  | readBit p => cases p with
    | none => exact nomatch ha
    | some o => exact same _ rfl rfl rfl rfl rfl (fun _ _ h => nomatch h)
  | setBit p v => cases p with
    | none => exact nomatch ha
    | some o => exact same _ rfl rfl rfl rfl rfl (fun _ _ h => nomatch h)
  | flipBit p => cases p with
    | none => exact nomatch ha
    | some o => exact same _ rfl rfl rfl rfl rfl (fun _ _ h => nomatch h)
  | readBits => exact nomatch ha
  | setBits => exact nomatch ha
  | _ => obtain ⟨_, _, hs, _⟩ := w.span; exact nomatch hs

/-- A part of a call is within what the call is about. -/
theorem part_within1 {s : St} (h0 : WF s) {op e : Op1} (w : Within1 s op) (u : (bits1 op).Uses e) :
    Within1 s e ∧ changes1 e = changes1 op ∧ ∀ x, Touches1 e x → Touches1 op x := by
  have other : (Script.call op Script.done : Script Op1 Val1 Val1).Uses e → e = op := by
    intro hu
    cases hu with
    | here => rfl
    | later hu => exact nomatch hu
  have same : e = op → Within1 s e ∧ changes1 e = changes1 op ∧ ∀ x, Touches1 e x → Touches1 op x := by
    rintro rfl
    exact ⟨w, rfl, fun _ h => h⟩
  have hL := h0.len_lt
  have pos : ∀ {o n : Int64} {i : Nat}, 0 ≤ o.toInt → o.toInt + max 0 n.toInt ≤ 8 * s.b.buf.len → i < n.toInt.toNat →
      (o + Int64.ofNat i).toInt = o.toInt + i := by
    intro o n i h1 h2 h3
    have hm := maxAlloc_lt; have := h0.ok.len_le_max
    rw [toInt_add, toInt_ofNat (by omega)]
    omega
  cases op with
  | readBits p n =>
    cases p with
    | none => obtain ⟨_, _, h, _⟩ := w.span; exact nomatch h
    | some o =>
      obtain ⟨lo, hi, h, h1, h2⟩ := w.span
      cases h
      obtain ⟨i, hi, rfl⟩ := List.mem_map.mp (mem_all u)
      have hi := List.mem_range.mp hi
      have hp := pos h1 h2 hi
      refine ⟨⟨⟨_, _, rfl, by omega, by omega⟩, fun _ h => nomatch h⟩, rfl, fun x ⟨_, _, h, t1, t2⟩ => ?_⟩
      cases h
      exact ⟨_, _, rfl, by omega, by omega⟩
  | setBits p d n =>
    cases p with
    | none => obtain ⟨_, _, h, _⟩ := w.span; exact nomatch h
    | some o =>
      obtain ⟨lo, hi, h, h1, h2⟩ := w.span
      cases h
      obtain ⟨i, hi, rfl⟩ := List.mem_map.mp (mem_all u)
      have hi := List.mem_range.mp hi
      have hp := pos h1 h2 hi
      refine ⟨⟨⟨_, _, rfl, by omega, by omega⟩, fun _ h => nomatch h⟩, rfl, fun x ⟨_, _, h, t1, t2⟩ => ?_⟩
      cases h
      exact ⟨_, _, rfl, by omega, by omega⟩
  | _ => exact same (other u)

/-- The calls `i` has finished, made without anybody else. -/
abbrev solo1 (i : Nat) (τ : Trace Op1 Val1) (s : Sh) : List (Nat × Op1 × Res Val1) × Sh := V2.soloRun exec1 i τ s

/-- C108 for v1: `WriteComplex`, `WriteBytes`, `WriteByte` and the bit methods. -/
theorem C108_v1_no_interference {c0 c : Conf Op1 Val1} {τ : Trace Op1 Val1} (q : Quiet c0) (h0 : WF c0.sh.st) (e : Exec exec1 anyOp1 c0 τ c)
    (within : ∀ i, ∀ op ∈ started i τ, Within1 c0.sh.st op)
    (apart : ∀ i j, i ≠ j → ∀ op ∈ started i τ, ∀ op' ∈ started j τ, changes1 op = true → ∀ x, Touches1 op x → ¬ Touches1 op' x) :
    (∀ i, (finished i τ).map (fun x => (i, x.1, x.2)) = (solo1 i τ c0.sh).1) ∧
      ((∀ i, c.thr i = .idle) → c.sh.locked = false ∧ c.sh.st.b = c0.sh.st.b ∧
        (∀ a i, (a ≠ c0.sh.st.b.buf.arr ∨ i < c0.sh.st.b.buf.off ∨ c0.sh.st.b.buf.off + c0.sh.st.b.buf.len ≤ i) →
          (c.sh.st.mem.array a)[i]? = (c0.sh.st.mem.array a)[i]?) ∧
        (∀ i, ∀ op ∈ started i τ, changes1 op = true → ∀ x, Touches1 op x → bit c.sh.st.bytes x = bit (solo1 i τ c0.sh).2.st.bytes x) ∧
        ∀ x, (∀ i, ∀ op ∈ started i τ, changes1 op = true → ¬ Touches1 op x) → bit c.sh.st.bytes x = bit c0.sh.st.bytes x) := by
  have e := e.restrict fun i op ho => bitwise1_of (within i op ho)
  obtain ⟨L, hat, ex, _, hid, hsh⟩ := C107_v1_made_of_single_bits q e
  have part : ∀ i e, (i, e) ∈ L → ∃ op ∈ started i τ, Within1 c0.sh.st e ∧ changes1 e = changes1 op ∧ ∀ x, Touches1 e x → Touches1 op x :=
    fun i e h => by
      obtain ⟨op, ho, hu⟩ := ex.mem h
      exact ⟨op, ho, part_within1 h0 (within i op ho) hu⟩
  refine V2.no_interference q h0 ex hid hsh (fun a h => ?_) (fun i op ho => exec1_bits op ((e.allows q).2 i op ho))
    (fun i e h => let ⟨op, ho, _, h1, h2⟩ := part i e h; ⟨op, ho, h1, h2⟩) apart
  obtain ⟨_, _, hw, _⟩ := part a.1 a.2 h
  exact acts1 h0 hw (hat a h)

/-- Two goroutines write neighbouring integers. -/
def demoApart1 : List (Nat × Option Op1) :=
  (0, some (.writeComplex (some 0) (.u16 [0x1122]) Unsigned16 (some .be))) :: (1, some (.writeComplex (some 2) (.u16 [0x3344]) Unsigned16 (some .le))) ::
    steps 0 2 ++ steps 1 1 ++ steps 0 6 ++ steps 1 7

/-- The theorem applies to this execution and gives the bytes it ends with. -/
theorem demoApart1_runs : ∃ τ c, Exec exec1 anyOp1 (rest _ _ demo) τ c ∧ (∀ i, c.thr i = .idle) ∧
    (∀ i, ∀ op ∈ started i τ, Within1 demo op) ∧
    (∀ i j, i ≠ j → ∀ op ∈ started i τ, ∀ op' ∈ started j τ, changes1 op = true → ∀ x, Touches1 op x → ¬ Touches1 op' x) ∧
    started 0 τ ≠ [] ∧ started 1 τ ≠ [] ∧ c.sh.st.bytes = [0x11, 0x22, 0x44, 0x33, 7, 8, 9, 10, 11, 12, 13, 14] := by
  obtain ⟨τ, c, e, hi, hn, h⟩ := sched_ex_only (allowed := anyOp1) (ex := exec1) (rest_quiet demo) 2 demoApart1
    (fun τ c => (started 0 τ matches [.writeComplex (some 0) (.u16 [0x1122]) 2 (some .be)]) &&
      (started 1 τ matches [.writeComplex (some 2) (.u16 [0x3344]) 2 (some .le)]) &&
      (c.sh.st.bytes == [0x11, 0x22, 0x44, 0x33, 7, 8, 9, 10, 11, 12, 13, 14]))
    (allowed_of fun op _ => trivial) (by decide) (by decide +kernel)
  simp only [Bool.and_eq_true, beq_iff_eq] at h
  obtain ⟨⟨h0, h1⟩, h2⟩ := h
  have h0 : started 0 τ = [.writeComplex (some 0) (.u16 [0x1122]) 2 (some .be)] := by split at h0 <;> first | assumption | exact nomatch h0
  have h1 : started 1 τ = [.writeComplex (some 2) (.u16 [0x3344]) 2 (some .le)] := by split at h1 <;> first | assumption | exact nomatch h1
  have cases2 : ∀ i, ∀ op ∈ started i τ, (i = 0 ∧ op = .writeComplex (some 0) (.u16 [0x1122]) 2 (some .be)) ∨
      (i = 1 ∧ op = .writeComplex (some 2) (.u16 [0x3344]) 2 (some .le)) := by
    intro i op ho
    match i with
    | 0 => rw [h0] at ho; exact .inl ⟨rfl, List.mem_singleton.mp ho⟩
    | 1 => rw [h1] at ho; exact .inr ⟨rfl, List.mem_singleton.mp ho⟩
    | i + 2 => rw [(hn (i + 2) (by omega)).1] at ho; exact nomatch ho
  refine ⟨τ, c, e, hi, fun i op ho => ?_, ?_, by rw [h0]; exact List.cons_ne_nil _ _, by rw [h1]; exact List.cons_ne_nil _ _, h2⟩
  · rcases cases2 i op ho with ⟨_, rfl⟩ | ⟨_, rfl⟩ <;> exact ⟨⟨_, _, rfl, by decide, by decide⟩, fun _ h => nomatch h⟩
  · rintro i j hij op ho op' ho' hc x ⟨lo, hi, hs, t1, t2⟩ ⟨lo', hi', hs', t1', t2'⟩
    rcases cases2 i op ho with ⟨rfl, rfl⟩ | ⟨rfl, rfl⟩ <;> rcases cases2 j op' ho' with ⟨rfl, rfl⟩ | ⟨rfl, rfl⟩ <;>
      first | exact absurd rfl hij | (cases hs; cases hs'; simp [complexSize, Unsigned16] at t1 t2 t1' t2'; omega)

end Crunch.V1
