import Verif.Props.Safe
import Verif.Lemmas.LooksOps
import Verif.Lemmas.ConcMap

/-!
# Calls that look after their section (C118)

`ReadByte` loads its byte after it has released the mutex, `Offset`, `BitOffset`, `After` and `AfterBit` look at an offset without the mutex,
and `Refresh` assigns the capacities.  Together with the calls of C72 they are linearizable all the same.
-/

namespace Crunch

theorem Held0.of_frame {s s0 : V3.St} {L : Nat} (h : frame s.b = frame s0.b) (g : Held0 L s0) : Held0 L s := by
  have h1 : s.b.buf = s0.b.buf := (congrArg V3.Buf.buf h :)
  have h2 : s.b.cap = s0.b.cap := (congrArg V3.Buf.cap h :)
  have h3 : s.b.bcap = s0.b.bcap := (congrArg V3.Buf.bcap h :)
  exact ⟨by rw [h1]; exact g.len_le, by rw [h1]; exact g.cap_le, by rw [h2]; exact g.cap0, by rw [h1, h2]; exact g.cap, by rw [h3]; exact g.bcap0,
    by rw [h1, h3]; exact g.bcap⟩

/-- The kind of a call does not depend on how its result is written. -/
theorem Mixed.map {exe : O → Prog V} {exe' : O' → Prog V'} {s0 : Sh} {op : O} {op' : O'} (g : V → V') (he : exe' op' = (exe op).map g) (h : Mixed exe s0 op) :
    Mixed exe' s0 op' := by
  unfold Mixed
  rw [he]
  rcases h with ⟨h1, h2, h3⟩ | h | h
  · exact .inl ⟨h1.map g, Inc.map g h2, fun s hf hl => by rw [Prog.run_map]; exact h3 s hf hl⟩
  · exact .inr (.inl (LookB.map g h))
  · exact .inr (.inr (OnceO.map g h))

end Crunch

namespace Crunch.V2
open V3 (Buf Val St WF demo)

/-- Calls that look at one place when they like. -/
def Glance : Op2 → Prop
  | .readByte p => p.isSome = true
  | .after _ | .afterBit _ | .offset | .bitOffset | .refresh => True
  | _ => False

/-- The calls of C72 and those that look at one place; a write must be one that the arithmetic of its checks does not surprise, for a
content of `L` bytes. -/
def Settled (L : Nat) (op : Op2) : Prop := (Atomic op ∨ Glance op) ∧ (leaks op = true → Decent L op)

theorem tidy_run {L : Nat} {op : Op2} (hL : L ≤ maxAlloc) (h : Atomic op) (hd : leaks op = true → Decent L op) (s : Sh) (g : Held0 L s.st)
    (hl : s.locked = false) : ((exec op).run s).2.locked = false :=
  wp_once_run (exec_once op h) (wp_weaken (fun _ l h => by
    cases hk : leaks op with
    | true => exact (h.1 (hd hk)).2.2
    | false => exact h.2 hk) (exec_fails (m := 0) (x := false) op hL (by rintro rfl; exact h))) s g (Nat.zero_le _) hl

theorem exec_mixed {s0 : Sh} (h0 : WF s0.st) (op : Op2) (h : Settled s0.st.b.buf.len op) : Mixed exec s0 op := by
  have hL := Nat.le_trans h0.ok.len_le h0.ok.cap_le
  have hB : s0.st.b.buf.len < 2 ^ 62 := Nat.lt_of_le_of_lt hL (by decide)
  have put : Atomic op → Inc s0.st.b.buf Any' 0 (exec op) → Mixed exec s0 op := fun ha hi =>
    .inl ⟨exec_once op ha, hi, fun s hf hl => tidy_run hL ha h.2 s (Held0.of_frame hf (held0_wf h0)) hl⟩
  have look : LookB s0.st.b (exec op) → Mixed exec s0 op := fun h => .inr (.inl h)
  have shift : OnceO (exec op) → Mixed exec s0 op := fun h => .inr (.inr h)
  obtain ⟨h, _⟩ := h
  cases op with
  | write k e p d =>
    cases p with
    | none => exact absurd h (by simp [Atomic, Glance])
    | some o => exact put rfl (Inc.map _ (writeTyped_inc hB k e o d))
  | read k e p n =>
    cases p with
    | none => exact absurd h (by simp [Atomic, Glance])
    | some o => exact put rfl (Inc.map _ (readTyped_inc k e o n))
  | writeBytes p s =>
    cases p with
    | none => exact absurd h (by simp [Atomic, Glance])
    | some o => exact put rfl (Inc.map _ (writeSrc_inc hB o _))
  | writeByte p v =>
    cases p with
    | none => exact absurd h (by simp [Atomic, Glance])
    | some o => exact put rfl (Inc.map _ (writeSrc_inc hB o _))
  | readBytes p n =>
    cases p with
    | none => exact absurd h (by simp [Atomic, Glance])
    | some o => exact put rfl (Inc.map _ (readRaw_inc o n))
  | readByte p =>
    cases p with
    | none => exact absurd h (by simp [Atomic, Glance])
    | some o => exact look (LookB.map _ (readByte_look _ o))
  | readBit p =>
    cases p with
    | none => exact absurd h (by simp [Atomic, Glance])
    | some o => exact put rfl (Inc.map _ (readbit_inc o))
  | setBit p v =>
    cases p with
    | none => exact absurd h (by simp [Atomic, Glance])
    | some o => exact put rfl (Inc.map _ (setbit_inc hB o v))
  | flipBit p =>
    cases p with
    | none => exact absurd h (by simp [Atomic, Glance])
    | some o => exact put rfl (Inc.map _ (flipbit_inc hB o))
  | readBits p n => exact h.elim False.elim False.elim
  | setBits p d n => exact h.elim False.elim False.elim
  | clearAll => exact put trivial (Inc.map _ (clear_inc hB))
  | setAll => exact put trivial (Inc.map _ (setall_inc hB))
  | flipAll => exact put trivial (Inc.map _ (flipall_inc hB))
  | seek o r => exact shift (OnceO.map _ (seek_onceO o r))
  | seekBit o r => exact shift (OnceO.map _ (seekbit_onceO o r))
  | after o => exact look (LookB.map _ (after_look _ o))
  | afterBit o => exact look (LookB.map _ (afterBit_look _ o))
  | alignByte => exact shift (OnceO.map _ alignbyte_onceO)
  | alignBit => exact shift (OnceO.map _ alignbit_onceO)
  | grow n => exact h.elim False.elim False.elim
  | refresh =>
    refine look (LookB.map _ (refresh_look h0.cap ?_))
    rw [h0.bcap, h0.cap, Nat.mul_comm, Int64.ofNat_mul]
    rfl
  | reset => exact h.elim False.elim False.elim
  | bytes => exact look trivial
  | capacity => exact look trivial
  | bitCapacity => exact look trivial
  | offset => exact look fun _ => rfl
  | bitOffset => exact look fun _ => rfl

/-- C118: the calls of v2 `Buffer` other than the `Next` methods, `ReadBits`, `SetBits`, `Grow` and `Reset` are linearizable together. -/
theorem C118_linear {c0 c : Conf Op2 Val} {τ : Trace Op2 Val} (q : Quiet c0) (h0 : WF c0.sh.st)
    (e : Exec exec (Settled c0.sh.st.b.buf.len) c0 τ c) : Linear exec c0 τ c := linear_of_mixed q (exec_mixed h0) e

/-- Two goroutines have made the checks of `ReadByte` when a third one writes two bytes; they load, each its byte, between the two stores. -/
def demoGlance : List (Nat × Option Op2) :=
  (0, some (.readByte (some 2))) :: steps 0 4 ++ (1, some (.readByte (some 1))) :: steps 1 4 ++ (2, some (.writeBytes (some 1) demoPair)) :: steps 2 6 ++
    steps 0 2 ++ steps 1 2 ++ steps 2 4

/-- A case: one reads the old byte behind, the other one the new byte in front; the write is between them in the order, though both calls were started
before it. -/
theorem demoGlance_runs (P : Op2 → Prop) (h1 : P (.readByte (some 1))) (h2 : P (.readByte (some 2))) (h3 : P (.writeBytes (some 1) demoPair)) :
    ∃ τ c, Exec exec (fun op => Settled demo.b.buf.len op ∧ P op) (rest _ _ demo) τ c ∧ (∀ i, c.thr i = .idle) ∧
      finished 0 τ = [(.readByte (some 2), .ok (.u8 5))] ∧ finished 1 τ = [(.readByte (some 1), .ok (.u8 0xAA))] := by
  obtain ⟨τ, c, e, hi, h⟩ := sched_ex_done (allowed := fun op => Settled demo.b.buf.len op ∧ P op) (ex := exec) (rest_quiet demo) 3 demoGlance
    (fun τ _ => (finished 0 τ matches [(.readByte (some 2), .ok (.u8 5))]) && (finished 1 τ matches [(.readByte (some 1), .ok (.u8 0xAA))]))
    (allowed_of fun op ho => by
      rcases (by simpa [demoGlance, steps, List.filterMap_cons, List.filterMap_append, List.filterMap_replicate_of_none] using ho :
        op = _ ∨ op = _ ∨ op = _) with rfl | rfl | rfl
      · exact ⟨⟨.inr rfl, fun h => nomatch h⟩, h2⟩
      · exact ⟨⟨.inr rfl, fun h => nomatch h⟩, h1⟩
      · exact ⟨⟨.inl rfl, fun _ => ⟨by decide, fun _ => by decide⟩⟩, h3⟩) (by decide) (by decide +kernel)
  rw [Bool.and_eq_true] at h
  refine ⟨τ, c, e, hi, ?_, ?_⟩
  · have h := h.1
    split at h
    · assumption
    · exact nomatch h
  · have h := h.2
    split at h
    · assumption
    · exact nomatch h

example : ∃ τ c, Linear exec (rest _ _ demo) τ c ∧ finished 0 τ = [(.readByte (some 2), .ok (.u8 5))] ∧ finished 1 τ = [(.readByte (some 1), .ok (.u8 0xAA))] := by
  obtain ⟨τ, c, e, _, h⟩ := demoGlance_runs (fun _ => True) trivial trivial trivial
  exact ⟨τ, c, C118_linear (rest_quiet demo) V3.demo_wf (e.mono fun _ h => h.1), h⟩

end Crunch.V2

namespace Crunch.V1
open V3 (Buf Val St WF demo)

/-- Calls that look at one place when they like. -/
def Glance1 : Op1 → Prop
  | .readByte p => p.isSome = true
  | .after _ | .afterBit _ | .offset | .bitOffset | .refresh => True
  | _ => False

/-- The calls of C72 and those that look at one place; a write must be one that the arithmetic of its checks does not surprise, for a
content of `L` bytes. -/
def Settled1 (L : Nat) (op : Op1) : Prop := (Atomic1 op ∨ Glance1 op) ∧ (leaks1 op = true → Decent L op)

theorem tidy_run1 {L : Nat} {op : Op1} (hL : L ≤ maxAlloc) (h : Atomic1 op) (hd : leaks1 op = true → Decent L op) (s : Sh) (g : Held0 L s.st)
    (hl : s.locked = false) : ((exec1 op).run s).2.locked = false :=
  wp_once_run (exec1_once op h) (wp_weaken (fun _ l h => by
    cases hk : leaks1 op with
    | true => exact (h.1 (.inl (hd hk))).2.2
    | false => exact h.2 hk) (exec1_fails (m := 0) (x := false) op hL)) s g (Nat.zero_le _) hl

theorem writeComplex_inc {B : Slice} (hB : B.len < 2 ^ 62) (o : Int64) (d : Any) (w : Int64) (e : ByteOrder) : Inc B Any' 0 (Buffer.writeComplex o d w e) := by
  obtain ⟨conv, hc, e⟩ := writeComplex_split o d w e
  rw [e]
  exact hc.cont (P := Inc B Any' 0) (fun _ => trivial) fun a => V2.writeSrc_inc hB o a

theorem clear_inc {B : Slice} (hB : B.len < 2 ^ 62) : Inc B Any' 0 Buffer.clearallbits :=
  Inc.locked (inc_forLoop (fun i n => Ready B n i) (fun _ _ _ h => inc_bufStore hB _ h) _ _ _ _ (V2.ready0 _))
theorem setall_inc {B : Slice} (hB : B.len < 2 ^ 62) : Inc B Any' 0 Buffer.setallbits :=
  Inc.locked (inc_forLoop (fun i n => Ready B n i) (fun _ _ _ h => inc_bufStore hB _ h) _ _ _ _ (V2.ready0 _))
theorem flipall_inc {B : Slice} (hB : B.len < 2 ^ 62) : Inc B Any' 0 Buffer.flipallbits :=
  Inc.locked (inc_forLoop (fun i n => Ready B n i) (fun _ _ _ h => V2.loadStore_inc hB h) _ _ _ _ (V2.ready0 _))

theorem exec1_mixed {s0 : Sh} (h0 : WF s0.st) (op : Op1) (h : Settled1 s0.st.b.buf.len op) : Mixed exec1 s0 op := by
  have hL := Nat.le_trans h0.ok.len_le h0.ok.cap_le
  have hB : s0.st.b.buf.len < 2 ^ 62 := Nat.lt_of_le_of_lt hL (by decide)
  have put : Atomic1 op → Inc s0.st.b.buf Any' 0 (exec1 op) → Mixed exec1 s0 op := fun ha hi =>
    .inl ⟨exec1_once op ha, hi, fun s hf hl => tidy_run1 hL ha h.2 s (Held0.of_frame hf (held0_wf h0)) hl⟩
  have key : ∀ op2, toV2 op = some op2 → Shared op = true → V2.Settled s0.st.b.buf.len op2 → Mixed exec1 s0 op := fun op2 h1 h2 h3 =>
    (V2.exec_mixed h0 op2 h3).map Val1.val (exec1_v2 op op2 h1 h2)
  cases op with
  | writeComplex p d w e =>
    cases p with
    | none => exact absurd h.1 (by simp [Atomic1, Glance1])
    | some o => exact put rfl (Inc.map _ (writeComplex_inc hB o d w e))
  | readComplex p n w e =>
    rcases h.1 with ⟨hp, rfl⟩ | h
    · cases p with
      | none => exact nomatch hp
      | some o => exact put ⟨rfl, rfl⟩ (Inc.map _ (Inc.map (p := Buffer.read o n) Any.bytes (V2.readRaw_inc o n)))
    · exact h.elim
  | clearAll => exact put trivial (Inc.map _ (clear_inc hB))
  | setAll => exact put trivial (Inc.map _ (setall_inc hB))
  | flipAll => exact put trivial (Inc.map _ (flipall_inc hB))
  | readBits p n => exact h.1.elim False.elim False.elim
  | setBits p d n => exact h.1.elim False.elim False.elim
  | grow n => exact h.1.elim False.elim False.elim
  | writeBytes p s => exact key _ rfl rfl ⟨h.1, fun hl => by obtain ⟨op2, h1, h2⟩ := h.2 hl; cases h1; exact h2⟩
  | writeByte p v => exact key _ rfl rfl ⟨h.1, fun hl => by obtain ⟨op2, h1, h2⟩ := h.2 hl; cases h1; exact h2⟩
  | _ => exact key _ rfl rfl ⟨h.1, fun hl => nomatch hl⟩

/-- C118: the calls of v1 `Buffer` other than the `Next` methods, `ReadBits`, `SetBits`, `Grow` and the `ReadComplex` of integers of more than a byte are
linearizable together. -/
theorem C118_v1_linear {c0 c : Conf Op1 Val1} {τ : Trace Op1 Val1} (q : Quiet c0) (h0 : WF c0.sh.st)
    (e : Exec exec1 (Settled1 c0.sh.st.b.buf.len) c0 τ c) : Linear exec1 c0 τ c := linear_of_mixed q (exec1_mixed h0) e

/-- As `V2.demoGlance`, for a `WriteComplex` of one integer of two bytes. -/
def demoGlance1 : List (Nat × Option Op1) :=
  (0, some (.readByte (some 2))) :: steps 0 4 ++ (1, some (.readByte (some 1))) :: steps 1 4 ++
    (2, some (.writeComplex (some 1) (.u16 [0x1122]) Unsigned16 (some .be))) :: steps 2 4 ++ steps 0 2 ++ steps 1 2 ++ steps 2 4

/-- A case: half of the integer is seen by one goroutine, the other half, not yet written, by another one, and the calls are linearizable. -/
theorem demoGlance1_runs (P : Op1 → Prop) (h1 : P (.readByte (some 1))) (h2 : P (.readByte (some 2))) (h3 : P (.writeComplex (some 1) (.u16 [0x1122]) Unsigned16 (some .be))) :
    ∃ τ c, Exec exec1 (fun op => Settled1 demo.b.buf.len op ∧ P op) (rest _ _ demo) τ c ∧ (∀ i, c.thr i = .idle) ∧
      finished 0 τ = [(.readByte (some 2), .ok (.val (.u8 5)))] ∧ finished 1 τ = [(.readByte (some 1), .ok (.val (.u8 0x11)))] := by
  obtain ⟨τ, c, e, hi, h⟩ := sched_ex_done (allowed := fun op => Settled1 demo.b.buf.len op ∧ P op) (ex := exec1) (rest_quiet demo) 3 demoGlance1
    (fun τ _ => (finished 0 τ matches [(.readByte (some 2), .ok (.val (.u8 5)))]) && (finished 1 τ matches [(.readByte (some 1), .ok (.val (.u8 0x11)))]))
    (allowed_of fun op ho => by
      rcases (by simpa [demoGlance1, steps, List.filterMap_cons, List.filterMap_append, List.filterMap_replicate_of_none] using ho :
        op = _ ∨ op = _ ∨ op = _) with rfl | rfl | rfl
      · exact ⟨⟨.inr rfl, fun h => nomatch h⟩, h2⟩
      · exact ⟨⟨.inr rfl, fun h => nomatch h⟩, h1⟩
      · exact ⟨⟨.inl rfl, fun _ => ⟨1, 2, rfl, by decide, by decide, fun _ => by decide⟩⟩, h3⟩) (by decide) (by decide +kernel)
  rw [Bool.and_eq_true] at h
  refine ⟨τ, c, e, hi, ?_, ?_⟩
  · have h := h.1
    split at h
    · assumption
    · exact nomatch h
  · have h := h.2
    split at h
    · assumption
    · exact nomatch h

example : ∃ τ c, Linear exec1 (rest _ _ demo) τ c ∧ finished 0 τ = [(.readByte (some 2), .ok (.val (.u8 5)))] ∧ finished 1 τ = [(.readByte (some 1), .ok (.val (.u8 0x11)))] := by
  obtain ⟨τ, c, e, _, h⟩ := demoGlance1_runs (fun _ => True) trivial trivial trivial
  exact ⟨τ, c, C118_v1_linear (rest_quiet demo) V3.demo_wf (e.mono fun _ h => h.1), h⟩

end Crunch.V1
