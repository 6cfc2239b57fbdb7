import Verif.Lemmas.Guards
import Verif.Props.Footprints
import Verif.Props.Progress

/-!
# Data races in the sense of the Go memory model (C119)

Which calls on a shared v1 or v2 `Buffer` can be in a data race: two accesses to one place, one of them a change, that happens-before does not
order, however far apart they are.  C91 is about accesses that are about to be made at once.

By the Go memory model a program without data races behaves as if its goroutines were interleaved; so for the goroutines shown here to be free of
them the interleavings of `Verif/Conc.lean` are all there is.
-/

namespace Crunch

/-- The next step changes `l`, and nothing else. -/
def Prog.sets : Prog α → Loc → Bool
  | .setI f _ _, l => l == .field f
  | .setBuf _ _, l => l == .header
  | .store s i _ _, l => l == .byte s.arr (s.off + i)
  | _, _ => false

/-- The next step reads `l`, and nothing else. -/
def Prog.gets : Prog α → Loc → Bool
  | .getI f _, l => l == .field f
  | .getBuf _, l => l == .header
  | .load s i _, l => l == .byte s.arr (s.off + i)
  | _, _ => false

theorem Prog.sets.writes {p : Prog α} {l : Loc} (h : p.sets l = true) (s : Sh) : p.writes s l := by
  cases p <;> first | exact eq_of_beq h | exact nomatch h
theorem Prog.gets.reads {p : Prog α} {l : Loc} (h : p.gets l = true) (s : Sh) : p.reads s l := by
  cases p <;> first | exact eq_of_beq h | exact nomatch h

/-- Goroutine 0, in a call in `P`, is about to change `l`, and goroutine 1, in a call in `Q`, is about to read it. -/
def clash (P Q : O → Bool) (l : Loc) (c : Conf O V) : Bool :=
  match c.thr 0, c.thr 1 with
  | .busy op p, .busy op' r => P op && Q op' && p.sets l && r.gets l
  | _, _ => false

theorem clash_at {ex : O → Prog V} {allowed : O → Prop} {c0 : Conf O V} (sc : List (Nat × Option O)) (P Q : O → Bool) (l : Loc)
    (hl : ∀ op ∈ sc.filterMap (·.2), allowed op) (h : ((sched ex [] c0 sc).any fun x => clash P Q l x.2) = true) :
    ∃ τ c op op' p r, Exec ex allowed c0 τ c ∧ P op = true ∧ Q op' = true ∧ c.thr 0 = .busy op p ∧ c.thr 1 = .busy op' r ∧
      p.writes c.sh l ∧ r.reads c.sh l := by
  obtain ⟨τ, c, e, h⟩ := sched_ex sc (fun _ c => clash P Q l c) (allowed_of hl) h
  unfold clash at h
  split at h
  · rename_i op p op' r h1 h2
    simp only [Bool.and_eq_true] at h
    obtain ⟨⟨⟨hp, hq⟩, hs⟩, hg⟩ := h
    exact ⟨τ, c, op, op', p, r, e, hp, hq, h1, h2, Prog.sets.writes hs _, Prog.gets.reads hg _⟩
  · exact nomatch h

/-- Goroutines with separate places are in no data race. -/
theorem separate_hb {ex : O → Prog V} {allowed : O → Prop} {c0 c : Conf O V} {τ : Trace O V} {R W : Nat → Loc → Prop} (q : Quiet c0) (ap : Separate R W)
    (_e : Exec ex allowed c0 τ c) (kp : ∀ i, Keeping ex (R i) (W i) (started i τ) c0.sh) (i j : Nat) (op op' : O) (l : Loc) :
    ¬ DataRace ex allowed c0 τ i j op op' l := by
  have kt : ∀ n i, Keeping ex (R i) (W i) (started i (τ.take n)) c0.sh := fun n i => by
    have := kp i
    have ht : started i τ = started i (τ.take n) ++ started i (τ.drop n) := by
      rw [← started_append, List.take_append_drop]
    rw [ht] at this
    exact (this.append (i := i)).1
  have uses : ∀ {n k op p} {c : Conf O V}, Exec ex allowed c0 (τ.take n) c → c.thr k = .busy op p → ∃ t, p.Uses (R k) (W k) t := fun {n k op p c} e h => by
    obtain ⟨t, v⟩ := foot_inv q ap e (kt n)
    have va := v.alone k
    rw [h] at va
    cases va with
    | busy _ _ _ h4 => exact ⟨_, h4⟩
  rintro ⟨hne, m, n, ⟨c1, _, p, _, _, e1, h1, hw, _⟩, ha, _⟩
  obtain ⟨t, u⟩ := uses e1 h1
  have hW := u.writes hw
  rcases ha with ⟨c2, _, r, _, _, e2, h2, hr, _⟩ | ⟨c2, _, r, _, _, e2, h2, hr, _⟩
  · obtain ⟨t, u⟩ := uses e2 h2
    exact (ap i j hne l hW).1 (u.reads hr)
  · obtain ⟨t, u⟩ := uses e2 h2
    exact (ap i j hne l hW).2 (u.writes hr)

end Crunch

namespace Crunch.V2
open V3 (St WF Val demo demo_wf Buf)

/-! ## v2 -/

/-- C119, the full statement: goroutines calling methods are never in a data race. -/
def C119_full : Prop :=
  ∀ (s : St), WF s → ∀ (τ : Trace Op2 Val) (c : Conf Op2 Val), Exec exec anyOp (rest _ _ s) τ c → ∀ i j op op' l, ¬ DataRace exec anyOp (rest _ _ s) τ i j op op' l

/-- For each part of the buffer, a call that changes it under the mutex and one that reads it without. -/
def racers : Part → Op2 × Op2
  | .field .off => (.seek 1 false, .offset)
  | .field .boff => (.seekBit 1 false, .bitOffset)
  | .field .cap => (.refresh, .capacity)
  | .field .bcap => (.refresh, .bitCapacity)
  | .header => (.grow 4, .bytes)
  | .bytes => (.writeByte (some 0) 7, .readByte (some 0))

theorem racers_meet (P : Op2 → Prop) (hP : ∀ k, P (racers k).1 ∧ P (racers k).2) (k : Part) :
    ∃ τ c op op' p r l, Exec exec P (rest _ _ demo) τ c ∧ c.thr 0 = .busy op p ∧ c.thr 1 = .busy op' r ∧ p.writes c.sh l ∧ r.reads c.sh l ∧
      l.part = k ∧ op = (racers k).1 ∧ op' = (racers k).2 := by
  have two : ∀ {a b : Op2}, P a ∧ P b → ∀ op ∈ [a, b], P op := fun h op ho => by
    rcases List.mem_cons.mp ho with rfl | ho
    · exact h.1
    · rw [List.mem_singleton.mp ho]; exact h.2
  rcases k with (_ | _ | _ | _) | _ | _
  · obtain ⟨τ, c, op, op', p, r, e, h1, h2, h⟩ := clash_at (ex := exec) (allowed := P) (c0 := rest _ _ demo)
      ((0, some (.seek 1 false)) :: steps 0 1 ++ [(1, some .offset)]) (· matches .seek 1 false) (· matches .offset) (.field .off)
      (two (hP (.field .off))) (by decide +kernel)
    exact ⟨τ, c, op, op', p, r, _, e, h.1, h.2.1, h.2.2.1, h.2.2.2, rfl, by split at h1 <;> first | rfl | assumption | (cases h1; done),
      by split at h2 <;> first | rfl | assumption | (cases h2; done)⟩
  · obtain ⟨τ, c, op, op', p, r, e, h1, h2, h⟩ := clash_at (ex := exec) (allowed := P) (c0 := rest _ _ demo)
      ((0, some .refresh) :: steps 0 2 ++ [(1, some .capacity)]) (· matches .refresh) (· matches .capacity) (.field .cap)
      (two (hP (.field .cap))) (by decide +kernel)
    exact ⟨τ, c, op, op', p, r, _, e, h.1, h.2.1, h.2.2.1, h.2.2.2, rfl, by split at h1 <;> first | rfl | assumption | (cases h1; done),
      by split at h2 <;> first | rfl | assumption | (cases h2; done)⟩
  · obtain ⟨τ, c, op, op', p, r, e, h1, h2, h⟩ := clash_at (ex := exec) (allowed := P) (c0 := rest _ _ demo)
      ((0, some (.seekBit 1 false)) :: steps 0 1 ++ [(1, some .bitOffset)]) (· matches .seekBit 1 false) (· matches .bitOffset) (.field .boff)
      (two (hP (.field .boff))) (by decide +kernel)
    exact ⟨τ, c, op, op', p, r, _, e, h.1, h.2.1, h.2.2.1, h.2.2.2, rfl, by split at h1 <;> first | rfl | assumption | (cases h1; done),
      by split at h2 <;> first | rfl | assumption | (cases h2; done)⟩
  · obtain ⟨τ, c, op, op', p, r, e, h1, h2, h⟩ := clash_at (ex := exec) (allowed := P) (c0 := rest _ _ demo)
      ((0, some .refresh) :: steps 0 4 ++ [(1, some .bitCapacity)]) (· matches .refresh) (· matches .bitCapacity) (.field .bcap)
      (two (hP (.field .bcap))) (by decide +kernel)
    exact ⟨τ, c, op, op', p, r, _, e, h.1, h.2.1, h.2.2.1, h.2.2.2, rfl, by split at h1 <;> first | rfl | assumption | (cases h1; done),
      by split at h2 <;> first | rfl | assumption | (cases h2; done)⟩
  · obtain ⟨τ, c, op, op', p, r, e, h1, h2, h⟩ := clash_at (ex := exec) (allowed := P) (c0 := rest _ _ demo)
      ((0, some (.grow 4)) :: steps 0 3 ++ [(1, some .bytes)]) (· matches .grow 4) (· matches .bytes) .header
      (two (hP .header)) (by decide +kernel)
    exact ⟨τ, c, op, op', p, r, _, e, h.1, h.2.1, h.2.2.1, h.2.2.2, rfl, by split at h1 <;> first | rfl | assumption | (cases h1; done),
      by split at h2 <;> first | rfl | assumption | (cases h2; done)⟩
  · obtain ⟨τ, c, op, op', p, r, e, h1, h2, h⟩ := clash_at (ex := exec) (allowed := P) (c0 := rest _ _ demo)
      ((0, some (.writeByte (some 0) 7)) :: (1, some (.readByte (some 0))) :: steps 1 4 ++ steps 0 3) (· matches .writeByte (some 0) 7) (· matches .readByte (some 0)) (.byte 0 2)
      (two (hP .bytes)) (by decide +kernel)
    exact ⟨τ, c, op, op', p, r, _, e, h.1, h.2.1, h.2.2.1, h.2.2.2, rfl, by split at h1 <;> first | rfl | assumption | (cases h1; done),
      by split at h2 <;> first | rfl | assumption | (cases h2; done)⟩

/-- C119 is false, and for each part of the buffer: the calls named first change it under the mutex, the ones named second read it without. -/
theorem C119_race_free_false : ¬ C119_full ∧ ∀ k : Part, ∃ τ c l, Exec exec anyOp (rest _ _ demo) τ c ∧
    DataRace exec anyOp (rest _ _ demo) τ 0 1 (racers k).1 (racers k).2 l ∧ l.part = k := by
  have key : ∀ k : Part, ∃ τ c l, Exec exec anyOp (rest _ _ demo) τ c ∧
      DataRace exec anyOp (rest _ _ demo) τ 0 1 (racers k).1 (racers k).2 l ∧ l.part = k := fun k => by
    obtain ⟨τ, c, _, _, p, r, l, e, h1, h2, hw, hr, hl, rfl, rfl⟩ := racers_meet anyOp (fun _ => ⟨trivial, trivial⟩) k
    obtain ⟨τ', c', e', _, d⟩ := race_happens e (by decide) h1 hw h2 (.inl hr)
    exact ⟨_, c', l, e', d, hl⟩
  refine ⟨fun hf => ?_, key⟩
  obtain ⟨τ, c, l, e, d, _⟩ := key .bytes
  exact hf demo demo_wf τ c e _ _ _ _ _ d

/-- C119, what holds for all calls: in a data race one call changes the place and the other one reads it while it does not hold the mutex, and
which calls do so is told by the tables.  In particular two changes are always ordered. -/
theorem C119_table_partial {c0 c : Conf Op2 Val} {τ : Trace Op2 Val} (q : Quiet c0) (e : Exec exec anyOp c0 τ c) {i j : Nat} {op op' : Op2} {l : Loc}
    (h : DataRace exec anyOp c0 τ i j op op' l) :
    op ∈ started i τ ∧ op' ∈ started j τ ∧ alters op l.part = true ∧ unguarded op' l.part = true :=
  race_table (fun op _ => ⟨exec_brk op, exec_acc op⟩) q e h

/-- C119: so goroutines are in no data race if none of their calls changes what a call of another one reads without the mutex. -/
theorem C119_friendly_partial {c0 c : Conf Op2 Val} {τ : Trace Op2 Val} (q : Quiet c0) (e : Exec exec anyOp c0 τ c)
    (fr : ∀ i j, i < j → ∀ op ∈ started i τ, ∀ op' ∈ started j τ, Friendly op op') (i j : Nat) (op op' : Op2) (l : Loc) :
    ¬ DataRace exec anyOp c0 τ i j op op' l := by
  intro h
  obtain ⟨h1, h2, h3, h4⟩ := C119_table_partial q e h
  rcases Nat.lt_or_gt_of_ne h.1 with hij | hij
  · exact (fr i j hij op h1 op' h2 l.part).1 ⟨h3, h4⟩
  · exact (fr j i hij op' h2 op h1 l.part).2 ⟨h3, h4⟩

theorem Atomic.friendly {op op' : Op2} (h : Atomic op) (h' : Atomic op') : Friendly op op' := by
  have key : ∀ op op', Atomic op → Atomic op' → ∀ k, ¬ (alters op k = true ∧ unguarded op' k = true) := by
    clear h h' op op'
    intro op op' h h' k
    have off : ∀ op, Atomic op → unguarded op (.field .off) = false ∧ unguarded op (.field .boff) = false ∧ unguarded op .bytes = false ∧
        alters op (.field .cap) = false ∧ alters op (.field .bcap) = false ∧ alters op .header = false := by
      clear h h' op op' k
      intro op h
      cases op with
      | write k e p d | read k e p n =>
        cases p
        · exact nomatch h
        · exact ⟨rfl, rfl, rfl, rfl, rfl, rfl⟩
      | writeBytes p _ | writeByte p _ | readBytes p _ | setBit p _ =>
        cases p
        · exact nomatch h
        · exact ⟨rfl, rfl, rfl, rfl, rfl, rfl⟩
      | readBit p | flipBit p =>
        cases p
        · exact nomatch h
        · exact ⟨rfl, rfl, rfl, rfl, rfl, rfl⟩
      | after o | afterBit o =>
        cases o
        · exact absurd rfl h
        · exact ⟨rfl, rfl, rfl, rfl, rfl, rfl⟩
      | readByte p => exact h.elim
      | readBits p n => exact h.elim
      | setBits p d n => exact h.elim
      | grow n => exact h.elim
      | refresh => exact h.elim
      | reset => exact h.elim
      | offset => exact h.elim
      | bitOffset => exact h.elim
      | _ => exact ⟨rfl, rfl, rfl, rfl, rfl, rfl⟩
    obtain ⟨_, _, _, a1, a2, a3⟩ := off op h
    obtain ⟨b1, b2, b3, _⟩ := off op' h'
    rintro ⟨ha, hu⟩
    rcases k with (_ | _ | _ | _) | _ | _ <;> simp_all
  exact fun k => ⟨key op op' h h' k, key op' op h' h k⟩

/-- C119: the calls that are linearizable by themselves (C67) are in no data race. -/
theorem C119_atomic_partial {c0 c : Conf Op2 Val} {τ : Trace Op2 Val} (q : Quiet c0) (e : Exec exec anyOp c0 τ c)
    (at' : ∀ i, ∀ op ∈ started i τ, Atomic op) (i j : Nat) (op op' : Op2) (l : Loc) : ¬ DataRace exec anyOp c0 τ i j op op' l :=
  C119_friendly_partial q e (fun i j _ op h op' h' => (at' i op h).friendly (at' j op' h')) i j op op' l

/-- C119: goroutines none of which changes a place another one accesses (C114) are in no data race, whatever they read without the mutex. -/
theorem C119_separate_partial {c0 c : Conf Op2 Val} {τ : Trace Op2 Val} {R W : Nat → Loc → Prop} (q : Quiet c0) (h0 : WF c0.sh.st)
    (e : Exec exec anyOp c0 τ c) (ap : Separate R W)
    (st : ∀ i, Stays exec mayRead mayWrite inPlace (R i) (W i) (started i τ) c0.sh) (i j : Nat) (op op' : Op2) (l : Loc) :
    ¬ DataRace exec anyOp c0 τ i j op op' l :=
  separate_hb q ap e (fun i => (st i).keeping (Inv := Sized) uses_footprint keeps_sized h0.sized) i j op op' l

/-- One goroutine writes at the byte offset, another one sets bits at the bit offset; each has looked at its offset before the other one moves the
other offset. -/
def demoFriends : List (Nat × Option Op2) :=
  (0, some (.writeByte none 9)) :: steps 0 2 ++ (1, some (.setBit none 1)) :: steps 1 8 ++ steps 0 9 ++ steps 1 5

theorem demoFriends_runs (P : Op2 → Prop) (h1 : P (.writeByte none 9)) (h2 : P (.setBit none 1)) : ∃ τ c, Exec exec P (rest _ _ demo) τ c ∧
    (∀ i, c.thr i = .idle) ∧ (∀ i j, i < j → ∀ op ∈ started i τ, ∀ op' ∈ started j τ, Friendly op op') ∧
    started 0 τ = [.writeByte none 9] ∧ started 1 τ = [.setBit none 1] := by
  obtain ⟨τ, c, e, hi, hn, h⟩ := sched_ex_only (allowed := P) (ex := exec) (c0 := rest _ _ demo) (rest_quiet demo) 2 demoFriends
    (fun τ _ => (started 0 τ matches [.writeByte none 9]) && (started 1 τ matches [.setBit none 1]))
    (allowed_of fun op ho => by
      rcases (by simpa [demoFriends, steps, List.filterMap_cons, List.filterMap_append, List.filterMap_replicate_of_none] using ho :
        op = _ ∨ op = _) with rfl | rfl <;> assumption) (by decide) (by decide +kernel)
  rw [Bool.and_eq_true] at h
  have s0 : started 0 τ = [.writeByte none 9] := by
    have := h.1
    split at this
    · assumption
    · exact nomatch this
  have s1 : started 1 τ = [.setBit none 1] := by
    have := h.2
    split at this
    · assumption
    · exact nomatch this
  refine ⟨τ, c, e, hi, fun i j hij op h op' h' k => ?_, s0, s1⟩
  by_cases h2 : 2 ≤ j
  · rw [(hn j h2).1] at h'; exact nomatch h'
  · obtain rfl : i = 0 := by omega
    obtain rfl : j = 1 := by omega
    rw [s0] at h
    rw [s1] at h'
    rw [List.mem_singleton.mp h, List.mem_singleton.mp h']
    rcases k with (_ | _ | _ | _) | _ | _ <;> decide

/-- C119's case: both calls look without the mutex and change under it, and they are in no data race. -/
example : ∃ τ c, Exec exec anyOp (rest _ _ demo) τ c ∧ (∀ i, c.thr i = .idle) ∧ started 0 τ = [.writeByte none 9] ∧ started 1 τ = [.setBit none 1] ∧
    ∀ i j op op' l, ¬ DataRace exec anyOp (rest _ _ demo) τ i j op op' l := by
  obtain ⟨τ, c, e, hi, fr, h0, h1⟩ := demoFriends_runs anyOp trivial trivial
  exact ⟨τ, c, e, hi, h0, h1, C119_friendly_partial (rest_quiet demo) e fr⟩

/-- C119's case of separate places: `ReadByte` loads its byte without the mutex, between two writes of other bytes. -/
example : ∃ τ c, Exec exec anyOp (rest _ _ demo) τ c ∧ (∀ i, c.thr i = .idle) ∧ (finished 1 τ).map (·.2) = [.ok (.u8 3)] ∧
    ∀ i j op op' l, ¬ DataRace exec anyOp (rest _ _ demo) τ i j op op' l := by
  obtain ⟨τ, c, e, hi, ap, st, h0, h1, _⟩ := demoSep_runs
  exact ⟨τ, c, e, hi, h1, C119_separate_partial (rest_quiet demo) demo_wf e ap st⟩

end Crunch.V2

namespace Crunch.V1
open V3 (St WF demo demo_wf Buf)

/-! ## v1 -/

/-- C119 for v1, the full statement: goroutines calling methods are never in a data race. -/
def C119_v1_full : Prop :=
  ∀ (s : St), WF s → ∀ (τ : Trace Op1 Val1) (c : Conf Op1 Val1), Exec exec1 anyOp1 (rest _ _ s) τ c → ∀ i j op op' l, ¬ DataRace exec1 anyOp1 (rest _ _ s) τ i j op op' l

/-- For each part of the buffer, a call that changes it under the mutex and one that reads it without. -/
def racers : Part → Op1 × Op1
  | .field .off => (.seek 1 false, .offset)
  | .field .boff => (.seekBit 1 false, .bitOffset)
  | .field .cap => (.refresh, .capacity)
  | .field .bcap => (.refresh, .bitCapacity)
  | .header => (.grow 4, .bytes)
  | .bytes => (.writeByte (some 0) 7, .readByte (some 0))

theorem racers_meet (P : Op1 → Prop) (hP : ∀ k, P (racers k).1 ∧ P (racers k).2) (k : Part) :
    ∃ τ c op op' p r l, Exec exec1 P (rest _ _ demo) τ c ∧ c.thr 0 = .busy op p ∧ c.thr 1 = .busy op' r ∧ p.writes c.sh l ∧ r.reads c.sh l ∧
      l.part = k ∧ op = (racers k).1 ∧ op' = (racers k).2 := by
  have two : ∀ {a b : Op1}, P a ∧ P b → ∀ op ∈ [a, b], P op := fun h op ho => by
    rcases List.mem_cons.mp ho with rfl | ho
    · exact h.1
    · rw [List.mem_singleton.mp ho]; exact h.2
  rcases k with (_ | _ | _ | _) | _ | _
  · obtain ⟨τ, c, op, op', p, r, e, h1, h2, h⟩ := clash_at (ex := exec1) (allowed := P) (c0 := rest _ _ demo)
      ((0, some (.seek 1 false)) :: steps 0 1 ++ [(1, some .offset)]) (· matches .seek 1 false) (· matches .offset) (.field .off)
      (two (hP (.field .off))) (by decide +kernel)
    exact ⟨τ, c, op, op', p, r, _, e, h.1, h.2.1, h.2.2.1, h.2.2.2, rfl, by split at h1 <;> first | rfl | assumption | (cases h1; done),
      by split at h2 <;> first | rfl | assumption | (cases h2; done)⟩
  · obtain ⟨τ, c, op, op', p, r, e, h1, h2, h⟩ := clash_at (ex := exec1) (allowed := P) (c0 := rest _ _ demo)
      ((0, some .refresh) :: steps 0 2 ++ [(1, some .capacity)]) (· matches .refresh) (· matches .capacity) (.field .cap)
      (two (hP (.field .cap))) (by decide +kernel)
    exact ⟨τ, c, op, op', p, r, _, e, h.1, h.2.1, h.2.2.1, h.2.2.2, rfl, by split at h1 <;> first | rfl | assumption | (cases h1; done),
      by split at h2 <;> first | rfl | assumption | (cases h2; done)⟩
  · obtain ⟨τ, c, op, op', p, r, e, h1, h2, h⟩ := clash_at (ex := exec1) (allowed := P) (c0 := rest _ _ demo)
      ((0, some (.seekBit 1 false)) :: steps 0 1 ++ [(1, some .bitOffset)]) (· matches .seekBit 1 false) (· matches .bitOffset) (.field .boff)
      (two (hP (.field .boff))) (by decide +kernel)
    exact ⟨τ, c, op, op', p, r, _, e, h.1, h.2.1, h.2.2.1, h.2.2.2, rfl, by split at h1 <;> first | rfl | assumption | (cases h1; done),
      by split at h2 <;> first | rfl | assumption | (cases h2; done)⟩
  · obtain ⟨τ, c, op, op', p, r, e, h1, h2, h⟩ := clash_at (ex := exec1) (allowed := P) (c0 := rest _ _ demo)
      ((0, some .refresh) :: steps 0 4 ++ [(1, some .bitCapacity)]) (· matches .refresh) (· matches .bitCapacity) (.field .bcap)
      (two (hP (.field .bcap))) (by decide +kernel)
    exact ⟨τ, c, op, op', p, r, _, e, h.1, h.2.1, h.2.2.1, h.2.2.2, rfl, by split at h1 <;> first | rfl | assumption | (cases h1; done),
      by split at h2 <;> first | rfl | assumption | (cases h2; done)⟩
  · obtain ⟨τ, c, op, op', p, r, e, h1, h2, h⟩ := clash_at (ex := exec1) (allowed := P) (c0 := rest _ _ demo)
      ((0, some (.grow 4)) :: steps 0 3 ++ [(1, some .bytes)]) (· matches .grow 4) (· matches .bytes) .header
      (two (hP .header)) (by decide +kernel)
    exact ⟨τ, c, op, op', p, r, _, e, h.1, h.2.1, h.2.2.1, h.2.2.2, rfl, by split at h1 <;> first | rfl | assumption | (cases h1; done),
      by split at h2 <;> first | rfl | assumption | (cases h2; done)⟩
  · obtain ⟨τ, c, op, op', p, r, e, h1, h2, h⟩ := clash_at (ex := exec1) (allowed := P) (c0 := rest _ _ demo)
      ((0, some (.writeByte (some 0) 7)) :: (1, some (.readByte (some 0))) :: steps 1 4 ++ steps 0 3) (· matches .writeByte (some 0) 7) (· matches .readByte (some 0)) (.byte 0 2)
      (two (hP .bytes)) (by decide +kernel)
    exact ⟨τ, c, op, op', p, r, _, e, h.1, h.2.1, h.2.2.1, h.2.2.2, rfl, by split at h1 <;> first | rfl | assumption | (cases h1; done),
      by split at h2 <;> first | rfl | assumption | (cases h2; done)⟩

/-- C119 for v1 is false, and for each part of the buffer: the calls named first change it under the mutex, the ones named second read it without. -/
theorem C119_v1_race_free_false : ¬ C119_v1_full ∧ ∀ k : Part, ∃ τ c l, Exec exec1 anyOp1 (rest _ _ demo) τ c ∧
    DataRace exec1 anyOp1 (rest _ _ demo) τ 0 1 (racers k).1 (racers k).2 l ∧ l.part = k := by
  have key : ∀ k : Part, ∃ τ c l, Exec exec1 anyOp1 (rest _ _ demo) τ c ∧
      DataRace exec1 anyOp1 (rest _ _ demo) τ 0 1 (racers k).1 (racers k).2 l ∧ l.part = k := fun k => by
    obtain ⟨τ, c, _, _, p, r, l, e, h1, h2, hw, hr, hl, rfl, rfl⟩ := racers_meet anyOp1 (fun _ => ⟨trivial, trivial⟩) k
    obtain ⟨τ', c', e', _, d⟩ := race_happens e (by decide) h1 hw h2 (.inl hr)
    exact ⟨_, c', l, e', d, hl⟩
  refine ⟨fun hf => ?_, key⟩
  obtain ⟨τ, c, l, e, d, _⟩ := key .bytes
  exact hf demo demo_wf τ c e _ _ _ _ _ d

/-- C119 for v1, what holds for all calls: in a data race one call changes the place and the other one reads it while it does not hold the mutex, and
which calls do so is told by the tables.  In particular two changes are always ordered. -/
theorem C119_v1_table_partial {c0 c : Conf Op1 Val1} {τ : Trace Op1 Val1} (q : Quiet c0) (e : Exec exec1 anyOp1 c0 τ c) {i j : Nat} {op op' : Op1} {l : Loc}
    (h : DataRace exec1 anyOp1 c0 τ i j op op' l) :
    op ∈ started i τ ∧ op' ∈ started j τ ∧ alters1 op l.part = true ∧ unguarded1 op' l.part = true :=
  race_table (fun op _ => ⟨exec1_brk op, exec1_acc op⟩) q e h

/-- C119 for v1: so goroutines are in no data race if none of their calls changes what a call of another one reads without the mutex. -/
theorem C119_v1_friendly_partial {c0 c : Conf Op1 Val1} {τ : Trace Op1 Val1} (q : Quiet c0) (e : Exec exec1 anyOp1 c0 τ c)
    (fr : ∀ i j, i < j → ∀ op ∈ started i τ, ∀ op' ∈ started j τ, Friendly1 op op') (i j : Nat) (op op' : Op1) (l : Loc) :
    ¬ DataRace exec1 anyOp1 c0 τ i j op op' l := by
  intro h
  obtain ⟨h1, h2, h3, h4⟩ := C119_v1_table_partial q e h
  rcases Nat.lt_or_gt_of_ne h.1 with hij | hij
  · exact (fr i j hij op h1 op' h2 l.part).1 ⟨h3, h4⟩
  · exact (fr j i hij op' h2 op h1 l.part).2 ⟨h3, h4⟩

theorem Atomic1.friendly {op op' : Op1} (h : Atomic1 op) (h' : Atomic1 op') : Friendly1 op op' := by
  have key : ∀ op op', Atomic1 op → Atomic1 op' → ∀ k, ¬ (alters1 op k = true ∧ unguarded1 op' k = true) := by
    clear h h' op op'
    intro op op' h h' k
    have off : ∀ op, Atomic1 op → unguarded1 op (.field .off) = false ∧ unguarded1 op (.field .boff) = false ∧ unguarded1 op .bytes = false ∧
        alters1 op (.field .cap) = false ∧ alters1 op (.field .bcap) = false ∧ alters1 op .header = false := by
      clear h h' op op' k
      intro op h
      cases op with
      | writeComplex p d w e =>
        cases p
        · exact nomatch h
        · exact ⟨rfl, rfl, rfl, rfl, rfl, rfl⟩
      | readComplex p n w e =>
        cases p
        · exact nomatch h.1
        · obtain ⟨_, rfl⟩ := h
          exact ⟨rfl, rfl, rfl, rfl, rfl, rfl⟩
      | writeBytes p _ | writeByte p _ | readBytes p _ | setBit p _ =>
        cases p
        · exact nomatch h
        · exact ⟨rfl, rfl, rfl, rfl, rfl, rfl⟩
      | readBit p | flipBit p =>
        cases p
        · exact nomatch h
        · exact ⟨rfl, rfl, rfl, rfl, rfl, rfl⟩
      | after o | afterBit o =>
        cases o
        · exact absurd rfl h
        · exact ⟨rfl, rfl, rfl, rfl, rfl, rfl⟩
      | readByte p => exact h.elim
      | readBits p n => exact h.elim
      | setBits p d n => exact h.elim
      | grow n => exact h.elim
      | refresh => exact h.elim
      | offset => exact h.elim
      | bitOffset => exact h.elim
      | _ => exact ⟨rfl, rfl, rfl, rfl, rfl, rfl⟩
    obtain ⟨_, _, _, a1, a2, a3⟩ := off op h
    obtain ⟨b1, b2, b3, _⟩ := off op' h'
    rintro ⟨ha, hu⟩
    rcases k with (_ | _ | _ | _) | _ | _ <;> simp_all
  exact fun k => ⟨key op op' h h' k, key op' op h' h k⟩

/-- C119 for v1: the calls that are linearizable by themselves (C67) are in no data race. -/
theorem C119_v1_atomic_partial {c0 c : Conf Op1 Val1} {τ : Trace Op1 Val1} (q : Quiet c0) (e : Exec exec1 anyOp1 c0 τ c)
    (at' : ∀ i, ∀ op ∈ started i τ, Atomic1 op) (i j : Nat) (op op' : Op1) (l : Loc) : ¬ DataRace exec1 anyOp1 c0 τ i j op op' l :=
  C119_v1_friendly_partial q e (fun i j _ op h op' h' => (at' i op h).friendly (at' j op' h')) i j op op' l

/-- C119 for v1: goroutines none of which changes a place another one accesses (C114) are in no data race, whatever they read without the mutex. -/
theorem C119_v1_separate_partial {c0 c : Conf Op1 Val1} {τ : Trace Op1 Val1} {R W : Nat → Loc → Prop} (q : Quiet c0) (h0 : WF c0.sh.st)
    (e : Exec exec1 anyOp1 c0 τ c) (ap : Separate R W)
    (st : ∀ i, Stays exec1 mayRead1 mayWrite1 inPlace1 (R i) (W i) (started i τ) c0.sh) (i j : Nat) (op op' : Op1) (l : Loc) :
    ¬ DataRace exec1 anyOp1 c0 τ i j op op' l :=
  separate_hb q ap e (fun i => (st i).keeping (Inv := fun b : Buf => Sized b ∧ b.buf.cap < 2 ^ 50) uses_footprint keeps_sized ⟨h0.sized, h0.cap_lt⟩) i j op op' l

/-- One goroutine writes at the byte offset, another one sets bits at the bit offset; each has looked at its offset before the other one moves the
other offset. -/
def demoFriends : List (Nat × Option Op1) :=
  (0, some (.writeByte none 9)) :: steps 0 2 ++ (1, some (.setBit none 1)) :: steps 1 8 ++ steps 0 9 ++ steps 1 5

theorem demoFriends_runs (P : Op1 → Prop) (h1 : P (.writeByte none 9)) (h2 : P (.setBit none 1)) : ∃ τ c, Exec exec1 P (rest _ _ demo) τ c ∧
    (∀ i, c.thr i = .idle) ∧ (∀ i j, i < j → ∀ op ∈ started i τ, ∀ op' ∈ started j τ, Friendly1 op op') ∧
    started 0 τ = [.writeByte none 9] ∧ started 1 τ = [.setBit none 1] := by
  obtain ⟨τ, c, e, hi, hn, h⟩ := sched_ex_only (allowed := P) (ex := exec1) (c0 := rest _ _ demo) (rest_quiet demo) 2 demoFriends
    (fun τ _ => (started 0 τ matches [.writeByte none 9]) && (started 1 τ matches [.setBit none 1]))
    (allowed_of fun op ho => by
      rcases (by simpa [demoFriends, steps, List.filterMap_cons, List.filterMap_append, List.filterMap_replicate_of_none] using ho :
        op = _ ∨ op = _) with rfl | rfl <;> assumption) (by decide) (by decide +kernel)
  rw [Bool.and_eq_true] at h
  have s0 : started 0 τ = [.writeByte none 9] := by
    have := h.1
    split at this
    · assumption
    · exact nomatch this
  have s1 : started 1 τ = [.setBit none 1] := by
    have := h.2
    split at this
    · assumption
    · exact nomatch this
  refine ⟨τ, c, e, hi, fun i j hij op h op' h' k => ?_, s0, s1⟩
  by_cases h2 : 2 ≤ j
  · rw [(hn j h2).1] at h'; exact nomatch h'
  · obtain rfl : i = 0 := by omega
    obtain rfl : j = 1 := by omega
    rw [s0] at h
    rw [s1] at h'
    rw [List.mem_singleton.mp h, List.mem_singleton.mp h']
    rcases k with (_ | _ | _ | _) | _ | _ <;> decide

/-- C119's v1 case: both calls look without the mutex and change under it, and they are in no data race. -/
example : ∃ τ c, Exec exec1 anyOp1 (rest _ _ demo) τ c ∧ (∀ i, c.thr i = .idle) ∧ started 0 τ = [.writeByte none 9] ∧ started 1 τ = [.setBit none 1] ∧
    ∀ i j op op' l, ¬ DataRace exec1 anyOp1 (rest _ _ demo) τ i j op op' l := by
  obtain ⟨τ, c, e, hi, fr, h0, h1⟩ := demoFriends_runs anyOp1 trivial trivial
  exact ⟨τ, c, e, hi, h0, h1, C119_v1_friendly_partial (rest_quiet demo) e fr⟩

/-- C119's v1 case of separate places: `ReadComplex` decodes integers without the mutex while other bytes are written. -/
example : ∃ τ c, Exec exec1 anyOp1 (rest _ _ demo) τ c ∧ (∀ i, c.thr i = .idle) ∧ (finished 1 τ).map (·.2) = [.ok (.any (.u16 [0x0E0D, 0x100F]))] ∧
    ∀ i j op op' l, ¬ DataRace exec1 anyOp1 (rest _ _ demo) τ i j op op' l := by
  obtain ⟨τ, c, e, hi, ap, st, h0, h1, _⟩ := demoSep_runs
  exact ⟨τ, c, e, hi, h1, C119_v1_separate_partial (rest_quiet demo) demo_wf e ap st⟩

end Crunch.V1
