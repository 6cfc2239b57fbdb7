import Verif.Props.V2
import Verif.Lemmas.V2Conc
import Verif.Lemmas.Shared
import Verif.Lemmas.Sched
import Verif.Lemmas.Advance
import Verif.Lemmas.Serial

/-!
# Properties of v2 `Buffer` shared by goroutines (C52, C53, C54, C67)

`Exec exec allowed c0 τ c`: any number of goroutines, each calling methods one after another, took from `c0` the
interleaved steps `τ` and reached `c`.  The sections of a trace are the program pieces executed from an acquisition of the
mutex on; `secRun` executes such a piece up to the release.
-/

namespace Crunch.V2
open Spec
open V3 (St WF Val demo demo_wf)

/-- Any method may be called. -/
def anyOp (_ : Op2) : Prop := True

/-! ## C52 -/

/-- At most one goroutine is inside a locked section, and one is exactly when the mutex is taken. -/
theorem C52_mutual_exclusion {c0 c : Conf Op2 Val} {τ : Trace Op2 Val} (q : Quiet c0) (e : Exec exec anyOp c0 τ c) :
    (∀ i j, inside τ i = true → inside τ j = true → i = j) ∧ (c.sh.locked = true ↔ ∃ i, inside τ i = true) :=
  shared_exclusion (fun op _ => exec_brk op) q e

/-- A step that changes memory or a field of the buffer is taken by the goroutine inside. -/
theorem C52_changes_inside {c0 c c' : Conf Op2 Val} {τ : Trace Op2 Val} (q : Quiet c0) (e : Exec exec anyOp c0 τ c)
    {i : Nat} {a : Act Op2 Val} (st : Step exec anyOp c i a c') (h : c'.sh.st ≠ c.sh.st) : inside τ i = true :=
  shared_changes (fun op _ => exec_brk op) q e st h

/-- Two goroutines: the second one waits while the first is in the middle of a write. -/
def demoCalls : List (Nat × Option Op2) :=
  (0, some (.writeByte (some 1) 7)) :: (1, some (.flipBit (some 8))) :: (1, none) :: steps 0 4

example : ∃ τ c, Exec exec anyOp (rest _ _ demo) τ c ∧ inside τ 0 = true ∧ inside τ 1 = false ∧ c.sh.locked = true ∧
    c.sh.st.bytes = [3, 7, 5, 6, 7, 8, 9, 10, 11, 12, 13, 14] := by
  obtain ⟨τ, c, e, h⟩ := sched_ex (allowed := anyOp) (ex := exec) (c0 := rest _ _ demo) demoCalls
    (fun τ c => inside τ 0 && !inside τ 1 && c.sh.locked && c.sh.st.bytes == [3, 7, 5, 6, 7, 8, 9, 10, 11, 12, 13, 14])
    (fun _ _ _ _ => trivial) (by decide +kernel)
  simp only [Bool.and_eq_true, beq_iff_eq, Bool.not_eq_true'] at h
  exact ⟨τ, c, e, h.1.1.1, h.1.1.2, h.1.2, h.2⟩

/-! ## C53 -/

/-- Whenever the mutex is free, memory and fields are those of the sections executed one after another in the order in which
the mutex was acquired. -/
theorem C53_sections_serial {c0 c : Conf Op2 Val} {τ : Trace Op2 Val} (q : Quiet c0) (e : Exec exec anyOp c0 τ c)
    (hf : c.sh.locked = false) : c.sh.st = (sections τ).foldl (fun s p => secRun p s) c0.sh.st :=
  shared_serial_free (fun op _ => exec_brk op) q e hf

/-- At any moment: one goroutine has still to finish its section, after which the same holds; or it holds already (nobody is
inside, or the one inside has panicked there). -/
theorem C53_sections_serial_always {c0 c : Conf Op2 Val} {τ : Trace Op2 Val} (q : Quiet c0) (e : Exec exec anyOp c0 τ c) :
    (∃ i op p, inside τ i = true ∧ c.thr i = .busy op p ∧ secRun p c.sh.st = (sections τ).foldl (fun s p => secRun p s) c0.sh.st) ∨
      c.sh.st = (sections τ).foldl (fun s p => secRun p s) c0.sh.st :=
  shared_serial (fun op _ => exec_brk op) q e

/-- A write of two bytes and a write of one byte into the same place, the second one arriving in the middle of the first. -/
def demoPair : Slice := { arr := 1, off := 0, len := 2, cap := 3 }

def demoRace : List (Nat × Option Op2) :=
  (0, some (.writeBytes (some 1) demoPair)) :: (1, some (.writeByte (some 2) 7)) :: (1, none) :: steps 0 10 ++ steps 1 5

example : ∃ τ c, Exec exec anyOp (rest _ _ demo) τ c ∧ (∀ i, c.thr i = .idle) ∧ c.sh.locked = false ∧ (sections τ).length = 2 ∧
    c.sh.st.bytes = [3, 0xAA, 7, 6, 7, 8, 9, 10, 11, 12, 13, 14] := by
  obtain ⟨τ, c, e, hi, h⟩ := sched_ex_done (allowed := anyOp) (ex := exec) (rest_quiet demo) 2 demoRace
    (fun τ c => !c.sh.locked && (sections τ).length == 2 && c.sh.st.bytes == [3, 0xAA, 7, 6, 7, 8, 9, 10, 11, 12, 13, 14])
    (fun _ _ _ _ => trivial) (by decide) (by decide +kernel)
  simp only [Bool.and_eq_true, beq_iff_eq, Bool.not_eq_true'] at h
  exact ⟨τ, c, e, hi, h.1.1, h.1.2, h.2⟩

/-! ## C67 -/

/-- Goroutines making only calls with a single locked section: put the calls in the order `points τ`, in which they acquire
the mutex (or end, if they fail before).  Executed alone in that order they have the same outcomes: goroutine by goroutine,
what the calls returned or panicked with is what they do in the sequential execution, where at most the last is still
running; and when nobody is running, memory, fields and mutex are the same. -/
theorem C67_linearizable {c0 c : Conf Op2 Val} {τ : Trace Op2 Val} (q : Quiet c0) (e : Exec exec Atomic c0 τ c) :
    (∀ i, ∃ pending, ofThread i (seqRun exec (points τ) c0.sh).1 = finished i τ ++ pending ∧ pending.length ≤ 1 ∧
      (c.thr i = .idle → pending = [])) ∧
    (∀ i, ∃ waiting, started i τ = ofThread i (points τ) ++ waiting ∧ waiting.length ≤ 1 ∧ (c.thr i = .idle → waiting = [])) ∧
    ((∀ i, c.thr i = .idle) → c.sh = (seqRun exec (points τ) c0.sh).2) :=
  shared_linearizable exec_once q e

/-- The order respects real time: what has its place after a part of the execution keeps it, and what happens later comes
behind. -/
theorem C67_real_time (τ τ' : Trace Op2 Val) : ∃ later, points (τ ++ τ') = points τ ++ later := points_prefix τ τ'

/-- The calls of `demoRace` are of this kind; their order is the one in which they got the mutex. -/
example : ∃ τ c, Exec exec Atomic (rest _ _ demo) τ c ∧ (∀ i, c.thr i = .idle) ∧
    points τ = [(0, .writeBytes (some 1) demoPair), (1, .writeByte (some 2) 7)] := by
  obtain ⟨τ, c, e, hi, h⟩ := sched_ex_done (allowed := Atomic) (ex := exec) (rest_quiet demo) 2 demoRace
    (fun τ _ => points τ matches [(0, .writeBytes (some 1) ⟨1, 0, 2, 3⟩), (1, .writeByte (some 2) 7)])
    (allowed_of fun op ho => by
      rcases (by simpa [demoRace, steps, List.filterMap_cons, List.filterMap_append, List.filterMap_replicate_of_none] using ho :
        op = _ ∨ op = _) with rfl | rfl <;> rfl) (by decide) (by decide +kernel)
  refine ⟨τ, c, e, hi, ?_⟩
  split at h
  · assumption
  · exact nomatch h

/-! ## C54 -/

/-- Only `WriteBytesNext` is called. -/
def WriteNextOnly : Op2 → Prop
  | .writeBytes none _ => True
  | _ => False

/-- C54: what concurrent `WriteBytesNext` calls do, when they all succeed, is what they do one after another in some order
(keeping the order of each goroutine), so that each writes a region of its own. -/
def C54_full : Prop :=
  ∀ (s : St), WF s → ∀ (τ : Trace Op2 Val) (c : Conf Op2 Val), Exec exec WriteNextOnly (rest _ _ s) τ c → (∀ i, c.thr i = .idle) →
    (∀ i, ∀ x ∈ finished i τ, ∃ v, x.2 = .ok v) →
    ∃ L : List (Nat × Op2), (∀ i, ofThread i L = started i τ) ∧ c.sh.st.bytes = (seqRun exec L (rest Op2 Val s).sh).2.st.bytes

/-- Two goroutines append one byte each and both read the offset before either has moved it. -/
def demoLost : List (Nat × Option Op2) :=
  (0, some (.writeBytes none ⟨1, 0, 1, 3⟩)) :: (1, some (.writeBytes none ⟨1, 1, 1, 2⟩)) :: (0, none) :: (1, none) :: steps 0 11 ++ steps 1 11

theorem two_calls {L : List (Nat × α)} {a b : α} (h0 : ofThread 0 L = [a]) (h1 : ofThread 1 L = [b])
    (h : ∀ i, 2 ≤ i → ofThread i L = []) : L = [(0, a), (1, b)] ∨ L = [(1, b), (0, a)] := by
  have cons : ∀ (i j : Nat) (x : α) (M : List (Nat × α)), ofThread j ((i, x) :: M) = if i = j then x :: ofThread j M else ofThread j M := by
    intro i j x M
    unfold ofThread
    by_cases e : i = j <;> simp [e]
  have none : ∀ M : List (Nat × α), (∀ i, ofThread i M = []) → M = [] := by
    intro M hM
    cases M with
    | nil => rfl
    | cons x M => have := hM x.1; rw [cons, if_pos rfl] at this; exact nomatch this
  cases L with
  | nil => exact nomatch h0
  | cons x L =>
    obtain ⟨i, x⟩ := x
    rw [cons] at h0 h1
    have h' : ∀ k, 2 ≤ k → i ≠ k := fun k hk e => by
      have := h k hk
      rw [cons, if_pos e] at this
      exact nomatch this
    have h2 : ∀ k, 2 ≤ k → ofThread k L = [] := fun k hk => by
      have := h k hk
      rwa [cons, if_neg (h' k hk)] at this
    have hi : i = 0 ∨ i = 1 := by
      have := h' i
      omega
    have finish : ∀ (k : Nat) (y : α), ofThread k L = [y] → (∀ m, m ≠ k → ofThread m L = []) → L = [(k, y)] := by
      intro k y hk hm
      cases L with
      | nil => exact nomatch hk
      | cons z L =>
        obtain ⟨j, z⟩ := z
        rw [cons] at hk
        have hj : j = k := Classical.byContradiction fun e => by
          have := hm j e
          rw [cons, if_pos rfl] at this
          exact nomatch this
        subst hj
        rw [if_pos rfl] at hk
        have e1 := (List.cons.inj hk).1
        have e2 := (List.cons.inj hk).2
        subst e1
        rw [none L fun m => ?_]
        by_cases e : m = j
        · rw [e]; exact e2
        · have := hm m e
          rwa [cons, if_neg (fun e' => e e'.symm)] at this
    rcases hi with rfl | rfl
    · rw [if_pos rfl] at h0
      rw [if_neg (by decide)] at h1
      have e1 := (List.cons.inj h0).1
      subst e1
      left
      rw [finish 1 b h1 fun m hm => ?_]
      rcases Nat.lt_or_ge m 2 with h3 | h3
      · have : m = 0 := by omega
        rw [this]; exact (List.cons.inj h0).2
      · exact h2 m h3
    · rw [if_pos rfl] at h1
      rw [if_neg (by decide)] at h0
      have e1 := (List.cons.inj h1).1
      subst e1
      right
      rw [finish 0 a h0 fun m hm => ?_]
      rcases Nat.lt_or_ge m 2 with h3 | h3
      · have : m = 1 := by omega
        rw [this]; exact (List.cons.inj h1).2
      · exact h2 m h3

/-- C54 is false: one of two concurrent writes is lost, and a byte nobody wrote is left between. -/
theorem C54_own_regions_false : ¬ C54_full := by
  intro hfull
  obtain ⟨τ, c, e, hi, hn, h⟩ := sched_ex_only (allowed := WriteNextOnly) (ex := exec) (rest_quiet demo) 2 demoLost
    (fun τ c => (started 0 τ matches [.writeBytes none ⟨1, 0, 1, 3⟩]) && (started 1 τ matches [.writeBytes none ⟨1, 1, 1, 2⟩]) &&
      (finished 0 τ).all (fun x => x.2 matches .ok _) && (finished 1 τ).all (fun x => x.2 matches .ok _) &&
      c.sh.st.bytes == [3, 4, 5, 0xBB, 7, 8, 9, 10, 11, 12, 13, 14] && c.sh.st.b.off == 5)
    (allowed_of fun op ho => by
      rcases (by simpa [demoLost, steps, List.filterMap_cons, List.filterMap_append, List.filterMap_replicate_of_none] using ho :
        op = _ ∨ op = _) with rfl | rfl <;> trivial) (by decide) (by decide +kernel)
  simp only [Bool.and_eq_true, beq_iff_eq] at h
  obtain ⟨⟨⟨⟨⟨h0, h1⟩, f0⟩, f1⟩, hb⟩, _⟩ := h
  have h0 : started 0 τ = [.writeBytes none ⟨1, 0, 1, 3⟩] := by
    split at h0
    · assumption
    · exact nomatch h0
  have h1 : started 1 τ = [.writeBytes none ⟨1, 1, 1, 2⟩] := by
    split at h1
    · assumption
    · exact nomatch h1
  have hok : ∀ i, ∀ x ∈ finished i τ, ∃ v, x.2 = .ok v := by
    intro i x hx
    have key : ∀ {l : List (Op2 × Res Val)}, (l.all fun x => x.2 matches .ok _) = true → x ∈ l → ∃ v, x.2 = .ok v := by
      intro l hl hx
      have := List.all_eq_true.mp hl x hx
      split at this
      · exact ⟨_, by assumption⟩
      · exact nomatch this
    match i, hx with
    | 0, hx => exact key f0 hx
    | 1, hx => exact key f1 hx
    | i + 2, hx => rw [(hn (i + 2) (by omega)).2] at hx; exact nomatch hx
  obtain ⟨L, hL, hs⟩ := hfull demo demo_wf τ c e hi hok
  rw [hb] at hs
  rcases two_calls ((hL 0).trans h0) ((hL 1).trans h1) (fun i h => (hL i).trans (hn i h).1) with rfl | rfl <;>
    exact absurd hs (by decide +kernel)

/-- Byte offsets never lose a move: as long as nobody seeks, resets or aligns, the byte offset reached is the initial one plus the
lengths of the completed `…Next` calls, each counted once (`A` lists them in the order of their moves). -/
theorem C54_moves_kept_partial {c0 c : Conf Op2 Val} {τ : Trace Op2 Val} (q : Quiet c0) (e : Exec exec NoSeek c0 τ c)
    (hi : ∀ i, c.thr i = .idle) :
    ∃ A : List (Nat × Int64), (∀ i, ofThread i A = moves advOff i τ) ∧ c.sh.st.b.off = c0.sh.st.b.off + total (A.map (·.2)) := by
  obtain ⟨A, v⟩ := exec_adv (adv := advOff) (f := .off) (fun op _ n h => exec_advOff op n h) exec_neutralOff q e
  refine ⟨A, fun i => ?_, ?_⟩
  · have w := v.place i
    rw [hi i] at w
    cases w; assumption
  · rcases C53_sections_serial_always q (e.mono fun _ _ => trivial) with ⟨i, _, _, _, h, _⟩ | h
    · rw [hi i] at h; exact nomatch h
    · rw [h]; exact v.value

/-- The same for bit offsets. -/
theorem C54_bit_moves_kept_partial {c0 c : Conf Op2 Val} {τ : Trace Op2 Val} (q : Quiet c0) (e : Exec exec NoSeekBit c0 τ c)
    (hi : ∀ i, c.thr i = .idle) :
    ∃ A : List (Nat × Int64), (∀ i, ofThread i A = moves advBoff i τ) ∧ c.sh.st.b.boff = c0.sh.st.b.boff + total (A.map (·.2)) := by
  obtain ⟨A, v⟩ := exec_adv (adv := advBoff) (f := .boff) (fun op _ n h => exec_advBoff op n h) exec_neutralBoff q e
  refine ⟨A, fun i => ?_, ?_⟩
  · have w := v.place i
    rw [hi i] at w
    cases w; assumption
  · rcases C53_sections_serial_always q (e.mono fun _ _ => trivial) with ⟨i, _, _, _, h, _⟩ | h
    · rw [hi i] at h; exact nomatch h
    · rw [h]; exact v.value

/-- Calls of any kind that do not overlap in time, whichever goroutines make them, do what they do one after another. -/
theorem C54_no_overlap_partial {c0 c : Conf Op2 Val} {τ : Trace Op2 Val} (q : Quiet c0) (e : Exec exec anyOp c0 τ c)
    (no : NoOverlap τ) (hi : ∀ i, c.thr i = .idle) :
    c.sh = (seqRun exec (calls τ) c0.sh).2 ∧ ∀ i, finished i τ = ofThread i (seqRun exec (calls τ) c0.sh).1 := by
  cases exec_serial q e no with
  | quiet _ h1 h2 => exact ⟨h1, h2⟩
  | @busy i _ _ _ h _ _ _ _ => rw [hi i] at h; exact nomatch h

/-- In the execution that refutes C54 both moves count: 3 + 1 + 1. -/
example : ∃ τ c, Exec exec NoSeek (rest _ _ demo) τ c ∧ (∀ i, c.thr i = .idle) ∧ moves advOff 0 τ = [1] ∧ moves advOff 1 τ = [1] ∧
    c.sh.st.b.off = 5 := by
  obtain ⟨τ, c, e, hi, h⟩ := sched_ex_done (allowed := NoSeek) (ex := exec) (rest_quiet demo) 2 demoLost
    (fun τ c => moves advOff 0 τ == [1] && moves advOff 1 τ == [1] && c.sh.st.b.off == 5)
    (allowed_of fun op ho => by
      rcases (by simpa [demoLost, steps, List.filterMap_cons, List.filterMap_append, List.filterMap_replicate_of_none] using ho :
        op = _ ∨ op = _) with rfl | rfl <;> trivial) (by decide) (by decide +kernel)
  simp only [Bool.and_eq_true, beq_iff_eq] at h
  exact ⟨τ, c, e, hi, h.1.1, h.1.2, h.2⟩

/-- The same for bits: two goroutines write one bit each, both at bit 5, and the bit offset ends at 7. -/
def demoLostBits : List (Nat × Option Op2) :=
  (0, some (.setBit none 1)) :: (1, some (.setBit none 0)) :: (0, none) :: (1, none) :: steps 0 12 ++ steps 1 12

example : ∃ τ c, Exec exec NoSeekBit (rest _ _ demo) τ c ∧ (∀ i, c.thr i = .idle) ∧ moves advBoff 0 τ = [1] ∧ moves advBoff 1 τ = [1] ∧
    c.sh.st.b.boff = 7 := by
  obtain ⟨τ, c, e, hi, h⟩ := sched_ex_done (allowed := NoSeekBit) (ex := exec) (rest_quiet demo) 2 demoLostBits
    (fun τ c => moves advBoff 0 τ == [1] && moves advBoff 1 τ == [1] && c.sh.st.b.boff == 7)
    (allowed_of fun op ho => by
      rcases (by simpa [demoLostBits, steps, List.filterMap_cons, List.filterMap_append, List.filterMap_replicate_of_none] using ho :
        op = _ ∨ op = _) with rfl | rfl <;> trivial) (by decide) (by decide +kernel)
  simp only [Bool.and_eq_true, beq_iff_eq] at h
  exact ⟨τ, c, e, hi, h.1.1, h.1.2, h.2⟩

/-- Two goroutines taking turns. -/
def demoTurns : List (Nat × Option Op2) :=
  (0, some (.writeBytes none ⟨1, 0, 1, 3⟩)) :: steps 0 12 ++ (1, some (.writeBytes none ⟨1, 1, 1, 2⟩)) :: steps 1 12

example : ∃ τ c, Exec exec anyOp (rest _ _ demo) τ c ∧ NoOverlap τ ∧ (∀ i, c.thr i = .idle) ∧
    c.sh.st.bytes = [3, 4, 5, 0xAA, 0xBB, 8, 9, 10, 11, 12, 13, 14] := by
  obtain ⟨τ, c, e, hi, h⟩ := sched_ex_done (allowed := anyOp) (ex := exec) (rest_quiet demo) 2 demoTurns
    (fun τ c => noOverlapB 2 τ && c.sh.st.bytes == [3, 4, 5, 0xAA, 0xBB, 8, 9, 10, 11, 12, 13, 14])
    (fun _ _ _ _ => trivial) (by decide) (by decide +kernel)
  simp only [Bool.and_eq_true, beq_iff_eq] at h
  exact ⟨τ, c, e, noOverlap_of h.1, hi, h.2⟩

end Crunch.V2
