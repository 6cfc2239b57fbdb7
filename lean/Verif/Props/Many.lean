import Verif.Lemmas.ManyOps
import Verif.Lemmas.ManyOrder
import Verif.Lemmas.ManySched
import Verif.Props.Cursors

/-!
# Several buffers in one program (C131)

The claims about goroutines so far are about one buffer.  A program has several.  Buffers whose bytes are not shared compose: what
happens to one of them is an execution of goroutines that share only this one, and calls that are linearizable on each buffer are
linearizable on all of them together, in one order.
-/

namespace Crunch

/-- No byte of an element of one of the buffers is in reach of another one, or among the bytes that calls on another one copy from. -/
def Apart (b : Nat → V3.Buf) (S : Nat → Nat → Nat → Prop) : Prop :=
  ∀ k l, k ≠ l → ∀ a i, (b k).buf.holds a i → ¬ (b l).buf.reach a i ∧ ¬ S l a i

/-- The argument, if any, is among the bytes of `S`. -/
def Among (S : Nat → Nat → Prop) (s : Option Slice) : Prop := ∀ t, s = some t → ∀ a i, t.holds a i → S a i

section
variable {ex : O → Prog V} {allowed : Nat → O → Prop} {c0 c : Confs O V} {τ : Trace (Nat × O) V}

theorem Execs.allowed_of_started (e : Execs ex allowed c0 τ c) {i : Nat} {y : Nat × O} (h : y ∈ started i τ) : allowed y.1 y.2 := by
  induction e with
  | nil => exact nomatch h
  | snoc e st ih =>
    rw [started_snoc] at h
    rcases List.mem_append.mp h with h | h
    · exact ih h
    · cases st with
      | start k o hi ha =>
        unfold started at h
        split at h
        · rcases List.mem_cons.mp h with rfl | h
          · exact ha
          · exact nomatch h
        · exact nomatch h
      | _ => exact nomatch h

theorem Execs.mono {allowed' : Nat → O → Prop} (e : Execs ex allowed c0 τ c) (h : ∀ k op, allowed k op → allowed' k op) : Execs ex allowed' c0 τ c := by
  induction e with
  | nil => exact .nil
  | snoc e st ih =>
    refine ih.snoc ?_
    cases st with
    | start k o hi ha => exact .start k o hi (h _ _ ha)
    | did h1 h2 => exact .did h1 h2
    | finish h1 h2 => exact .finish h1 h2

/-- What a buffer's calls may look at. -/
def mayRead (b : Nat → V3.Buf) (S : Nat → Nat → Nat → Prop) (k a i : Nat) : Prop := (b k).buf.reach a i ∨ S k a i

/-- What a buffer's calls may change. -/
def mayWrite (b : Nat → V3.Buf) (k a i : Nat) : Prop := (b k).buf.holds a i

theorem Apart.distinct {b : Nat → V3.Buf} {S : Nat → Nat → Nat → Prop} (h : Apart b S) : Distinct (mayRead b S) (mayWrite b) :=
  fun k l n a i hw hr => hr.elim (h k l n a i hw).1 (h k l n a i hw).2

theorem own_of (b : Nat → V3.Buf) (S : Nat → Nat → Nat → Prop) (k : Nat) : Own (b k).buf (mayRead b S k) (mayWrite b k) :=
  ⟨fun _ _ h => .inl h, fun _ _ h => h⟩

theorem holds_reach {s : Slice} {a i : Nat} (h : s.holds a i) : s.reach a i := ⟨h.1, h.2.1, .inl h.2.2⟩

/-- What C131 says about one buffer. -/
structure OneBuffer (ex : O → Prog V) (allowed : O → Prop) (S : Nat → Nat → Prop) (c0 : Confs O V) (τ : Trace (Nat × O) V) (c : Confs O V) (k : Nat)
    (d : Conf O V) : Prop where
  exec : Exec ex allowed (c0.at k) (onBuf k τ) d
  thr : d.thr = (c.at k).thr
  fields : d.sh.st.b = c.sh.b k
  mutex : d.sh.locked = c.sh.locked k
  bytes : ∀ a i, (c0.sh.b k).buf.reach a i ∨ S a i → (d.sh.st.mem.array a)[i]? = (c.sh.mem.array a)[i]?

theorem composition {S : Nat → Nat → Nat → Prop} (sep : Apart c0.sh.b S) (idle : ∀ i, c0.thr i = .idle)
    (hin : ∀ k op, allowed k op → (ex op).In (c0.sh.b k).buf (mayRead c0.sh.b S k) (mayWrite c0.sh.b k)) (x : Execs ex allowed c0 τ c) :
    (∀ k, ∃ d, OneBuffer ex (allowed k) (S k) c0 τ c k d) ∧
    (∀ k i, finished i (onBuf k τ) = donesOn k (finished i τ)) ∧
    (∀ k, (c.sh.b k).buf = (c0.sh.b k).buf) ∧
    (∀ a i, (∀ k, ¬ (c0.sh.b k).buf.holds a i) → (c.sh.mem.array a)[i]? = (c0.sh.mem.array a)[i]?) := by
  have sn := seen sep.distinct idle (fun _ => rfl) hin x
  refine ⟨fun k => ?_, fun k i => (ordered idle x).dones k i, sn.slice, sn.bytes⟩
  obtain ⟨d, h1, h2, h3⟩ := sn.one k
  exact ⟨d, h1, h2, h3.b, h3.locked, h3.bytes⟩

theorem linear {S : Nat → Nat → Nat → Prop} (sep : Apart c0.sh.b S) (idle : ∀ i, c0.thr i = .idle) (free : ∀ k, c0.sh.locked k = false)
    (hin : ∀ k op, allowed k op → (ex op).In (c0.sh.b k).buf (mayRead c0.sh.b S k) (mayWrite c0.sh.b k)) (x : Execs ex allowed c0 τ c)
    {own : Nat → Nat → Field → Bool} (disj : ∀ k i j f, own k i f = true → own k j f = true → i = j)
    (hpre : ∀ i, ∀ y ∈ started i τ, Pre (own y.1 i) (ex y.2)) (done : ∀ i, c.thr i = .idle) :
    (∀ i, started i τ = ofThread i (points τ)) ∧
    (∀ i, finished i τ = ofThread i (seqRuns ex (points τ) c0.sh).1) ∧
    c.sh.b = (seqRuns ex (points τ) c0.sh).2.b ∧ c.sh.locked = (seqRuns ex (points τ) c0.sh).2.locked ∧
    (∀ a, c.sh.mem.array a = (seqRuns ex (points τ) c0.sh).2.mem.array a) := by
  have od := ordered idle x
  obtain ⟨h1, h2, h3, h4⟩ := locality sep.distinct idle (fun _ => rfl) hin x done (fun k d e hd => by
    obtain ⟨l1, _, l3⟩ := owned_linearizable (disj k) ⟨fun i => at_thr_idle (idle i), free k⟩ e (fun i op ho => by
      rw [od.began k i] at ho
      obtain ⟨y, hy, rfl⟩ := List.mem_map.mp ho
      obtain ⟨hy, hk⟩ := List.mem_filter.mp hy
      have hk : y.1 = k := by simpa using hk
      rw [← hk]
      exact hpre i y hy)
    refine ⟨fun i => ?_, l3 hd⟩
    obtain ⟨p, e1, _, e3⟩ := l1 i
    rw [e3 (hd i), List.append_nil] at e1
    exact e1.symm) fun i y hy => hin _ _ (x.allowed_of_started hy)
  exact ⟨h1, h2, funext fun k => (h3 k).1, funext fun k => (h3 k).2, fun a => List.ext_getElem? fun i =>
    h4 a i fun ⟨k, hk⟩ => ⟨k, .inl (holds_reach hk)⟩⟩

end

/-- Everybody between calls, every mutex free. -/
def rests (O V : Type) (mem : Heap) (b : Nat → V3.Buf) : Confs O V := { thr := fun _ => .idle, sh := { mem, b, locked := fun _ => false } }

end Crunch

namespace Crunch.V2
open V3 (Val)

/-- C131: any number of v2 buffers that share no bytes, and goroutines calling their methods other than Grow and Reset: the steps on one
of them are an execution of goroutines that share only this one — the same calls, the same outcomes, and in the end the same fields,
the same mutex and the same bytes.  A byte in no buffer does not change. -/
theorem C131_composition {allowed : Nat → Op2 → Prop} {S : Nat → Nat → Nat → Prop} {c0 c : Confs Op2 Val} {τ : Trace (Nat × Op2) Val}
    (sep : Apart c0.sh.b S) (idle : ∀ i, c0.thr i = .idle) (hall : ∀ k op, allowed k op → inPlace op = true ∧ Among (S k) (sourceOf op))
    (x : Execs exec allowed c0 τ c) :
    (∀ k, ∃ d, OneBuffer exec (allowed k) (S k) c0 τ c k d) ∧
    (∀ k i, finished i (onBuf k τ) = donesOn k (finished i τ)) ∧
    (∀ k, (c.sh.b k).buf = (c0.sh.b k).buf) ∧
    (∀ a i, (∀ k, ¬ (c0.sh.b k).buf.holds a i) → (c.sh.mem.array a)[i]? = (c0.sh.mem.array a)[i]?) :=
  composition sep idle (fun k op h => exec_in (own_of ..) op (hall k op h).1 fun t ht a i hi => .inr ((hall k op h).2 t ht a i hi)) x

theorem whole_inPlace {op : Op2} (h : Whole op) : inPlace op = true := by cases op <;> first | rfl | exact h.elim

/-- C131: when the calls are whole and each offset of each buffer is used by one goroutine at most, there is one order of all calls, on
whatever buffer, such that the calls made one at a time in this order have the outcomes they had and leave what they left.  (The order is
that of `points`, in which a call comes between its beginning and its end.) -/
theorem C131_linearizable {S : Nat → Nat → Nat → Prop} {c0 c : Confs Op2 Val} {τ : Trace (Nat × Op2) Val} (sep : Apart c0.sh.b S)
    (idle : ∀ i, c0.thr i = .idle) (free : ∀ k, c0.sh.locked k = false) {own : Nat → Nat → Field → Bool}
    (disj : ∀ k i j f, own k i f = true → own k j f = true → i = j)
    (x : Execs exec (fun k op => Whole op ∧ Among (S k) (sourceOf op)) c0 τ c)
    (hu : ∀ i, ∀ y ∈ started i τ, ∀ f, uses y.2 f = true → own y.1 i f = true) (done : ∀ i, c.thr i = .idle) :
    (∀ i, started i τ = ofThread i (points τ)) ∧
    (∀ i, finished i τ = ofThread i (seqRuns exec (points τ) c0.sh).1) ∧
    c.sh.b = (seqRuns exec (points τ) c0.sh).2.b ∧ c.sh.locked = (seqRuns exec (points τ) c0.sh).2.locked ∧
    (∀ a, c.sh.mem.array a = (seqRuns exec (points τ) c0.sh).2.mem.array a) :=
  linear sep idle free (fun _ op h => exec_in (own_of ..) op (whole_inPlace h.1) fun t ht a i hi => .inr (h.2 t ht a i hi)) x disj
    (fun i y hy => (exec_pre y.2 (x.allowed_of_started hy).1).mono (hu i y hy)) done

/-- C131: the order respects real time: what is settled stays settled. -/
theorem C131_real_time (τ τ' : Trace (Nat × Op2) Val) : ∃ later, points (τ ++ τ') = points τ ++ later := points_prefix τ τ'

/-- Two buffers over different parts of one array; the others are empty. -/
def demoBufs : Nat → V3.Buf
  | 0 => { buf := { arr := 0, off := 2, len := 3, cap := 3 }, off := 1, cap := 3, boff := 0, bcap := 24 }
  | 1 => { buf := { arr := 0, off := 5, len := 2, cap := 2 }, off := 0, cap := 2, boff := 0, bcap := 16 }
  | _ => { buf := { arr := 2, off := 0, len := 0, cap := 0 }, off := 0, cap := 0, boff := 0, bcap := 0 }

/-- The array of the two, and one that is copied from. -/
def demoHeap : Heap := { arrays := [[1, 2, 3, 4, 5, 6, 7, 8], [0xAA, 0xBB, 0xCC]], slack := fun _ n => n }

/-- Calls copy from the second array. -/
def demoFrom (_ a _ : Nat) : Prop := a = 1

theorem demoBufs_apart : Apart demoBufs demoFrom := by
  have h : ∀ k l, k ≠ l → ∀ a i, (demoBufs k).buf.holds a i → ¬ (demoBufs l).buf.reach a i := fun k l n a i hk hl => by
    match k, l with
    | 0, 0 => exact n rfl
    | 1, 1 => exact n rfl
    | 0, 1 => simp [demoBufs, Slice.holds, Slice.reach] at hk hl; omega
    | 1, 0 => simp [demoBufs, Slice.holds, Slice.reach] at hk hl; omega
    | k + 2, _ => simp [demoBufs, Slice.holds] at hk
    | _, l + 2 => simp [demoBufs, Slice.reach] at hl
  refine fun k l n a i hk => ⟨h k l n a i hk, fun hs => ?_⟩
  cases hs
  match k with
  | 0 => exact nomatch hk.1
  | 1 => exact nomatch hk.1
  | k + 2 => exact nomatch hk.1

/-- Goroutine 0 copies two bytes to the first buffer at its offset; in the middle of it goroutine 1 writes a byte of the second buffer. -/
def demoMany : List (Nat × Option (Nat × Op2)) :=
  (0, some (0, .writeBytes none ⟨1, 0, 2, 3⟩)) :: steps 0 5 ++ (1, some (1, .writeByte (some 0) 9)) :: steps 1 6 ++ steps 0 10

/-- Goroutine 0 has the offset of the first buffer. -/
def demoManyOwn (k i : Nat) (f : Field) : Bool := k == 0 && i == 0 && f == .off

/-- The theorems apply to this execution, whatever else is asked of the two calls; the call that began and took the mutex of its buffer
first comes first, though it ends last. -/
theorem demoMany_runs (P : Op2 → Prop) (h0 : P (.writeBytes none ⟨1, 0, 2, 3⟩)) (h1 : P (.writeByte (some 0) 9)) :
    ∃ τ c, Execs exec (fun k op => (Whole op ∧ Among (demoFrom k) (sourceOf op)) ∧ P op) (rests _ _ demoHeap demoBufs) τ c ∧ (∀ i, c.thr i = .idle) ∧
    (∀ i, ∀ y ∈ started i τ, ∀ f, uses y.2 f = true → demoManyOwn y.1 i f = true) ∧
    points τ = [(0, 0, .writeBytes none ⟨1, 0, 2, 3⟩), (1, 1, .writeByte (some 0) 9)] ∧
    c.sh.mem.array 0 = [1, 2, 3, 0xAA, 0xBB, 9, 7, 8] := by
  obtain ⟨τ, c, e, hi, hu, h⟩ := scheds_ex (ex := exec) (allowed := fun k op => (Whole op ∧ Among (demoFrom k) (sourceOf op)) ∧ P op)
    (Q := fun i y => ∀ f, uses y.2 f = true → demoManyOwn y.1 i f = true) (c0 := rests _ _ demoHeap demoBufs) (fun _ => rfl) 2 demoMany
    (fun τ c => (points τ matches [(0, 0, .writeBytes none ⟨1, 0, 2, 3⟩), (1, 1, .writeByte (some 0) 9)]) && (c.sh.mem.array 0 == [1, 2, 3, 0xAA, 0xBB, 9, 7, 8]))
    (fun x hx => by
      rcases (by simpa [demoMany, steps, List.filterMap_cons, List.filterMap_append, List.filterMap_replicate_of_none] using hx :
        x = _ ∨ x = _) with rfl | rfl
      · exact ⟨⟨⟨trivial, fun t ht a i hi => by cases ht; exact hi.1⟩, h0⟩, fun f hf => hf⟩
      · exact ⟨⟨⟨trivial, fun t ht => nomatch ht⟩, h1⟩, fun f hf => nomatch hf⟩) (by decide) (by decide +kernel)
  rw [Bool.and_eq_true] at h
  obtain ⟨hp, h⟩ := h
  exact ⟨τ, c, e, hi, hu, by split at hp <;> first | assumption | exact (nomatch hp), eq_of_beq h⟩

theorem demoManyOwn_one (k i j : Nat) (f : Field) (hi : demoManyOwn k i f = true) (hj : demoManyOwn k j f = true) : i = j := by
  simp [demoManyOwn] at hi hj
  omega

example : ∃ τ c, Execs exec (fun k op => Whole op ∧ Among (demoFrom k) (sourceOf op)) (rests _ _ demoHeap demoBufs) τ c ∧
    c.sh.mem.array 0 = [1, 2, 3, 0xAA, 0xBB, 9, 7, 8] ∧ ∃ d, OneBuffer exec (fun op => Whole op ∧ Among (demoFrom 0) (sourceOf op)) (demoFrom 0)
      (rests _ _ demoHeap demoBufs) τ c 0 d := by
  obtain ⟨τ, c, e, _, _, _, h⟩ := demoMany_runs (fun _ => True) trivial trivial
  have e := e.mono (fun _ _ h => h.1)
  exact ⟨τ, c, e, h, (C131_composition demoBufs_apart (fun _ => rfl) (fun k op h => ⟨whole_inPlace h.1, h.2⟩) e).1 0⟩

/-- Two buffers over the same bytes. -/
def demoSame (_ : Nat) : V3.Buf := { buf := { arr := 0, off := 2, len := 3, cap := 3 }, off := 1, cap := 3, boff := 0, bcap := 24 }

/-- Goroutine 0 has read the byte when goroutine 1 flips its first bit through the other buffer. -/
def demoFlip : List (Nat × Option (Nat × Op2)) :=
  (0, some (0, .flipBit (some 0))) :: steps 0 5 ++ (1, some (1, .flipBit (some 0))) :: steps 1 8 ++ steps 0 3

/-- C131: the bytes must not be shared.  With two buffers over the same bytes, each with its own mutex, two FlipBit calls, one on each, can
leave the bit flipped once; one after the other, in either order, they leave it as it was. -/
theorem C131_shared_bytes :
    ∃ τ c, Execs exec (fun _ op => Whole op) (rests _ _ demoHeap demoSame) τ c ∧ (∀ i, c.thr i = .idle) ∧
      points τ = [(0, 0, .flipBit (some 0)), (1, 1, .flipBit (some 0))] ∧ c.sh.mem.array 0 = [1, 2, 131, 4, 5, 6, 7, 8] ∧
      (seqRuns exec [(0, 0, .flipBit (some 0)), (1, 1, .flipBit (some 0))] (rests Op2 Val demoHeap demoSame).sh).2.mem.array 0 = [1, 2, 3, 4, 5, 6, 7, 8] ∧
      (seqRuns exec [(1, 1, .flipBit (some 0)), (0, 0, .flipBit (some 0))] (rests Op2 Val demoHeap demoSame).sh).2.mem.array 0 = [1, 2, 3, 4, 5, 6, 7, 8] := by
  obtain ⟨τ, c, e, hi, _, h⟩ := scheds_ex (ex := exec) (allowed := fun _ op => Whole op) (Q := fun _ _ => True) (c0 := rests _ _ demoHeap demoSame)
    (fun _ => rfl) 2 demoFlip
    (fun τ c => (points τ matches [(0, 0, .flipBit (some 0)), (1, 1, .flipBit (some 0))]) && (c.sh.mem.array 0 == [1, 2, 131, 4, 5, 6, 7, 8]))
    (fun x hx => by
      rcases (by simpa [demoFlip, steps, List.filterMap_cons, List.filterMap_append, List.filterMap_replicate_of_none] using hx :
        x = _ ∨ x = _) with rfl | rfl
      · exact ⟨trivial, trivial⟩
      · exact ⟨trivial, trivial⟩) (by decide) (by decide +kernel)
  rw [Bool.and_eq_true] at h
  obtain ⟨hp, h⟩ := h
  exact ⟨τ, c, e, hi, by split at hp <;> first | assumption | exact (nomatch hp), eq_of_beq h, by decide +kernel, by decide +kernel⟩

end Crunch.V2

namespace Crunch.V1

/-- C131 for v1 buffers: the methods other than Grow. -/
theorem C131_v1_composition {allowed : Nat → Op1 → Prop} {S : Nat → Nat → Nat → Prop} {c0 c : Confs Op1 Val1} {τ : Trace (Nat × Op1) Val1}
    (sep : Apart c0.sh.b S) (idle : ∀ i, c0.thr i = .idle) (hall : ∀ k op, allowed k op → inPlace1 op = true ∧ Among (S k) (sourceOf1 op))
    (x : Execs exec1 allowed c0 τ c) :
    (∀ k, ∃ d, OneBuffer exec1 (allowed k) (S k) c0 τ c k d) ∧
    (∀ k i, finished i (onBuf k τ) = donesOn k (finished i τ)) ∧
    (∀ k, (c.sh.b k).buf = (c0.sh.b k).buf) ∧
    (∀ a i, (∀ k, ¬ (c0.sh.b k).buf.holds a i) → (c.sh.mem.array a)[i]? = (c0.sh.mem.array a)[i]?) :=
  composition sep idle (fun k op h => exec1_in (own_of ..) op (hall k op h).1 fun t ht a i hi => .inr ((hall k op h).2 t ht a i hi)) x

theorem whole1_inPlace {op : Op1} (h : Whole1 op) : inPlace1 op = true := by cases op <;> first | rfl | exact h.elim

/-- C131 for v1 buffers. -/
theorem C131_v1_linearizable {S : Nat → Nat → Nat → Prop} {c0 c : Confs Op1 Val1} {τ : Trace (Nat × Op1) Val1} (sep : Apart c0.sh.b S)
    (idle : ∀ i, c0.thr i = .idle) (free : ∀ k, c0.sh.locked k = false) {own : Nat → Nat → Field → Bool}
    (disj : ∀ k i j f, own k i f = true → own k j f = true → i = j)
    (x : Execs exec1 (fun k op => Whole1 op ∧ Among (S k) (sourceOf1 op)) c0 τ c)
    (hu : ∀ i, ∀ y ∈ started i τ, ∀ f, uses1 y.2 f = true → own y.1 i f = true) (done : ∀ i, c.thr i = .idle) :
    (∀ i, started i τ = ofThread i (points τ)) ∧
    (∀ i, finished i τ = ofThread i (seqRuns exec1 (points τ) c0.sh).1) ∧
    c.sh.b = (seqRuns exec1 (points τ) c0.sh).2.b ∧ c.sh.locked = (seqRuns exec1 (points τ) c0.sh).2.locked ∧
    (∀ a, c.sh.mem.array a = (seqRuns exec1 (points τ) c0.sh).2.mem.array a) :=
  linear sep idle free (fun _ op h => exec1_in (own_of ..) op (whole1_inPlace h.1) fun t ht a i hi => .inr (h.2 t ht a i hi)) x disj
    (fun i y hy => (exec1_pre y.2 (x.allowed_of_started hy).1).mono (hu i y hy)) done

/-- Goroutine 0 writes two bytes of the first buffer at its offset; in the middle of it goroutine 1 copies a byte to the second one. -/
def demoMany1 : List (Nat × Option (Nat × Op1)) :=
  (0, some (0, .writeComplex none (.u16 [0x1122]) Unsigned16 (some .be))) :: steps 0 5 ++ (1, some (1, .writeBytes (some 1) ⟨1, 2, 1, 1⟩)) :: steps 1 7 ++ steps 0 8

/-- The theorems apply to this execution, whatever else is asked of the two calls. -/
theorem demoMany1_runs (P : Op1 → Prop) (h0 : P (.writeComplex none (.u16 [0x1122]) Unsigned16 (some .be))) (h1 : P (.writeBytes (some 1) ⟨1, 2, 1, 1⟩)) :
    ∃ τ c, Execs exec1 (fun k op => (Whole1 op ∧ Among (V2.demoFrom k) (sourceOf1 op)) ∧ P op) (rests _ _ V2.demoHeap V2.demoBufs) τ c ∧
    (∀ i, c.thr i = .idle) ∧ (∀ i, ∀ y ∈ started i τ, ∀ f, uses1 y.2 f = true → V2.demoManyOwn y.1 i f = true) ∧
    points τ = [(0, 0, .writeComplex none (.u16 [0x1122]) 2 (some .be)), (1, 1, .writeBytes (some 1) ⟨1, 2, 1, 1⟩)] ∧
    c.sh.mem.array 0 = [1, 2, 3, 0x11, 0x22, 6, 0xCC, 8] := by
  obtain ⟨τ, c, e, hi, hu, h⟩ := scheds_ex (ex := exec1) (allowed := fun k op => (Whole1 op ∧ Among (V2.demoFrom k) (sourceOf1 op)) ∧ P op)
    (Q := fun i y => ∀ f, uses1 y.2 f = true → V2.demoManyOwn y.1 i f = true) (c0 := rests _ _ V2.demoHeap V2.demoBufs) (fun _ => rfl) 2 demoMany1
    (fun τ c => (points τ matches [(0, 0, .writeComplex none (.u16 [0x1122]) 2 (some .be)), (1, 1, .writeBytes (some 1) ⟨1, 2, 1, 1⟩)]) &&
      (c.sh.mem.array 0 == [1, 2, 3, 0x11, 0x22, 6, 0xCC, 8]))
    (fun x hx => by
      rcases (by simpa [demoMany1, steps, List.filterMap_cons, List.filterMap_append, List.filterMap_replicate_of_none] using hx :
        x = _ ∨ x = _) with rfl | rfl
      · exact ⟨⟨⟨trivial, fun t ht => nomatch ht⟩, h0⟩, fun f hf => hf⟩
      · exact ⟨⟨⟨trivial, fun t ht a i hi => by cases ht; exact hi.1⟩, h1⟩, fun f hf => nomatch hf⟩) (by decide) (by decide +kernel)
  rw [Bool.and_eq_true] at h
  obtain ⟨hp, h⟩ := h
  exact ⟨τ, c, e, hi, hu, by split at hp <;> first | assumption | exact (nomatch hp), eq_of_beq h⟩

example : ∃ τ c, Execs exec1 (fun k op => Whole1 op ∧ Among (V2.demoFrom k) (sourceOf1 op)) (rests _ _ V2.demoHeap V2.demoBufs) τ c ∧
    c.sh.mem.array 0 = [1, 2, 3, 0x11, 0x22, 6, 0xCC, 8] ∧ ∃ d, OneBuffer exec1 (fun op => Whole1 op ∧ Among (V2.demoFrom 0) (sourceOf1 op)) (V2.demoFrom 0)
      (rests _ _ V2.demoHeap V2.demoBufs) τ c 0 d := by
  obtain ⟨τ, c, e, _, _, _, h⟩ := demoMany1_runs (fun _ => True) trivial trivial
  have e := e.mono (fun _ _ h => h.1)
  exact ⟨τ, c, e, h, (C131_v1_composition V2.demoBufs_apart (fun _ => rfl) (fun k op h => ⟨whole1_inPlace h.1, h.2⟩) e).1 0⟩

end Crunch.V1
