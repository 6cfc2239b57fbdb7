import Verif.Props.Conc
import Verif.Lemmas.V2Parts

/-!
# `ReadBits` and `SetBits` on a shared buffer (C107)

They take the mutex once for every bit.  `bits` gives the calls for one bit that such a call is made of; any other call is its
only part.
-/

namespace Crunch

/-- Bits, the first being the most significant, as a number. -/
def joinBits (ws : List UInt8) : UInt64 := ws.foldl (fun out x => (out <<< 1) ||| x.toUInt64) 0

/-- What `SetBits` stores at its `i`-th position: the `i`-th of the low `n` bits of `d`, most significant first. -/
def lowBit (d : UInt64) (n : Int64) (i : Nat) : UInt8 := if 1 ≤ n.toInt ∧ d.toNat.testBit (n.toInt.toNat - 1 - i) = true then 1 else 0

open V3 (loops field_bit fieldBit) in
theorem lowBit_eq (d : UInt64) (n : Int64) (i : Nat) (h : i < loops n) :
    (shr64 d (n - Int64.ofNat i - 1).toUInt64 &&& 1).toUInt8 = lowBit d n i := by
  have hf := field_bit d n i h
  have h2 : ∀ y : UInt64, (y &&& 1).toUInt8 = 0 ∨ (y &&& 1).toUInt8 = 1 := by
    intro y
    have e : ((y &&& 1).toUInt8).toNat = y.toNat % 2 := by
      simp [UInt64.toNat_toUInt8, Nat.and_one_is_mod]
    rcases (by omega : y.toNat % 2 = 0 ∨ y.toNat % 2 = 1) with h | h
    · left; rw [← UInt8.toNat_inj, e, h]; rfl
    · right; rw [← UInt8.toNat_inj, e, h]; rfl
  have ef : fieldBit d n i = decide (1 ≤ n.toInt ∧ d.toNat.testBit (n.toInt.toNat - 1 - i) = true) := by
    unfold fieldBit
    rw [Bool.decide_and]
    simp
  unfold lowBit
  rw [ef] at hf
  split
  · rename_i hp
    rcases h2 (shr64 d (n - Int64.ofNat i - 1).toUInt64) with h0 | h1
    · rw [decide_eq_true hp] at hf
      exact nomatch hf.mp h0
    · exact h1
  · rename_i hp
    exact hf.mpr (decide_eq_false hp)

end Crunch

namespace Crunch.V2
open Spec
open V3 (St WF Val demo demo_wf)

/-- What `ReadBit` returned. -/
def bitOf : Val → UInt8
  | .u8 x => x
  | _ => 0

/-- The calls a call is made of. -/
def bits : Op2 → Script Op2 Val Val
  | .readBits (some o) n =>
    .all (fun ws => .u64 (joinBits (ws.map bitOf))) ((List.range (max 1 n.toInt.toNat)).map fun i => .readBit (some (o + Int64.ofNat i))) []
  | .setBits (some o) d n =>
    .all (fun _ => .unit) ((List.range (max 1 n.toInt.toNat)).map fun i => .setBit (some (o + Int64.ofNat i)) (lowBit d n i)) []
  | op => .call op .done

/-- `ReadBits` and `SetBits` at a given position, and calls with a single locked section. -/
def Bitwise : Op2 → Prop
  | .readBits p _ => p.isSome = true
  | .setBits p _ _ => p.isSome = true
  | op => Atomic op

theorem exec_bits (op : Op2) (h : Bitwise op) : exec op = Prog.script exec (bits op) := by
  have other : exec op = Prog.script exec (.call op .done) := (bind_ret _).symm
  have hc : ∀ n : Int64, ∃ c : Nat, max 1 n.toInt.toNat = c + 1 ∧ ((c = 0 ∧ (0 : Int64) = 0 ∧ n.toInt ≤ 1) ∨ n.toInt = (0 : Int64).toInt + c + 1) := by
    intro n
    refine ⟨max 1 n.toInt.toNat - 1, by omega, ?_⟩
    by_cases h : n.toInt ≤ 1
    · exact .inl ⟨by omega, rfl, h⟩
    · right
      show n.toInt = 0 + _ + 1
      omega
  cases op with
  | readBits p n =>
    cases p with
    | none => exact nomatch h
    | some o =>
      obtain ⟨c, h1, h2⟩ := hc n
      have := doLoop_script (ex := exec) (el := fun i => .readBit (some (o + i))) (α := UInt64) (F := fun ws => joinBits (ws.map bitOf)) Val.u64
        (body := fun i out => do let x ← Buffer.readbit (o + i); return (out <<< 1) ||| x.toUInt64) (n := n)
        (fun i ws k => by
          show ((Buffer.readbit (o + i)).bind _).bind k = ((Buffer.readbit (o + i)).bind _).bind _
          rw [Prog.bind_assoc', Prog.bind_assoc']
          congr 1
          funext x
          show k _ = k _
          simp [joinBits, bitOf]) c 0 [] (by decide) h2
      show (Buffer.readbits o n).bind _ = Prog.script exec (.all _ ((List.range (max 1 n.toInt.toNat)).map _) [])
      rw [h1]
      refine Eq.trans this ?_
      simp only [Int64.zero_add]
  | setBits p d n =>
    cases p with
    | none => exact nomatch h
    | some o =>
      obtain ⟨c, h1, h2⟩ := hc n
      have := doLoop_script (ex := exec) (el := fun i => .setBit (some (o + i)) (shr64 d (n - i - 1).toUInt64 &&& 1).toUInt8)
        (F := fun _ => ()) (fun _ => Val.unit)
        (body := fun i _ => Buffer.setbit (o + i) (shr64 d (n - i - 1).toUInt64 &&& 1).toUInt8) (n := n)
        (fun i ws k => by
          show _ = ((Buffer.setbit (o + i) _).bind _).bind _
          rw [Prog.bind_assoc']
          rfl) c 0 [] (by decide) h2
      show (Buffer.setbits o d n).bind _ = Prog.script exec (.all _ ((List.range (max 1 n.toInt.toNat)).map _) [])
      rw [h1]
      refine Eq.trans this ?_
      have hl : (List.range (c + 1)).map (fun k => Op2.setBit (some (o + (0 + Int64.ofNat k))) (shr64 d (n - (0 + Int64.ofNat k) - 1).toUInt64 &&& 1).toUInt8) =
          (List.range (c + 1)).map fun i => Op2.setBit (some (o + Int64.ofNat i)) (lowBit d n i) := by
        apply List.map_congr_left
        intro k hk
        rw [Int64.zero_add, lowBit_eq d n k (by unfold V3.loops; rw [h1]; exact List.mem_range.mp hk)]
      rw [hl]
  | _ => exact other

theorem bits_atomic (op : Op2) (h : Bitwise op) (e : Op2) (u : (bits op).Uses e) : Atomic e := by
  have other : ∀ op', (Script.call op' Script.done : Script Op2 Val Val).Uses e → Atomic op' → Atomic e := by
    intro op' hu ha
    cases hu with
    | here => exact ha
    | later hu => exact nomatch hu
  cases op with
  | readBits p n =>
    cases p with
    | none => exact nomatch h
    | some o =>
      obtain ⟨i, _, rfl⟩ := List.mem_map.mp (mem_all u)
      rfl
  | setBits p d n =>
    cases p with
    | none => exact nomatch h
    | some o =>
      obtain ⟨i, _, rfl⟩ := List.mem_map.mp (mem_all u)
      rfl
  | _ => exact other _ u h

/-- Goroutines calling `ReadBits`, `SetBits` and methods with a single locked section: the calls for one bit and the other calls have
an order `L` in which, executed alone one after another, they have the same outcomes, and when nobody is running leave memory,
fields and mutex the same.  The order agrees with time: what had happened at any earlier moment is explained by a beginning of it. -/
theorem C107_made_of_single_bits {c0 c : Conf Op2 Val} {τ : Trace Op2 Val} (q : Quiet c0) (e : Exec exec Bitwise c0 τ c) :
    ∃ L : List (Nat × Op2), (∀ a ∈ L, Atomic a.2) ∧ Explains exec bits c0.sh τ L ∧
      (∀ τ1 τ2, τ = τ1 ++ τ2 → ∃ L1 L2, L = L1 ++ L2 ∧ Explains exec bits c0.sh τ1 L1) ∧
      (∀ i, c.thr i = .idle → Pieces bits (finished i τ) (ofThread i (seqRun exec L c0.sh).1)) ∧
      ((∀ i, c.thr i = .idle) → c.sh = (seqRun exec L c0.sh).2) :=
  parts_linearizable exec_bits bits_atomic exec_once q e

/-- One goroutine sets three bits, another reads them; the reader gets between the writer's second and third bit. -/
def demoTorn : List (Nat × Option Op2) :=
  (0, some (.setBits (some 1) 7 3)) :: (1, some (.readBits (some 1) 3)) :: steps 0 14 ++ steps 1 16 ++ steps 0 8

theorem torn_allowed : ∀ op, op ∈ demoTorn.filterMap (·.2) → Bitwise op := by
  intro op ho
  rcases (by simpa [demoTorn, steps, List.filterMap_cons, List.filterMap_append, List.filterMap_replicate_of_none] using ho :
    op = _ ∨ op = _) with rfl | rfl <;> rfl

/-- The program of a call, as the sequence of its parts. -/
def byBits (op : Op2) : Prog Val := Prog.script exec (bits op)

theorem exec_torn {P : Trace Op2 Val → Conf Op2 Val → Bool}
    (h : ((sched byBits [] (rest _ _ demo) demoTorn).any fun x => P x.1 x.2 && (List.range 2).all fun i => (x.2.thr i).isIdle) = true) :
    ∃ τ c, Exec exec Bitwise (rest _ _ demo) τ c ∧ (∀ i, c.thr i = .idle) ∧ (∀ i, 2 ≤ i → started i τ = [] ∧ finished i τ = []) ∧ P τ c = true := by
  obtain ⟨τ, c, e, h⟩ := sched_ex_only (allowed := Bitwise) (ex := byBits) (rest_quiet demo) 2 demoTorn P (allowed_of torn_allowed) (by decide) h
  exact ⟨τ, c, e.congr fun op ho => (exec_bits op ho).symm, h⟩

/-- Whole calls have no such order: `ReadBits` can see half of what a `SetBits` stores. -/
theorem C107_not_atomic : ∃ s : St, WF s ∧ ∃ τ c, Exec exec Bitwise (rest _ _ s) τ c ∧ (∀ i, c.thr i = .idle) ∧
    ¬ ∃ L : List (Nat × Op2), (∀ i, ofThread i L = started i τ) ∧ ∀ i, finished i τ = ofThread i (seqRun exec L (rest Op2 Val s).sh).1 := by
  obtain ⟨τ, c, e, hi, hn, h⟩ := exec_torn
    (P := fun τ _ => (started 0 τ matches [.setBits (some 1) 7 3]) && (started 1 τ matches [.readBits (some 1) 3]) &&
      (finished 1 τ matches [(_, .ok (.u64 6))])) (by decide +kernel)
  simp only [Bool.and_eq_true] at h
  obtain ⟨⟨h0, h1⟩, h2⟩ := h
  have h0 : started 0 τ = [.setBits (some 1) 7 3] := by
    split at h0
    · assumption
    · exact nomatch h0
  have h1 : started 1 τ = [.readBits (some 1) 3] := by
    split at h1
    · assumption
    · exact nomatch h1
  refine ⟨demo, demo_wf, τ, c, e, hi, fun ⟨L, hL, hf⟩ => ?_⟩
  have hf := hf 1
  have es := exec_bits (.setBits (some 1) 7 3) rfl
  have er := exec_bits (.readBits (some 1) 3) rfl
  have key : ∀ x, finished 1 τ = [x] → (x.2 matches .ok (.u64 6)) = false → False := by
    intro x hx hv
    rw [hx] at h2
    obtain ⟨op, r⟩ := x
    split at h2
    · rename_i heq
      cases heq
      exact nomatch hv
    · exact nomatch h2
  rcases two_calls ((hL 0).trans h0) ((hL 1).trans h1) (fun i h => (hL i).trans (hn i h).1) with rfl | rfl
  · simp only [seqRun, es, er] at hf
    exact key _ hf (by decide +kernel)
  · simp only [seqRun, es, er] at hf
    exact key _ hf (by decide +kernel)

/-- In this execution the reader gets 110.  The order of the single bits: two of the writer's, the reader's three, and the third of
the writer's. -/
example : (∃ τ c, Exec exec Bitwise (rest _ _ demo) τ c ∧ (∀ i, c.thr i = .idle) ∧ c.sh.st.bytes = [0x73, 4, 5, 6, 7, 8, 9, 10, 11, 12, 13, 14]) ∧
    (seqRun exec [(0, .setBit (some 1) 1), (0, .setBit (some 2) 1), (1, .readBit (some 1)), (1, .readBit (some 2)), (1, .readBit (some 3)),
      (0, .setBit (some 3) 1)] (rest Op2 Val demo).sh).2.st.bytes = [0x73, 4, 5, 6, 7, 8, 9, 10, 11, 12, 13, 14] ∧
    Pieces bits [(.readBits (some 1) 3, .ok (.u64 6))]
      [(.readBit (some 1), .ok (.u8 1)), (.readBit (some 2), .ok (.u8 1)), (.readBit (some 3), .ok (.u8 0))] := by
  refine ⟨?_, by decide +kernel, ?_⟩
  · obtain ⟨τ, c, e, hi, _, h⟩ := exec_torn (P := fun _ c => c.sh.st.bytes == [0x73, 4, 5, 6, 7, 8, 9, 10, 11, 12, 13, 14]) (by decide +kernel)
    exact ⟨τ, c, e, hi, eq_of_beq h⟩
  · exact .snoc (fs := []) (es := []) .nil (.more (.more (.more .done)))

end Crunch.V2

namespace Crunch.V1
open V3 (St WF Val demo demo_wf)

/-- What `ReadBit` returned. -/
def bitOf1 : Val1 → UInt8
  | .val (.u8 x) => x
  | _ => 0

/-- The calls a call is made of.  In v1 the loops may make no turn. -/
def bits1 : Op1 → Script Op1 Val1 Val1
  | .readBits (some o) n =>
    .all (fun ws => .val (.u64 (joinBits (ws.map bitOf1)))) ((List.range n.toInt.toNat).map fun i => .readBit (some (o + Int64.ofNat i))) []
  | .setBits (some o) d n =>
    .all (fun _ => .val .unit) ((List.range n.toInt.toNat).map fun i => .setBit (some (o + Int64.ofNat i)) (lowBit d n i)) []
  | op => .call op .done

/-- `ReadBits` and `SetBits` at a given position, and calls with a single locked section. -/
def Bitwise1 : Op1 → Prop
  | .readBits p _ => p.isSome = true
  | .setBits p _ _ => p.isSome = true
  | op => Atomic1 op

theorem exec1_bits (op : Op1) (h : Bitwise1 op) : exec1 op = Prog.script exec1 (bits1 op) := by
  have other : exec1 op = Prog.script exec1 (.call op .done) := (bind_ret _).symm
  cases op with
  | readBits p n =>
    cases p with
    | none => exact nomatch h
    | some o =>
      have := forLoop_script (ex := exec1) (el := fun i => .readBit (some (o + i))) (α := UInt64) (F := fun ws => joinBits (ws.map bitOf1))
        (fun x => Val1.val (Val.u64 x))
        (body := fun i out => do let x ← Buffer.readbit (o + i); return (out <<< 1) ||| x.toUInt64) (n := n)
        (fun i ws k => by
          show ((Buffer.readbit (o + i)).bind _).bind k = ((Buffer.readbit (o + i)).bind _).bind _
          rw [Prog.bind_assoc', Prog.bind_assoc']
          congr 1
          funext x
          show k _ = k _
          simp [joinBits, bitOf1]) n.toInt.toNat 0 [] (by show _ = (n.toInt - 0).toNat; rw [Int.sub_zero])
      refine Eq.trans this ?_
      simp only [Int64.zero_add]
      rfl
  | setBits p d n =>
    cases p with
    | none => exact nomatch h
    | some o =>
      have := forLoop_script (ex := exec1) (el := fun i => .setBit (some (o + i)) (shr64 d (n - i - 1).toUInt64 &&& 1).toUInt8)
        (F := fun _ => ()) (fun _ => Val1.val Val.unit)
        (body := fun i _ => Buffer.setbit (o + i) (shr64 d (n - i - 1).toUInt64 &&& 1).toUInt8) (n := n)
        (fun i ws k => by
          show _ = ((Buffer.setbit (o + i) _).bind _).bind _
          rw [Prog.bind_assoc']
          rfl) n.toInt.toNat 0 [] (by show _ = (n.toInt - 0).toNat; rw [Int.sub_zero])
      refine Eq.trans this ?_
      have hl : (List.range n.toInt.toNat).map (fun k => Op1.setBit (some (o + (0 + Int64.ofNat k))) (shr64 d (n - (0 + Int64.ofNat k) - 1).toUInt64 &&& 1).toUInt8) =
          (List.range n.toInt.toNat).map fun i => Op1.setBit (some (o + Int64.ofNat i)) (lowBit d n i) := by
        apply List.map_congr_left
        intro k hk
        have := List.mem_range.mp hk
        rw [Int64.zero_add, lowBit_eq d n k (by unfold V3.loops; omega)]
      rw [hl]
      rfl
  | _ => exact other

theorem bits1_atomic (op : Op1) (h : Bitwise1 op) (e : Op1) (u : (bits1 op).Uses e) : Atomic1 e := by
  have other : ∀ op', (Script.call op' Script.done : Script Op1 Val1 Val1).Uses e → Atomic1 op' → Atomic1 e := by
    intro op' hu ha
    cases hu with
    | here => exact ha
    | later hu => exact nomatch hu
  cases op with
  | readBits p n =>
    cases p with
    | none => exact nomatch h
    | some o =>
      obtain ⟨i, _, rfl⟩ := List.mem_map.mp (mem_all u)
      rfl
  | setBits p d n =>
    cases p with
    | none => exact nomatch h
    | some o =>
      obtain ⟨i, _, rfl⟩ := List.mem_map.mp (mem_all u)
      rfl
  | _ => exact other _ u h

/-- The same for v1. -/
theorem C107_v1_made_of_single_bits {c0 c : Conf Op1 Val1} {τ : Trace Op1 Val1} (q : Quiet c0) (e : Exec exec1 Bitwise1 c0 τ c) :
    ∃ L : List (Nat × Op1), (∀ a ∈ L, Atomic1 a.2) ∧ Explains exec1 bits1 c0.sh τ L ∧
      (∀ τ1 τ2, τ = τ1 ++ τ2 → ∃ L1 L2, L = L1 ++ L2 ∧ Explains exec1 bits1 c0.sh τ1 L1) ∧
      (∀ i, c.thr i = .idle → Pieces bits1 (finished i τ) (ofThread i (seqRun exec1 L c0.sh).1)) ∧
      ((∀ i, c.thr i = .idle) → c.sh = (seqRun exec1 L c0.sh).2) :=
  parts_linearizable exec1_bits bits1_atomic exec1_once q e

/-- The schedule `demoTorn` for v1. -/
def demoTorn1 : List (Nat × Option Op1) :=
  (0, some (.setBits (some 1) 7 3)) :: (1, some (.readBits (some 1) 3)) :: steps 0 14 ++ steps 1 16 ++ steps 0 8

def byBits1 (op : Op1) : Prog Val1 := Prog.script exec1 (bits1 op)

example : (∃ τ c, Exec exec1 Bitwise1 (rest _ _ demo) τ c ∧ (∀ i, c.thr i = .idle) ∧ c.sh.st.bytes = [0x73, 4, 5, 6, 7, 8, 9, 10, 11, 12, 13, 14]) ∧
    Pieces bits1 [(.readBits (some 1) 3, .ok (.val (.u64 6)))]
      [(.readBit (some 1), .ok (.val (.u8 1))), (.readBit (some 2), .ok (.val (.u8 1))), (.readBit (some 3), .ok (.val (.u8 0)))] := by
  constructor
  · obtain ⟨τ, c, e, hi, _, h⟩ := sched_ex_only (allowed := Bitwise1) (ex := byBits1) (rest_quiet demo) 2 demoTorn1
      (fun _ c => c.sh.st.bytes == [0x73, 4, 5, 6, 7, 8, 9, 10, 11, 12, 13, 14])
      (allowed_of fun op ho => by
        rcases (by simpa [demoTorn1, steps, List.filterMap_cons, List.filterMap_append, List.filterMap_replicate_of_none] using ho :
          op = _ ∨ op = _) with rfl | rfl <;> rfl) (by decide) (by decide +kernel)
    exact ⟨τ, c, e.congr fun op ho => (exec1_bits op ho).symm, hi, eq_of_beq h⟩
  · exact .snoc (fs := []) (es := []) .nil (.more (.more (.more .done)))

end Crunch.V1
