import Verif.Props.BenchCalls

/-!
# C137: the calls of the benchmarks on the reference machines

They all succeed, and leave the buffer as long as it was.
-/

namespace Crunch.Src.Tests

open Crunch.Gen Crunch.V3 Spec

/-- `n` bytes. -/
def LongR (n : Nat) (a : Ref.Ref) : Prop := a.data.length = n

/-- No bytes, and at most two behind them. -/
def EmptyR (a : Ref.Ref) : Prop := a.data = [] ∧ a.spare.length ≤ 2

/-- One byte, and at most one behind it. -/
def SingleR (a : Ref.Ref) : Prop := a.data.length = 1 ∧ a.spare.length ≤ 1

theorem put_long {n : Nat} {bs : List UInt8} {fit : Prop} [Decidable fit] {p : Panic} (hf : fit)
    (h : bs.length ≤ n) : Goes (fun a => Ref.put a 0 bs fit p) (LongR n) (LongR n) := by
  intro a ha
  unfold LongR at *
  refine ⟨.unit, { a with data := patch a.data 0 bs }, ?_, ?_⟩
  · simp only [Ref.put]
    rw [if_pos ⟨hf, by decide, by omega⟩]
    rfl
  · rw [← ha]; exact length_patch (by omega)

theorem length_two (e : Endian) (w : Nat) (x y : Nat) : (([x, y]).flatMap (encode e w)).length = 2 * w := by
  simp only [List.flatMap_cons, List.flatMap_nil, List.append_nil, List.length_append, length_encode]
  omega

theorem write_long {n w : Nat} {e : Endian} {x y : Nat} (h : 2 * w ≤ n) : Goes (Ref.step (.write w e (some 0) [x, y])) (LongR n) (LongR n) :=
  put_long (List.cons_ne_nil _ _) (by rw [length_two]; exact h)

theorem writeBytes_long {n : Nat} {bs : List UInt8} (h : bs.length ≤ n) : Goes (Ref.step (.writeBytes (some 0) bs)) (LongR n) (LongR n) :=
  put_long trivial h

theorem writeBytes2_long {n : Nat} {bs : List UInt8} {q : Option Int} (hb : bs ≠ []) (h : bs.length ≤ n) :
    Goes (Ref.step2 (.writeBytes (some 0) bs q)) (LongR n) (LongR n) :=
  put_long hb (by rw [V2.length_echo]; exact h)

theorem read_long {n w : Nat} {e : Endian} (h : 2 * w ≤ n) : Goes (Ref.step (.read w e (some 0) 2)) (LongR n) (LongR n) := by
  intro a ha
  unfold LongR at *
  simp only [Ref.step, Ref.read]
  rw [if_pos ⟨by decide, by decide, by omega⟩]
  exact ⟨_, _, rfl, ha⟩

theorem readBytes_long {n : Nat} (h : 2 ≤ n) : Goes (Ref.step (.readBytes (some 0) 2)) (LongR n) (LongR n) := by
  intro a ha
  unfold LongR at *
  simp only [Ref.step, Ref.readBytes]
  rw [if_pos ⟨by decide, by decide, by omega⟩]
  exact ⟨_, _, rfl, ha⟩

theorem readBit_long {n : Nat} (h : 1 ≤ n) : Goes (Ref.step (.readBit (some 0))) (LongR n) (LongR n) := by
  intro a ha
  unfold LongR at *
  simp only [Ref.step, Ref.readBit]
  rw [if_pos ⟨by decide, by omega⟩]
  exact ⟨_, _, rfl, ha⟩

theorem readBits_long {n : Nat} (h : 1 ≤ n) : Goes (Ref.step (.readBits (some 0) 2)) (LongR n) (LongR n) := by
  intro a ha
  unfold LongR at *
  simp only [Ref.step, Ref.readBits]
  rw [if_pos ⟨by decide, by rw [show Ref.count 2 = 2 from rfl]; omega⟩]
  exact ⟨_, _, rfl, ha⟩

theorem putBit_long {n : Nat} {f : Bool → Bool} (h : 1 ≤ n) : Goes (fun a => Ref.putBit a 0 f) (LongR n) (LongR n) := by
  intro a ha
  unfold LongR at *
  refine ⟨.unit, { a with data := Ref.withBits a.data 0 (fun _ => f (bit a.data 0)) 1 }, ?_, ?_⟩
  · simp only [Ref.putBit]
    rw [if_pos ⟨by decide, by omega⟩]
    rfl
  · simp [ha]

theorem setBit_long {n : Nat} (h : 1 ≤ n) : Goes (Ref.step (.setBit (some 0))) (LongR n) (LongR n) := putBit_long (f := fun _ => true) h

theorem clearBit_long {n : Nat} (h : 1 ≤ n) : Goes (Ref.step (.clearBit (some 0))) (LongR n) (LongR n) := putBit_long (f := fun _ => false) h

theorem grow_empty : Goes (Ref.step (.grow 1)) EmptyR SingleR := by
  rintro a ⟨hd, hs⟩
  by_cases h : (1 : Int) ≤ a.spare.length
  · refine ⟨.unit, { a with data := a.data ++ a.spare.take 1, spare := a.spare.drop 1 }, ?_, ?_⟩
    · simp only [Ref.step]
      rw [if_neg (by decide), if_pos h]
      rfl
    · simp only [SingleR, hd, List.nil_append, List.length_take, List.length_drop]
      omega
  · refine ⟨.unit, { a with data := a.data ++ List.replicate 1 0, spare := List.replicate (a.data.length + 2 * a.spare.length + 1) 0 }, ?_, ?_⟩
    · simp only [Ref.step]
      rw [if_neg (by decide), if_neg h, if_pos (by rw [hd]; have : (100 : Int) ≤ maxAlloc := by decide
                                                   simp only [List.length_nil]; omega)]
      rfl
    · rw [hd]
      exact ⟨rfl, by simp only [List.length_replicate, List.length_nil]; omega⟩

theorem reset_single : Goes (Ref.step .reset) SingleR EmptyR := by
  rintro a ⟨hd, hs⟩
  refine ⟨_, _, rfl, rfl, ?_⟩
  simp only [List.length_append]
  omega

/-! ## `MiniBuffer`s -/

variable {k : Nat} {ks : List Nat}

theorem copied_long {n : Nat} {bs : List UInt8} {a : Ref.Ref} (ha : a.data.length = n) (h : bs.length ≤ n) :
    (patch a.data 0 (bs.take (a.data.length - 0))).length = n := by
  rw [← ha]
  exact length_patch (by rw [List.length_take]; omega)

theorem writeMini_long {n w : Nat} {e : Endian} {x y : Nat} (hw : 1 ≤ w) (h : 2 * w ≤ n) :
    Goes (Ref.miniStep k ks (.write w e (some 0) [x, y])) (LongR n) (LongR n) := by
  intro a ha
  unfold LongR at *
  refine ⟨.unit, { a with data := patch a.data 0 ((([x, y]).flatMap (encode e w)).take (a.data.length - 0)) }, ?_,
    copied_long ha (by rw [length_two]; exact h)⟩
  simp only [Ref.miniStep, Ref.miniWrite]
  rw [if_neg (by rintro (h | h | h)
                 · exact absurd h (List.cons_ne_nil _ _)
                 · exact absurd h (by decide)
                 · omega), if_pos (by simp only [List.length_cons, List.length_nil]; omega)]
  rfl

theorem writeBytesMini_long {n : Nat} {bs : List UInt8} (h : bs.length ≤ n) :
    Goes (Ref.miniStep k ks (.writeBytes (some 0) bs)) (LongR n) (LongR n) := by
  intro a ha
  unfold LongR at *
  refine ⟨.unit, { a with data := patch a.data 0 (bs.take (a.data.length - 0)) }, ?_, copied_long ha h⟩
  simp only [Ref.miniStep, Ref.miniWriteBytes]
  rw [if_pos ⟨by decide, by omega⟩]
  rfl

theorem writeBytesMini2_long {n : Nat} {bs : List UInt8} {q : Option Int} (hb : bs ≠ []) (h : bs.length ≤ n) :
    Goes (Ref.miniStep2 k ks (.writeBytes (some 0) bs q)) (LongR n) (LongR n) := by
  intro a ha
  unfold LongR at *
  have hb : 0 < bs.length := List.length_pos_iff.2 hb
  refine ⟨.unit, { a with data := patch a.data 0 ((Ref.echo q 0 bs).take (a.data.length - 0)) }, ?_,
    copied_long ha (by rw [V2.length_echo]; exact h)⟩
  simp only [Ref.miniStep2, Ref.miniCopy]
  rw [if_neg (by rintro (h | h | h)
                 · rw [← List.length_eq_zero_iff, V2.length_echo] at h; omega
                 · exact absurd h (by decide)
                 · omega), if_pos (by rw [V2.length_echo]; omega)]
  rfl

theorem readBytesMini_long {n : Nat} (h : 2 ≤ n) : GoesTo (Ref.miniStep k ks (.readBytes (some 0) 2)) (LongR n) fun _ => True := by
  intro a ha
  unfold LongR at *
  simp only [Ref.miniStep, Ref.miniReadBytes]
  rw [if_pos ⟨by decide, by decide, by omega⟩]
  exact ⟨_, _, rfl, ha, trivial⟩

/-- A list of `n` numbers. -/
def NumsR (n : Nat) (u : Ref.Val) : Prop := ∃ l, u = .nums l ∧ l.length = n

theorem readMini_long {n w : Nat} {e : Endian} (h : 2 * w ≤ n) (hk : 2 ≤ ks.length) :
    GoesTo (Ref.miniStep k ks (.read w e (some 0) 2)) (LongR n) (NumsR ks.length) := by
  intro a ha
  unfold LongR at *
  simp only [Ref.miniStep, Ref.miniRead]
  rw [if_pos ⟨by decide, by rw [show Ref.count 2 = 2 from rfl]; omega, hk⟩]
  refine ⟨_, _, rfl, ha, _, rfl, ?_⟩
  simp only [List.length_append, List.length_map, List.length_range, List.length_drop]
  rw [show Ref.count 2 = 2 from rfl]
  omega

theorem starts_zero {n : Nat} (h : 1 ≤ n) {a : Ref.Ref} (ha : a.data.length = n) : Ref.startsAt a 0 :=
  ⟨by decide, fun h0 => by rw [h0] at ha; exact absurd (show 0 = n from ha) (by omega)⟩

theorem readBitMini_long {n : Nat} (h : 1 ≤ n) : GoesTo (Ref.miniStep k ks (.readBit (some 0))) (LongR n) fun _ => True := by
  intro a ha
  unfold LongR at *
  simp only [Ref.miniStep, Ref.miniReadBit]
  rw [if_pos ⟨starts_zero h ha, by omega⟩]
  exact ⟨_, _, rfl, ha, trivial⟩

theorem readBitsMini_long {n : Nat} (h : 1 ≤ n) : GoesTo (Ref.miniStep k ks (.readBits (some 0) 2)) (LongR n) fun _ => True := by
  intro a ha
  unfold LongR at *
  simp only [Ref.miniStep, Ref.miniReadBits]
  rw [if_pos ⟨starts_zero h ha, by rw [show Ref.count 2 = 2 from rfl]; omega⟩]
  exact ⟨_, _, rfl, ha, trivial⟩

theorem setBitsMini_long {n : Nat} {f : Nat → Bool} (h : 1 ≤ n) : Goes (Ref.miniSetBits 0 f 1) (LongR n) (LongR n) := by
  intro a ha
  unfold LongR at *
  refine ⟨.unit, { a with data := Ref.withBitsAt a.data 0 f 1 }, ?_, ?_⟩
  · simp only [Ref.miniSetBits]
    rw [if_pos (starts_zero h ha), if_pos (by omega)]
  · simp [Ref.withBitsAt, ha]

theorem setBitMini_long {n : Nat} (h : 1 ≤ n) : Goes (Ref.miniStep k ks (.setBit (some 0))) (LongR n) (LongR n) :=
  setBitsMini_long (f := fun _ => true) h

theorem clearBitMini_long {n : Nat} (h : 1 ≤ n) : Goes (Ref.miniStep k ks (.clearBit (some 0))) (LongR n) (LongR n) :=
  setBitsMini_long (f := fun _ => false) h

theorem growMini_empty : Goes (Ref.miniStep k ks (.grow 1)) EmptyR SingleR := by
  rintro a ⟨hd, hs⟩
  by_cases h : (a.data.length + 1 : Int) ≤ (a.data.length + a.spare.length : Nat)
  · refine ⟨.unit, Ref.resize a 1, ?_, ?_⟩
    · simp only [Ref.miniStep, Ref.miniResize]
      rw [if_pos h, if_pos ⟨by omega, h⟩, show ((a.data.length : Int) + 1).toNat = 1 by rw [hd]; rfl]
    · rw [hd] at h
      simp only [SingleR, Ref.resize, hd, List.nil_append, List.length_take, List.length_drop]
      simp only [List.length_nil] at h
      omega
  · refine ⟨.unit, { a with data := a.data ++ List.replicate 1 0, spare := List.replicate (a.data.length + 2 * a.spare.length + 1) 0 }, ?_, ?_⟩
    · simp only [Ref.miniStep]
      rw [if_neg h, if_pos (by rw [hd]; have : (100 : Int) ≤ maxAlloc := by decide
                               simp only [List.length_nil]; omega)]
      rfl
    · rw [hd] at h
      simp only [List.length_nil] at h
      rw [hd]
      exact ⟨rfl, by simp only [List.length_replicate, List.length_nil]; omega⟩

theorem resetMini_single : Goes (Ref.miniStep k ks .reset) SingleR EmptyR := reset_single

end Crunch.Src.Tests
