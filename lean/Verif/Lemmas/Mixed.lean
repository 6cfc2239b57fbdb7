import Verif.Lemmas.Exact
import Verif.Lemmas.MiniStep
import Verif.Ref1

/-!
# What succeeds on the reference machine of the v3 `Buffer` succeeds in the same way on the others
-/

namespace Crunch.Ref
open Spec V3

/-- If the first call returns, the second one does the same. -/
def Le (a b : Res Val × Ref) : Prop := ∀ v r', a = (.ok v, r') → b = (.ok v, r')

theorem Le.refl (a : Res Val × Ref) : Le a a := fun _ _ h => h

theorem Le.cur {a b : Res Val × Ref} (h : Le a b) (d : Int) : Le (stepCur d a) (stepCur d b) := by
  intro v r' e
  rcases a with ⟨x | p, r⟩
  · rw [h x r rfl]; exact e
  · cases e

theorem Le.bcur {a b : Res Val × Ref} (h : Le a b) (d : Int) : Le (stepBcur d a) (stepBcur d b) := by
  intro v r' e
  rcases a with ⟨x | p, r⟩
  · rw [h x r rfl]; exact e
  · cases e

theorem Le.ite {c : Prop} [Decidable c] {x : Res Val × Ref} {p : Panic} {r : Ref} {b : Res Val × Ref} (h : c → x = b) :
    Le (if c then x else (.panic p, r)) b := by
  intro v r' e
  by_cases hc : c
  · rw [if_pos hc] at e; rw [← h hc]; exact e
  · rw [if_neg hc] at e; cases e

theorem slice_spare (l sp : List UInt8) {o n : Nat} (h : o + n ≤ l.length) : slice (l ++ sp) o n = slice l o n := by
  unfold slice
  rw [List.drop_append_of_le_length (by omega), List.take_append_of_le_length (by rw [List.length_drop]; omega)]

theorem le_write (w : Nat) (e : Endian) (o : Int) (d : List Nat) (r : Ref) (hw : 0 < w) : Le (write w e o d r) (miniWrite w e o d r) := by
  unfold write put miniWrite
  refine Le.ite fun h => ?_
  rw [length_enc'] at h
  have := Nat.mul_pos (List.length_pos_iff.mpr h.1) hw
  rw [if_neg (by simp only [h.1, false_or]; omega), if_pos (by omega), List.take_of_length_le (by rw [length_enc']; omega)]

theorem le_put_copy (o : Int) (bs : List UInt8) (c : Prop) [Decidable c] (p : Panic) (r : Ref) (hb : bs ≠ []) : Le (put r o bs c p) (miniCopy o bs r) := by
  unfold put miniCopy
  have := List.length_pos_iff.mpr hb
  refine Le.ite fun h => ?_
  rw [if_neg (by simp only [hb, false_or]; omega), if_pos h.2.2, List.take_of_length_le (by omega)]

theorem le_put (o : Int) (bs : List UInt8) (c d : Prop) [Decidable c] [Decidable d] (p q : Panic) (r : Ref) (hd : d) : Le (put r o bs c p) (put r o bs d q) := by
  unfold put
  refine Le.ite fun h => ?_
  rw [if_pos ⟨hd, h.2⟩]

theorem le_read (prev : List Nat) (w : Nat) (e : Endian) (o n : Int) (r : Ref) (hp : prev.length = n.toNat) : Le (read w e o n r) (miniRead prev w e o n r) := by
  unfold read miniRead
  refine Le.ite fun h => ?_
  have hc : count n = n.toNat := by unfold count; omega
  have hn : ((count n : Nat) : Int) = n := by omega
  rw [hn, if_pos ⟨h.2.1, h.2.2, by omega⟩, hc, List.drop_of_length_le (by omega), List.append_nil]

theorem le_writeBytes (o : Int) (bs : List UInt8) (r : Ref) : Le (put r o bs True .sliceBounds) (miniWriteBytes o bs r) := by
  unfold put miniWriteBytes
  refine Le.ite fun h => ?_
  rw [if_pos (by omega), List.take_of_length_le (by omega)]

theorem le_readBytes (o n : Int) (r : Ref) : Le (readBytes o n r) (miniReadBytes o n r) := by
  unfold readBytes miniReadBytes
  refine Le.ite fun h => ?_
  rw [if_pos (by omega), slice_spare _ _ (by omega)]

theorem starts {r : Ref} {o : Int} {n : Nat} (h0 : 0 ≤ o) (h1 : o + n ≤ 8 * r.data.length) (hn : 0 < n) : startsAt r o :=
  ⟨by omega, by intro h; rw [h] at h1; simp at h1; omega⟩

theorem count_pos (n : Int) : 0 < count n := by unfold count; omega

theorem le_readBit (o : Int) (r : Ref) : Le (readBit o r) (miniReadBit o r) := by
  unfold readBit miniReadBit bitAt
  refine Le.ite fun h => ?_
  rw [if_pos ⟨starts (n := 1) h.1 (by omega) (by omega), h.2⟩, if_pos h.1]

theorem le_readBits (o n : Int) (r : Ref) : Le (readBits o n r) (miniReadBits 0 o n r) := by
  unfold readBits miniReadBits
  refine Le.ite fun h => ?_
  rw [if_pos ⟨starts h.1 h.2 (count_pos n), h.2⟩, Nat.zero_mul, Nat.zero_add]
  congr 6
  funext i
  unfold bitAt
  rw [if_pos (by omega)]
  congr 1; omega

theorem le_putBit (o : Int) (f : Bool → Bool) (g : Nat → Bool) (r : Ref) (hg : 0 ≤ o → ∀ i, g i = f (bit r.data o.toNat)) :
    Le (putBit r o f) (miniSetBits o g 1 r) := by
  unfold putBit miniSetBits
  refine Le.ite fun h => ?_
  rw [if_pos (starts (n := 1) h.1 (by omega) (by omega)), if_pos (by omega), withBitsAt_nonneg _ h.1, show g = fun _ => f (bit r.data o.toNat) from funext (hg h.1)]

theorem le_setBits (o : Int) (v : Nat) (n : Int) (r : Ref) : Le (setBits o v n r) (miniSetBits o (digit v n) (count n) r) := by
  unfold setBits miniSetBits
  refine Le.ite fun h => ?_
  rw [if_pos (starts h.1 h.2 (count_pos n)), if_pos (by omega), withBitsAt_nonneg _ h.1]

/-- The result variable is prepared; the calls that have other rules on a `MiniBuffer` are left out. -/
def Ready (num : Nat) (nums : List Nat) : Op → Prop
  | .write w _ _ _ => 0 < w
  | .read _ _ _ n => nums.length = n.toNat
  | .readBits _ _ => num = 0
  | .truncateLeft _ | .truncateRight _ | .grow _ => False
  | _ => True

theorem le_mini (num : Nat) (nums : List Nat) (op : Op) (r : Ref) (h : Ready num nums op) : Le (step op r) (miniStep num nums op r) := by
  have hb : ∀ o, 0 ≤ o → ∀ _ : Nat, (!bitAt r.data o) = !bit r.data o.toNat := fun o h _ => by unfold bitAt; rw [if_pos h]
  match op, h with
  | .write w e (some o) d, h => exact le_write w e o d r h
  | .write w e none d, h => exact (le_write w e r.cur d r h).cur _
  | .read w e (some o) n, h => exact le_read nums w e o n r h
  | .read w e none n, h => exact (le_read nums w e r.cur n r h).cur _
  | .writeBytes (some o) bs, _ => exact le_writeBytes o bs r
  | .writeBytes none bs, _ => exact (le_writeBytes r.cur bs r).cur _
  | .readBytes (some o) n, _ => exact le_readBytes o n r
  | .readBytes none n, _ => exact (le_readBytes r.cur n r).cur _
  | .readBit (some o), _ => exact le_readBit o r
  | .readBit none, _ => exact (le_readBit r.bcur r).bcur _
  | .readBits (some o) n, h => cases h; exact le_readBits o n r
  | .readBits none n, h => cases h; exact (le_readBits r.bcur n r).bcur _
  | .setBit (some o), _ => exact le_putBit o (fun _ => true) (fun _ => true) r fun _ _ => rfl
  | .setBit none, _ => exact (le_putBit r.bcur (fun _ => true) (fun _ => true) r fun _ _ => rfl).bcur _
  | .clearBit (some o), _ => exact le_putBit o (fun _ => false) (fun _ => false) r fun _ _ => rfl
  | .clearBit none, _ => exact (le_putBit r.bcur (fun _ => false) (fun _ => false) r fun _ _ => rfl).bcur _
  | .flipBit (some o), _ => exact le_putBit o (fun b => !b) (fun _ => !bitAt r.data o) r (hb o)
  | .flipBit none, _ => exact (le_putBit r.bcur (fun b => !b) (fun _ => !bitAt r.data r.bcur) r (hb r.bcur)).bcur _
  | .setBits (some o) v n, _ => exact le_setBits o v n r
  | .setBits none v n, _ => exact (le_setBits r.bcur v n r).bcur _
  | .writeByte .., _ | .readByte _, _ | .clearAll, _ | .setAll, _ | .flipAll, _ | .seekByte .., _ | .seekBit .., _ | .afterByte _, _ | .afterBit _, _
  | .alignByte, _ | .alignBit, _ | .refresh, _ | .reset, _ | .bytes, _ | .byteCapacity, _ | .bitCapacity, _ | .byteOffset, _ | .bitOffset, _ => exact Le.refl _

/-! ## the calls of v1 with nothing to do -/

/-- A bit count, where there is one, is positive. -/
def Counts : Op → Prop
  | .readBits _ n => 0 < n
  | .setBits _ _ n => 0 < n
  | _ => True

theorem le_idle (num : Nat) {op : Op} {r : Ref} (hc : Counts op) {b : Res Val × Ref} (h : Le (step op r) b) :
    Le (step op r) ((idle num (.base op) r).getD b) := by
  have hall : ∀ f, Le (all f r) b → Le (all f r) ((if r.data = [] then some (.ok .unit, r) else none).getD b) := by
    intro f h v r' e
    unfold all at e
    by_cases hd : r.data = []
    · rw [if_pos hd] at e; cases e
    · rw [if_neg hd]; exact h v r' (by unfold all; exact e)
  match op, hc with
  | .readBits (some _) n, hc => rw [show idle num (.base (.readBits (some _) n)) r = none from if_neg (by have : 0 < n := hc; omega)]; exact h
  | .readBits none n, hc => rw [show idle num (.base (.readBits none n)) r = none from if_neg (by have : 0 < n := hc; omega)]; exact h
  | .setBits (some _) _ n, hc => rw [show idle num (.base (.setBits (some _) _ n)) r = none from if_neg (by have : 0 < n := hc; omega)]; exact h
  | .setBits none _ n, hc => rw [show idle num (.base (.setBits none _ n)) r = none from if_neg (by have : 0 < n := hc; omega)]; exact h
  | .clearAll, _ => exact hall _ h
  | .setAll, _ => exact hall _ h
  | .flipAll, _ => exact hall _ h
  | .write .., _ | .read .., _ | .writeBytes .., _ | .writeByte .., _ | .readBytes .., _ | .readByte _, _ | .readBit _, _ | .setBit _, _ | .clearBit _, _
  | .flipBit _, _ | .seekByte .., _ | .seekBit .., _ | .afterByte _, _ | .afterBit _, _ | .alignByte, _ | .alignBit, _ | .truncateLeft _, _
  | .truncateRight _, _ | .grow _, _ | .refresh, _ | .reset, _ | .bytes, _ | .byteCapacity, _ | .bitCapacity, _ | .byteOffset, _ | .bitOffset, _ => exact h

/-! ## integers of several sizes in v1 -/

theorem le_writeComplex (w : Nat) (e : Endian) (o : Int) (d : List Nat) (r : Ref) (hw : w = 2 ∨ w = 4 ∨ w = 8) :
    Le (write w e o d r) (writeComplex o (.ints w d) w (some e) r) ∧ Le (write w e o d r) (miniWriteComplex o (.ints w d) w (some e) r) := by
  have hb : bytesOf o (.ints w d) w (some e) = .ok (d.flatMap (encode e w)) := by
    unfold bytesOf
    rw [if_neg (by omega), if_pos (by omega)]
    simp
  unfold writeComplex miniWriteComplex
  rw [hb]
  have key : ∀ v r', write w e o d r = (.ok v, r') → d.flatMap (encode e w) ≠ [] := by
    intro v r' h h0
    unfold write put at h
    split at h
    · rename_i hc
      have h1 := congrArg List.length h0
      rw [length_enc'] at h1
      have := Nat.mul_pos (List.length_pos_iff.mpr hc.1) (show 0 < w by omega)
      simp at h1; omega
    · cases h
  exact ⟨fun v r' h => le_put o _ _ _ _ _ r (key v r' h) v r' h, fun v r' h => le_put_copy o _ _ _ r (key v r' h) v r' h⟩

theorem le_readComplex (w : Nat) (e : Endian) (o n : Int) (r : Ref) (hw : w = 2 ∨ w = 4 ∨ w = 8) (hm : r.data.length ≤ maxAlloc) :
    Le (read w e o n r) (readComplex o n w (some e) r) ∧ Le (read w e o n r) (miniReadComplex o n w (some e) r) := by
  have key : ∀ v r', read w e o n r = (.ok v, r') → complexOf o n w (some e) (.ok (.bytes (slice r.data o.toNat n.toNat)), r) = (.ok v, r') ∧
      readBytes o n r = (.ok (.bytes (slice r.data o.toNat n.toNat)), r) := by
    intro v r' h
    unfold read at h
    split at h
    · rename_i hc
      cases h
      have hnw : n ≤ n * w := by
        have := Int.mul_le_mul_of_nonneg_left (show (1 : Int) ≤ w by omega) (show 0 ≤ n by omega)
        omega
      have hnn : ((n.toNat * w : Nat) : Int) = n * w := by rw [Int.natCast_mul]; congr 1; omega
      constructor
      · unfold complexOf
        simp only
        rw [if_neg (by omega), if_pos (by omega)]
        unfold decodeInts
        rw [Int.toNat_natCast, if_neg (by omega), if_neg (by omega)]
        simp only
        rw [if_pos (by omega)]
        congr 3
        refine List.map_congr_left fun i hi => ?_
        have hi := List.mem_range.1 hi
        have : i * w + w ≤ n.toNat * w := by
          rw [← Nat.succ_mul]; exact Nat.mul_le_mul_right _ hi
        rw [slice_spare _ _ (by omega)]
      · unfold readBytes
        rw [if_pos (by omega)]
    · cases h
  refine ⟨fun v r' h => ?_, fun v r' h => ?_⟩
  · unfold readComplex
    rw [(key v r' h).2]; exact (key v r' h).1
  · unfold miniReadComplex
    rw [le_readBytes o n r _ _ (key v r' h).2]; exact (key v r' h).1

end Crunch.Ref
