import Verif.Lemmas.V1MiniFootComplex
import Verif.Lemmas.UnlockedFoot

/-! The bytes the methods of v1/minibuf.go access.  Written by tools/foot_proofs.py. -/

set_option linter.unusedVariables false

namespace Crunch.Src.V1Mini
open V3 (Buf)

attribute [local irreducible] Prog.Uses LFoot

/-- The places with the bytes that a call may read. -/
def Rd1 (b : Buf) (op : V1.Op1) (l : Loc) : Prop :=
  l.part = .bytes → l.content b (V1.bytesOfMini1 b op) ∨ l.around b (V1.complexOf b op) ∨ ∃ t, V1.sourceOf1 op = some t ∧ l.of t

theorem rd1 {p : Prog V} {s : Sh} {op : V1.Op1} (u : p.Uses (RdIn s.st.b (V1.bytesOfMini1 s.st.b op) (V1.sourceOf1 op)) (WrIn s.st.b (V1.bytesOfMini1 s.st.b op)) s) :
    p.Uses (Rd1 s.st.b op) (WrIn s.st.b (V1.bytesOfMini1 s.st.b op)) s := u.mono (fun _ h hb => (h hb).imp id .inr) fun _ h => h

theorem fields1 {b : Buf} {op : V1.Op1} {r : Int × Int} : Fields (Rd1 b op) (WrIn b r) := fun _ h => ⟨fun h' => absurd h' h, fun h' => absurd h' h⟩

theorem around1 {b : Buf} {p : Option Int64} {n w : Int64} {e : V1.ByteOrder} (hw : w ≠ V1.Unsigned8) {x : Nat} (h1 : V2.byteAt b p ≤ x)
    (h2 : x < V2.byteAt b p + n.toInt * w.toInt) : Rd1 b (.readComplex p n w e) (.byte b.buf.arr (b.buf.off + x)) :=
  fun _ => .inr (.inl ⟨x, by rw [V1.complexOf, if_neg hw]; exact h1, by rw [V1.complexOf, if_neg hw]; exact h2, rfl⟩)

theorem bytes_uses (fuel d : Nat) (o : V3.Outs) (a : V1.Any) (op : V1.Op1) (hp : V1.inPlaceMini1 op = true) {s : Sh} (hs : Sized s.st.b) (hc : s.st.b.buf.cap < 2 ^ 50)
    (ha : V1.accessesMini1 op .bytes = true) (hm : (V1.miniCall1 o a op).isSome = true) :
    (microMini1 P fuel (d + 4) (o, a, op)).Uses (Rd1 s.st.b op) (WrIn s.st.b (V1.bytesOfMini1 s.st.b op)) s := by
  match op, ha, hm with
  | .writeComplex (some o) x w e, _, _ => exact rd1 (micro_uses (foot_WriteComplex fuel (d + 1) hs.small fieldsAt (fun t e i hi => srcR (by rw [e]; rfl) i hi) (onesW rfl) trivial))
  | .writeComplex none x w e, _, _ => exact rd1 (micro_uses (foot_WriteComplexNext fuel (d + 1) hs.small fieldsAt (fun t e i hi => srcR (by rw [e]; rfl) i hi) (onesW rfl) (fun _ _ _ => trivial)))
  | .readComplex (some o) n w e, _, _ => exact micro_uses_out (foot_ReadComplex fuel (d + 1) hc fields1 (fun hw x h1 h2 => around1 hw h1 h2) (fun _ => trivial))
  | .readComplex none n w e, _, _ => exact micro_uses_out (foot_ReadComplexNext fuel (d + 1) hc fields1 (fun hw x h1 h2 => around1 hw h1 h2) (fun _ _ _ => trivial))
  | .writeBytes (some o) src, _, _ => exact rd1 (micro_uses (foot_WriteBytes fuel (d + 2) hs.small fieldsAt (srcR rfl) (onesW rfl) trivial))
  | .writeBytes none src, _, _ => exact rd1 (micro_uses (foot_WriteBytesNext fuel (d + 2) hs.small fieldsAt (srcR rfl) (onesW rfl) (fun _ _ _ => trivial)))
  | .readByte _, _, hm => exact nomatch hm
  | .writeByte _ _, _, hm => exact nomatch hm
  | .setBit (some o) x, _, _ => exact rd1 (micro_uses (foot_SetBit fuel (d + 2) hs.small fieldsAt (bitsR rfl) (bitsW rfl) trivial))
  | .setBit none x, _, _ => exact rd1 (micro_uses (foot_SetBitNext fuel (d + 2) hs.small fieldsAt (bitsR rfl) (bitsW rfl) (fun _ _ _ => trivial)))
  | .flipBit (some o), _, _ => exact rd1 (micro_uses (foot_FlipBit fuel (d + 2) hs.small fieldsAt (bitsR rfl) (bitsW rfl) trivial))
  | .flipBit none, _, _ => exact rd1 (micro_uses (foot_FlipBitNext fuel (d + 2) hs.small fieldsAt (bitsR rfl) (bitsW rfl) (fun _ _ _ => trivial)))
  | .readBit (some o), _, _ => exact rd1 (micro_uses_out (foot_ReadBit fuel (d + 1) hs.small fieldsAt (bitsR rfl) (fun _ => trivial)))
  | .readBit none, _, _ => exact rd1 (micro_uses_out (foot_ReadBitNext fuel (d + 1) hs.small fieldsAt (bitsR rfl) (fun _ _ _ => trivial)))
  | .readBits (some o) n, _, _ => exact rd1 (micro_uses_out (foot_ReadBits fuel d hs.small fieldsAt (fun h => bitsR (if_neg (Int.not_le.mpr h))) (fun _ => trivial)))
  | .readBits none n, _, _ => exact rd1 (micro_uses_out (foot_ReadBitsNext fuel d hs.small fieldsAt (fun h => bitsR (if_neg (Int.not_le.mpr h))) (fun _ _ _ => trivial)))
  | .setBits (some o) data n, _, _ => exact rd1 (micro_uses (foot_SetBits fuel (d + 1) hs.small fieldsAt (fun h => bitsR (if_neg (Int.not_le.mpr h))) (fun h => bitsW (if_neg (Int.not_le.mpr h))) trivial))
  | .setBits none data n, _, _ => exact rd1 (micro_uses (foot_SetBitsNext fuel (d + 1) hs.small fieldsAt (fun h => bitsR (if_neg (Int.not_le.mpr h))) (fun h => bitsW (if_neg (Int.not_le.mpr h))) (fun _ _ _ => trivial)))
  | .clearAll, _, _ => exact rd1 (micro_uses (foot_ClearAllBits fuel (d + 2) hs.small fieldsAt (allW rfl) trivial))
  | .setAll, _, _ => exact rd1 (micro_uses (foot_SetAllBits fuel (d + 2) hs.small fieldsAt (allW rfl) trivial))
  | .flipAll, _, _ => exact rd1 (micro_uses (foot_FlipAllBits fuel (d + 2) hs.small fieldsAt (allR rfl) (allW rfl) trivial))
  | .readBytes _ _, ha, _ => exact nomatch ha
  | .seek _ _, ha, _ => exact nomatch ha
  | .seekBit _ _, ha, _ => exact nomatch ha
  | .after _, ha, _ => exact nomatch ha
  | .afterBit _, ha, _ => exact nomatch ha
  | .alignByte, ha, _ => exact nomatch ha
  | .alignBit, ha, _ => exact nomatch ha
  | .bytes, ha, _ => exact nomatch ha
  | .capacity, ha, _ => exact nomatch ha
  | .bitCapacity, ha, _ => exact nomatch ha
  | .offset, ha, _ => exact nomatch ha
  | .bitOffset, ha, _ => exact nomatch ha
  | .grow _, ha, _ => exact nomatch hp
  | .refresh, ha, _ => exact nomatch hp

end Crunch.Src.V1Mini
