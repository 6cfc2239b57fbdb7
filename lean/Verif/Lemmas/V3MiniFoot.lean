import Verif.Lemmas.LFoot

/-! The bytes the methods of v3/minibuf.generated.go other than the typed ones access.  Written by tools/foot_proofs.py. -/

set_option linter.unusedVariables false

namespace Crunch.Src.V3Mini
open V3 (Buf)

attribute [local irreducible] LFoot

theorem foot_SeekByte (fuel d : Nat) {off : Int64} {r : Bool} {R W : Loc → Prop} {Q : Buf → V → V → Prop} {b : Buf} {v : V}
    (hF : Fields R W) (hq : ∀ b, Q b v .unit) : LFoot R W Q b v (P.call fuel (d + 1) (str% "SeekByte") [.i64 off, .bool r]) := by
  rw [call_of (f := fun_SeekByte) (by rfl) (by rfl)]
  unfold fun_SeekByte
  srcp
  refine lfoot_ite (fun _ => ?_) fun _ => ?_
  · lfsteps hF
    exact lfoot_pure (hq _)
  · lfsteps hF
    exact lfoot_pure (hq _)

theorem foot_SeekByte_num (fuel d : Nat) {n : Nat} {r : Bool} {R W : Loc → Prop} {Q : Buf → V → V → Prop} {b : Buf} {v : V}
    (hF : Fields R W) (hq : ∀ b, Q b v .unit) : LFoot R W Q b v (P.call fuel (d + 1) (str% "SeekByte") [.num n, .bool r]) := by
  rw [call_of (f := fun_SeekByte) (by rfl) (by rfl)]
  unfold fun_SeekByte
  srcp
  refine lfoot_ite (fun _ => ?_) fun _ => ?_
  · lfsteps hF
    exact lfoot_pure (hq _)
  · lfsteps hF
    exact lfoot_pure (hq _)

theorem foot_SeekBit (fuel d : Nat) {off : Int64} {r : Bool} {R W : Loc → Prop} {Q : Buf → V → V → Prop} {b : Buf} {v : V}
    (hF : Fields R W) (hq : ∀ b, Q b v .unit) : LFoot R W Q b v (P.call fuel (d + 1) (str% "SeekBit") [.i64 off, .bool r]) := by
  rw [call_of (f := fun_SeekBit) (by rfl) (by rfl)]
  unfold fun_SeekBit
  srcp
  refine lfoot_ite (fun _ => ?_) fun _ => ?_
  · lfsteps hF
    exact lfoot_pure (hq _)
  · lfsteps hF
    exact lfoot_pure (hq _)

theorem foot_SeekBit_num (fuel d : Nat) {n : Nat} {r : Bool} {R W : Loc → Prop} {Q : Buf → V → V → Prop} {b : Buf} {v : V}
    (hF : Fields R W) (hq : ∀ b, Q b v .unit) : LFoot R W Q b v (P.call fuel (d + 1) (str% "SeekBit") [.num n, .bool r]) := by
  rw [call_of (f := fun_SeekBit) (by rfl) (by rfl)]
  unfold fun_SeekBit
  srcp
  refine lfoot_ite (fun _ => ?_) fun _ => ?_
  · lfsteps hF
    exact lfoot_pure (hq _)
  · lfsteps hF
    exact lfoot_pure (hq _)

theorem foot_SetBit (fuel d : Nat) {off : Int64} {R W : Loc → Prop} {Q : Buf → V → V → Prop} {b : Buf} {v : V}
    (hs : b.buf.len < 2 ^ 50) (hF : Fields R W) (hr : BitsIn R b off.toInt off.toInt) (hw : BitsIn W b off.toInt off.toInt) (hq : -8 < off.toInt → off.toInt < 8 * b.buf.len → Q b v .unit) :
    LFoot R W Q b v (P.call fuel (d + 1) (str% "SetBit") [.i64 off]) := by
  rw [call_of (f := fun_SetBit) (by rfl) (by rfl)]
  unfold fun_SetBit
  srcp
  lfsteps hF
  refine lfoot_loadBit hr fun h0 h1 x => ?_
  lfsteps hF
  exact lfoot_storeBit hw (lfoot_pure (hq h0 h1))

theorem foot_SetBitNext (fuel d : Nat) {R W : Loc → Prop} {Q : Buf → V → V → Prop} {b : Buf} {v : V}
    (hs : b.buf.len < 2 ^ 50) (hF : Fields R W) (hr : BitsIn R b b.boff.toInt b.boff.toInt) (hw : BitsIn W b b.boff.toInt b.boff.toInt) (hq : ∀ b v x, Q b v x) :
    LFoot R W Q b v (P.call fuel (d + 2) (str% "SetBitNext") []) := by
  rw [call_of (f := fun_SetBitNext) (by rfl) (by rfl)]
  unfold fun_SetBitNext
  srcp
  refine lfoot_field (hF.rf _) (lfoot_bind (foot_SetBit fuel d hs hF hr hw fun _ _ => ?_))
  refine lfoot_bind (foot_SeekBit_num fuel d hF fun _ => ?_)
  exact lfoot_pure (hq _ _ _)

theorem foot_ClearBit (fuel d : Nat) {off : Int64} {R W : Loc → Prop} {Q : Buf → V → V → Prop} {b : Buf} {v : V}
    (hs : b.buf.len < 2 ^ 50) (hF : Fields R W) (hr : BitsIn R b off.toInt off.toInt) (hw : BitsIn W b off.toInt off.toInt) (hq : -8 < off.toInt → off.toInt < 8 * b.buf.len → Q b v .unit) :
    LFoot R W Q b v (P.call fuel (d + 1) (str% "ClearBit") [.i64 off]) := by
  rw [call_of (f := fun_ClearBit) (by rfl) (by rfl)]
  unfold fun_ClearBit
  srcp
  lfsteps hF
  refine lfoot_loadBit hr fun h0 h1 x => ?_
  lfsteps hF
  exact lfoot_storeBit hw (lfoot_pure (hq h0 h1))

theorem foot_ClearBitNext (fuel d : Nat) {R W : Loc → Prop} {Q : Buf → V → V → Prop} {b : Buf} {v : V}
    (hs : b.buf.len < 2 ^ 50) (hF : Fields R W) (hr : BitsIn R b b.boff.toInt b.boff.toInt) (hw : BitsIn W b b.boff.toInt b.boff.toInt) (hq : ∀ b v x, Q b v x) :
    LFoot R W Q b v (P.call fuel (d + 2) (str% "ClearBitNext") []) := by
  rw [call_of (f := fun_ClearBitNext) (by rfl) (by rfl)]
  unfold fun_ClearBitNext
  srcp
  refine lfoot_field (hF.rf _) (lfoot_bind (foot_ClearBit fuel d hs hF hr hw fun _ _ => ?_))
  refine lfoot_bind (foot_SeekBit_num fuel d hF fun _ => ?_)
  exact lfoot_pure (hq _ _ _)

theorem foot_FlipBit (fuel d : Nat) {off : Int64} {R W : Loc → Prop} {Q : Buf → V → V → Prop} {b : Buf} {v : V}
    (hs : b.buf.len < 2 ^ 50) (hF : Fields R W) (hr : BitsIn R b off.toInt off.toInt) (hw : BitsIn W b off.toInt off.toInt) (hq : -8 < off.toInt → off.toInt < 8 * b.buf.len → Q b v .unit) :
    LFoot R W Q b v (P.call fuel (d + 1) (str% "FlipBit") [.i64 off]) := by
  rw [call_of (f := fun_FlipBit) (by rfl) (by rfl)]
  unfold fun_FlipBit
  srcp
  lfsteps hF
  refine lfoot_loadBit hr fun h0 h1 x => ?_
  lfsteps hF
  exact lfoot_storeBit hw (lfoot_pure (hq h0 h1))

theorem foot_FlipBitNext (fuel d : Nat) {R W : Loc → Prop} {Q : Buf → V → V → Prop} {b : Buf} {v : V}
    (hs : b.buf.len < 2 ^ 50) (hF : Fields R W) (hr : BitsIn R b b.boff.toInt b.boff.toInt) (hw : BitsIn W b b.boff.toInt b.boff.toInt) (hq : ∀ b v x, Q b v x) :
    LFoot R W Q b v (P.call fuel (d + 2) (str% "FlipBitNext") []) := by
  rw [call_of (f := fun_FlipBitNext) (by rfl) (by rfl)]
  unfold fun_FlipBitNext
  srcp
  refine lfoot_field (hF.rf _) (lfoot_bind (foot_FlipBit fuel d hs hF hr hw fun _ _ => ?_))
  refine lfoot_bind (foot_SeekBit_num fuel d hF fun _ => ?_)
  exact lfoot_pure (hq _ _ _)

theorem foot_ReadBit (fuel d : Nat) {off : Int64} {R W : Loc → Prop} {Q : Buf → V → V → Prop} {b : Buf} {v : V}
    (hs : b.buf.len < 2 ^ 50) (hF : Fields R W) (hr : BitsIn R b off.toInt off.toInt) (hq : -8 < off.toInt → off.toInt < 8 * b.buf.len → ∀ x, Q b (.u8 x) .unit) :
    LFoot R W Q b v (P.call fuel (d + 1) (str% "ReadBit") [.ptr, .i64 off]) := by
  rw [call_of (f := fun_ReadBit) (by rfl) (by rfl)]
  unfold fun_ReadBit
  srcp
  lfsteps hF
  exact lfoot_loadBit hr fun h0 h1 x => lfoot_getOut (lfoot_putOut (lfoot_pure (hq h0 h1 _)))

theorem foot_ReadBitNext (fuel d : Nat) {R W : Loc → Prop} {Q : Buf → V → V → Prop} {b : Buf} {v : V}
    (hs : b.buf.len < 2 ^ 50) (hF : Fields R W) (hr : BitsIn R b b.boff.toInt b.boff.toInt) (hq : ∀ b v x, Q b v x) :
    LFoot R W Q b v (P.call fuel (d + 2) (str% "ReadBitNext") [.ptr]) := by
  rw [call_of (f := fun_ReadBitNext) (by rfl) (by rfl)]
  unfold fun_ReadBitNext
  srcp
  refine lfoot_field (hF.rf _) (lfoot_bind (foot_ReadBit fuel d hs hF hr fun _ _ _ => ?_))
  refine lfoot_bind (foot_SeekBit_num fuel d hF fun _ => ?_)
  exact lfoot_pure (hq _ _ _)

theorem foot_SetBits (fuel d : Nat) {off n : Int64} {data : UInt64} {R W : Loc → Prop} {Q : Buf → V → V → Prop} {b : Buf} {v : V}
    (hs : b.buf.len < 2 ^ 50) (hF : Fields R W) (hr : BitsIn R b off.toInt (off.toInt + max 1 n.toInt - 1)) (hw : BitsIn W b off.toInt (off.toInt + max 1 n.toInt - 1)) (hq : Q b v .unit) :
    LFoot R W Q b v (P.call fuel (d + 2) (str% "SetBits") [.i64 off, .u64 data, .i64 n]) := by
  rw [call_of (f := fun_SetBits) (by rfl) (by rfl)]
  unfold fun_SetBits
  srcp
  refine lfoot_bind (lfoot_goto (A := Unit) (fun _ i => [.i64 off, .u64 data, .i64 n, .i64 i]) (fun _ => v)
    (fun i => BitElem b off i ∧ i.toInt < max 1 n.toInt) ?_ (fun a i => ?_) fuel 0 () ⟨.start hs, ?_⟩)
  · intro i a ⟨ha, hm⟩
    srcp
    refine lfoot_ite (fun _ => lfoot_bind (foot_ClearBit fuel d hs hF (hr.at ha hm) (hw.at ha hm) fun h0 h1 => ?_))
      fun _ => lfoot_bind (foot_SetBit fuel d hs hF (hr.at ha hm) (hw.at ha hm) fun h0 h1 => ?_)
    · refine lfoot_ite (fun hn => lfoot_pure ⟨rfl, (), rfl, .inl ⟨rfl, ?_⟩⟩) fun _ => lfoot_pure ⟨rfl, (), rfl, .inr rfl⟩
      obtain ⟨e1, e2⟩ := ha.next h0 h1 hn
      refine ⟨e1, ?_⟩
      rw [Int64.lt_iff_toInt_lt] at hn
      omega
    · refine lfoot_ite (fun hn => lfoot_pure ⟨rfl, (), rfl, .inl ⟨rfl, ?_⟩⟩) fun _ => lfoot_pure ⟨rfl, (), rfl, .inr rfl⟩
      obtain ⟨e1, e2⟩ := ha.next h0 h1 hn
      refine ⟨e1, ?_⟩
      rw [Int64.lt_iff_toInt_lt] at hn
      omega
  · srcp
    exact lfoot_pure hq
  · have : (0 : Int64).toInt = 0 := rfl
    omega

theorem foot_SetBitsNext (fuel d : Nat) {n : Int64} {data : UInt64} {R W : Loc → Prop} {Q : Buf → V → V → Prop} {b : Buf} {v : V}
    (hs : b.buf.len < 2 ^ 50) (hF : Fields R W) (hr : BitsIn R b b.boff.toInt (b.boff.toInt + max 1 n.toInt - 1)) (hw : BitsIn W b b.boff.toInt (b.boff.toInt + max 1 n.toInt - 1)) (hq : ∀ b v x, Q b v x) :
    LFoot R W Q b v (P.call fuel (d + 3) (str% "SetBitsNext") [.u64 data, .i64 n]) := by
  rw [call_of (f := fun_SetBitsNext) (by rfl) (by rfl)]
  unfold fun_SetBitsNext
  srcp
  refine lfoot_field (hF.rf _) (lfoot_bind (foot_SetBits fuel d hs hF hr hw ?_))
  refine lfoot_bind (foot_SeekBit fuel (d + 1) hF fun _ => ?_)
  exact lfoot_pure (hq _ _ _)

theorem foot_ReadBits (fuel d : Nat) {off n : Int64} {o : UInt64} {R W : Loc → Prop} {Q : Buf → V → V → Prop} {b : Buf}
    (hs : b.buf.len < 2 ^ 50) (hF : Fields R W) (hr : BitsIn R b off.toInt (off.toInt + max 1 n.toInt - 1)) (hq : ∀ x, Q b (.u64 x) .unit) :
    LFoot R W Q b (.u64 o) (P.call fuel (d + 2) (str% "ReadBits") [.ptr, .i64 off, .i64 n]) := by
  rw [call_of (f := fun_ReadBits) (by rfl) (by rfl)]
  unfold fun_ReadBits
  srcp
  refine lfoot_bind (lfoot_goto (A := UInt64 × UInt8) (fun a i => [.ptr, .i64 off, .i64 n, .u8 a.2, .i64 i]) (fun a => .u64 a.1)
    (fun i => BitElem b off i ∧ i.toInt < max 1 n.toInt) ?_ (fun a i => ?_) fuel 0 (o, 0) ⟨.start hs, ?_⟩)
  · intro i a ⟨ha, hm⟩
    srcp
    refine lfoot_withOut (lfoot_bind (foot_ReadBit fuel d hs hF (hr.at ha hm) fun h0 h1 x => lfoot_pure ?_))
    srcp
    refine lfoot_getOut ?_
    srcp
    refine lfoot_getOut (lfoot_putOut ?_)
    refine lfoot_ite (fun hn => lfoot_pure ⟨rfl, (_, _), rfl, .inl ⟨rfl, ?_⟩⟩) fun _ => lfoot_pure ⟨rfl, (_, _), rfl, .inr rfl⟩
    obtain ⟨e1, e2⟩ := ha.next h0 h1 hn
    refine ⟨e1, ?_⟩
    rw [Int64.lt_iff_toInt_lt] at hn
    omega
  · srcp
    exact lfoot_pure (hq _)
  · have : (0 : Int64).toInt = 0 := rfl
    omega

theorem foot_ReadBitsNext (fuel d : Nat) {n : Int64} {o : UInt64} {R W : Loc → Prop} {Q : Buf → V → V → Prop} {b : Buf}
    (hs : b.buf.len < 2 ^ 50) (hF : Fields R W) (hr : BitsIn R b b.boff.toInt (b.boff.toInt + max 1 n.toInt - 1)) (hq : ∀ b v x, Q b v x) :
    LFoot R W Q b (.u64 o) (P.call fuel (d + 3) (str% "ReadBitsNext") [.ptr, .i64 n]) := by
  rw [call_of (f := fun_ReadBitsNext) (by rfl) (by rfl)]
  unfold fun_ReadBitsNext
  srcp
  refine lfoot_field (hF.rf _) (lfoot_bind (foot_ReadBits fuel d hs hF hr fun _ => ?_))
  refine lfoot_bind (foot_SeekBit fuel (d + 1) hF fun _ => ?_)
  exact lfoot_pure (hq _ _ _)

theorem foot_ClearAllBits (fuel d : Nat) {R W : Loc → Prop} {Q : Buf → V → V → Prop} {b : Buf} {v : V}
    (hs : b.buf.len < 2 ^ 50) (hF : Fields R W) (hw : ∀ i, i < b.buf.len → W (.byte b.buf.arr (b.buf.off + i))) (hq : Q b v .unit) :
    LFoot R W Q b v (P.call fuel (d + 1) (str% "ClearAllBits") []) := by
  rw [call_of (f := fun_ClearAllBits) (by rfl) (by rfl)]
  unfold fun_ClearAllBits
  srcp
  lfsteps hF
  refine lfoot_bind (lfoot_goto (A := Unit) (fun _ i => [.i64 i, .i64 _]) (fun _ => v) (fun _ => True) ?_ (fun a i => ?_) fuel 0 () trivial)
  · intro i a _
    srcp
    lfsteps hF
    refine lfoot_store fun h0 h1 => ⟨hw _ (by omega), ?_⟩
    exact lfoot_ite (fun hn => lfoot_pure ⟨rfl, (), rfl, .inl ⟨rfl, trivial⟩⟩) fun _ => lfoot_pure ⟨rfl, (), rfl, .inr rfl⟩
  · srcp
    exact lfoot_pure hq

theorem foot_SetAllBits (fuel d : Nat) {R W : Loc → Prop} {Q : Buf → V → V → Prop} {b : Buf} {v : V}
    (hs : b.buf.len < 2 ^ 50) (hF : Fields R W) (hw : ∀ i, i < b.buf.len → W (.byte b.buf.arr (b.buf.off + i))) (hq : Q b v .unit) :
    LFoot R W Q b v (P.call fuel (d + 1) (str% "SetAllBits") []) := by
  rw [call_of (f := fun_SetAllBits) (by rfl) (by rfl)]
  unfold fun_SetAllBits
  srcp
  lfsteps hF
  refine lfoot_bind (lfoot_goto (A := Unit) (fun _ i => [.i64 i, .i64 _]) (fun _ => v) (fun _ => True) ?_ (fun a i => ?_) fuel 0 () trivial)
  · intro i a _
    srcp
    lfsteps hF
    refine lfoot_store fun h0 h1 => ⟨hw _ (by omega), ?_⟩
    exact lfoot_ite (fun hn => lfoot_pure ⟨rfl, (), rfl, .inl ⟨rfl, trivial⟩⟩) fun _ => lfoot_pure ⟨rfl, (), rfl, .inr rfl⟩
  · srcp
    exact lfoot_pure hq

theorem foot_FlipAllBits (fuel d : Nat) {R W : Loc → Prop} {Q : Buf → V → V → Prop} {b : Buf} {v : V}
    (hs : b.buf.len < 2 ^ 50) (hF : Fields R W) (hr : ∀ i, i < b.buf.len → R (.byte b.buf.arr (b.buf.off + i))) (hw : ∀ i, i < b.buf.len → W (.byte b.buf.arr (b.buf.off + i))) (hq : Q b v .unit) :
    LFoot R W Q b v (P.call fuel (d + 1) (str% "FlipAllBits") []) := by
  rw [call_of (f := fun_FlipAllBits) (by rfl) (by rfl)]
  unfold fun_FlipAllBits
  srcp
  lfsteps hF
  refine lfoot_bind (lfoot_goto (A := Unit) (fun _ i => [.i64 i, .i64 _]) (fun _ => v) (fun _ => True) ?_ (fun a i => ?_) fuel 0 () trivial)
  · intro i a _
    srcp
    lfsteps hF
    refine lfoot_load fun h0 h1 => ⟨hr _ (by omega), fun x => ?_⟩
    lfsteps hF
    refine lfoot_store fun h0 h1 => ⟨hw _ (by omega), ?_⟩
    exact lfoot_ite (fun hn => lfoot_pure ⟨rfl, (), rfl, .inl ⟨rfl, trivial⟩⟩) fun _ => lfoot_pure ⟨rfl, (), rfl, .inr rfl⟩
  · srcp
    exact lfoot_pure hq

theorem foot_WriteBytes (fuel d : Nat) {off : Int64} {data : Slice} {R W : Loc → Prop} {Q : Buf → V → V → Prop} {b : Buf} {v : V}
    (hs : b.buf.len < 2 ^ 50) (hF : Fields R W) (hr : ∀ i, i < data.len → R (.byte data.arr (data.off + i)))
    (hw : 0 ≤ off.toInt → ∀ i, i < data.len → off.toInt.toNat + i < b.buf.len → W (.byte b.buf.arr (b.buf.off + (off.toInt.toNat + i)))) (hq : Q b v .unit) :
    LFoot R W Q b v (P.call fuel (d + 1) (str% "WriteBytes") [.i64 off, .bytes (.mem data)]) := by
  rw [call_of (f := fun_WriteBytes) (by rfl) (by rfl)]
  unfold fun_WriteBytes
  srcp
  lfsteps hF
  exact lfoot_copy hr hw (lfoot_pure hq)

theorem foot_WriteBytesNext (fuel d : Nat) {data : Slice} {R W : Loc → Prop} {Q : Buf → V → V → Prop} {b : Buf} {v : V}
    (hs : b.buf.len < 2 ^ 50) (hF : Fields R W) (hr : ∀ i, i < data.len → R (.byte data.arr (data.off + i)))
    (hw : 0 ≤ b.off.toInt → ∀ i, i < data.len → b.off.toInt.toNat + i < b.buf.len → W (.byte b.buf.arr (b.buf.off + (b.off.toInt.toNat + i)))) (hq : ∀ b v x, Q b v x) :
    LFoot R W Q b v (P.call fuel (d + 2) (str% "WriteBytesNext") [.bytes (.mem data)]) := by
  rw [call_of (f := fun_WriteBytesNext) (by rfl) (by rfl)]
  unfold fun_WriteBytesNext
  srcp
  refine lfoot_field (hF.rf _) (lfoot_bind (foot_WriteBytes fuel d hs hF hr hw ?_))
  refine lfoot_bind (foot_SeekByte fuel d hF fun _ => ?_)
  exact lfoot_pure (hq _ _ _)

end Crunch.Src.V3Mini
