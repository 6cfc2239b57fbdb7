import Verif.Lemmas.LFoot1
import Verif.Src.V1MiniComplex

/-! The bytes the methods of v1/minibuf.go other than those for complex values access.  Written by tools/foot_proofs.py. -/

set_option linter.unusedVariables false

namespace Crunch.Src.V1Mini
open V3 (Buf)

attribute [local irreducible] LFoot

theorem foot_atob (fuel d : Nat) {x : Bool} {R W : Loc → Prop} {Q : Buf → V → V → Prop} {b : Buf} {v : V} (hq : ∀ x, Q b v (.u8 x)) :
    LFoot R W Q b v (P.call fuel (d + 1) (str% "atob") [.bool x]) := by
  rw [call_of (f := V1Utils.fun_atob) (by rfl) (by rfl)]
  unfold V1Utils.fun_atob
  srcp
  cases x <;> exact lfoot_pure (hq _)

theorem foot_seek (fuel d : Nat) {off : Int64} {r : Bool} {R W : Loc → Prop} {Q : Buf → V → V → Prop} {b : Buf} {v : V}
    (hF : Fields R W) (hq : ∀ b, Q b v .unit) : LFoot R W Q b v (P.call fuel (d + 1) (str% "seek") [.i64 off, .bool r]) := by
  rw [call_of (f := fun_seek) (by rfl) (by rfl)]
  unfold fun_seek
  srcp
  refine lfoot_ite (fun _ => ?_) fun _ => ?_
  · lfsteps hF
    exact lfoot_pure (hq _)
  · lfsteps hF
    exact lfoot_pure (hq _)

theorem foot_seek_num (fuel d : Nat) {n : Nat} {r : Bool} {R W : Loc → Prop} {Q : Buf → V → V → Prop} {b : Buf} {v : V}
    (hF : Fields R W) (hq : ∀ b, Q b v .unit) : LFoot R W Q b v (P.call fuel (d + 1) (str% "seek") [.num n, .bool r]) := by
  rw [call_of (f := fun_seek) (by rfl) (by rfl)]
  unfold fun_seek
  srcp
  refine lfoot_ite (fun _ => ?_) fun _ => ?_
  · lfsteps hF
    exact lfoot_pure (hq _)
  · lfsteps hF
    exact lfoot_pure (hq _)

theorem foot_seekbit (fuel d : Nat) {off : Int64} {r : Bool} {R W : Loc → Prop} {Q : Buf → V → V → Prop} {b : Buf} {v : V}
    (hF : Fields R W) (hq : ∀ b, Q b v .unit) : LFoot R W Q b v (P.call fuel (d + 1) (str% "seekbit") [.i64 off, .bool r]) := by
  rw [call_of (f := fun_seekbit) (by rfl) (by rfl)]
  unfold fun_seekbit
  srcp
  refine lfoot_ite (fun _ => ?_) fun _ => ?_
  · lfsteps hF
    exact lfoot_pure (hq _)
  · lfsteps hF
    exact lfoot_pure (hq _)

theorem foot_seekbit_num (fuel d : Nat) {n : Nat} {r : Bool} {R W : Loc → Prop} {Q : Buf → V → V → Prop} {b : Buf} {v : V}
    (hF : Fields R W) (hq : ∀ b, Q b v .unit) : LFoot R W Q b v (P.call fuel (d + 1) (str% "seekbit") [.num n, .bool r]) := by
  rw [call_of (f := fun_seekbit) (by rfl) (by rfl)]
  unfold fun_seekbit
  srcp
  refine lfoot_ite (fun _ => ?_) fun _ => ?_
  · lfsteps hF
    exact lfoot_pure (hq _)
  · lfsteps hF
    exact lfoot_pure (hq _)

theorem foot_setbit (fuel d : Nat) {off : Int64} {x : UInt8} {R W : Loc → Prop} {Q : Buf → V → V → Prop} {b : Buf} {v : V}
    (hs : b.buf.len < 2 ^ 50) (hF : Fields R W) (hr : BitsIn R b off.toInt off.toInt) (hw : BitsIn W b off.toInt off.toInt) (hq : -8 < off.toInt → off.toInt < 8 * b.buf.len → Q b v .unit) :
    LFoot R W Q b v (P.call fuel (d + 1) (str% "setbit") [.i64 off, .u8 x]) := by
  rw [call_of (f := fun_setbit) (by rfl) (by rfl)]
  unfold fun_setbit
  srcp
  refine lfoot_ite (fun _ => ?_) fun _ => lfoot_ite (fun _ => ?_) fun _ => lfoot_fail
  · lfsteps hF
    refine lfoot_loadBit hr fun h0 h1 x => ?_
    lfsteps hF
    exact lfoot_storeBit hw (lfoot_pure (hq h0 h1))
  · lfsteps hF
    refine lfoot_loadBit hr fun h0 h1 x => ?_
    lfsteps hF
    exact lfoot_storeBit hw (lfoot_pure (hq h0 h1))

theorem foot_SetBit (fuel d : Nat) {off : Int64} {x : UInt8} {R W : Loc → Prop} {Q : Buf → V → V → Prop} {b : Buf} {v : V}
    (hs : b.buf.len < 2 ^ 50) (hF : Fields R W) (hr : BitsIn R b off.toInt off.toInt) (hw : BitsIn W b off.toInt off.toInt) (hq : Q b v .unit) :
    LFoot R W Q b v (P.call fuel (d + 2) (str% "SetBit") [.i64 off, .u8 x]) := by
  rw [call_of (f := fun_SetBit) (by rfl) (by rfl)]
  unfold fun_SetBit
  srcp
  refine lfoot_bind (foot_setbit fuel d hs hF hr hw fun _ _ => ?_)
  exact lfoot_pure hq

theorem foot_SetBitNext (fuel d : Nat) {x : UInt8} {R W : Loc → Prop} {Q : Buf → V → V → Prop} {b : Buf} {v : V}
    (hs : b.buf.len < 2 ^ 50) (hF : Fields R W) (hr : BitsIn R b b.boff.toInt b.boff.toInt) (hw : BitsIn W b b.boff.toInt b.boff.toInt) (hq : ∀ b v x, Q b v x) :
    LFoot R W Q b v (P.call fuel (d + 2) (str% "SetBitNext") [.u8 x]) := by
  rw [call_of (f := fun_SetBitNext) (by rfl) (by rfl)]
  unfold fun_SetBitNext
  srcp
  refine lfoot_field (hF.rf _) (lfoot_bind (foot_setbit fuel d hs hF hr hw fun _ _ => ?_))
  refine lfoot_bind (foot_seekbit_num fuel d hF fun _ => ?_)
  exact lfoot_pure (hq _ _ _)

theorem foot_flipbit (fuel d : Nat) {off : Int64} {R W : Loc → Prop} {Q : Buf → V → V → Prop} {b : Buf} {v : V}
    (hs : b.buf.len < 2 ^ 50) (hF : Fields R W) (hr : BitsIn R b off.toInt off.toInt) (hw : BitsIn W b off.toInt off.toInt) (hq : -8 < off.toInt → off.toInt < 8 * b.buf.len → Q b v .unit) :
    LFoot R W Q b v (P.call fuel (d + 1) (str% "flipbit") [.i64 off]) := by
  rw [call_of (f := fun_flipbit) (by rfl) (by rfl)]
  unfold fun_flipbit
  srcp
  lfsteps hF
  refine lfoot_loadBit hr fun h0 h1 x => ?_
  lfsteps hF
  exact lfoot_storeBit hw (lfoot_pure (hq h0 h1))

theorem foot_FlipBit (fuel d : Nat) {off : Int64} {R W : Loc → Prop} {Q : Buf → V → V → Prop} {b : Buf} {v : V}
    (hs : b.buf.len < 2 ^ 50) (hF : Fields R W) (hr : BitsIn R b off.toInt off.toInt) (hw : BitsIn W b off.toInt off.toInt) (hq : Q b v .unit) :
    LFoot R W Q b v (P.call fuel (d + 2) (str% "FlipBit") [.i64 off]) := by
  rw [call_of (f := fun_FlipBit) (by rfl) (by rfl)]
  unfold fun_FlipBit
  srcp
  refine lfoot_bind (foot_flipbit fuel d hs hF hr hw fun _ _ => ?_)
  exact lfoot_pure hq

theorem foot_FlipBitNext (fuel d : Nat) {R W : Loc → Prop} {Q : Buf → V → V → Prop} {b : Buf} {v : V}
    (hs : b.buf.len < 2 ^ 50) (hF : Fields R W) (hr : BitsIn R b b.boff.toInt b.boff.toInt) (hw : BitsIn W b b.boff.toInt b.boff.toInt) (hq : ∀ b v x, Q b v x) :
    LFoot R W Q b v (P.call fuel (d + 2) (str% "FlipBitNext") []) := by
  rw [call_of (f := fun_FlipBitNext) (by rfl) (by rfl)]
  unfold fun_FlipBitNext
  srcp
  refine lfoot_field (hF.rf _) (lfoot_bind (foot_flipbit fuel d hs hF hr hw fun _ _ => ?_))
  refine lfoot_bind (foot_seekbit_num fuel d hF fun _ => ?_)
  exact lfoot_pure (hq _ _ _)

theorem foot_readbit (fuel d : Nat) {off : Int64} {R W : Loc → Prop} {Q : Buf → V → V → Prop} {b : Buf} {v : V}
    (hs : b.buf.len < 2 ^ 50) (hF : Fields R W) (hr : BitsIn R b off.toInt off.toInt) (hq : -8 < off.toInt → off.toInt < 8 * b.buf.len → ∀ x, Q b (.u8 x) .unit) :
    LFoot R W Q b v (P.call fuel (d + 2) (str% "readbit") [.ptr, .i64 off]) := by
  rw [call_of (f := fun_readbit) (by rfl) (by rfl)]
  unfold fun_readbit
  srcp
  lfsteps hF
  refine lfoot_loadBit hr fun h0 h1 x => lfoot_bind (foot_atob fuel d fun x => ?_)
  srcp
  exact lfoot_getOut (lfoot_putOut (lfoot_pure (hq h0 h1 _)))

theorem foot_ReadBit (fuel d : Nat) {off : Int64} {R W : Loc → Prop} {Q : Buf → V → V → Prop} {b : Buf} {v : V}
    (hs : b.buf.len < 2 ^ 50) (hF : Fields R W) (hr : BitsIn R b off.toInt off.toInt) (hq : ∀ x, Q b (.u8 x) .unit) :
    LFoot R W Q b v (P.call fuel (d + 3) (str% "ReadBit") [.ptr, .i64 off]) := by
  rw [call_of (f := fun_ReadBit) (by rfl) (by rfl)]
  unfold fun_ReadBit
  srcp
  refine lfoot_bind (foot_readbit fuel d hs hF hr fun _ _ _ => ?_)
  exact lfoot_pure (hq _)

theorem foot_ReadBitNext (fuel d : Nat) {R W : Loc → Prop} {Q : Buf → V → V → Prop} {b : Buf} {v : V}
    (hs : b.buf.len < 2 ^ 50) (hF : Fields R W) (hr : BitsIn R b b.boff.toInt b.boff.toInt) (hq : ∀ b v x, Q b v x) :
    LFoot R W Q b v (P.call fuel (d + 3) (str% "ReadBitNext") [.ptr]) := by
  rw [call_of (f := fun_ReadBitNext) (by rfl) (by rfl)]
  unfold fun_ReadBitNext
  srcp
  refine lfoot_field (hF.rf _) (lfoot_bind (foot_readbit fuel d hs hF hr fun _ _ _ => ?_))
  refine lfoot_bind (foot_seekbit_num fuel (d + 1) hF fun _ => ?_)
  exact lfoot_pure (hq _ _ _)

theorem foot_setbits (fuel d : Nat) {off n : Int64} {data : UInt64} {R W : Loc → Prop} {Q : Buf → V → V → Prop} {b : Buf} {v : V}
    (hs : b.buf.len < 2 ^ 50) (hF : Fields R W) (hr : 0 < n.toInt → BitsIn R b off.toInt (off.toInt + n.toInt - 1)) (hw : 0 < n.toInt → BitsIn W b off.toInt (off.toInt + n.toInt - 1)) (hq : Q b v .unit) :
    LFoot R W Q b v (P.call fuel (d + 2) (str% "setbits") [.i64 off, .u64 data, .i64 n]) := by
  rw [call_of (f := fun_setbits) (by rfl) (by rfl)]
  unfold fun_setbits
  srcp
  refine lfoot_bind (lfoot_for (A := Unit) (fun _ i => [.i64 off, .u64 data, .i64 n, .i64 i]) (fun _ => v) (fun i _ => BitElem b off i) (n := n) ?_ ?_ ?_ (fun a i _ => ?_) fuel 0 () (.start hs))
  · intro i a k; srcp
  · intro i a k; srcp
  · intro i a ha hn
    have hn' := hn
    rw [Int64.lt_iff_toInt_lt] at hn
    srcp
    have n0 := Int.lt_of_le_of_lt ha.hi hn
    refine lfoot_bind (foot_setbit fuel d hs hF ((hr n0).at ha hn) ((hw n0).at ha hn) fun h0 h1 => ?_)
    exact lfoot_pure ⟨rfl, (), rfl, rfl, ha.step h0 h1⟩
  · srcp
    exact lfoot_pure hq

theorem foot_SetBits (fuel d : Nat) {off n : Int64} {data : UInt64} {R W : Loc → Prop} {Q : Buf → V → V → Prop} {b : Buf} {v : V}
    (hs : b.buf.len < 2 ^ 50) (hF : Fields R W) (hr : 0 < n.toInt → BitsIn R b off.toInt (off.toInt + n.toInt - 1)) (hw : 0 < n.toInt → BitsIn W b off.toInt (off.toInt + n.toInt - 1)) (hq : Q b v .unit) :
    LFoot R W Q b v (P.call fuel (d + 3) (str% "SetBits") [.i64 off, .u64 data, .i64 n]) := by
  rw [call_of (f := fun_SetBits) (by rfl) (by rfl)]
  unfold fun_SetBits
  srcp
  refine lfoot_bind (foot_setbits fuel d hs hF hr hw ?_)
  exact lfoot_pure hq

theorem foot_SetBitsNext (fuel d : Nat) {n : Int64} {data : UInt64} {R W : Loc → Prop} {Q : Buf → V → V → Prop} {b : Buf} {v : V}
    (hs : b.buf.len < 2 ^ 50) (hF : Fields R W) (hr : 0 < n.toInt → BitsIn R b b.boff.toInt (b.boff.toInt + n.toInt - 1)) (hw : 0 < n.toInt → BitsIn W b b.boff.toInt (b.boff.toInt + n.toInt - 1)) (hq : ∀ b v x, Q b v x) :
    LFoot R W Q b v (P.call fuel (d + 3) (str% "SetBitsNext") [.u64 data, .i64 n]) := by
  rw [call_of (f := fun_SetBitsNext) (by rfl) (by rfl)]
  unfold fun_SetBitsNext
  srcp
  refine lfoot_field (hF.rf _) (lfoot_bind (foot_setbits fuel d hs hF hr hw ?_))
  refine lfoot_bind (foot_seekbit fuel (d + 1) hF fun _ => ?_)
  exact lfoot_pure (hq _ _ _)

theorem foot_readbits (fuel d : Nat) {off n : Int64} {o : UInt64} {R W : Loc → Prop} {Q : Buf → V → V → Prop} {b : Buf}
    (hs : b.buf.len < 2 ^ 50) (hF : Fields R W) (hr : 0 < n.toInt → BitsIn R b off.toInt (off.toInt + n.toInt - 1)) (hq : ∀ x, Q b (.u64 x) .unit) :
    LFoot R W Q b (.u64 o) (P.call fuel (d + 3) (str% "readbits") [.ptr, .i64 off, .i64 n]) := by
  rw [call_of (f := fun_readbits) (by rfl) (by rfl)]
  unfold fun_readbits
  srcp
  refine lfoot_bind (lfoot_for (A := UInt64 × UInt8) (fun a i => [.ptr, .i64 off, .i64 n, .u8 a.2, .i64 i]) (fun a => .u64 a.1) (fun i _ => BitElem b off i) (n := n) ?_ ?_ ?_ (fun a i _ => ?_) fuel 0 (o, 0) (.start hs))
  · intro i a k; srcp
  · intro i a k; srcp
  · intro i a ha hn
    have hn' := hn
    rw [Int64.lt_iff_toInt_lt] at hn
    srcp
    have n0 := Int.lt_of_le_of_lt ha.hi hn
    refine lfoot_withOut (lfoot_bind (foot_readbit fuel d hs hF ((hr n0).at ha hn) fun h0 h1 x => lfoot_pure ?_))
    srcp
    refine lfoot_getOut ?_
    srcp
    refine lfoot_getOut (lfoot_putOut ?_)
    exact lfoot_pure ⟨rfl, (_, _), rfl, rfl, ha.step h0 h1⟩
  · srcp
    exact lfoot_pure (hq _)

theorem foot_ReadBits (fuel d : Nat) {off n : Int64} {o : UInt64} {R W : Loc → Prop} {Q : Buf → V → V → Prop} {b : Buf}
    (hs : b.buf.len < 2 ^ 50) (hF : Fields R W) (hr : 0 < n.toInt → BitsIn R b off.toInt (off.toInt + n.toInt - 1)) (hq : ∀ x, Q b (.u64 x) .unit) :
    LFoot R W Q b (.u64 o) (P.call fuel (d + 4) (str% "ReadBits") [.ptr, .i64 off, .i64 n]) := by
  rw [call_of (f := fun_ReadBits) (by rfl) (by rfl)]
  unfold fun_ReadBits
  srcp
  refine lfoot_bind (foot_readbits fuel d hs hF hr fun _ => ?_)
  exact lfoot_pure (hq _)

theorem foot_ReadBitsNext (fuel d : Nat) {n : Int64} {o : UInt64} {R W : Loc → Prop} {Q : Buf → V → V → Prop} {b : Buf}
    (hs : b.buf.len < 2 ^ 50) (hF : Fields R W) (hr : 0 < n.toInt → BitsIn R b b.boff.toInt (b.boff.toInt + n.toInt - 1)) (hq : ∀ b v x, Q b v x) :
    LFoot R W Q b (.u64 o) (P.call fuel (d + 4) (str% "ReadBitsNext") [.ptr, .i64 n]) := by
  rw [call_of (f := fun_ReadBitsNext) (by rfl) (by rfl)]
  unfold fun_ReadBitsNext
  srcp
  refine lfoot_field (hF.rf _) (lfoot_bind (foot_readbits fuel d hs hF hr fun _ => ?_))
  refine lfoot_bind (foot_seekbit fuel (d + 2) hF fun _ => ?_)
  exact lfoot_pure (hq _ _ _)

theorem foot_clearallbits (fuel d : Nat) {R W : Loc → Prop} {Q : Buf → V → V → Prop} {b : Buf} {v : V}
    (hs : b.buf.len < 2 ^ 50) (hF : Fields R W) (hw : ∀ i, i < b.buf.len → W (.byte b.buf.arr (b.buf.off + i))) (hq : Q b v .unit) :
    LFoot R W Q b v (P.call fuel (d + 1) (str% "clearallbits") []) := by
  rw [call_of (f := fun_clearallbits) (by rfl) (by rfl)]
  unfold fun_clearallbits
  srcp
  lfsteps hF
  refine lfoot_bind (lfoot_range (A := V) (fun a => [a]) ?_ (fun a => ?_) fuel 0 .unit)
  · intro i a
    srcp
    lfsteps hF
    exact lfoot_store fun h0 h1 => ⟨hw _ (by omega), lfoot_pure ⟨rfl, rfl, _, rfl⟩⟩
  · srcp
    exact lfoot_pure hq

theorem foot_ClearAllBits (fuel d : Nat) {R W : Loc → Prop} {Q : Buf → V → V → Prop} {b : Buf} {v : V}
    (hs : b.buf.len < 2 ^ 50) (hF : Fields R W) (hw : ∀ i, i < b.buf.len → W (.byte b.buf.arr (b.buf.off + i))) (hq : Q b v .unit) :
    LFoot R W Q b v (P.call fuel (d + 2) (str% "ClearAllBits") []) := by
  rw [call_of (f := fun_ClearAllBits) (by rfl) (by rfl)]
  unfold fun_ClearAllBits
  srcp
  refine lfoot_bind (foot_clearallbits fuel d hs hF hw ?_)
  exact lfoot_pure hq

theorem foot_setallbits (fuel d : Nat) {R W : Loc → Prop} {Q : Buf → V → V → Prop} {b : Buf} {v : V}
    (hs : b.buf.len < 2 ^ 50) (hF : Fields R W) (hw : ∀ i, i < b.buf.len → W (.byte b.buf.arr (b.buf.off + i))) (hq : Q b v .unit) :
    LFoot R W Q b v (P.call fuel (d + 1) (str% "setallbits") []) := by
  rw [call_of (f := fun_setallbits) (by rfl) (by rfl)]
  unfold fun_setallbits
  srcp
  lfsteps hF
  refine lfoot_bind (lfoot_range (A := V) (fun a => [a]) ?_ (fun a => ?_) fuel 0 .unit)
  · intro i a
    srcp
    lfsteps hF
    exact lfoot_store fun h0 h1 => ⟨hw _ (by omega), lfoot_pure ⟨rfl, rfl, _, rfl⟩⟩
  · srcp
    exact lfoot_pure hq

theorem foot_SetAllBits (fuel d : Nat) {R W : Loc → Prop} {Q : Buf → V → V → Prop} {b : Buf} {v : V}
    (hs : b.buf.len < 2 ^ 50) (hF : Fields R W) (hw : ∀ i, i < b.buf.len → W (.byte b.buf.arr (b.buf.off + i))) (hq : Q b v .unit) :
    LFoot R W Q b v (P.call fuel (d + 2) (str% "SetAllBits") []) := by
  rw [call_of (f := fun_SetAllBits) (by rfl) (by rfl)]
  unfold fun_SetAllBits
  srcp
  refine lfoot_bind (foot_setallbits fuel d hs hF hw ?_)
  exact lfoot_pure hq

theorem foot_flipallbits (fuel d : Nat) {R W : Loc → Prop} {Q : Buf → V → V → Prop} {b : Buf} {v : V}
    (hs : b.buf.len < 2 ^ 50) (hF : Fields R W) (hr : ∀ i, i < b.buf.len → R (.byte b.buf.arr (b.buf.off + i))) (hw : ∀ i, i < b.buf.len → W (.byte b.buf.arr (b.buf.off + i))) (hq : Q b v .unit) :
    LFoot R W Q b v (P.call fuel (d + 1) (str% "flipallbits") []) := by
  rw [call_of (f := fun_flipallbits) (by rfl) (by rfl)]
  unfold fun_flipallbits
  srcp
  lfsteps hF
  refine lfoot_bind (lfoot_range (A := V) (fun a => [a]) ?_ (fun a => ?_) fuel 0 .unit)
  · intro i a
    srcp
    lfsteps hF
    refine lfoot_load fun h0 h1 => ⟨hr _ (by omega), fun x => ?_⟩
    lfsteps hF
    exact lfoot_store fun h0 h1 => ⟨hw _ (by omega), lfoot_pure ⟨rfl, rfl, _, rfl⟩⟩
  · srcp
    exact lfoot_pure hq

theorem foot_FlipAllBits (fuel d : Nat) {R W : Loc → Prop} {Q : Buf → V → V → Prop} {b : Buf} {v : V}
    (hs : b.buf.len < 2 ^ 50) (hF : Fields R W) (hr : ∀ i, i < b.buf.len → R (.byte b.buf.arr (b.buf.off + i))) (hw : ∀ i, i < b.buf.len → W (.byte b.buf.arr (b.buf.off + i))) (hq : Q b v .unit) :
    LFoot R W Q b v (P.call fuel (d + 2) (str% "FlipAllBits") []) := by
  rw [call_of (f := fun_FlipAllBits) (by rfl) (by rfl)]
  unfold fun_FlipAllBits
  srcp
  refine lfoot_bind (foot_flipallbits fuel d hs hF hr hw ?_)
  exact lfoot_pure hq

theorem foot_write (fuel d : Nat) {off : Int64} {data : Slice} {R W : Loc → Prop} {Q : Buf → V → V → Prop} {b : Buf} {v : V}
    (hs : b.buf.len < 2 ^ 50) (hF : Fields R W) (hr : ∀ i, i < data.len → R (.byte data.arr (data.off + i)))
    (hw : Elems W b off 1 data.len) (hq : Q b v .unit) :
    LFoot R W Q b v (P.call fuel (d + 1) (str% "write") [.i64 off, .bytes (.mem data)]) := by
  rw [call_of (f := fun_write) (by rfl) (by rfl)]
  unfold fun_write
  srcp
  refine lfoot_bind (lfoot_goto (A := Unit) (fun _ i => [.i64 off, .bytes (.mem data), .i64 i, .i64 _]) (fun _ => v) (fun i => Elem b off 1 i)
    ?_ (fun a i => ?_) fuel 0 () ⟨hs, by decide, by decide, .inl rfl⟩)
  · intro i a ha
    srcp
    refine lfoot_load fun h0 h1 => ⟨hr _ (by omega), fun x => lfoot_buf hF.rh ?_⟩
    rw [show off + i = off + i * 1 by rw [Int64.mul_one]]
    refine lfoot_put0 ha hw h1 fun h2 h3 => ?_
    refine lfoot_ite (fun hn => lfoot_pure ⟨rfl, (), rfl, .inl ⟨rfl, ?_⟩⟩) fun _ => lfoot_pure ⟨rfl, (), rfl, .inr rfl⟩
    have e1 : (1 : Int64).toInt = 1 := rfl
    exact (ha.next h2 (by omega) hn).1
  · srcp
    exact lfoot_pure hq

theorem foot_WriteBytes (fuel d : Nat) {off : Int64} {data : Slice} {R W : Loc → Prop} {Q : Buf → V → V → Prop} {b : Buf} {v : V}
    (hs : b.buf.len < 2 ^ 50) (hF : Fields R W) (hr : ∀ i, i < data.len → R (.byte data.arr (data.off + i)))
    (hw : Elems W b off 1 data.len) (hq : Q b v .unit) :
    LFoot R W Q b v (P.call fuel (d + 2) (str% "WriteBytes") [.i64 off, .bytes (.mem data)]) := by
  rw [call_of (f := fun_WriteBytes) (by rfl) (by rfl)]
  unfold fun_WriteBytes
  srcp
  refine lfoot_bind (foot_write fuel d hs hF hr hw ?_)
  exact lfoot_pure hq

theorem foot_WriteBytesNext (fuel d : Nat) {data : Slice} {R W : Loc → Prop} {Q : Buf → V → V → Prop} {b : Buf} {v : V}
    (hs : b.buf.len < 2 ^ 50) (hF : Fields R W) (hr : ∀ i, i < data.len → R (.byte data.arr (data.off + i)))
    (hw : Elems W b b.off 1 data.len) (hq : ∀ b v x, Q b v x) :
    LFoot R W Q b v (P.call fuel (d + 2) (str% "WriteBytesNext") [.bytes (.mem data)]) := by
  rw [call_of (f := fun_WriteBytesNext) (by rfl) (by rfl)]
  unfold fun_WriteBytesNext
  srcp
  refine lfoot_field (hF.rf _) (lfoot_bind (foot_write fuel d hs hF hr hw ?_))
  refine lfoot_bind (foot_seek fuel d hF fun _ => ?_)
  exact lfoot_pure (hq _ _ _)

end Crunch.Src.V1Mini
