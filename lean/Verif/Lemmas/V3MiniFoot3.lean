import Verif.Lemmas.V3MiniFoot

/-! The bytes the typed methods of v3/minibuf.generated.go access.  Written by tools/foot_proofs.py. -/

set_option linter.unusedVariables false

namespace Crunch.Src.V3Mini
open V3 (Buf)

attribute [local irreducible] LFoot

theorem foot_WriteF32LE (fuel d : Nat) {off : Int64} {data : List F32} {R W : Loc → Prop} {Q : Buf → V → V → Prop} {b : Buf} {v : V}
    (hs : b.buf.len < 2 ^ 50) (hF : Fields R W) (hw : Elems W b off 4 data.length) (hq : Q b v .unit) :
    LFoot R W Q b v (P.call fuel (d + 1) (str% "WriteF32LE") [.i64 off, .lf32 data]) := by
  rw [call_of (f := fun_WriteF32LE) (by rfl) (by rfl)]
  unfold fun_WriteF32LE
  srcp
  refine lfoot_bind (lfoot_goto (A := Unit) (fun _ i => [.i64 off, .lf32 data, .i64 i, .i64 (Crunch.len data)]) (fun _ => v) (fun i => Elem b off 4 i)
    ?_ (fun a i => ?_) fuel 0 () ⟨hs, by decide, by decide, .inl rfl⟩)
  · intro i a ha
    srcp
    lfelem ha hF hw ‹_›
    refine lfoot_ite (fun hn => lfoot_pure ⟨rfl, (), rfl, .inl ⟨rfl, ?_⟩⟩) fun _ => lfoot_pure ⟨rfl, (), rfl, .inr rfl⟩
    have e1 : (3 : Int64).toInt = 3 := rfl
    have e2 : (4 : Int64).toInt = 4 := rfl
    exact (ha.next (by omega) (by omega) hn).1
  · srcp
    exact lfoot_pure hq

theorem foot_WriteF32LENext (fuel d : Nat) {data : List F32} {R W : Loc → Prop} {Q : Buf → V → V → Prop} {b : Buf} {v : V}
    (hs : b.buf.len < 2 ^ 50) (hF : Fields R W) (hw : Elems W b b.off 4 data.length) (hq : ∀ b v x, Q b v x) :
    LFoot R W Q b v (P.call fuel (d + 2) (str% "WriteF32LENext") [.lf32 data]) := by
  rw [call_of (f := fun_WriteF32LENext) (by rfl) (by rfl)]
  unfold fun_WriteF32LENext
  srcp
  refine lfoot_field (hF.rf _) (lfoot_bind (foot_WriteF32LE fuel d hs hF hw ?_))
  refine lfoot_bind (foot_SeekByte fuel d hF fun _ => ?_)
  exact lfoot_pure (hq _ _ _)

theorem foot_ReadF32LE (fuel d : Nat) {off n : Int64} {o : List F32} {R W : Loc → Prop} {Q : Buf → V → V → Prop} {b : Buf}
    (hs : b.buf.len < 2 ^ 50) (hF : Fields R W) (hr : Elems R b off 4 (max 1 n.toInt)) (hq : ∀ x, Q b (.lf32 x) .unit) :
    LFoot R W Q b (.lf32 o) (P.call fuel (d + 1) (str% "ReadF32LE") [.ptr, .i64 off, .i64 n]) := by
  rw [call_of (f := fun_ReadF32LE) (by rfl) (by rfl)]
  unfold fun_ReadF32LE
  srcp
  refine lfoot_bind (lfoot_goto (A := List F32 × UInt32) (fun a i => [.ptr, .i64 off, .i64 n, .i64 i, .u32 a.2]) (fun a => .lf32 a.1)
    (fun i => Elem b off 4 i ∧ i.toInt < max 1 n.toInt) ?_ (fun a i => ?_) fuel 0 (o, 0) ⟨⟨hs, by decide, by decide, .inl rfl⟩, ?_⟩)
  · intro i a ⟨ha, hn⟩
    srcp
    lfelem ha hF hr hn
    srcp
    lfelem ha hF hr hn
    refine lfoot_ite (fun hn => lfoot_pure ⟨rfl, (_, _), rfl, .inl ⟨rfl, ?_⟩⟩) fun _ => lfoot_pure ⟨rfl, (_, _), rfl, .inr rfl⟩
    have e1 : (3 : Int64).toInt = 3 := rfl
    have e2 : (4 : Int64).toInt = 4 := rfl
    refine ⟨(ha.next (by omega) (by omega) hn).1, ?_⟩
    rw [Int64.lt_iff_toInt_lt] at hn
    omega
  · srcp
    exact lfoot_pure (hq _)
  · have : (0 : Int64).toInt = 0 := rfl
    omega

theorem foot_ReadF32LENext (fuel d : Nat) {n : Int64} {o : List F32} {R W : Loc → Prop} {Q : Buf → V → V → Prop} {b : Buf}
    (hs : b.buf.len < 2 ^ 50) (hF : Fields R W) (hr : Elems R b b.off 4 (max 1 n.toInt)) (hq : ∀ b v x, Q b v x) :
    LFoot R W Q b (.lf32 o) (P.call fuel (d + 2) (str% "ReadF32LENext") [.ptr, .i64 n]) := by
  rw [call_of (f := fun_ReadF32LENext) (by rfl) (by rfl)]
  unfold fun_ReadF32LENext
  srcp
  refine lfoot_field (hF.rf _) (lfoot_bind (foot_ReadF32LE fuel d hs hF hr fun _ => ?_))
  refine lfoot_bind (foot_SeekByte fuel d hF fun _ => ?_)
  exact lfoot_pure (hq _ _ _)

theorem foot_WriteF32BE (fuel d : Nat) {off : Int64} {data : List F32} {R W : Loc → Prop} {Q : Buf → V → V → Prop} {b : Buf} {v : V}
    (hs : b.buf.len < 2 ^ 50) (hF : Fields R W) (hw : Elems W b off 4 data.length) (hq : Q b v .unit) :
    LFoot R W Q b v (P.call fuel (d + 1) (str% "WriteF32BE") [.i64 off, .lf32 data]) := by
  rw [call_of (f := fun_WriteF32BE) (by rfl) (by rfl)]
  unfold fun_WriteF32BE
  srcp
  refine lfoot_bind (lfoot_goto (A := Unit) (fun _ i => [.i64 off, .lf32 data, .i64 i, .i64 (Crunch.len data)]) (fun _ => v) (fun i => Elem b off 4 i)
    ?_ (fun a i => ?_) fuel 0 () ⟨hs, by decide, by decide, .inl rfl⟩)
  · intro i a ha
    srcp
    lfelem ha hF hw ‹_›
    refine lfoot_ite (fun hn => lfoot_pure ⟨rfl, (), rfl, .inl ⟨rfl, ?_⟩⟩) fun _ => lfoot_pure ⟨rfl, (), rfl, .inr rfl⟩
    have e1 : (3 : Int64).toInt = 3 := rfl
    have e2 : (4 : Int64).toInt = 4 := rfl
    exact (ha.next (by omega) (by omega) hn).1
  · srcp
    exact lfoot_pure hq

theorem foot_WriteF32BENext (fuel d : Nat) {data : List F32} {R W : Loc → Prop} {Q : Buf → V → V → Prop} {b : Buf} {v : V}
    (hs : b.buf.len < 2 ^ 50) (hF : Fields R W) (hw : Elems W b b.off 4 data.length) (hq : ∀ b v x, Q b v x) :
    LFoot R W Q b v (P.call fuel (d + 2) (str% "WriteF32BENext") [.lf32 data]) := by
  rw [call_of (f := fun_WriteF32BENext) (by rfl) (by rfl)]
  unfold fun_WriteF32BENext
  srcp
  refine lfoot_field (hF.rf _) (lfoot_bind (foot_WriteF32BE fuel d hs hF hw ?_))
  refine lfoot_bind (foot_SeekByte fuel d hF fun _ => ?_)
  exact lfoot_pure (hq _ _ _)

theorem foot_ReadF32BE (fuel d : Nat) {off n : Int64} {o : List F32} {R W : Loc → Prop} {Q : Buf → V → V → Prop} {b : Buf}
    (hs : b.buf.len < 2 ^ 50) (hF : Fields R W) (hr : Elems R b off 4 (max 1 n.toInt)) (hq : ∀ x, Q b (.lf32 x) .unit) :
    LFoot R W Q b (.lf32 o) (P.call fuel (d + 1) (str% "ReadF32BE") [.ptr, .i64 off, .i64 n]) := by
  rw [call_of (f := fun_ReadF32BE) (by rfl) (by rfl)]
  unfold fun_ReadF32BE
  srcp
  refine lfoot_bind (lfoot_goto (A := List F32 × UInt32) (fun a i => [.ptr, .i64 off, .i64 n, .i64 i, .u32 a.2]) (fun a => .lf32 a.1)
    (fun i => Elem b off 4 i ∧ i.toInt < max 1 n.toInt) ?_ (fun a i => ?_) fuel 0 (o, 0) ⟨⟨hs, by decide, by decide, .inl rfl⟩, ?_⟩)
  · intro i a ⟨ha, hn⟩
    srcp
    lfelem ha hF hr hn
    srcp
    lfelem ha hF hr hn
    refine lfoot_ite (fun hn => lfoot_pure ⟨rfl, (_, _), rfl, .inl ⟨rfl, ?_⟩⟩) fun _ => lfoot_pure ⟨rfl, (_, _), rfl, .inr rfl⟩
    have e1 : (3 : Int64).toInt = 3 := rfl
    have e2 : (4 : Int64).toInt = 4 := rfl
    refine ⟨(ha.next (by omega) (by omega) hn).1, ?_⟩
    rw [Int64.lt_iff_toInt_lt] at hn
    omega
  · srcp
    exact lfoot_pure (hq _)
  · have : (0 : Int64).toInt = 0 := rfl
    omega

theorem foot_ReadF32BENext (fuel d : Nat) {n : Int64} {o : List F32} {R W : Loc → Prop} {Q : Buf → V → V → Prop} {b : Buf}
    (hs : b.buf.len < 2 ^ 50) (hF : Fields R W) (hr : Elems R b b.off 4 (max 1 n.toInt)) (hq : ∀ b v x, Q b v x) :
    LFoot R W Q b (.lf32 o) (P.call fuel (d + 2) (str% "ReadF32BENext") [.ptr, .i64 n]) := by
  rw [call_of (f := fun_ReadF32BENext) (by rfl) (by rfl)]
  unfold fun_ReadF32BENext
  srcp
  refine lfoot_field (hF.rf _) (lfoot_bind (foot_ReadF32BE fuel d hs hF hr fun _ => ?_))
  refine lfoot_bind (foot_SeekByte fuel d hF fun _ => ?_)
  exact lfoot_pure (hq _ _ _)

theorem foot_WriteF64LE (fuel d : Nat) {off : Int64} {data : List F64} {R W : Loc → Prop} {Q : Buf → V → V → Prop} {b : Buf} {v : V}
    (hs : b.buf.len < 2 ^ 50) (hF : Fields R W) (hw : Elems W b off 8 data.length) (hq : Q b v .unit) :
    LFoot R W Q b v (P.call fuel (d + 1) (str% "WriteF64LE") [.i64 off, .lf64 data]) := by
  rw [call_of (f := fun_WriteF64LE) (by rfl) (by rfl)]
  unfold fun_WriteF64LE
  srcp
  refine lfoot_bind (lfoot_goto (A := Unit) (fun _ i => [.i64 off, .lf64 data, .i64 i, .i64 (Crunch.len data)]) (fun _ => v) (fun i => Elem b off 8 i)
    ?_ (fun a i => ?_) fuel 0 () ⟨hs, by decide, by decide, .inl rfl⟩)
  · intro i a ha
    srcp
    lfelem ha hF hw ‹_›
    refine lfoot_ite (fun hn => lfoot_pure ⟨rfl, (), rfl, .inl ⟨rfl, ?_⟩⟩) fun _ => lfoot_pure ⟨rfl, (), rfl, .inr rfl⟩
    have e1 : (7 : Int64).toInt = 7 := rfl
    have e2 : (8 : Int64).toInt = 8 := rfl
    exact (ha.next (by omega) (by omega) hn).1
  · srcp
    exact lfoot_pure hq

theorem foot_WriteF64LENext (fuel d : Nat) {data : List F64} {R W : Loc → Prop} {Q : Buf → V → V → Prop} {b : Buf} {v : V}
    (hs : b.buf.len < 2 ^ 50) (hF : Fields R W) (hw : Elems W b b.off 8 data.length) (hq : ∀ b v x, Q b v x) :
    LFoot R W Q b v (P.call fuel (d + 2) (str% "WriteF64LENext") [.lf64 data]) := by
  rw [call_of (f := fun_WriteF64LENext) (by rfl) (by rfl)]
  unfold fun_WriteF64LENext
  srcp
  refine lfoot_field (hF.rf _) (lfoot_bind (foot_WriteF64LE fuel d hs hF hw ?_))
  refine lfoot_bind (foot_SeekByte fuel d hF fun _ => ?_)
  exact lfoot_pure (hq _ _ _)

theorem foot_ReadF64LE (fuel d : Nat) {off n : Int64} {o : List F64} {R W : Loc → Prop} {Q : Buf → V → V → Prop} {b : Buf}
    (hs : b.buf.len < 2 ^ 50) (hF : Fields R W) (hr : Elems R b off 8 (max 1 n.toInt)) (hq : ∀ x, Q b (.lf64 x) .unit) :
    LFoot R W Q b (.lf64 o) (P.call fuel (d + 1) (str% "ReadF64LE") [.ptr, .i64 off, .i64 n]) := by
  rw [call_of (f := fun_ReadF64LE) (by rfl) (by rfl)]
  unfold fun_ReadF64LE
  srcp
  refine lfoot_bind (lfoot_goto (A := List F64 × UInt64) (fun a i => [.ptr, .i64 off, .i64 n, .i64 i, .u64 a.2]) (fun a => .lf64 a.1)
    (fun i => Elem b off 8 i ∧ i.toInt < max 1 n.toInt) ?_ (fun a i => ?_) fuel 0 (o, 0) ⟨⟨hs, by decide, by decide, .inl rfl⟩, ?_⟩)
  · intro i a ⟨ha, hn⟩
    srcp
    lfelem ha hF hr hn
    srcp
    lfelem ha hF hr hn
    refine lfoot_ite (fun hn => lfoot_pure ⟨rfl, (_, _), rfl, .inl ⟨rfl, ?_⟩⟩) fun _ => lfoot_pure ⟨rfl, (_, _), rfl, .inr rfl⟩
    have e1 : (7 : Int64).toInt = 7 := rfl
    have e2 : (8 : Int64).toInt = 8 := rfl
    refine ⟨(ha.next (by omega) (by omega) hn).1, ?_⟩
    rw [Int64.lt_iff_toInt_lt] at hn
    omega
  · srcp
    exact lfoot_pure (hq _)
  · have : (0 : Int64).toInt = 0 := rfl
    omega

theorem foot_ReadF64LENext (fuel d : Nat) {n : Int64} {o : List F64} {R W : Loc → Prop} {Q : Buf → V → V → Prop} {b : Buf}
    (hs : b.buf.len < 2 ^ 50) (hF : Fields R W) (hr : Elems R b b.off 8 (max 1 n.toInt)) (hq : ∀ b v x, Q b v x) :
    LFoot R W Q b (.lf64 o) (P.call fuel (d + 2) (str% "ReadF64LENext") [.ptr, .i64 n]) := by
  rw [call_of (f := fun_ReadF64LENext) (by rfl) (by rfl)]
  unfold fun_ReadF64LENext
  srcp
  refine lfoot_field (hF.rf _) (lfoot_bind (foot_ReadF64LE fuel d hs hF hr fun _ => ?_))
  refine lfoot_bind (foot_SeekByte fuel d hF fun _ => ?_)
  exact lfoot_pure (hq _ _ _)

theorem foot_WriteF64BE (fuel d : Nat) {off : Int64} {data : List F64} {R W : Loc → Prop} {Q : Buf → V → V → Prop} {b : Buf} {v : V}
    (hs : b.buf.len < 2 ^ 50) (hF : Fields R W) (hw : Elems W b off 8 data.length) (hq : Q b v .unit) :
    LFoot R W Q b v (P.call fuel (d + 1) (str% "WriteF64BE") [.i64 off, .lf64 data]) := by
  rw [call_of (f := fun_WriteF64BE) (by rfl) (by rfl)]
  unfold fun_WriteF64BE
  srcp
  refine lfoot_bind (lfoot_goto (A := Unit) (fun _ i => [.i64 off, .lf64 data, .i64 i, .i64 (Crunch.len data)]) (fun _ => v) (fun i => Elem b off 8 i)
    ?_ (fun a i => ?_) fuel 0 () ⟨hs, by decide, by decide, .inl rfl⟩)
  · intro i a ha
    srcp
    lfelem ha hF hw ‹_›
    refine lfoot_ite (fun hn => lfoot_pure ⟨rfl, (), rfl, .inl ⟨rfl, ?_⟩⟩) fun _ => lfoot_pure ⟨rfl, (), rfl, .inr rfl⟩
    have e1 : (7 : Int64).toInt = 7 := rfl
    have e2 : (8 : Int64).toInt = 8 := rfl
    exact (ha.next (by omega) (by omega) hn).1
  · srcp
    exact lfoot_pure hq

theorem foot_WriteF64BENext (fuel d : Nat) {data : List F64} {R W : Loc → Prop} {Q : Buf → V → V → Prop} {b : Buf} {v : V}
    (hs : b.buf.len < 2 ^ 50) (hF : Fields R W) (hw : Elems W b b.off 8 data.length) (hq : ∀ b v x, Q b v x) :
    LFoot R W Q b v (P.call fuel (d + 2) (str% "WriteF64BENext") [.lf64 data]) := by
  rw [call_of (f := fun_WriteF64BENext) (by rfl) (by rfl)]
  unfold fun_WriteF64BENext
  srcp
  refine lfoot_field (hF.rf _) (lfoot_bind (foot_WriteF64BE fuel d hs hF hw ?_))
  refine lfoot_bind (foot_SeekByte fuel d hF fun _ => ?_)
  exact lfoot_pure (hq _ _ _)

theorem foot_ReadF64BE (fuel d : Nat) {off n : Int64} {o : List F64} {R W : Loc → Prop} {Q : Buf → V → V → Prop} {b : Buf}
    (hs : b.buf.len < 2 ^ 50) (hF : Fields R W) (hr : Elems R b off 8 (max 1 n.toInt)) (hq : ∀ x, Q b (.lf64 x) .unit) :
    LFoot R W Q b (.lf64 o) (P.call fuel (d + 1) (str% "ReadF64BE") [.ptr, .i64 off, .i64 n]) := by
  rw [call_of (f := fun_ReadF64BE) (by rfl) (by rfl)]
  unfold fun_ReadF64BE
  srcp
  refine lfoot_bind (lfoot_goto (A := List F64 × UInt64) (fun a i => [.ptr, .i64 off, .i64 n, .i64 i, .u64 a.2]) (fun a => .lf64 a.1)
    (fun i => Elem b off 8 i ∧ i.toInt < max 1 n.toInt) ?_ (fun a i => ?_) fuel 0 (o, 0) ⟨⟨hs, by decide, by decide, .inl rfl⟩, ?_⟩)
  · intro i a ⟨ha, hn⟩
    srcp
    lfelem ha hF hr hn
    srcp
    lfelem ha hF hr hn
    refine lfoot_ite (fun hn => lfoot_pure ⟨rfl, (_, _), rfl, .inl ⟨rfl, ?_⟩⟩) fun _ => lfoot_pure ⟨rfl, (_, _), rfl, .inr rfl⟩
    have e1 : (7 : Int64).toInt = 7 := rfl
    have e2 : (8 : Int64).toInt = 8 := rfl
    refine ⟨(ha.next (by omega) (by omega) hn).1, ?_⟩
    rw [Int64.lt_iff_toInt_lt] at hn
    omega
  · srcp
    exact lfoot_pure (hq _)
  · have : (0 : Int64).toInt = 0 := rfl
    omega

theorem foot_ReadF64BENext (fuel d : Nat) {n : Int64} {o : List F64} {R W : Loc → Prop} {Q : Buf → V → V → Prop} {b : Buf}
    (hs : b.buf.len < 2 ^ 50) (hF : Fields R W) (hr : Elems R b b.off 8 (max 1 n.toInt)) (hq : ∀ b v x, Q b v x) :
    LFoot R W Q b (.lf64 o) (P.call fuel (d + 2) (str% "ReadF64BENext") [.ptr, .i64 n]) := by
  rw [call_of (f := fun_ReadF64BENext) (by rfl) (by rfl)]
  unfold fun_ReadF64BENext
  srcp
  refine lfoot_field (hF.rf _) (lfoot_bind (foot_ReadF64BE fuel d hs hF hr fun _ => ?_))
  refine lfoot_bind (foot_SeekByte fuel d hF fun _ => ?_)
  exact lfoot_pure (hq _ _ _)

end Crunch.Src.V3Mini
