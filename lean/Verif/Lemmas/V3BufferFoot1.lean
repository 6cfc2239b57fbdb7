import Verif.Lemmas.V3BufferFoot

/-! The bytes the typed methods of v3/buffer.generated.go access.  Written by tools/foot_proofs.py. -/

set_option linter.unusedVariables false

namespace Crunch.Src.V3Buffer
open V3 (Buf)

attribute [local irreducible] LFoot

theorem foot_WriteU16LE (fuel d : Nat) {off : Int64} {data : List UInt16} {R W : Loc → Prop} {Q : Buf → V → V → Prop} {b : Buf} {v : V}
    (hs : b.buf.len < 2 ^ 50) (hF : Fields R W) (hw : Elems W b off 2 data.length) (hq : Q b v .unit) :
    LFoot R W Q b v (P.call fuel (d + 1) (str% "WriteU16LE") [.i64 off, .lu16 data]) := by
  rw [call_of (f := fun_WriteU16LE) (by rfl) (by rfl)]
  unfold fun_WriteU16LE
  srcp
  lfsteps hF
  refine lfoot_bind (lfoot_goto (A := Unit) (fun _ i => [.i64 off, .lu16 data, .i64 i, .i64 (Crunch.len data)]) (fun _ => v) (fun i => Elem b off 2 i)
    ?_ (fun a i => ?_) fuel 0 () ⟨hs, by decide, by decide, .inl rfl⟩)
  · intro i a ha
    srcp
    lfelem ha hF hw ‹_›
    refine lfoot_ite (fun hn => lfoot_pure ⟨rfl, (), rfl, .inl ⟨rfl, ?_⟩⟩) fun _ => lfoot_pure ⟨rfl, (), rfl, .inr rfl⟩
    have e1 : (1 : Int64).toInt = 1 := rfl
    have e2 : (2 : Int64).toInt = 2 := rfl
    exact (ha.next (by omega) (by omega) hn).1
  · srcp
    exact lfoot_pure hq

theorem foot_WriteU16LENext (fuel d : Nat) {data : List UInt16} {R W : Loc → Prop} {Q : Buf → V → V → Prop} {b : Buf} {v : V}
    (hs : b.buf.len < 2 ^ 50) (hF : Fields R W) (hw : Elems W b b.off 2 data.length) (hq : ∀ b v x, Q b v x) :
    LFoot R W Q b v (P.call fuel (d + 2) (str% "WriteU16LENext") [.lu16 data]) := by
  rw [call_of (f := fun_WriteU16LENext) (by rfl) (by rfl)]
  unfold fun_WriteU16LENext
  srcp
  refine lfoot_field (hF.rf _) (lfoot_bind (foot_WriteU16LE fuel d hs hF hw ?_))
  refine lfoot_bind (foot_SeekByte fuel d hF fun _ => ?_)
  exact lfoot_pure (hq _ _ _)

theorem foot_ReadU16LE (fuel d : Nat) {off n : Int64} {R W : Loc → Prop} {Q : Buf → V → V → Prop} {b : Buf} {v : V}
    (hs : b.buf.len < 2 ^ 50) (hF : Fields R W) (hr : Elems R b off 2 (max 1 n.toInt)) (hq : ∀ x, Q b v x) :
    LFoot R W Q b v (P.call fuel (d + 1) (str% "ReadU16LE") [.i64 off, .i64 n]) := by
  rw [call_of (f := fun_ReadU16LE) (by rfl) (by rfl)]
  unfold fun_ReadU16LE
  srcp
  lfsteps hF
  refine lfoot_makeTyped fun out => ?_
  refine lfoot_bind (lfoot_goto (A := List UInt16) (fun a i => [.i64 off, .i64 n, .lu16 a, .i64 i]) (fun _ => v)
    (fun i => Elem b off 2 i ∧ i.toInt < max 1 n.toInt) ?_ (fun a i => ?_) fuel 0 out ⟨⟨hs, by decide, by decide, .inl rfl⟩, ?_⟩)
  · intro i a ⟨ha, hn⟩
    srcp
    lfelem ha hF hr hn
    refine lfoot_ite (fun hn => lfoot_pure ⟨rfl, _, rfl, .inl ⟨rfl, ?_⟩⟩) fun _ => lfoot_pure ⟨rfl, _, rfl, .inr rfl⟩
    have e1 : (1 : Int64).toInt = 1 := rfl
    have e2 : (2 : Int64).toInt = 2 := rfl
    refine ⟨(ha.next (by omega) (by omega) hn).1, ?_⟩
    rw [Int64.lt_iff_toInt_lt] at hn
    omega
  · srcp
    exact lfoot_pure (hq _)
  · have : (0 : Int64).toInt = 0 := rfl
    omega

theorem foot_ReadU16LENext (fuel d : Nat) {n : Int64} {R W : Loc → Prop} {Q : Buf → V → V → Prop} {b : Buf} {v : V}
    (hs : b.buf.len < 2 ^ 50) (hF : Fields R W) (hr : Elems R b b.off 2 (max 1 n.toInt)) (hq : ∀ b v x, Q b v x) :
    LFoot R W Q b v (P.call fuel (d + 2) (str% "ReadU16LENext") [.i64 n]) := by
  rw [call_of (f := fun_ReadU16LENext) (by rfl) (by rfl)]
  unfold fun_ReadU16LENext
  srcp
  refine lfoot_field (hF.rf _) (lfoot_bind (foot_ReadU16LE fuel d hs hF hr fun _ => ?_))
  refine lfoot_bind (foot_SeekByte fuel d hF fun _ => ?_)
  exact lfoot_pure (hq _ _ _)

theorem foot_WriteU16BE (fuel d : Nat) {off : Int64} {data : List UInt16} {R W : Loc → Prop} {Q : Buf → V → V → Prop} {b : Buf} {v : V}
    (hs : b.buf.len < 2 ^ 50) (hF : Fields R W) (hw : Elems W b off 2 data.length) (hq : Q b v .unit) :
    LFoot R W Q b v (P.call fuel (d + 1) (str% "WriteU16BE") [.i64 off, .lu16 data]) := by
  rw [call_of (f := fun_WriteU16BE) (by rfl) (by rfl)]
  unfold fun_WriteU16BE
  srcp
  lfsteps hF
  refine lfoot_bind (lfoot_goto (A := Unit) (fun _ i => [.i64 off, .lu16 data, .i64 i, .i64 (Crunch.len data)]) (fun _ => v) (fun i => Elem b off 2 i)
    ?_ (fun a i => ?_) fuel 0 () ⟨hs, by decide, by decide, .inl rfl⟩)
  · intro i a ha
    srcp
    lfelem ha hF hw ‹_›
    refine lfoot_ite (fun hn => lfoot_pure ⟨rfl, (), rfl, .inl ⟨rfl, ?_⟩⟩) fun _ => lfoot_pure ⟨rfl, (), rfl, .inr rfl⟩
    have e1 : (1 : Int64).toInt = 1 := rfl
    have e2 : (2 : Int64).toInt = 2 := rfl
    exact (ha.next (by omega) (by omega) hn).1
  · srcp
    exact lfoot_pure hq

theorem foot_WriteU16BENext (fuel d : Nat) {data : List UInt16} {R W : Loc → Prop} {Q : Buf → V → V → Prop} {b : Buf} {v : V}
    (hs : b.buf.len < 2 ^ 50) (hF : Fields R W) (hw : Elems W b b.off 2 data.length) (hq : ∀ b v x, Q b v x) :
    LFoot R W Q b v (P.call fuel (d + 2) (str% "WriteU16BENext") [.lu16 data]) := by
  rw [call_of (f := fun_WriteU16BENext) (by rfl) (by rfl)]
  unfold fun_WriteU16BENext
  srcp
  refine lfoot_field (hF.rf _) (lfoot_bind (foot_WriteU16BE fuel d hs hF hw ?_))
  refine lfoot_bind (foot_SeekByte fuel d hF fun _ => ?_)
  exact lfoot_pure (hq _ _ _)

theorem foot_ReadU16BE (fuel d : Nat) {off n : Int64} {R W : Loc → Prop} {Q : Buf → V → V → Prop} {b : Buf} {v : V}
    (hs : b.buf.len < 2 ^ 50) (hF : Fields R W) (hr : Elems R b off 2 (max 1 n.toInt)) (hq : ∀ x, Q b v x) :
    LFoot R W Q b v (P.call fuel (d + 1) (str% "ReadU16BE") [.i64 off, .i64 n]) := by
  rw [call_of (f := fun_ReadU16BE) (by rfl) (by rfl)]
  unfold fun_ReadU16BE
  srcp
  lfsteps hF
  refine lfoot_makeTyped fun out => ?_
  refine lfoot_bind (lfoot_goto (A := List UInt16) (fun a i => [.i64 off, .i64 n, .lu16 a, .i64 i]) (fun _ => v)
    (fun i => Elem b off 2 i ∧ i.toInt < max 1 n.toInt) ?_ (fun a i => ?_) fuel 0 out ⟨⟨hs, by decide, by decide, .inl rfl⟩, ?_⟩)
  · intro i a ⟨ha, hn⟩
    srcp
    lfelem ha hF hr hn
    refine lfoot_ite (fun hn => lfoot_pure ⟨rfl, _, rfl, .inl ⟨rfl, ?_⟩⟩) fun _ => lfoot_pure ⟨rfl, _, rfl, .inr rfl⟩
    have e1 : (1 : Int64).toInt = 1 := rfl
    have e2 : (2 : Int64).toInt = 2 := rfl
    refine ⟨(ha.next (by omega) (by omega) hn).1, ?_⟩
    rw [Int64.lt_iff_toInt_lt] at hn
    omega
  · srcp
    exact lfoot_pure (hq _)
  · have : (0 : Int64).toInt = 0 := rfl
    omega

theorem foot_ReadU16BENext (fuel d : Nat) {n : Int64} {R W : Loc → Prop} {Q : Buf → V → V → Prop} {b : Buf} {v : V}
    (hs : b.buf.len < 2 ^ 50) (hF : Fields R W) (hr : Elems R b b.off 2 (max 1 n.toInt)) (hq : ∀ b v x, Q b v x) :
    LFoot R W Q b v (P.call fuel (d + 2) (str% "ReadU16BENext") [.i64 n]) := by
  rw [call_of (f := fun_ReadU16BENext) (by rfl) (by rfl)]
  unfold fun_ReadU16BENext
  srcp
  refine lfoot_field (hF.rf _) (lfoot_bind (foot_ReadU16BE fuel d hs hF hr fun _ => ?_))
  refine lfoot_bind (foot_SeekByte fuel d hF fun _ => ?_)
  exact lfoot_pure (hq _ _ _)

theorem foot_WriteU32LE (fuel d : Nat) {off : Int64} {data : List UInt32} {R W : Loc → Prop} {Q : Buf → V → V → Prop} {b : Buf} {v : V}
    (hs : b.buf.len < 2 ^ 50) (hF : Fields R W) (hw : Elems W b off 4 data.length) (hq : Q b v .unit) :
    LFoot R W Q b v (P.call fuel (d + 1) (str% "WriteU32LE") [.i64 off, .lu32 data]) := by
  rw [call_of (f := fun_WriteU32LE) (by rfl) (by rfl)]
  unfold fun_WriteU32LE
  srcp
  lfsteps hF
  refine lfoot_bind (lfoot_goto (A := Unit) (fun _ i => [.i64 off, .lu32 data, .i64 i, .i64 (Crunch.len data)]) (fun _ => v) (fun i => Elem b off 4 i)
    ?_ (fun a i => ?_) fuel 0 () ⟨hs, by decide, by decide, .inl rfl⟩)
  · intro i a ha
    srcp
    lfelem ha hF hw ‹_›
    refine lfoot_ite (fun hn => lfoot_pure ⟨rfl, (), rfl, .inl ⟨rfl, ?_⟩⟩) fun _ => lfoot_pure ⟨rfl, (), rfl, .inr rfl⟩
    have e1 : (3 : Int64).toInt = 3 := rfl
    have e2 : (4 : Int64).toInt = 4 := rfl
    exact (ha.next (by omega) (by omega) hn).1
  · srcp
    exact lfoot_pure hq

theorem foot_WriteU32LENext (fuel d : Nat) {data : List UInt32} {R W : Loc → Prop} {Q : Buf → V → V → Prop} {b : Buf} {v : V}
    (hs : b.buf.len < 2 ^ 50) (hF : Fields R W) (hw : Elems W b b.off 4 data.length) (hq : ∀ b v x, Q b v x) :
    LFoot R W Q b v (P.call fuel (d + 2) (str% "WriteU32LENext") [.lu32 data]) := by
  rw [call_of (f := fun_WriteU32LENext) (by rfl) (by rfl)]
  unfold fun_WriteU32LENext
  srcp
  refine lfoot_field (hF.rf _) (lfoot_bind (foot_WriteU32LE fuel d hs hF hw ?_))
  refine lfoot_bind (foot_SeekByte fuel d hF fun _ => ?_)
  exact lfoot_pure (hq _ _ _)

theorem foot_ReadU32LE (fuel d : Nat) {off n : Int64} {R W : Loc → Prop} {Q : Buf → V → V → Prop} {b : Buf} {v : V}
    (hs : b.buf.len < 2 ^ 50) (hF : Fields R W) (hr : Elems R b off 4 (max 1 n.toInt)) (hq : ∀ x, Q b v x) :
    LFoot R W Q b v (P.call fuel (d + 1) (str% "ReadU32LE") [.i64 off, .i64 n]) := by
  rw [call_of (f := fun_ReadU32LE) (by rfl) (by rfl)]
  unfold fun_ReadU32LE
  srcp
  lfsteps hF
  refine lfoot_makeTyped fun out => ?_
  refine lfoot_bind (lfoot_goto (A := List UInt32) (fun a i => [.i64 off, .i64 n, .lu32 a, .i64 i]) (fun _ => v)
    (fun i => Elem b off 4 i ∧ i.toInt < max 1 n.toInt) ?_ (fun a i => ?_) fuel 0 out ⟨⟨hs, by decide, by decide, .inl rfl⟩, ?_⟩)
  · intro i a ⟨ha, hn⟩
    srcp
    lfelem ha hF hr hn
    refine lfoot_ite (fun hn => lfoot_pure ⟨rfl, _, rfl, .inl ⟨rfl, ?_⟩⟩) fun _ => lfoot_pure ⟨rfl, _, rfl, .inr rfl⟩
    have e1 : (3 : Int64).toInt = 3 := rfl
    have e2 : (4 : Int64).toInt = 4 := rfl
    refine ⟨(ha.next (by omega) (by omega) hn).1, ?_⟩
    rw [Int64.lt_iff_toInt_lt] at hn
    omega
  · srcp
    exact lfoot_pure (hq _)
  · have : (0 : Int64).toInt = 0 := rfl
    omega

theorem foot_ReadU32LENext (fuel d : Nat) {n : Int64} {R W : Loc → Prop} {Q : Buf → V → V → Prop} {b : Buf} {v : V}
    (hs : b.buf.len < 2 ^ 50) (hF : Fields R W) (hr : Elems R b b.off 4 (max 1 n.toInt)) (hq : ∀ b v x, Q b v x) :
    LFoot R W Q b v (P.call fuel (d + 2) (str% "ReadU32LENext") [.i64 n]) := by
  rw [call_of (f := fun_ReadU32LENext) (by rfl) (by rfl)]
  unfold fun_ReadU32LENext
  srcp
  refine lfoot_field (hF.rf _) (lfoot_bind (foot_ReadU32LE fuel d hs hF hr fun _ => ?_))
  refine lfoot_bind (foot_SeekByte fuel d hF fun _ => ?_)
  exact lfoot_pure (hq _ _ _)

theorem foot_WriteU32BE (fuel d : Nat) {off : Int64} {data : List UInt32} {R W : Loc → Prop} {Q : Buf → V → V → Prop} {b : Buf} {v : V}
    (hs : b.buf.len < 2 ^ 50) (hF : Fields R W) (hw : Elems W b off 4 data.length) (hq : Q b v .unit) :
    LFoot R W Q b v (P.call fuel (d + 1) (str% "WriteU32BE") [.i64 off, .lu32 data]) := by
  rw [call_of (f := fun_WriteU32BE) (by rfl) (by rfl)]
  unfold fun_WriteU32BE
  srcp
  lfsteps hF
  refine lfoot_bind (lfoot_goto (A := Unit) (fun _ i => [.i64 off, .lu32 data, .i64 i, .i64 (Crunch.len data)]) (fun _ => v) (fun i => Elem b off 4 i)
    ?_ (fun a i => ?_) fuel 0 () ⟨hs, by decide, by decide, .inl rfl⟩)
  · intro i a ha
    srcp
    lfelem ha hF hw ‹_›
    refine lfoot_ite (fun hn => lfoot_pure ⟨rfl, (), rfl, .inl ⟨rfl, ?_⟩⟩) fun _ => lfoot_pure ⟨rfl, (), rfl, .inr rfl⟩
    have e1 : (3 : Int64).toInt = 3 := rfl
    have e2 : (4 : Int64).toInt = 4 := rfl
    exact (ha.next (by omega) (by omega) hn).1
  · srcp
    exact lfoot_pure hq

theorem foot_WriteU32BENext (fuel d : Nat) {data : List UInt32} {R W : Loc → Prop} {Q : Buf → V → V → Prop} {b : Buf} {v : V}
    (hs : b.buf.len < 2 ^ 50) (hF : Fields R W) (hw : Elems W b b.off 4 data.length) (hq : ∀ b v x, Q b v x) :
    LFoot R W Q b v (P.call fuel (d + 2) (str% "WriteU32BENext") [.lu32 data]) := by
  rw [call_of (f := fun_WriteU32BENext) (by rfl) (by rfl)]
  unfold fun_WriteU32BENext
  srcp
  refine lfoot_field (hF.rf _) (lfoot_bind (foot_WriteU32BE fuel d hs hF hw ?_))
  refine lfoot_bind (foot_SeekByte fuel d hF fun _ => ?_)
  exact lfoot_pure (hq _ _ _)

theorem foot_ReadU32BE (fuel d : Nat) {off n : Int64} {R W : Loc → Prop} {Q : Buf → V → V → Prop} {b : Buf} {v : V}
    (hs : b.buf.len < 2 ^ 50) (hF : Fields R W) (hr : Elems R b off 4 (max 1 n.toInt)) (hq : ∀ x, Q b v x) :
    LFoot R W Q b v (P.call fuel (d + 1) (str% "ReadU32BE") [.i64 off, .i64 n]) := by
  rw [call_of (f := fun_ReadU32BE) (by rfl) (by rfl)]
  unfold fun_ReadU32BE
  srcp
  lfsteps hF
  refine lfoot_makeTyped fun out => ?_
  refine lfoot_bind (lfoot_goto (A := List UInt32) (fun a i => [.i64 off, .i64 n, .lu32 a, .i64 i]) (fun _ => v)
    (fun i => Elem b off 4 i ∧ i.toInt < max 1 n.toInt) ?_ (fun a i => ?_) fuel 0 out ⟨⟨hs, by decide, by decide, .inl rfl⟩, ?_⟩)
  · intro i a ⟨ha, hn⟩
    srcp
    lfelem ha hF hr hn
    refine lfoot_ite (fun hn => lfoot_pure ⟨rfl, _, rfl, .inl ⟨rfl, ?_⟩⟩) fun _ => lfoot_pure ⟨rfl, _, rfl, .inr rfl⟩
    have e1 : (3 : Int64).toInt = 3 := rfl
    have e2 : (4 : Int64).toInt = 4 := rfl
    refine ⟨(ha.next (by omega) (by omega) hn).1, ?_⟩
    rw [Int64.lt_iff_toInt_lt] at hn
    omega
  · srcp
    exact lfoot_pure (hq _)
  · have : (0 : Int64).toInt = 0 := rfl
    omega

theorem foot_ReadU32BENext (fuel d : Nat) {n : Int64} {R W : Loc → Prop} {Q : Buf → V → V → Prop} {b : Buf} {v : V}
    (hs : b.buf.len < 2 ^ 50) (hF : Fields R W) (hr : Elems R b b.off 4 (max 1 n.toInt)) (hq : ∀ b v x, Q b v x) :
    LFoot R W Q b v (P.call fuel (d + 2) (str% "ReadU32BENext") [.i64 n]) := by
  rw [call_of (f := fun_ReadU32BENext) (by rfl) (by rfl)]
  unfold fun_ReadU32BENext
  srcp
  refine lfoot_field (hF.rf _) (lfoot_bind (foot_ReadU32BE fuel d hs hF hr fun _ => ?_))
  refine lfoot_bind (foot_SeekByte fuel d hF fun _ => ?_)
  exact lfoot_pure (hq _ _ _)

theorem foot_WriteU64LE (fuel d : Nat) {off : Int64} {data : List UInt64} {R W : Loc → Prop} {Q : Buf → V → V → Prop} {b : Buf} {v : V}
    (hs : b.buf.len < 2 ^ 50) (hF : Fields R W) (hw : Elems W b off 8 data.length) (hq : Q b v .unit) :
    LFoot R W Q b v (P.call fuel (d + 1) (str% "WriteU64LE") [.i64 off, .lu64 data]) := by
  rw [call_of (f := fun_WriteU64LE) (by rfl) (by rfl)]
  unfold fun_WriteU64LE
  srcp
  lfsteps hF
  refine lfoot_bind (lfoot_goto (A := Unit) (fun _ i => [.i64 off, .lu64 data, .i64 i, .i64 (Crunch.len data)]) (fun _ => v) (fun i => Elem b off 8 i)
    ?_ (fun a i => ?_) fuel 0 () ⟨hs, by decide, by decide, .inl rfl⟩)
  · intro i a ha
    srcp
    lfelem ha hF hw ‹_›
    refine lfoot_ite (fun hn => lfoot_pure ⟨rfl, (), rfl, .inl ⟨rfl, ?_⟩⟩) fun _ => lfoot_pure ⟨rfl, (), rfl, .inr rfl⟩
    have e1 : (7 : Int64).toInt = 7 := rfl
    have e2 : (8 : Int64).toInt = 8 := rfl
    exact (ha.next (by omega) (by omega) hn).1
  · srcp
    exact lfoot_pure hq

theorem foot_WriteU64LENext (fuel d : Nat) {data : List UInt64} {R W : Loc → Prop} {Q : Buf → V → V → Prop} {b : Buf} {v : V}
    (hs : b.buf.len < 2 ^ 50) (hF : Fields R W) (hw : Elems W b b.off 8 data.length) (hq : ∀ b v x, Q b v x) :
    LFoot R W Q b v (P.call fuel (d + 2) (str% "WriteU64LENext") [.lu64 data]) := by
  rw [call_of (f := fun_WriteU64LENext) (by rfl) (by rfl)]
  unfold fun_WriteU64LENext
  srcp
  refine lfoot_field (hF.rf _) (lfoot_bind (foot_WriteU64LE fuel d hs hF hw ?_))
  refine lfoot_bind (foot_SeekByte fuel d hF fun _ => ?_)
  exact lfoot_pure (hq _ _ _)

theorem foot_ReadU64LE (fuel d : Nat) {off n : Int64} {R W : Loc → Prop} {Q : Buf → V → V → Prop} {b : Buf} {v : V}
    (hs : b.buf.len < 2 ^ 50) (hF : Fields R W) (hr : Elems R b off 8 (max 1 n.toInt)) (hq : ∀ x, Q b v x) :
    LFoot R W Q b v (P.call fuel (d + 1) (str% "ReadU64LE") [.i64 off, .i64 n]) := by
  rw [call_of (f := fun_ReadU64LE) (by rfl) (by rfl)]
  unfold fun_ReadU64LE
  srcp
  lfsteps hF
  refine lfoot_makeTyped fun out => ?_
  refine lfoot_bind (lfoot_goto (A := List UInt64) (fun a i => [.i64 off, .i64 n, .lu64 a, .i64 i]) (fun _ => v)
    (fun i => Elem b off 8 i ∧ i.toInt < max 1 n.toInt) ?_ (fun a i => ?_) fuel 0 out ⟨⟨hs, by decide, by decide, .inl rfl⟩, ?_⟩)
  · intro i a ⟨ha, hn⟩
    srcp
    lfelem ha hF hr hn
    refine lfoot_ite (fun hn => lfoot_pure ⟨rfl, _, rfl, .inl ⟨rfl, ?_⟩⟩) fun _ => lfoot_pure ⟨rfl, _, rfl, .inr rfl⟩
    have e1 : (7 : Int64).toInt = 7 := rfl
    have e2 : (8 : Int64).toInt = 8 := rfl
    refine ⟨(ha.next (by omega) (by omega) hn).1, ?_⟩
    rw [Int64.lt_iff_toInt_lt] at hn
    omega
  · srcp
    exact lfoot_pure (hq _)
  · have : (0 : Int64).toInt = 0 := rfl
    omega

theorem foot_ReadU64LENext (fuel d : Nat) {n : Int64} {R W : Loc → Prop} {Q : Buf → V → V → Prop} {b : Buf} {v : V}
    (hs : b.buf.len < 2 ^ 50) (hF : Fields R W) (hr : Elems R b b.off 8 (max 1 n.toInt)) (hq : ∀ b v x, Q b v x) :
    LFoot R W Q b v (P.call fuel (d + 2) (str% "ReadU64LENext") [.i64 n]) := by
  rw [call_of (f := fun_ReadU64LENext) (by rfl) (by rfl)]
  unfold fun_ReadU64LENext
  srcp
  refine lfoot_field (hF.rf _) (lfoot_bind (foot_ReadU64LE fuel d hs hF hr fun _ => ?_))
  refine lfoot_bind (foot_SeekByte fuel d hF fun _ => ?_)
  exact lfoot_pure (hq _ _ _)

theorem foot_WriteU64BE (fuel d : Nat) {off : Int64} {data : List UInt64} {R W : Loc → Prop} {Q : Buf → V → V → Prop} {b : Buf} {v : V}
    (hs : b.buf.len < 2 ^ 50) (hF : Fields R W) (hw : Elems W b off 8 data.length) (hq : Q b v .unit) :
    LFoot R W Q b v (P.call fuel (d + 1) (str% "WriteU64BE") [.i64 off, .lu64 data]) := by
  rw [call_of (f := fun_WriteU64BE) (by rfl) (by rfl)]
  unfold fun_WriteU64BE
  srcp
  lfsteps hF
  refine lfoot_bind (lfoot_goto (A := Unit) (fun _ i => [.i64 off, .lu64 data, .i64 i, .i64 (Crunch.len data)]) (fun _ => v) (fun i => Elem b off 8 i)
    ?_ (fun a i => ?_) fuel 0 () ⟨hs, by decide, by decide, .inl rfl⟩)
  · intro i a ha
    srcp
    lfelem ha hF hw ‹_›
    refine lfoot_ite (fun hn => lfoot_pure ⟨rfl, (), rfl, .inl ⟨rfl, ?_⟩⟩) fun _ => lfoot_pure ⟨rfl, (), rfl, .inr rfl⟩
    have e1 : (7 : Int64).toInt = 7 := rfl
    have e2 : (8 : Int64).toInt = 8 := rfl
    exact (ha.next (by omega) (by omega) hn).1
  · srcp
    exact lfoot_pure hq

theorem foot_WriteU64BENext (fuel d : Nat) {data : List UInt64} {R W : Loc → Prop} {Q : Buf → V → V → Prop} {b : Buf} {v : V}
    (hs : b.buf.len < 2 ^ 50) (hF : Fields R W) (hw : Elems W b b.off 8 data.length) (hq : ∀ b v x, Q b v x) :
    LFoot R W Q b v (P.call fuel (d + 2) (str% "WriteU64BENext") [.lu64 data]) := by
  rw [call_of (f := fun_WriteU64BENext) (by rfl) (by rfl)]
  unfold fun_WriteU64BENext
  srcp
  refine lfoot_field (hF.rf _) (lfoot_bind (foot_WriteU64BE fuel d hs hF hw ?_))
  refine lfoot_bind (foot_SeekByte fuel d hF fun _ => ?_)
  exact lfoot_pure (hq _ _ _)

theorem foot_ReadU64BE (fuel d : Nat) {off n : Int64} {R W : Loc → Prop} {Q : Buf → V → V → Prop} {b : Buf} {v : V}
    (hs : b.buf.len < 2 ^ 50) (hF : Fields R W) (hr : Elems R b off 8 (max 1 n.toInt)) (hq : ∀ x, Q b v x) :
    LFoot R W Q b v (P.call fuel (d + 1) (str% "ReadU64BE") [.i64 off, .i64 n]) := by
  rw [call_of (f := fun_ReadU64BE) (by rfl) (by rfl)]
  unfold fun_ReadU64BE
  srcp
  lfsteps hF
  refine lfoot_makeTyped fun out => ?_
  refine lfoot_bind (lfoot_goto (A := List UInt64) (fun a i => [.i64 off, .i64 n, .lu64 a, .i64 i]) (fun _ => v)
    (fun i => Elem b off 8 i ∧ i.toInt < max 1 n.toInt) ?_ (fun a i => ?_) fuel 0 out ⟨⟨hs, by decide, by decide, .inl rfl⟩, ?_⟩)
  · intro i a ⟨ha, hn⟩
    srcp
    lfelem ha hF hr hn
    refine lfoot_ite (fun hn => lfoot_pure ⟨rfl, _, rfl, .inl ⟨rfl, ?_⟩⟩) fun _ => lfoot_pure ⟨rfl, _, rfl, .inr rfl⟩
    have e1 : (7 : Int64).toInt = 7 := rfl
    have e2 : (8 : Int64).toInt = 8 := rfl
    refine ⟨(ha.next (by omega) (by omega) hn).1, ?_⟩
    rw [Int64.lt_iff_toInt_lt] at hn
    omega
  · srcp
    exact lfoot_pure (hq _)
  · have : (0 : Int64).toInt = 0 := rfl
    omega

theorem foot_ReadU64BENext (fuel d : Nat) {n : Int64} {R W : Loc → Prop} {Q : Buf → V → V → Prop} {b : Buf} {v : V}
    (hs : b.buf.len < 2 ^ 50) (hF : Fields R W) (hr : Elems R b b.off 8 (max 1 n.toInt)) (hq : ∀ b v x, Q b v x) :
    LFoot R W Q b v (P.call fuel (d + 2) (str% "ReadU64BENext") [.i64 n]) := by
  rw [call_of (f := fun_ReadU64BENext) (by rfl) (by rfl)]
  unfold fun_ReadU64BENext
  srcp
  refine lfoot_field (hF.rf _) (lfoot_bind (foot_ReadU64BE fuel d hs hF hr fun _ => ?_))
  refine lfoot_bind (foot_SeekByte fuel d hF fun _ => ?_)
  exact lfoot_pure (hq _ _ _)

end Crunch.Src.V3Buffer
