import Verif.Lemmas.V3MiniFoot

/-! The bytes the typed methods of v3/minibuf.generated.go access.  Written by tools/foot_proofs.py. -/

set_option linter.unusedVariables false

namespace Crunch.Src.V3Mini
open V3 (Buf)

attribute [local irreducible] LFoot

theorem foot_WriteI16LE (fuel d : Nat) {off : Int64} {data : List Int16} {R W : Loc → Prop} {Q : Buf → V → V → Prop} {b : Buf} {v : V}
    (hs : b.buf.len < 2 ^ 50) (hF : Fields R W) (hw : Elems W b off 2 data.length) (hq : Q b v .unit) :
    LFoot R W Q b v (P.call fuel (d + 1) (str% "WriteI16LE") [.i64 off, .li16 data]) := by
  rw [call_of (f := fun_WriteI16LE) (by rfl) (by rfl)]
  unfold fun_WriteI16LE
  srcp
  refine lfoot_bind (lfoot_goto (A := Unit) (fun _ i => [.i64 off, .li16 data, .i64 i, .i64 (Crunch.len data)]) (fun _ => v) (fun i => Elem b off 2 i)
    ?_ (fun a i => ?_) fuel 0 () ⟨hs, by decide, by decide, .inl rfl⟩)
  · intro i a ha
    srcp
    lfelem ha hF hw ‹_›
    refine lfoot_ite (fun hn => lfoot_pure ⟨rfl, (), rfl, .inl ⟨rfl, ?_⟩⟩) fun _ => lfoot_pure ⟨rfl, (), rfl, .inr rfl⟩
    have e1 : (1 : Int64).toInt = 1 := rfl
    have e2 : (2 : Int64).toInt = 2 := rfl
    exact (ha.next (by omega) (by omega) hn).1
  · srcp
    exact lfoot_pure hq

theorem foot_WriteI16LENext (fuel d : Nat) {data : List Int16} {R W : Loc → Prop} {Q : Buf → V → V → Prop} {b : Buf} {v : V}
    (hs : b.buf.len < 2 ^ 50) (hF : Fields R W) (hw : Elems W b b.off 2 data.length) (hq : ∀ b v x, Q b v x) :
    LFoot R W Q b v (P.call fuel (d + 2) (str% "WriteI16LENext") [.li16 data]) := by
  rw [call_of (f := fun_WriteI16LENext) (by rfl) (by rfl)]
  unfold fun_WriteI16LENext
  srcp
  refine lfoot_field (hF.rf _) (lfoot_bind (foot_WriteI16LE fuel d hs hF hw ?_))
  refine lfoot_bind (foot_SeekByte fuel d hF fun _ => ?_)
  exact lfoot_pure (hq _ _ _)

theorem foot_ReadI16LE (fuel d : Nat) {off n : Int64} {o : List Int16} {R W : Loc → Prop} {Q : Buf → V → V → Prop} {b : Buf}
    (hs : b.buf.len < 2 ^ 50) (hF : Fields R W) (hr : Elems R b off 2 (max 1 n.toInt)) (hq : ∀ x, Q b (.li16 x) .unit) :
    LFoot R W Q b (.li16 o) (P.call fuel (d + 1) (str% "ReadI16LE") [.ptr, .i64 off, .i64 n]) := by
  rw [call_of (f := fun_ReadI16LE) (by rfl) (by rfl)]
  unfold fun_ReadI16LE
  srcp
  refine lfoot_bind (lfoot_goto (A := List Int16) (fun a i => [.ptr, .i64 off, .i64 n, .i64 i]) (fun a => .li16 a)
    (fun i => Elem b off 2 i ∧ i.toInt < max 1 n.toInt) ?_ (fun a i => ?_) fuel 0 o ⟨⟨hs, by decide, by decide, .inl rfl⟩, ?_⟩)
  · intro i a ⟨ha, hn⟩
    srcp
    lfelem ha hF hr hn
    srcp
    lfelem ha hF hr hn
    refine lfoot_ite (fun hn => lfoot_pure ⟨rfl, _, rfl, .inl ⟨rfl, ?_⟩⟩) fun _ => lfoot_pure ⟨rfl, _, rfl, .inr rfl⟩
    have e1 : (1 : Int64).toInt = 1 := rfl
    have e2 : (2 : Int64).toInt = 2 := rfl
    refine ⟨(ha.next (by omega) (by omega) hn).1, ?_⟩
    rw [Int64.lt_iff_toInt_lt] at hn
    omega
  · srcp
    exact lfoot_pure (hq _)
  · have : (0 : Int64).toInt = 0 := rfl
    omega

theorem foot_ReadI16LENext (fuel d : Nat) {n : Int64} {o : List Int16} {R W : Loc → Prop} {Q : Buf → V → V → Prop} {b : Buf}
    (hs : b.buf.len < 2 ^ 50) (hF : Fields R W) (hr : Elems R b b.off 2 (max 1 n.toInt)) (hq : ∀ b v x, Q b v x) :
    LFoot R W Q b (.li16 o) (P.call fuel (d + 2) (str% "ReadI16LENext") [.ptr, .i64 n]) := by
  rw [call_of (f := fun_ReadI16LENext) (by rfl) (by rfl)]
  unfold fun_ReadI16LENext
  srcp
  refine lfoot_field (hF.rf _) (lfoot_bind (foot_ReadI16LE fuel d hs hF hr fun _ => ?_))
  refine lfoot_bind (foot_SeekByte fuel d hF fun _ => ?_)
  exact lfoot_pure (hq _ _ _)

theorem foot_WriteI16BE (fuel d : Nat) {off : Int64} {data : List Int16} {R W : Loc → Prop} {Q : Buf → V → V → Prop} {b : Buf} {v : V}
    (hs : b.buf.len < 2 ^ 50) (hF : Fields R W) (hw : Elems W b off 2 data.length) (hq : Q b v .unit) :
    LFoot R W Q b v (P.call fuel (d + 1) (str% "WriteI16BE") [.i64 off, .li16 data]) := by
  rw [call_of (f := fun_WriteI16BE) (by rfl) (by rfl)]
  unfold fun_WriteI16BE
  srcp
  refine lfoot_bind (lfoot_goto (A := Unit) (fun _ i => [.i64 off, .li16 data, .i64 i, .i64 (Crunch.len data)]) (fun _ => v) (fun i => Elem b off 2 i)
    ?_ (fun a i => ?_) fuel 0 () ⟨hs, by decide, by decide, .inl rfl⟩)
  · intro i a ha
    srcp
    lfelem ha hF hw ‹_›
    refine lfoot_ite (fun hn => lfoot_pure ⟨rfl, (), rfl, .inl ⟨rfl, ?_⟩⟩) fun _ => lfoot_pure ⟨rfl, (), rfl, .inr rfl⟩
    have e1 : (1 : Int64).toInt = 1 := rfl
    have e2 : (2 : Int64).toInt = 2 := rfl
    exact (ha.next (by omega) (by omega) hn).1
  · srcp
    exact lfoot_pure hq

theorem foot_WriteI16BENext (fuel d : Nat) {data : List Int16} {R W : Loc → Prop} {Q : Buf → V → V → Prop} {b : Buf} {v : V}
    (hs : b.buf.len < 2 ^ 50) (hF : Fields R W) (hw : Elems W b b.off 2 data.length) (hq : ∀ b v x, Q b v x) :
    LFoot R W Q b v (P.call fuel (d + 2) (str% "WriteI16BENext") [.li16 data]) := by
  rw [call_of (f := fun_WriteI16BENext) (by rfl) (by rfl)]
  unfold fun_WriteI16BENext
  srcp
  refine lfoot_field (hF.rf _) (lfoot_bind (foot_WriteI16BE fuel d hs hF hw ?_))
  refine lfoot_bind (foot_SeekByte fuel d hF fun _ => ?_)
  exact lfoot_pure (hq _ _ _)

theorem foot_ReadI16BE (fuel d : Nat) {off n : Int64} {o : List Int16} {R W : Loc → Prop} {Q : Buf → V → V → Prop} {b : Buf}
    (hs : b.buf.len < 2 ^ 50) (hF : Fields R W) (hr : Elems R b off 2 (max 1 n.toInt)) (hq : ∀ x, Q b (.li16 x) .unit) :
    LFoot R W Q b (.li16 o) (P.call fuel (d + 1) (str% "ReadI16BE") [.ptr, .i64 off, .i64 n]) := by
  rw [call_of (f := fun_ReadI16BE) (by rfl) (by rfl)]
  unfold fun_ReadI16BE
  srcp
  refine lfoot_bind (lfoot_goto (A := List Int16) (fun a i => [.ptr, .i64 off, .i64 n, .i64 i]) (fun a => .li16 a)
    (fun i => Elem b off 2 i ∧ i.toInt < max 1 n.toInt) ?_ (fun a i => ?_) fuel 0 o ⟨⟨hs, by decide, by decide, .inl rfl⟩, ?_⟩)
  · intro i a ⟨ha, hn⟩
    srcp
    lfelem ha hF hr hn
    srcp
    lfelem ha hF hr hn
    refine lfoot_ite (fun hn => lfoot_pure ⟨rfl, _, rfl, .inl ⟨rfl, ?_⟩⟩) fun _ => lfoot_pure ⟨rfl, _, rfl, .inr rfl⟩
    have e1 : (1 : Int64).toInt = 1 := rfl
    have e2 : (2 : Int64).toInt = 2 := rfl
    refine ⟨(ha.next (by omega) (by omega) hn).1, ?_⟩
    rw [Int64.lt_iff_toInt_lt] at hn
    omega
  · srcp
    exact lfoot_pure (hq _)
  · have : (0 : Int64).toInt = 0 := rfl
    omega

theorem foot_ReadI16BENext (fuel d : Nat) {n : Int64} {o : List Int16} {R W : Loc → Prop} {Q : Buf → V → V → Prop} {b : Buf}
    (hs : b.buf.len < 2 ^ 50) (hF : Fields R W) (hr : Elems R b b.off 2 (max 1 n.toInt)) (hq : ∀ b v x, Q b v x) :
    LFoot R W Q b (.li16 o) (P.call fuel (d + 2) (str% "ReadI16BENext") [.ptr, .i64 n]) := by
  rw [call_of (f := fun_ReadI16BENext) (by rfl) (by rfl)]
  unfold fun_ReadI16BENext
  srcp
  refine lfoot_field (hF.rf _) (lfoot_bind (foot_ReadI16BE fuel d hs hF hr fun _ => ?_))
  refine lfoot_bind (foot_SeekByte fuel d hF fun _ => ?_)
  exact lfoot_pure (hq _ _ _)

theorem foot_WriteI32LE (fuel d : Nat) {off : Int64} {data : List Int32} {R W : Loc → Prop} {Q : Buf → V → V → Prop} {b : Buf} {v : V}
    (hs : b.buf.len < 2 ^ 50) (hF : Fields R W) (hw : Elems W b off 4 data.length) (hq : Q b v .unit) :
    LFoot R W Q b v (P.call fuel (d + 1) (str% "WriteI32LE") [.i64 off, .li32 data]) := by
  rw [call_of (f := fun_WriteI32LE) (by rfl) (by rfl)]
  unfold fun_WriteI32LE
  srcp
  refine lfoot_bind (lfoot_goto (A := Unit) (fun _ i => [.i64 off, .li32 data, .i64 i, .i64 (Crunch.len data)]) (fun _ => v) (fun i => Elem b off 4 i)
    ?_ (fun a i => ?_) fuel 0 () ⟨hs, by decide, by decide, .inl rfl⟩)
  · intro i a ha
    srcp
    lfelem ha hF hw ‹_›
    refine lfoot_ite (fun hn => lfoot_pure ⟨rfl, (), rfl, .inl ⟨rfl, ?_⟩⟩) fun _ => lfoot_pure ⟨rfl, (), rfl, .inr rfl⟩
    have e1 : (3 : Int64).toInt = 3 := rfl
    have e2 : (4 : Int64).toInt = 4 := rfl
    exact (ha.next (by omega) (by omega) hn).1
  · srcp
    exact lfoot_pure hq

theorem foot_WriteI32LENext (fuel d : Nat) {data : List Int32} {R W : Loc → Prop} {Q : Buf → V → V → Prop} {b : Buf} {v : V}
    (hs : b.buf.len < 2 ^ 50) (hF : Fields R W) (hw : Elems W b b.off 4 data.length) (hq : ∀ b v x, Q b v x) :
    LFoot R W Q b v (P.call fuel (d + 2) (str% "WriteI32LENext") [.li32 data]) := by
  rw [call_of (f := fun_WriteI32LENext) (by rfl) (by rfl)]
  unfold fun_WriteI32LENext
  srcp
  refine lfoot_field (hF.rf _) (lfoot_bind (foot_WriteI32LE fuel d hs hF hw ?_))
  refine lfoot_bind (foot_SeekByte fuel d hF fun _ => ?_)
  exact lfoot_pure (hq _ _ _)

theorem foot_ReadI32LE (fuel d : Nat) {off n : Int64} {o : List Int32} {R W : Loc → Prop} {Q : Buf → V → V → Prop} {b : Buf}
    (hs : b.buf.len < 2 ^ 50) (hF : Fields R W) (hr : Elems R b off 4 (max 1 n.toInt)) (hq : ∀ x, Q b (.li32 x) .unit) :
    LFoot R W Q b (.li32 o) (P.call fuel (d + 1) (str% "ReadI32LE") [.ptr, .i64 off, .i64 n]) := by
  rw [call_of (f := fun_ReadI32LE) (by rfl) (by rfl)]
  unfold fun_ReadI32LE
  srcp
  refine lfoot_bind (lfoot_goto (A := List Int32) (fun a i => [.ptr, .i64 off, .i64 n, .i64 i]) (fun a => .li32 a)
    (fun i => Elem b off 4 i ∧ i.toInt < max 1 n.toInt) ?_ (fun a i => ?_) fuel 0 o ⟨⟨hs, by decide, by decide, .inl rfl⟩, ?_⟩)
  · intro i a ⟨ha, hn⟩
    srcp
    lfelem ha hF hr hn
    srcp
    lfelem ha hF hr hn
    refine lfoot_ite (fun hn => lfoot_pure ⟨rfl, _, rfl, .inl ⟨rfl, ?_⟩⟩) fun _ => lfoot_pure ⟨rfl, _, rfl, .inr rfl⟩
    have e1 : (3 : Int64).toInt = 3 := rfl
    have e2 : (4 : Int64).toInt = 4 := rfl
    refine ⟨(ha.next (by omega) (by omega) hn).1, ?_⟩
    rw [Int64.lt_iff_toInt_lt] at hn
    omega
  · srcp
    exact lfoot_pure (hq _)
  · have : (0 : Int64).toInt = 0 := rfl
    omega

theorem foot_ReadI32LENext (fuel d : Nat) {n : Int64} {o : List Int32} {R W : Loc → Prop} {Q : Buf → V → V → Prop} {b : Buf}
    (hs : b.buf.len < 2 ^ 50) (hF : Fields R W) (hr : Elems R b b.off 4 (max 1 n.toInt)) (hq : ∀ b v x, Q b v x) :
    LFoot R W Q b (.li32 o) (P.call fuel (d + 2) (str% "ReadI32LENext") [.ptr, .i64 n]) := by
  rw [call_of (f := fun_ReadI32LENext) (by rfl) (by rfl)]
  unfold fun_ReadI32LENext
  srcp
  refine lfoot_field (hF.rf _) (lfoot_bind (foot_ReadI32LE fuel d hs hF hr fun _ => ?_))
  refine lfoot_bind (foot_SeekByte fuel d hF fun _ => ?_)
  exact lfoot_pure (hq _ _ _)

theorem foot_WriteI32BE (fuel d : Nat) {off : Int64} {data : List Int32} {R W : Loc → Prop} {Q : Buf → V → V → Prop} {b : Buf} {v : V}
    (hs : b.buf.len < 2 ^ 50) (hF : Fields R W) (hw : Elems W b off 4 data.length) (hq : Q b v .unit) :
    LFoot R W Q b v (P.call fuel (d + 1) (str% "WriteI32BE") [.i64 off, .li32 data]) := by
  rw [call_of (f := fun_WriteI32BE) (by rfl) (by rfl)]
  unfold fun_WriteI32BE
  srcp
  refine lfoot_bind (lfoot_goto (A := Unit) (fun _ i => [.i64 off, .li32 data, .i64 i, .i64 (Crunch.len data)]) (fun _ => v) (fun i => Elem b off 4 i)
    ?_ (fun a i => ?_) fuel 0 () ⟨hs, by decide, by decide, .inl rfl⟩)
  · intro i a ha
    srcp
    lfelem ha hF hw ‹_›
    refine lfoot_ite (fun hn => lfoot_pure ⟨rfl, (), rfl, .inl ⟨rfl, ?_⟩⟩) fun _ => lfoot_pure ⟨rfl, (), rfl, .inr rfl⟩
    have e1 : (3 : Int64).toInt = 3 := rfl
    have e2 : (4 : Int64).toInt = 4 := rfl
    exact (ha.next (by omega) (by omega) hn).1
  · srcp
    exact lfoot_pure hq

theorem foot_WriteI32BENext (fuel d : Nat) {data : List Int32} {R W : Loc → Prop} {Q : Buf → V → V → Prop} {b : Buf} {v : V}
    (hs : b.buf.len < 2 ^ 50) (hF : Fields R W) (hw : Elems W b b.off 4 data.length) (hq : ∀ b v x, Q b v x) :
    LFoot R W Q b v (P.call fuel (d + 2) (str% "WriteI32BENext") [.li32 data]) := by
  rw [call_of (f := fun_WriteI32BENext) (by rfl) (by rfl)]
  unfold fun_WriteI32BENext
  srcp
  refine lfoot_field (hF.rf _) (lfoot_bind (foot_WriteI32BE fuel d hs hF hw ?_))
  refine lfoot_bind (foot_SeekByte fuel d hF fun _ => ?_)
  exact lfoot_pure (hq _ _ _)

theorem foot_ReadI32BE (fuel d : Nat) {off n : Int64} {o : List Int32} {R W : Loc → Prop} {Q : Buf → V → V → Prop} {b : Buf}
    (hs : b.buf.len < 2 ^ 50) (hF : Fields R W) (hr : Elems R b off 4 (max 1 n.toInt)) (hq : ∀ x, Q b (.li32 x) .unit) :
    LFoot R W Q b (.li32 o) (P.call fuel (d + 1) (str% "ReadI32BE") [.ptr, .i64 off, .i64 n]) := by
  rw [call_of (f := fun_ReadI32BE) (by rfl) (by rfl)]
  unfold fun_ReadI32BE
  srcp
  refine lfoot_bind (lfoot_goto (A := List Int32) (fun a i => [.ptr, .i64 off, .i64 n, .i64 i]) (fun a => .li32 a)
    (fun i => Elem b off 4 i ∧ i.toInt < max 1 n.toInt) ?_ (fun a i => ?_) fuel 0 o ⟨⟨hs, by decide, by decide, .inl rfl⟩, ?_⟩)
  · intro i a ⟨ha, hn⟩
    srcp
    lfelem ha hF hr hn
    srcp
    lfelem ha hF hr hn
    refine lfoot_ite (fun hn => lfoot_pure ⟨rfl, _, rfl, .inl ⟨rfl, ?_⟩⟩) fun _ => lfoot_pure ⟨rfl, _, rfl, .inr rfl⟩
    have e1 : (3 : Int64).toInt = 3 := rfl
    have e2 : (4 : Int64).toInt = 4 := rfl
    refine ⟨(ha.next (by omega) (by omega) hn).1, ?_⟩
    rw [Int64.lt_iff_toInt_lt] at hn
    omega
  · srcp
    exact lfoot_pure (hq _)
  · have : (0 : Int64).toInt = 0 := rfl
    omega

theorem foot_ReadI32BENext (fuel d : Nat) {n : Int64} {o : List Int32} {R W : Loc → Prop} {Q : Buf → V → V → Prop} {b : Buf}
    (hs : b.buf.len < 2 ^ 50) (hF : Fields R W) (hr : Elems R b b.off 4 (max 1 n.toInt)) (hq : ∀ b v x, Q b v x) :
    LFoot R W Q b (.li32 o) (P.call fuel (d + 2) (str% "ReadI32BENext") [.ptr, .i64 n]) := by
  rw [call_of (f := fun_ReadI32BENext) (by rfl) (by rfl)]
  unfold fun_ReadI32BENext
  srcp
  refine lfoot_field (hF.rf _) (lfoot_bind (foot_ReadI32BE fuel d hs hF hr fun _ => ?_))
  refine lfoot_bind (foot_SeekByte fuel d hF fun _ => ?_)
  exact lfoot_pure (hq _ _ _)

theorem foot_WriteI64LE (fuel d : Nat) {off : Int64} {data : List Int64} {R W : Loc → Prop} {Q : Buf → V → V → Prop} {b : Buf} {v : V}
    (hs : b.buf.len < 2 ^ 50) (hF : Fields R W) (hw : Elems W b off 8 data.length) (hq : Q b v .unit) :
    LFoot R W Q b v (P.call fuel (d + 1) (str% "WriteI64LE") [.i64 off, .li64 data]) := by
  rw [call_of (f := fun_WriteI64LE) (by rfl) (by rfl)]
  unfold fun_WriteI64LE
  srcp
  refine lfoot_bind (lfoot_goto (A := Unit) (fun _ i => [.i64 off, .li64 data, .i64 i, .i64 (Crunch.len data)]) (fun _ => v) (fun i => Elem b off 8 i)
    ?_ (fun a i => ?_) fuel 0 () ⟨hs, by decide, by decide, .inl rfl⟩)
  · intro i a ha
    srcp
    lfelem ha hF hw ‹_›
    refine lfoot_ite (fun hn => lfoot_pure ⟨rfl, (), rfl, .inl ⟨rfl, ?_⟩⟩) fun _ => lfoot_pure ⟨rfl, (), rfl, .inr rfl⟩
    have e1 : (7 : Int64).toInt = 7 := rfl
    have e2 : (8 : Int64).toInt = 8 := rfl
    exact (ha.next (by omega) (by omega) hn).1
  · srcp
    exact lfoot_pure hq

theorem foot_WriteI64LENext (fuel d : Nat) {data : List Int64} {R W : Loc → Prop} {Q : Buf → V → V → Prop} {b : Buf} {v : V}
    (hs : b.buf.len < 2 ^ 50) (hF : Fields R W) (hw : Elems W b b.off 8 data.length) (hq : ∀ b v x, Q b v x) :
    LFoot R W Q b v (P.call fuel (d + 2) (str% "WriteI64LENext") [.li64 data]) := by
  rw [call_of (f := fun_WriteI64LENext) (by rfl) (by rfl)]
  unfold fun_WriteI64LENext
  srcp
  refine lfoot_field (hF.rf _) (lfoot_bind (foot_WriteI64LE fuel d hs hF hw ?_))
  refine lfoot_bind (foot_SeekByte fuel d hF fun _ => ?_)
  exact lfoot_pure (hq _ _ _)

theorem foot_ReadI64LE (fuel d : Nat) {off n : Int64} {o : List Int64} {R W : Loc → Prop} {Q : Buf → V → V → Prop} {b : Buf}
    (hs : b.buf.len < 2 ^ 50) (hF : Fields R W) (hr : Elems R b off 8 (max 1 n.toInt)) (hq : ∀ x, Q b (.li64 x) .unit) :
    LFoot R W Q b (.li64 o) (P.call fuel (d + 1) (str% "ReadI64LE") [.ptr, .i64 off, .i64 n]) := by
  rw [call_of (f := fun_ReadI64LE) (by rfl) (by rfl)]
  unfold fun_ReadI64LE
  srcp
  refine lfoot_bind (lfoot_goto (A := List Int64) (fun a i => [.ptr, .i64 off, .i64 n, .i64 i]) (fun a => .li64 a)
    (fun i => Elem b off 8 i ∧ i.toInt < max 1 n.toInt) ?_ (fun a i => ?_) fuel 0 o ⟨⟨hs, by decide, by decide, .inl rfl⟩, ?_⟩)
  · intro i a ⟨ha, hn⟩
    srcp
    lfelem ha hF hr hn
    srcp
    lfelem ha hF hr hn
    refine lfoot_ite (fun hn => lfoot_pure ⟨rfl, _, rfl, .inl ⟨rfl, ?_⟩⟩) fun _ => lfoot_pure ⟨rfl, _, rfl, .inr rfl⟩
    have e1 : (7 : Int64).toInt = 7 := rfl
    have e2 : (8 : Int64).toInt = 8 := rfl
    refine ⟨(ha.next (by omega) (by omega) hn).1, ?_⟩
    rw [Int64.lt_iff_toInt_lt] at hn
    omega
  · srcp
    exact lfoot_pure (hq _)
  · have : (0 : Int64).toInt = 0 := rfl
    omega

theorem foot_ReadI64LENext (fuel d : Nat) {n : Int64} {o : List Int64} {R W : Loc → Prop} {Q : Buf → V → V → Prop} {b : Buf}
    (hs : b.buf.len < 2 ^ 50) (hF : Fields R W) (hr : Elems R b b.off 8 (max 1 n.toInt)) (hq : ∀ b v x, Q b v x) :
    LFoot R W Q b (.li64 o) (P.call fuel (d + 2) (str% "ReadI64LENext") [.ptr, .i64 n]) := by
  rw [call_of (f := fun_ReadI64LENext) (by rfl) (by rfl)]
  unfold fun_ReadI64LENext
  srcp
  refine lfoot_field (hF.rf _) (lfoot_bind (foot_ReadI64LE fuel d hs hF hr fun _ => ?_))
  refine lfoot_bind (foot_SeekByte fuel d hF fun _ => ?_)
  exact lfoot_pure (hq _ _ _)

theorem foot_WriteI64BE (fuel d : Nat) {off : Int64} {data : List Int64} {R W : Loc → Prop} {Q : Buf → V → V → Prop} {b : Buf} {v : V}
    (hs : b.buf.len < 2 ^ 50) (hF : Fields R W) (hw : Elems W b off 8 data.length) (hq : Q b v .unit) :
    LFoot R W Q b v (P.call fuel (d + 1) (str% "WriteI64BE") [.i64 off, .li64 data]) := by
  rw [call_of (f := fun_WriteI64BE) (by rfl) (by rfl)]
  unfold fun_WriteI64BE
  srcp
  refine lfoot_bind (lfoot_goto (A := Unit) (fun _ i => [.i64 off, .li64 data, .i64 i, .i64 (Crunch.len data)]) (fun _ => v) (fun i => Elem b off 8 i)
    ?_ (fun a i => ?_) fuel 0 () ⟨hs, by decide, by decide, .inl rfl⟩)
  · intro i a ha
    srcp
    lfelem ha hF hw ‹_›
    refine lfoot_ite (fun hn => lfoot_pure ⟨rfl, (), rfl, .inl ⟨rfl, ?_⟩⟩) fun _ => lfoot_pure ⟨rfl, (), rfl, .inr rfl⟩
    have e1 : (7 : Int64).toInt = 7 := rfl
    have e2 : (8 : Int64).toInt = 8 := rfl
    exact (ha.next (by omega) (by omega) hn).1
  · srcp
    exact lfoot_pure hq

theorem foot_WriteI64BENext (fuel d : Nat) {data : List Int64} {R W : Loc → Prop} {Q : Buf → V → V → Prop} {b : Buf} {v : V}
    (hs : b.buf.len < 2 ^ 50) (hF : Fields R W) (hw : Elems W b b.off 8 data.length) (hq : ∀ b v x, Q b v x) :
    LFoot R W Q b v (P.call fuel (d + 2) (str% "WriteI64BENext") [.li64 data]) := by
  rw [call_of (f := fun_WriteI64BENext) (by rfl) (by rfl)]
  unfold fun_WriteI64BENext
  srcp
  refine lfoot_field (hF.rf _) (lfoot_bind (foot_WriteI64BE fuel d hs hF hw ?_))
  refine lfoot_bind (foot_SeekByte fuel d hF fun _ => ?_)
  exact lfoot_pure (hq _ _ _)

theorem foot_ReadI64BE (fuel d : Nat) {off n : Int64} {o : List Int64} {R W : Loc → Prop} {Q : Buf → V → V → Prop} {b : Buf}
    (hs : b.buf.len < 2 ^ 50) (hF : Fields R W) (hr : Elems R b off 8 (max 1 n.toInt)) (hq : ∀ x, Q b (.li64 x) .unit) :
    LFoot R W Q b (.li64 o) (P.call fuel (d + 1) (str% "ReadI64BE") [.ptr, .i64 off, .i64 n]) := by
  rw [call_of (f := fun_ReadI64BE) (by rfl) (by rfl)]
  unfold fun_ReadI64BE
  srcp
  refine lfoot_bind (lfoot_goto (A := List Int64) (fun a i => [.ptr, .i64 off, .i64 n, .i64 i]) (fun a => .li64 a)
    (fun i => Elem b off 8 i ∧ i.toInt < max 1 n.toInt) ?_ (fun a i => ?_) fuel 0 o ⟨⟨hs, by decide, by decide, .inl rfl⟩, ?_⟩)
  · intro i a ⟨ha, hn⟩
    srcp
    lfelem ha hF hr hn
    srcp
    lfelem ha hF hr hn
    refine lfoot_ite (fun hn => lfoot_pure ⟨rfl, _, rfl, .inl ⟨rfl, ?_⟩⟩) fun _ => lfoot_pure ⟨rfl, _, rfl, .inr rfl⟩
    have e1 : (7 : Int64).toInt = 7 := rfl
    have e2 : (8 : Int64).toInt = 8 := rfl
    refine ⟨(ha.next (by omega) (by omega) hn).1, ?_⟩
    rw [Int64.lt_iff_toInt_lt] at hn
    omega
  · srcp
    exact lfoot_pure (hq _)
  · have : (0 : Int64).toInt = 0 := rfl
    omega

theorem foot_ReadI64BENext (fuel d : Nat) {n : Int64} {o : List Int64} {R W : Loc → Prop} {Q : Buf → V → V → Prop} {b : Buf}
    (hs : b.buf.len < 2 ^ 50) (hF : Fields R W) (hr : Elems R b b.off 8 (max 1 n.toInt)) (hq : ∀ b v x, Q b v x) :
    LFoot R W Q b (.li64 o) (P.call fuel (d + 2) (str% "ReadI64BENext") [.ptr, .i64 n]) := by
  rw [call_of (f := fun_ReadI64BENext) (by rfl) (by rfl)]
  unfold fun_ReadI64BENext
  srcp
  refine lfoot_field (hF.rf _) (lfoot_bind (foot_ReadI64BE fuel d hs hF hr fun _ => ?_))
  refine lfoot_bind (foot_SeekByte fuel d hF fun _ => ?_)
  exact lfoot_pure (hq _ _ _)

end Crunch.Src.V3Mini
