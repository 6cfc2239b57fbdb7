import Verif.Lemmas.V1MiniFoot

/-! The bytes the methods of v1/minibuf.go for complex values access. -/

set_option linter.unusedVariables false

namespace Crunch.Src.V1Mini
open V3 (Buf)

attribute [local irreducible] LFoot

/-- `srcp` with the equations of `Verif/Lemmas/SrcComplex.lean` -/
macro "srcpc" : tactic => `(tactic| srcp [↓eval_assert, ↓eval_uint, ↓eval_own,
  ↓setIndex_bytes, ↓uintAt_u16, ↓uintAt_u32, ↓uintAt_u64, ↓putInto_16, ↓putInto_32, ↓putInto_64, ↓exec_nilBytes, ↓exec_put,
  ↓exec_setOutAs, ↓clauses_nil, ↓unbrk_ret])

/-- Through the statements that put an element into bytes of the function's own. -/
macro "lfown" : tactic => `(tactic| repeat' first
  | (with_reducible refine lfoot_order fun _ => ?_)
  | (with_reducible refine lfoot_idx fun _ _ _ => ?_)
  | (with_reducible refine lfoot_loadLit fun _ _ _ => ?_)
  | (with_reducible refine lfoot_setIdx' fun _ _ => ?_)
  | srcpc)

theorem foot_writeLit (fuel d : Nat) {off : Int64} {data : List UInt8} {R W : Loc → Prop} {Q : Buf → V → V → Prop} {b : Buf} {v : V}
    (hs : b.buf.len < 2 ^ 50) (hF : Fields R W) (hw : Elems W b off 1 data.length) (hq : Q b v .unit) :
    LFoot R W Q b v (P.call fuel (d + 1) (str% "write") [.i64 off, .bytes (.lit data)]) := by
  rw [call_of (f := fun_write) (by rfl) (by rfl)]
  unfold fun_write
  srcp
  refine lfoot_bind (lfoot_goto (A := Unit) (fun _ i => [.i64 off, .bytes (.lit data), .i64 i, .i64 _]) (fun _ => v) (fun i => Elem b off 1 i)
    ?_ (fun a i => ?_) fuel 0 () ⟨hs, by decide, by decide, .inl rfl⟩)
  · intro i a ha
    srcp
    refine lfoot_loadLit fun h0 h1 x => lfoot_buf hF.rh ?_
    rw [show off + i = off + i * 1 by rw [Int64.mul_one]]
    refine lfoot_put0 ha hw h1 fun h2 h3 => ?_
    refine lfoot_ite (fun hn => lfoot_pure ⟨rfl, (), rfl, .inl ⟨rfl, ?_⟩⟩) fun _ => lfoot_pure ⟨rfl, (), rfl, .inr rfl⟩
    have e1 : (1 : Int64).toInt = 1 := rfl
    exact (ha.next h2 (by omega) hn).1
  · srcp
    exact lfoot_pure hq

theorem foot_writeComplex (fuel d : Nat) {off size : Int64} {x : V1.Any} {o : V1.ByteOrder} {R W : Loc → Prop} {Q : Buf → V → V → Prop} {b : Buf} {v : V}
    (hs : b.buf.len < 2 ^ 50) (hF : Fields R W) (hr : ∀ t, x = .bytes t → ∀ i, i < t.len → R (.byte t.arr (t.off + i)))
    (hw : Elems W b off 1 (V1.bytesIn x size)) (hq : Q b v .unit) :
    LFoot R W Q b v (P.call fuel (d + 2) (str% "writeComplex") [.i64 off, goAny x, .i64 size, .order o]) := by
  rw [call_of (f := fun_writeComplex) (by rfl) (by rfl)]
  unfold fun_writeComplex
  srcpc
  refine lfoot_ite (fun e => ?_) fun _ => lfoot_ite (fun e => ?_) fun _ => lfoot_ite (fun e => ?_) fun _ => lfoot_ite (fun e => ?_) fun _ => lfoot_fail
  · subst e
    refine lfoot_assert_u8 fun s hx => ?_
    subst hx
    exact lfoot_bind (foot_write fuel d hs hF (hr s rfl) hw (lfoot_pure hq))
  · subst e
    refine lfoot_assert_u16 fun l hx => ?_
    subst hx
    srcpc
    refine lfoot_make fun h0 data hl => ?_
    have hl := hl ▸ V1.length_make (k := 2) rfl h0
    have hb : V1.bytesIn (.u16 l) (Int64.ofNat 2) = l.length * 2 := by simp only [V1.bytesIn]; exact if_pos rfl
    have h1 : (1 : Int64).toInt = 1 := rfl
    refine lfoot_bind (lfoot_for (A := List UInt8 × V) (fun a i => [.i64 off, goAny (.u16 l), .i64 _, .order o, .bytes (.lit a.1), a.2, .lu16 l, .i64 i, .unit, .unit, .unit, .unit])
      (fun _ => v) (fun _ a => a.1.length ≤ l.length * 2) (n := Int64.ofNat l.length) ?_ ?_ ?_ (fun a i ha => ?_) fuel 0 (_, _) hl)
    · intro i a k; srcpc; rfl
    · intro i a k; srcpc; rfl
    · intro i a ha hn
      srcpc
      lfown
      exact lfoot_pure ⟨rfl, (_, _), rfl, rfl, by simp only; omega⟩
    · srcpc
      exact lfoot_bind (foot_writeLit fuel d hs hF (fun x h2 h3 h4 => hw x h2 (by rw [hb, h1]; rw [h1] at h3; omega) h4) (lfoot_pure hq))
  · subst e
    refine lfoot_assert_u32 fun l hx => ?_
    subst hx
    srcpc
    refine lfoot_make fun h0 data hl => ?_
    have hl := hl ▸ V1.length_make (k := 4) rfl h0
    have hb : V1.bytesIn (.u32 l) (Int64.ofNat 4) = l.length * 4 := by simp only [V1.bytesIn]; exact if_pos rfl
    have h1 : (1 : Int64).toInt = 1 := rfl
    refine lfoot_bind (lfoot_for (A := List UInt8 × V) (fun a i => [.i64 off, goAny (.u32 l), .i64 _, .order o, .bytes (.lit a.1), a.2, .unit, .unit, .lu32 l, .i64 i, .unit, .unit])
      (fun _ => v) (fun _ a => a.1.length ≤ l.length * 4) (n := Int64.ofNat l.length) ?_ ?_ ?_ (fun a i ha => ?_) fuel 0 (_, _) hl)
    · intro i a k; srcpc; rfl
    · intro i a k; srcpc; rfl
    · intro i a ha hn
      srcpc
      lfown
      exact lfoot_pure ⟨rfl, (_, _), rfl, rfl, by simp only; omega⟩
    · srcpc
      exact lfoot_bind (foot_writeLit fuel d hs hF (fun x h2 h3 h4 => hw x h2 (by rw [hb, h1]; rw [h1] at h3; omega) h4) (lfoot_pure hq))
  · subst e
    refine lfoot_assert_u64 fun l hx => ?_
    subst hx
    srcpc
    refine lfoot_make fun h0 data hl => ?_
    have hl := hl ▸ V1.length_make (k := 8) rfl h0
    have hb : V1.bytesIn (.u64 l) (Int64.ofNat 8) = l.length * 8 := by simp only [V1.bytesIn]; exact if_pos rfl
    have h1 : (1 : Int64).toInt = 1 := rfl
    refine lfoot_bind (lfoot_for (A := List UInt8 × V) (fun a i => [.i64 off, goAny (.u64 l), .i64 _, .order o, .bytes (.lit a.1), a.2, .unit, .unit, .unit, .unit, .lu64 l, .i64 i])
      (fun _ => v) (fun _ a => a.1.length ≤ l.length * 8) (n := Int64.ofNat l.length) ?_ ?_ ?_ (fun a i ha => ?_) fuel 0 (_, _) hl)
    · intro i a k; srcpc; rfl
    · intro i a k; srcpc; rfl
    · intro i a ha hn
      srcpc
      lfown
      exact lfoot_pure ⟨rfl, (_, _), rfl, rfl, by simp only; omega⟩
    · srcpc
      exact lfoot_bind (foot_writeLit fuel d hs hF (fun x h2 h3 h4 => hw x h2 (by rw [hb, h1]; rw [h1] at h3; omega) h4) (lfoot_pure hq))

theorem foot_WriteComplex (fuel d : Nat) {off size : Int64} {x : V1.Any} {o : V1.ByteOrder} {R W : Loc → Prop} {Q : Buf → V → V → Prop} {b : Buf} {v : V}
    (hs : b.buf.len < 2 ^ 50) (hF : Fields R W) (hr : ∀ t, x = .bytes t → ∀ i, i < t.len → R (.byte t.arr (t.off + i)))
    (hw : Elems W b off 1 (V1.bytesIn x size)) (hq : Q b v .unit) :
    LFoot R W Q b v (P.call fuel (d + 3) (str% "WriteComplex") [.i64 off, goAny x, .i64 size, .order o]) := by
  rw [call_of (f := fun_WriteComplex) (by rfl) (by rfl)]
  unfold fun_WriteComplex
  srcpc
  exact lfoot_bind (foot_writeComplex fuel d hs hF hr hw (lfoot_pure hq))

theorem foot_WriteComplexNext (fuel d : Nat) {size : Int64} {x : V1.Any} {o : V1.ByteOrder} {R W : Loc → Prop} {Q : Buf → V → V → Prop} {b : Buf} {v : V}
    (hs : b.buf.len < 2 ^ 50) (hF : Fields R W) (hr : ∀ t, x = .bytes t → ∀ i, i < t.len → R (.byte t.arr (t.off + i)))
    (hw : Elems W b b.off 1 (V1.bytesIn x size)) (hq : ∀ b v x, Q b v x) :
    LFoot R W Q b v (P.call fuel (d + 3) (str% "WriteComplexNext") [goAny x, .i64 size, .order o]) := by
  rw [call_of (f := fun_WriteComplexNext) (by rfl) (by rfl)]
  unfold fun_WriteComplexNext
  srcpc
  refine lfoot_field (hF.rf _) (lfoot_bind (foot_writeComplex fuel d hs hF hr hw ?_))
  refine lfoot_ite (fun e => ?_) fun _ => lfoot_ite (fun e => ?_) fun _ => lfoot_ite (fun e => ?_) fun _ => lfoot_ite (fun e => ?_) fun _ => lfoot_pure (hq _ _ _)
  · refine lfoot_assert_u8 fun _ _ => ?_
    srcpc
    exact lfoot_bind (foot_seek fuel (d + 1) hF fun _ => lfoot_pure (hq _ _ _))
  · refine lfoot_assert_u16 fun _ _ => ?_
    srcpc
    exact lfoot_bind (foot_seek fuel (d + 1) hF fun _ => lfoot_pure (hq _ _ _))
  · refine lfoot_assert_u32 fun _ _ => ?_
    srcpc
    exact lfoot_bind (foot_seek fuel (d + 1) hF fun _ => lfoot_pure (hq _ _ _))
  · refine lfoot_assert_u64 fun _ _ => ?_
    srcpc
    exact lfoot_bind (foot_seek fuel (d + 1) hF fun _ => lfoot_pure (hq _ _ _))

theorem foot_read (fuel d : Nat) {off n : Int64} {R W : Loc → Prop} {Q : Buf → V → V → Prop} {b : Buf} {v : V} (hF : Fields R W)
    (hq : ∀ t : Slice, 0 ≤ off.toInt → t.arr = b.buf.arr → t.off = b.buf.off + off.toInt.toNat → t.cap ≤ b.buf.cap → Q b (.bytes (.mem t)) .unit) :
    LFoot R W Q b v (P.call fuel (d + 1) (str% "read") [.ptr, .i64 off, .i64 n]) := by
  rw [call_of (f := fun_read) (by rfl) (by rfl)]
  unfold fun_read
  srcp
  lfsteps hF
  refine lfoot_reslice' fun h0 _ _ t ha ho _ hc => ?_
  exact lfoot_getOut (lfoot_putOut (lfoot_pure (hq t h0 ha ho hc)))

/-- The `i`th element of size `w`, in a slice that starts at byte `off` of the content. -/
theorem elem_at {off n i w : Int64} {s u : Slice} {R : Loc → Prop} {b : Buf} (hw : 0 < w.toInt ∧ w.toInt ≤ 8)
    (hs : b.buf.cap < 2 ^ 50) (h0 : 0 ≤ off.toInt) (t1 : s.arr = b.buf.arr) (t2 : s.off = b.buf.off + off.toInt.toNat) (t4 : s.cap ≤ b.buf.cap)
    (g0 : 0 ≤ i.toInt) (g1 : i.toInt * w.toInt ≤ s.cap) (hn : i < n) (hr : ∀ x : Nat, off.toInt ≤ x → x < off.toInt + n.toInt * w.toInt → R (.byte b.buf.arr (b.buf.off + x)))
    (k2 : ((i + 1) * w).toInt ≤ s.cap) (u1 : u.arr = s.arr) (u2 : u.off = s.off + (i * w).toInt.toNat) :
    (∀ j : Nat, j < w.toInt → R (.byte u.arr (u.off + j))) ∧ 0 ≤ (i + 1).toInt ∧ (i + 1).toInt * w.toInt ≤ s.cap := by
  have ⟨e1, e2, e3⟩ := V1.elem_slice (k := w) (by omega) g0 hw g1
  rw [Int64.lt_iff_toInt_lt] at hn
  have q : (i.toInt + 1) * w.toInt ≤ n.toInt * w.toInt := Int.mul_le_mul_of_nonneg_right (by omega) (by omega)
  have p : 0 ≤ i.toInt * w.toInt := Int.mul_nonneg g0 (by omega)
  rw [Int.add_mul, Int.one_mul] at q
  refine ⟨fun j hj => ?_, by omega, ?_⟩
  · have e : u.off + j = b.buf.off + (off.toInt.toNat + (i * w).toInt.toNat + j) := by omega
    rw [u1, t1, e]
    exact hr _ (by omega) (by omega)
  · rw [e3, Int.add_mul, Int.one_mul]; omega

theorem foot_readComplex (fuel d : Nat) {off n size : Int64} {o : V1.ByteOrder} {R W : Loc → Prop} {Q : Buf → V → V → Prop} {b : Buf} {v : V}
    (hs : b.buf.cap < 2 ^ 50) (hF : Fields R W)
    (hr : size ≠ V1.Unsigned8 → ∀ x : Nat, off.toInt ≤ x → x < off.toInt + n.toInt * size.toInt → R (.byte b.buf.arr (b.buf.off + x))) (hq : ∀ x, Q b x .unit) :
    LFoot R W Q b v (P.call fuel (d + 2) (str% "readComplex") [.ptr, .i64 off, .i64 n, .i64 size, .order o]) := by
  rw [call_of (f := fun_readComplex) (by rfl) (by rfl)]
  unfold fun_readComplex
  srcpc
  refine lfoot_withOut (lfoot_bind (foot_read fuel d hF fun t h0 t1 t2 t4 => lfoot_pure ?_))
  refine lfoot_ite (fun e => ?_) fun ne => ?_
  · refine lfoot_getOut ?_
    srcpc
    exact lfoot_putOut (lfoot_pure (hq _))
  have hr := hr ne
  refine lfoot_ite (fun e => ?_) fun _ => lfoot_ite (fun e => ?_) fun _ => lfoot_ite (fun e => ?_) fun _ => lfoot_fail
  · subst e
    refine lfoot_makeTyped fun l => lfoot_getOut (lfoot_putOut ?_)
    refine lfoot_bind (lfoot_for (A := List UInt16) (fun a i => [.ptr, .i64 off, .i64 n, .i64 _, .order o, .bytes (.mem t), .i64 i, .unit, .unit])
      (fun a => .lu16 a) (fun i _ => 0 ≤ i.toInt ∧ i.toInt * 2 ≤ t.cap) (n := n) ?_ ?_ ?_ (fun a i ha => ?_) fuel 0 l ⟨by decide, by show (0 : Int) * 2 ≤ _; omega⟩)
    · intro i a k; srcpc
    · intro i a k; srcpc; rfl
    · intro i a ⟨g0, g1⟩ hn
      srcpc
      refine lfoot_getOut ?_
      rw [assert_lu16]
      srcpc
      refine lfoot_reslice' fun k0 k1 k2 u u1 u2 u3 _ => ?_
      obtain ⟨hl, g2, g3⟩ := elem_at (w := 2) (by decide) hs h0 t1 t2 t4 g0 g1 hn hr k2 u1 u2
      refine lfoot_order fun e => ?_
      repeat' (with_reducible refine lfoot_load fun _ _ => ⟨hl _ (by decide), fun _ => ?_⟩)
      exact lfoot_setIdx' fun l' _ => lfoot_putOut (lfoot_pure ⟨rfl, l', rfl, rfl, g2, g3⟩)
    · srcpc
      exact lfoot_pure (hq _)
  · subst e
    refine lfoot_makeTyped fun l => lfoot_getOut (lfoot_putOut ?_)
    refine lfoot_bind (lfoot_for (A := List UInt32) (fun a i => [.ptr, .i64 off, .i64 n, .i64 _, .order o, .bytes (.mem t), .unit, .i64 i, .unit])
      (fun a => .lu32 a) (fun i _ => 0 ≤ i.toInt ∧ i.toInt * 4 ≤ t.cap) (n := n) ?_ ?_ ?_ (fun a i ha => ?_) fuel 0 l ⟨by decide, by show (0 : Int) * 4 ≤ _; omega⟩)
    · intro i a k; srcpc
    · intro i a k; srcpc; rfl
    · intro i a ⟨g0, g1⟩ hn
      srcpc
      refine lfoot_getOut ?_
      rw [assert_lu32]
      srcpc
      refine lfoot_reslice' fun k0 k1 k2 u u1 u2 u3 _ => ?_
      obtain ⟨hl, g2, g3⟩ := elem_at (w := 4) (by decide) hs h0 t1 t2 t4 g0 g1 hn hr k2 u1 u2
      refine lfoot_order fun e => ?_
      repeat' (with_reducible refine lfoot_load fun _ _ => ⟨hl _ (by decide), fun _ => ?_⟩)
      exact lfoot_setIdx' fun l' _ => lfoot_putOut (lfoot_pure ⟨rfl, l', rfl, rfl, g2, g3⟩)
    · srcpc
      exact lfoot_pure (hq _)
  · subst e
    refine lfoot_makeTyped fun l => lfoot_getOut (lfoot_putOut ?_)
    refine lfoot_bind (lfoot_for (A := List UInt64) (fun a i => [.ptr, .i64 off, .i64 n, .i64 _, .order o, .bytes (.mem t), .unit, .unit, .i64 i])
      (fun a => .lu64 a) (fun i _ => 0 ≤ i.toInt ∧ i.toInt * 8 ≤ t.cap) (n := n) ?_ ?_ ?_ (fun a i ha => ?_) fuel 0 l ⟨by decide, by show (0 : Int) * 8 ≤ _; omega⟩)
    · intro i a k; srcpc
    · intro i a k; srcpc; rfl
    · intro i a ⟨g0, g1⟩ hn
      srcpc
      refine lfoot_getOut ?_
      rw [assert_lu64]
      srcpc
      refine lfoot_reslice' fun k0 k1 k2 u u1 u2 u3 _ => ?_
      obtain ⟨hl, g2, g3⟩ := elem_at (w := 8) (by decide) hs h0 t1 t2 t4 g0 g1 hn hr k2 u1 u2
      refine lfoot_order fun e => ?_
      repeat' (with_reducible refine lfoot_load fun _ _ => ⟨hl _ (by decide), fun _ => ?_⟩)
      exact lfoot_setIdx' fun l' _ => lfoot_putOut (lfoot_pure ⟨rfl, l', rfl, rfl, g2, g3⟩)
    · srcpc
      exact lfoot_pure (hq _)

theorem foot_ReadComplex (fuel d : Nat) {off n size : Int64} {o : V1.ByteOrder} {R W : Loc → Prop} {Q : Buf → V → V → Prop} {b : Buf} {v : V}
    (hs : b.buf.cap < 2 ^ 50) (hF : Fields R W)
    (hr : size ≠ V1.Unsigned8 → ∀ x : Nat, off.toInt ≤ x → x < off.toInt + n.toInt * size.toInt → R (.byte b.buf.arr (b.buf.off + x))) (hq : ∀ x, Q b x .unit) :
    LFoot R W Q b v (P.call fuel (d + 3) (str% "ReadComplex") [.ptr, .i64 off, .i64 n, .i64 size, .order o]) := by
  rw [call_of (f := fun_ReadComplex) (by rfl) (by rfl)]
  unfold fun_ReadComplex
  srcpc
  exact lfoot_bind (foot_readComplex fuel d hs hF hr fun x => lfoot_pure (hq x))

theorem foot_ReadComplexNext (fuel d : Nat) {n size : Int64} {o : V1.ByteOrder} {R W : Loc → Prop} {Q : Buf → V → V → Prop} {b : Buf} {v : V}
    (hs : b.buf.cap < 2 ^ 50) (hF : Fields R W)
    (hr : size ≠ V1.Unsigned8 → ∀ x : Nat, b.off.toInt ≤ x → x < b.off.toInt + n.toInt * size.toInt → R (.byte b.buf.arr (b.buf.off + x))) (hq : ∀ b v x, Q b v x) :
    LFoot R W Q b v (P.call fuel (d + 3) (str% "ReadComplexNext") [.ptr, .i64 n, .i64 size, .order o]) := by
  rw [call_of (f := fun_ReadComplexNext) (by rfl) (by rfl)]
  unfold fun_ReadComplexNext
  srcpc
  refine lfoot_field (hF.rf _) (lfoot_bind (foot_readComplex fuel d hs hF hr fun x => ?_))
  exact lfoot_bind (foot_seek fuel (d + 1) hF fun _ => lfoot_pure (hq _ _ _))

end Crunch.Src.V1Mini
