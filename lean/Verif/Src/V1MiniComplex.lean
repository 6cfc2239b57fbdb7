import Verif.Src.V1Mini
import Verif.Lemmas.SrcComplex

/-! The methods of v1/minibuf.go for complex values, from their text. -/

set_option linter.unusedVariables false
set_option linter.unusedSimpArgs false

namespace Crunch.Src.V1Mini
open V3.Mini (onB callOut)

/-- `src` with the equations of `Verif/Lemmas/SrcComplex.lean` -/
macro "srcc" "[" ls:Lean.Parser.Tactic.simpLemma,* "]" : tactic => `(tactic| src [↓eval_assert, ↓eval_uint, ↓eval_own,
  ↓setIndex_bytes, ↓uintAt_u16, ↓uintAt_u32, ↓uintAt_u64, ↓putInto_16, ↓putInto_32, ↓putInto_64, ↓exec_nilBytes, ↓exec_put,
  ↓exec_setOutAs, ↓clauses_nil, ↓unbrk_ret, ↓gom_assert_u8, ↓gom_assert_u16, ↓gom_assert_u32, ↓gom_assert_u64, ↓gom_order, $ls,*])

theorem writeLit (fuel d : Nat) (hf : 2 ^ 64 < fuel) (off : Int64) (data : List UInt8) :
    P.call fuel (d + 1) (str% "write") [.i64 off, .bytes (.lit data)] =
    (onB (V1.Mini.writeLit off data) >>= fun x => pure .unit : GoM (V3.St × V) V) := by
  rw [call_of (f := fun_write) (by rfl) (by rfl)]
  unfold fun_write
  src
  gom [V1.Mini.writeLit]
  down
  refine loopGoto_bind (U := Unit) (doLoop_eq _ _) (fun a u i => [.i64 off, .bytes (.lit data), .i64 i, .i64 (Int64.ofNat data.length)]) ?_
    (fun _ _ _ => rfl) _ 0 () () (Nat.le_trans (rounds_le _ _) hf)
  intro i a u k k' h
  src
  try gom [gom_loadLit]
  down
  all_goals first | exact h _ u | exact h _ _

theorem writeComplex (fuel d : Nat) (hf : 2 ^ 64 < fuel) (off : Int64) (idata : V1.Any) (size : Int64) (o : V1.ByteOrder) :
    P.call fuel (d + 2) (str% "writeComplex") [.i64 off, goAny idata, .i64 size, .order o] =
    (onB (V1.Mini.writeComplex off idata size o) >>= fun x => pure .unit : GoM (V3.St × V) V) := by
  rw [call_of (f := fun_writeComplex) (by rfl) (by rfl)]
  unfold fun_writeComplex
  srcc [↓use (write fuel d hf _ _), ↓use (writeLit fuel d hf _ _)]
  gom [V1.Mini.writeComplex, plain_bytes16, plain_bytes32, plain_bytes64, makeTyped1]
  down
  · rename_i l _
    refine loopFor_bind (U := V) (forLoop_eq _ _) (fun a u i => [.i64 off, goAny idata, .i64 size, .order o, .bytes (.lit a), u, .lu16 l, .i64 i, V.unit, V.unit, V.unit, V.unit]) ?_ ?_ ?_ ?_
      _ 0 _ (.bytes (.mem ⟨0, 0, 0, 0⟩)) (Nat.lt_of_le_of_lt (left_le _ _) hf)
    · intro i a u k
      srcc []
      rfl
    · intro i a u k
      srcc []
    · intro i a u k k' h
      srcc []
      gom [gom_loadLit]
      down
      all_goals exact h _ _
    · intro a u i
      srcc [↓use (writeLit fuel d hf _ _)]
  · rename_i l _
    refine loopFor_bind (U := V) (forLoop_eq _ _) (fun a u i => [.i64 off, goAny idata, .i64 size, .order o, .bytes (.lit a), u, V.unit, V.unit, .lu32 l, .i64 i, V.unit, V.unit]) ?_ ?_ ?_ ?_
      _ 0 _ (.bytes (.mem ⟨0, 0, 0, 0⟩)) (Nat.lt_of_le_of_lt (left_le _ _) hf)
    · intro i a u k
      srcc []
      rfl
    · intro i a u k
      srcc []
    · intro i a u k k' h
      srcc []
      gom [gom_loadLit]
      down
      all_goals exact h _ _
    · intro a u i
      srcc [↓use (writeLit fuel d hf _ _)]
  · rename_i l _
    refine loopFor_bind (U := V) (forLoop_eq _ _) (fun a u i => [.i64 off, goAny idata, .i64 size, .order o, .bytes (.lit a), u, V.unit, V.unit, V.unit, V.unit, .lu64 l, .i64 i]) ?_ ?_ ?_ ?_
      _ 0 _ (.bytes (.mem ⟨0, 0, 0, 0⟩)) (Nat.lt_of_le_of_lt (left_le _ _) hf)
    · intro i a u k
      srcc []
      rfl
    · intro i a u k
      srcc []
    · intro i a u k k' h
      srcc []
      gom [gom_loadLit]
      down
      all_goals exact h _ _
    · intro a u i
      srcc [↓use (writeLit fuel d hf _ _)]

/-- `outs` with the equations of `Verif/Lemmas/SrcComplex.lean` -/
macro "outsc" "[" ls:Lean.Parser.Tactic.simpLemma,* "]" : tactic => `(tactic| outs [↓eval_assert, ↓eval_uint, ↓eval_own,
  ↓setIndex_bytes, ↓uintAt_u16, ↓uintAt_u32, ↓uintAt_u64, ↓exec_nilBytes, ↓exec_setOutAs, ↓clauses_nil, ↓unbrk_ret,
  ↓gom_assert_u8, ↓gom_assert_u16, ↓gom_assert_u32, ↓gom_assert_u64, ↓gom_order, at_makeTyped, thru_makeTyped, $ls,*])

theorem readComplex (fuel d : Nat) (hf : 2 ^ 64 < fuel) (off n : Int64) (size : Int64) (o : V1.ByteOrder) (x : V1.Any)
    (k : V → GoM (V3.St × V) β) :
    atOut (goAny x) (P.call fuel (d + 2) (str% "readComplex") [.ptr, .i64 off, .i64 n, .i64 size, .order o] >>= k) =
    through goAny (V1.Mini.readComplex off n size o) x fun _ x => atOut (goAny x) (k .unit) := by
  rw [call_of (f := fun_readComplex) (by rfl) (by rfl)]
  unfold fun_readComplex
  srcc [↓use (withOut_of (fun x => .bytes (.mem x)) _ fun k => read fuel d _ _ _ k)]
  gom [V1.Mini.readComplex]
  outsc []
  down
  · rw [goAny_bytes]
  · rename_i data _ _ _
    rw [← goAny_u16]
    refine loopFor_out (U := Unit) _ _ (forLoop_eq _ _) (fun a u i => [.ptr, .i64 off, .i64 n, .i64 size, .order o, .bytes (.mem data), .i64 i, V.unit, V.unit]) ?_ ?_ ?_
      (fun _ _ _ _ => rfl) _ 0 () () (Nat.lt_of_le_of_lt (left_le _ _) hf)
    · intro i a u k
      srcc []
    · intro i a u k
      srcc []
    · intro i a u x k k' h
      have h := fun l => h () (.u16 l) u
      simp only [goAny_u16] at h
      unfold V1.Mini.outU16
      rw [exec_cons, exec_setOutAs, gom_getOut, at_getOut, gom_assert_u16, at_onB, bind_assoc, thru_bind, thru_getOut, thru_bind, thru_onB]
      refine ob_congr _ _ fun l => ?_
      srcc []
      gom [plain_loadU16]
      outsc []
      down
      all_goals exact h _
  · rename_i data _ _ _ _
    rw [← goAny_u32]
    refine loopFor_out (U := Unit) _ _ (forLoop_eq _ _) (fun a u i => [.ptr, .i64 off, .i64 n, .i64 size, .order o, .bytes (.mem data), V.unit, .i64 i, V.unit]) ?_ ?_ ?_
      (fun _ _ _ _ => rfl) _ 0 () () (Nat.lt_of_le_of_lt (left_le _ _) hf)
    · intro i a u k
      srcc []
    · intro i a u k
      srcc []
    · intro i a u x k k' h
      have h := fun l => h () (.u32 l) u
      simp only [goAny_u32] at h
      unfold V1.Mini.outU32
      rw [exec_cons, exec_setOutAs, gom_getOut, at_getOut, gom_assert_u32, at_onB, bind_assoc, thru_bind, thru_getOut, thru_bind, thru_onB]
      refine ob_congr _ _ fun l => ?_
      srcc []
      gom [plain_loadU32]
      outsc []
      down
      all_goals exact h _
  · rename_i data _ _ _ _ _
    rw [← goAny_u64]
    refine loopFor_out (U := Unit) _ _ (forLoop_eq _ _) (fun a u i => [.ptr, .i64 off, .i64 n, .i64 size, .order o, .bytes (.mem data), V.unit, V.unit, .i64 i]) ?_ ?_ ?_
      (fun _ _ _ _ => rfl) _ 0 () () (Nat.lt_of_le_of_lt (left_le _ _) hf)
    · intro i a u k
      srcc []
    · intro i a u k
      srcc []
    · intro i a u x k k' h
      have h := fun l => h () (.u64 l) u
      simp only [goAny_u64] at h
      unfold V1.Mini.outU64
      rw [exec_cons, exec_setOutAs, gom_getOut, at_getOut, gom_assert_u64, at_onB, bind_assoc, thru_bind, thru_getOut, thru_bind, thru_onB]
      refine ob_congr _ _ fun l => ?_
      srcc []
      gom [plain_loadU64]
      outsc []
      down
      all_goals exact h _

theorem ReadComplex (fuel d : Nat) (hf : 2 ^ 64 < fuel) (off n : Int64) (size : Int64) (o : V1.ByteOrder) (x : V1.Any)
    (k : V → GoM (V3.St × V) β) :
    atOut (goAny x) (P.call fuel (d + 3) (str% "ReadComplex") [.ptr, .i64 off, .i64 n, .i64 size, .order o] >>= k) =
    through goAny (V1.Mini.ReadComplex off n size o) x fun _ x => atOut (goAny x) (k .unit) := by
  rw [call_of (f := fun_ReadComplex) (by rfl) (by rfl)]
  unfold fun_ReadComplex
  srcc []
  gom [V1.Mini.ReadComplex]
  outsc [readComplex fuel d hf]

theorem ReadComplexNext (fuel d : Nat) (hf : 2 ^ 64 < fuel) (n : Int64) (size : Int64) (o : V1.ByteOrder) (x : V1.Any)
    (k : V → GoM (V3.St × V) β) :
    atOut (goAny x) (P.call fuel (d + 3) (str% "ReadComplexNext") [.ptr, .i64 n, .i64 size, .order o] >>= k) =
    through goAny (V1.Mini.ReadComplexNext n size o) x fun _ x => atOut (goAny x) (k .unit) := by
  rw [call_of (f := fun_ReadComplexNext) (by rfl) (by rfl)]
  unfold fun_ReadComplexNext
  srcc []
  gom [V1.Mini.ReadComplexNext]
  outsc [readComplex fuel d hf, ↓use (seek fuel (d + 1) _ _)]

theorem WriteComplex (fuel d : Nat) (hf : 2 ^ 64 < fuel) (off : Int64) (data : V1.Any) (size : Int64) (o : V1.ByteOrder) :
    P.call fuel (d + 3) (str% "WriteComplex") [.i64 off, goAny data, .i64 size, .order o] =
    (onB (V1.Mini.WriteComplex off data size o) >>= fun x => pure .unit : GoM (V3.St × V) V) := by
  rw [call_of (f := fun_WriteComplex) (by rfl) (by rfl)]
  unfold fun_WriteComplex
  srcc [↓use (writeComplex fuel d hf _ _ _ _)]
  gom [V1.Mini.WriteComplex]

theorem WriteComplexNext (fuel d : Nat) (hf : 2 ^ 64 < fuel) (data : V1.Any) (size : Int64) (o : V1.ByteOrder) :
    P.call fuel (d + 3) (str% "WriteComplexNext") [goAny data, .i64 size, .order o] =
    (onB (V1.Mini.WriteComplexNext data size o) >>= fun x => pure .unit : GoM (V3.St × V) V) := by
  rw [call_of (f := fun_WriteComplexNext) (by rfl) (by rfl)]
  unfold fun_WriteComplexNext
  srcc [↓use (writeComplex fuel d hf _ _ _ _), ↓use (seek fuel (d + 1) _ _)]
  gom [V1.Mini.WriteComplexNext]
  down
  all_goals rfl

end Crunch.Src.V1Mini
