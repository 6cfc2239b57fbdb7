import Verif.Src.V1Buffer
import Verif.Lemmas.SrcComplex

/-! The methods of v1/buffer.go for complex values, from their text. -/

set_option linter.unusedVariables false
set_option linter.unusedVariables false
set_option linter.unusedSimpArgs false

namespace Crunch.Src.V1Buffer

/-- `srcp` with the equations of `Verif/Lemmas/SrcComplex.lean` -/
macro "srcpc" "[" ls:Lean.Parser.Tactic.simpLemma,* "]" : tactic => `(tactic| srcp [↓eval_assert, ↓eval_uint, ↓eval_own,
  ↓setIndex_bytes, ↓uintAt_u16, ↓uintAt_u32, ↓uintAt_u64, ↓putInto_16, ↓putInto_32, ↓putInto_64, ↓exec_nilBytes, ↓exec_put,
  ↓clauses_nil, ↓unbrk_ret, ↓prog_assert_u8, ↓prog_assert_u16, ↓prog_assert_u32, ↓prog_assert_u64, ↓prog_order, $ls,*])

theorem writeComplex (fuel d : Nat) (hf : 2 ^ 64 < fuel) (off : Int64) (idata : V1.Any) (size : Int64) (o : V1.ByteOrder) :
    P.call fuel (d + 2) (str% "writeComplex") [.i64 off, goAny idata, .i64 size, .order o] =
    (V1.Buffer.writeComplex off idata size o >>= fun x => pure .unit : Prog V) := by
  rw [call_of (f := fun_writeComplex) (by rfl) (by rfl)]
  unfold fun_writeComplex
  srcpc [↓use (write fuel d hf _ _)]
  prog [V1.Buffer.writeComplex, V1.bytes16, V1.bytes32, V1.bytes64, prog_makeTyped1]
  downp
  · rename_i l _
    refine loopFor_bind (U := V) (prog_forLoop _ _) (fun a u i => [.i64 off, goAny idata, .i64 size, .order o, .bytes (.lit a), u, .lu16 l, .i64 i, V.unit, V.unit, V.unit, V.unit]) ?_ ?_ ?_ ?_
      _ 0 _ (.bytes (.mem ⟨0, 0, 0, 0⟩)) (Nat.lt_of_le_of_lt (left_le _ _) hf)
    · intro i a u k
      srcpc []
      rfl
    · intro i a u k
      srcpc []
    · intro i a u k k' h
      srcpc []
      prog [prog_srcLit]
      downp
      all_goals exact h _ _
    · intro a u i
      srcpc [↓use (write fuel d hf _ _)]
  · rename_i l _
    refine loopFor_bind (U := V) (prog_forLoop _ _) (fun a u i => [.i64 off, goAny idata, .i64 size, .order o, .bytes (.lit a), u, V.unit, V.unit, .lu32 l, .i64 i, V.unit, V.unit]) ?_ ?_ ?_ ?_
      _ 0 _ (.bytes (.mem ⟨0, 0, 0, 0⟩)) (Nat.lt_of_le_of_lt (left_le _ _) hf)
    · intro i a u k
      srcpc []
      rfl
    · intro i a u k
      srcpc []
    · intro i a u k k' h
      srcpc []
      prog [prog_srcLit]
      downp
      all_goals exact h _ _
    · intro a u i
      srcpc [↓use (write fuel d hf _ _)]
  · rename_i l _
    refine loopFor_bind (U := V) (prog_forLoop _ _) (fun a u i => [.i64 off, goAny idata, .i64 size, .order o, .bytes (.lit a), u, V.unit, V.unit, V.unit, V.unit, .lu64 l, .i64 i]) ?_ ?_ ?_ ?_
      _ 0 _ (.bytes (.mem ⟨0, 0, 0, 0⟩)) (Nat.lt_of_le_of_lt (left_le _ _) hf)
    · intro i a u k
      srcpc []
      rfl
    · intro i a u k
      srcpc []
    · intro i a u k k' h
      srcpc []
      prog [prog_srcLit]
      downp
      all_goals exact h _ _
    · intro a u i
      srcpc [↓use (write fuel d hf _ _)]

theorem readComplex (fuel d : Nat) (hf : 2 ^ 64 < fuel) (off n : Int64) (size : Int64) (o : V1.ByteOrder) :
    P.call fuel (d + 2) (str% "readComplex") [.i64 off, .i64 n, .i64 size, .order o] =
    (V1.Buffer.readComplex off n size o >>= fun x => pure (goAny x) : Prog V) := by
  rw [call_of (f := fun_readComplex) (by rfl) (by rfl)]
  unfold fun_readComplex
  srcpc [↓use (read fuel d _ _)]
  prog [V1.Buffer.readComplex, goAny]
  downp
  · rename_i data _ _ _
    refine loopFor_bind (U := Unit) (prog_forLoop _ _) (fun a u i => [.i64 off, .i64 n, .i64 size, .order o, .bytes (.mem data), .lu16 a, .i64 i, V.unit, V.unit, V.unit, V.unit]) ?_ ?_ ?_ (fun _ _ _ => rfl)
      _ 0 _ () (Nat.lt_of_le_of_lt (left_le _ _) hf)
    · intro i a u k
      srcpc []
    · intro i a u k
      srcpc []
    · intro i a u k k' h
      srcpc []
      prog [V1.loadU16]
      downp
      all_goals exact h _ u
  · rename_i data _ _ _ _
    refine loopFor_bind (U := Unit) (prog_forLoop _ _) (fun a u i => [.i64 off, .i64 n, .i64 size, .order o, .bytes (.mem data), V.unit, V.unit, .lu32 a, .i64 i, V.unit, V.unit]) ?_ ?_ ?_ (fun _ _ _ => rfl)
      _ 0 _ () (Nat.lt_of_le_of_lt (left_le _ _) hf)
    · intro i a u k
      srcpc []
    · intro i a u k
      srcpc []
    · intro i a u k k' h
      srcpc []
      prog [V1.loadU32]
      downp
      all_goals exact h _ u
  · rename_i data _ _ _ _ _
    refine loopFor_bind (U := Unit) (prog_forLoop _ _) (fun a u i => [.i64 off, .i64 n, .i64 size, .order o, .bytes (.mem data), V.unit, V.unit, V.unit, V.unit, .lu64 a, .i64 i]) ?_ ?_ ?_ (fun _ _ _ => rfl)
      _ 0 _ () (Nat.lt_of_le_of_lt (left_le _ _) hf)
    · intro i a u k
      srcpc []
    · intro i a u k
      srcpc []
    · intro i a u k k' h
      srcpc []
      prog [V1.loadU64]
      downp
      all_goals exact h _ u

theorem ReadComplex (fuel d : Nat) (hf : 2 ^ 64 < fuel) (off n : Int64) (size : Int64) (o : V1.ByteOrder) :
    P.call fuel (d + 3) (str% "ReadComplex") [.i64 off, .i64 n, .i64 size, .order o] =
    (V1.Buffer.ReadComplex off n size o >>= fun x => pure (goAny x) : Prog V) := by
  rw [call_of (f := fun_ReadComplex) (by rfl) (by rfl)]
  unfold fun_ReadComplex
  srcpc [↓use (readComplex fuel d hf _ _ _ _)]
  prog [V1.Buffer.ReadComplex]
  downp
  rename_i x
  cases x <;> (unfold goAny; rfl)

theorem ReadComplexNext (fuel d : Nat) (hf : 2 ^ 64 < fuel) (n : Int64) (size : Int64) (o : V1.ByteOrder) :
    P.call fuel (d + 3) (str% "ReadComplexNext") [.i64 n, .i64 size, .order o] =
    (V1.Buffer.ReadComplexNext n size o >>= fun x => pure (goAny x) : Prog V) := by
  rw [call_of (f := fun_ReadComplexNext) (by rfl) (by rfl)]
  unfold fun_ReadComplexNext
  srcpc [↓use (readComplex fuel d hf _ _ _ _), ↓use (seek fuel (d + 1) _ _)]
  prog [V1.Buffer.ReadComplexNext]
  downp
  rename_i x _
  cases x <;> (unfold goAny; rfl)

theorem WriteComplex (fuel d : Nat) (hf : 2 ^ 64 < fuel) (off : Int64) (data : V1.Any) (size : Int64) (o : V1.ByteOrder) :
    P.call fuel (d + 3) (str% "WriteComplex") [.i64 off, goAny data, .i64 size, .order o] =
    (V1.Buffer.WriteComplex off data size o >>= fun x => pure .unit : Prog V) := by
  rw [call_of (f := fun_WriteComplex) (by rfl) (by rfl)]
  unfold fun_WriteComplex
  srcpc [↓use (writeComplex fuel d hf _ _ _ _)]
  prog [V1.Buffer.WriteComplex]

theorem WriteComplexNext (fuel d : Nat) (hf : 2 ^ 64 < fuel) (data : V1.Any) (size : Int64) (o : V1.ByteOrder) :
    P.call fuel (d + 3) (str% "WriteComplexNext") [goAny data, .i64 size, .order o] =
    (V1.Buffer.WriteComplexNext data size o >>= fun x => pure .unit : Prog V) := by
  rw [call_of (f := fun_WriteComplexNext) (by rfl) (by rfl)]
  unfold fun_WriteComplexNext
  srcpc [↓use (writeComplex fuel d hf _ _ _ _), ↓use (seek fuel (d + 1) _ _)]
  prog [V1.Buffer.WriteComplexNext]
  downp
  all_goals rfl

end Crunch.Src.V1Buffer
