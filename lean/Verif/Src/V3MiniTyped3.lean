import Verif.Src.Tactic
import Verif.Src.Text.V3Mini
import Verif.V3.MiniTyped
import Verif.Src.V3Mini

/-! The typed methods of v3/minibuf.generated.go, from their text.  Written by tools/src_proofs.py. -/

set_option linter.unusedVariables false
set_option linter.unusedSimpArgs false

namespace Crunch.Src.V3Mini
open V3.Mini (onB callOut)

theorem WriteF32LE (fuel d : Nat) (hf : 2 ^ 64 < fuel) (off : Int64) (data : List F32) :
    P.call fuel (d + 1) (str% "WriteF32LE") [.i64 off, .lf32 data] =
    (onB (V3.Mini.WriteF32LE off data) >>= fun x => pure .unit : GoM (V3.St × V) V) := by
  rw [call_of (f := fun_WriteF32LE) (by rfl) (by rfl)]
  unfold fun_WriteF32LE
  src
  gom [V3.Mini.WriteF32LE]
  down
  refine loopGoto_bind (U := Unit) (doLoop_eq _ _) (fun a u i => [.i64 off, .lf32 data, .i64 i, .i64 (Crunch.len data)]) ?_
    (fun _ _ _ => rfl) _ 0 () () (Nat.le_trans (rounds_le _ _) hf)
  intro i a u k k' h
  src
  try gom
  down
  all_goals first | exact h _ u | exact h _ _

theorem WriteF32LENext (fuel d : Nat) (hf : 2 ^ 64 < fuel) (data : List F32) :
    P.call fuel (d + 2) (str% "WriteF32LENext") [.lf32 data] =
    (onB (V3.Mini.WriteF32LENext data) >>= fun x => pure .unit : GoM (V3.St × V) V) := by
  rw [call_of (f := fun_WriteF32LENext) (by rfl) (by rfl)]
  unfold fun_WriteF32LENext
  src [↓use (WriteF32LE fuel d hf _ _), ↓use (SeekByte fuel d _ _)]
  gom [V3.Mini.WriteF32LENext]

theorem ReadF32LE (fuel d : Nat) (hf : 2 ^ 64 < fuel) (off : Int64) (n : Int64) (x : List F32) (k : V → GoM (V3.St × V) β) :
    atOut (.lf32 x) (P.call fuel (d + 1) (str% "ReadF32LE") [.ptr, .i64 off, .i64 n] >>= k) =
    through .lf32 (V3.Mini.ReadF32LE off n) x fun _ x => atOut (.lf32 x) (k .unit) := by
  rw [call_of (f := fun_ReadF32LE) (by rfl) (by rfl)]
  unfold fun_ReadF32LE
  src
  gom [V3.Mini.ReadF32LE]
  try outs
  down
  refine loopGoto_out (U := UInt32) _ _ (doLoop_eq _ _) (fun a u i => [.ptr, .i64 off, .i64 n, .i64 i, .u32 u]) ?_
    (fun _ _ _ _ => rfl) _ 0 () 0 (Nat.le_trans (rounds_le _ _) hf)
  intro i a u x k k' h
  src
  try gom
  try outs
  down
  all_goals first | exact h _ _ u | exact h _ _ _

theorem ReadF32LENext (fuel d : Nat) (hf : 2 ^ 64 < fuel) (n : Int64) (x : List F32) (k : V → GoM (V3.St × V) β) :
    atOut (.lf32 x) (P.call fuel (d + 2) (str% "ReadF32LENext") [.ptr, .i64 n] >>= k) =
    through .lf32 (V3.Mini.ReadF32LENext n) x fun _ x => atOut (.lf32 x) (k .unit) := by
  rw [call_of (f := fun_ReadF32LENext) (by rfl) (by rfl)]
  unfold fun_ReadF32LENext
  src [↓use (SeekByte fuel d _ _)]
  gom [V3.Mini.ReadF32LENext]
  try outs [ReadF32LE fuel d hf]

theorem WriteF32BE (fuel d : Nat) (hf : 2 ^ 64 < fuel) (off : Int64) (data : List F32) :
    P.call fuel (d + 1) (str% "WriteF32BE") [.i64 off, .lf32 data] =
    (onB (V3.Mini.WriteF32BE off data) >>= fun x => pure .unit : GoM (V3.St × V) V) := by
  rw [call_of (f := fun_WriteF32BE) (by rfl) (by rfl)]
  unfold fun_WriteF32BE
  src
  gom [V3.Mini.WriteF32BE]
  down
  refine loopGoto_bind (U := Unit) (doLoop_eq _ _) (fun a u i => [.i64 off, .lf32 data, .i64 i, .i64 (Crunch.len data)]) ?_
    (fun _ _ _ => rfl) _ 0 () () (Nat.le_trans (rounds_le _ _) hf)
  intro i a u k k' h
  src
  try gom
  down
  all_goals first | exact h _ u | exact h _ _

theorem WriteF32BENext (fuel d : Nat) (hf : 2 ^ 64 < fuel) (data : List F32) :
    P.call fuel (d + 2) (str% "WriteF32BENext") [.lf32 data] =
    (onB (V3.Mini.WriteF32BENext data) >>= fun x => pure .unit : GoM (V3.St × V) V) := by
  rw [call_of (f := fun_WriteF32BENext) (by rfl) (by rfl)]
  unfold fun_WriteF32BENext
  src [↓use (WriteF32BE fuel d hf _ _), ↓use (SeekByte fuel d _ _)]
  gom [V3.Mini.WriteF32BENext]

theorem ReadF32BE (fuel d : Nat) (hf : 2 ^ 64 < fuel) (off : Int64) (n : Int64) (x : List F32) (k : V → GoM (V3.St × V) β) :
    atOut (.lf32 x) (P.call fuel (d + 1) (str% "ReadF32BE") [.ptr, .i64 off, .i64 n] >>= k) =
    through .lf32 (V3.Mini.ReadF32BE off n) x fun _ x => atOut (.lf32 x) (k .unit) := by
  rw [call_of (f := fun_ReadF32BE) (by rfl) (by rfl)]
  unfold fun_ReadF32BE
  src
  gom [V3.Mini.ReadF32BE]
  try outs
  down
  refine loopGoto_out (U := UInt32) _ _ (doLoop_eq _ _) (fun a u i => [.ptr, .i64 off, .i64 n, .i64 i, .u32 u]) ?_
    (fun _ _ _ _ => rfl) _ 0 () 0 (Nat.le_trans (rounds_le _ _) hf)
  intro i a u x k k' h
  src
  try gom
  try outs
  down
  all_goals first | exact h _ _ u | exact h _ _ _

theorem ReadF32BENext (fuel d : Nat) (hf : 2 ^ 64 < fuel) (n : Int64) (x : List F32) (k : V → GoM (V3.St × V) β) :
    atOut (.lf32 x) (P.call fuel (d + 2) (str% "ReadF32BENext") [.ptr, .i64 n] >>= k) =
    through .lf32 (V3.Mini.ReadF32BENext n) x fun _ x => atOut (.lf32 x) (k .unit) := by
  rw [call_of (f := fun_ReadF32BENext) (by rfl) (by rfl)]
  unfold fun_ReadF32BENext
  src [↓use (SeekByte fuel d _ _)]
  gom [V3.Mini.ReadF32BENext]
  try outs [ReadF32BE fuel d hf]

theorem WriteF64LE (fuel d : Nat) (hf : 2 ^ 64 < fuel) (off : Int64) (data : List F64) :
    P.call fuel (d + 1) (str% "WriteF64LE") [.i64 off, .lf64 data] =
    (onB (V3.Mini.WriteF64LE off data) >>= fun x => pure .unit : GoM (V3.St × V) V) := by
  rw [call_of (f := fun_WriteF64LE) (by rfl) (by rfl)]
  unfold fun_WriteF64LE
  src
  gom [V3.Mini.WriteF64LE]
  down
  refine loopGoto_bind (U := Unit) (doLoop_eq _ _) (fun a u i => [.i64 off, .lf64 data, .i64 i, .i64 (Crunch.len data)]) ?_
    (fun _ _ _ => rfl) _ 0 () () (Nat.le_trans (rounds_le _ _) hf)
  intro i a u k k' h
  src
  try gom
  down
  all_goals first | exact h _ u | exact h _ _

theorem WriteF64LENext (fuel d : Nat) (hf : 2 ^ 64 < fuel) (data : List F64) :
    P.call fuel (d + 2) (str% "WriteF64LENext") [.lf64 data] =
    (onB (V3.Mini.WriteF64LENext data) >>= fun x => pure .unit : GoM (V3.St × V) V) := by
  rw [call_of (f := fun_WriteF64LENext) (by rfl) (by rfl)]
  unfold fun_WriteF64LENext
  src [↓use (WriteF64LE fuel d hf _ _), ↓use (SeekByte fuel d _ _)]
  gom [V3.Mini.WriteF64LENext]

theorem ReadF64LE (fuel d : Nat) (hf : 2 ^ 64 < fuel) (off : Int64) (n : Int64) (x : List F64) (k : V → GoM (V3.St × V) β) :
    atOut (.lf64 x) (P.call fuel (d + 1) (str% "ReadF64LE") [.ptr, .i64 off, .i64 n] >>= k) =
    through .lf64 (V3.Mini.ReadF64LE off n) x fun _ x => atOut (.lf64 x) (k .unit) := by
  rw [call_of (f := fun_ReadF64LE) (by rfl) (by rfl)]
  unfold fun_ReadF64LE
  src
  gom [V3.Mini.ReadF64LE]
  try outs
  down
  refine loopGoto_out (U := UInt64) _ _ (doLoop_eq _ _) (fun a u i => [.ptr, .i64 off, .i64 n, .i64 i, .u64 u]) ?_
    (fun _ _ _ _ => rfl) _ 0 () 0 (Nat.le_trans (rounds_le _ _) hf)
  intro i a u x k k' h
  src
  try gom
  try outs
  down
  all_goals first | exact h _ _ u | exact h _ _ _

theorem ReadF64LENext (fuel d : Nat) (hf : 2 ^ 64 < fuel) (n : Int64) (x : List F64) (k : V → GoM (V3.St × V) β) :
    atOut (.lf64 x) (P.call fuel (d + 2) (str% "ReadF64LENext") [.ptr, .i64 n] >>= k) =
    through .lf64 (V3.Mini.ReadF64LENext n) x fun _ x => atOut (.lf64 x) (k .unit) := by
  rw [call_of (f := fun_ReadF64LENext) (by rfl) (by rfl)]
  unfold fun_ReadF64LENext
  src [↓use (SeekByte fuel d _ _)]
  gom [V3.Mini.ReadF64LENext]
  try outs [ReadF64LE fuel d hf]

theorem WriteF64BE (fuel d : Nat) (hf : 2 ^ 64 < fuel) (off : Int64) (data : List F64) :
    P.call fuel (d + 1) (str% "WriteF64BE") [.i64 off, .lf64 data] =
    (onB (V3.Mini.WriteF64BE off data) >>= fun x => pure .unit : GoM (V3.St × V) V) := by
  rw [call_of (f := fun_WriteF64BE) (by rfl) (by rfl)]
  unfold fun_WriteF64BE
  src
  gom [V3.Mini.WriteF64BE]
  down
  refine loopGoto_bind (U := Unit) (doLoop_eq _ _) (fun a u i => [.i64 off, .lf64 data, .i64 i, .i64 (Crunch.len data)]) ?_
    (fun _ _ _ => rfl) _ 0 () () (Nat.le_trans (rounds_le _ _) hf)
  intro i a u k k' h
  src
  try gom
  down
  all_goals first | exact h _ u | exact h _ _

theorem WriteF64BENext (fuel d : Nat) (hf : 2 ^ 64 < fuel) (data : List F64) :
    P.call fuel (d + 2) (str% "WriteF64BENext") [.lf64 data] =
    (onB (V3.Mini.WriteF64BENext data) >>= fun x => pure .unit : GoM (V3.St × V) V) := by
  rw [call_of (f := fun_WriteF64BENext) (by rfl) (by rfl)]
  unfold fun_WriteF64BENext
  src [↓use (WriteF64BE fuel d hf _ _), ↓use (SeekByte fuel d _ _)]
  gom [V3.Mini.WriteF64BENext]

theorem ReadF64BE (fuel d : Nat) (hf : 2 ^ 64 < fuel) (off : Int64) (n : Int64) (x : List F64) (k : V → GoM (V3.St × V) β) :
    atOut (.lf64 x) (P.call fuel (d + 1) (str% "ReadF64BE") [.ptr, .i64 off, .i64 n] >>= k) =
    through .lf64 (V3.Mini.ReadF64BE off n) x fun _ x => atOut (.lf64 x) (k .unit) := by
  rw [call_of (f := fun_ReadF64BE) (by rfl) (by rfl)]
  unfold fun_ReadF64BE
  src
  gom [V3.Mini.ReadF64BE]
  try outs
  down
  refine loopGoto_out (U := UInt64) _ _ (doLoop_eq _ _) (fun a u i => [.ptr, .i64 off, .i64 n, .i64 i, .u64 u]) ?_
    (fun _ _ _ _ => rfl) _ 0 () 0 (Nat.le_trans (rounds_le _ _) hf)
  intro i a u x k k' h
  src
  try gom
  try outs
  down
  all_goals first | exact h _ _ u | exact h _ _ _

theorem ReadF64BENext (fuel d : Nat) (hf : 2 ^ 64 < fuel) (n : Int64) (x : List F64) (k : V → GoM (V3.St × V) β) :
    atOut (.lf64 x) (P.call fuel (d + 2) (str% "ReadF64BENext") [.ptr, .i64 n] >>= k) =
    through .lf64 (V3.Mini.ReadF64BENext n) x fun _ x => atOut (.lf64 x) (k .unit) := by
  rw [call_of (f := fun_ReadF64BENext) (by rfl) (by rfl)]
  unfold fun_ReadF64BENext
  src [↓use (SeekByte fuel d _ _)]
  gom [V3.Mini.ReadF64BENext]
  try outs [ReadF64BE fuel d hf]

end Crunch.Src.V3Mini
