import Verif.Src.Tactic
import Verif.Src.Text.V3Buffer
import Verif.V3.BufferTyped
import Verif.Src.V3Buffer

/-! The typed methods of v3/buffer.generated.go, from their text.  Written by tools/src_proofs.py. -/

set_option linter.unusedVariables false
set_option linter.unusedSimpArgs false

namespace Crunch.Src.V3Buffer
open V3.Mini (onB callOut)

theorem WriteF32LE (fuel d : Nat) (hf : 2 ^ 64 < fuel) (off : Int64) (data : List F32) :
    P.call fuel (d + 1) (str% "WriteF32LE") [.i64 off, .lf32 data] =
    (onB (V3.Buffer.WriteF32LE off data) >>= fun x => pure .unit : GoM (V3.St × V) V) := by
  rw [call_of (f := fun_WriteF32LE) (by rfl) (by rfl)]
  unfold fun_WriteF32LE
  src
  gom [V3.Buffer.WriteF32LE]
  down
  refine loopGoto_bind (U := Unit) (doLoop_eq _ _) (fun a u i => [.i64 off, .lf32 data, .i64 i, .i64 (Crunch.len data)]) ?_
    (fun _ _ _ => rfl) _ 0 () () (Nat.le_trans (rounds_le _ _) hf)
  intro i a u k k' h
  src
  try gom
  down
  all_goals first | exact h _ u | exact h _ _

theorem WriteF32LENext (fuel d : Nat) (hf : 2 ^ 64 < fuel) (data : List F32) :
    P.call fuel (d + 2) (str% "WriteF32LENext") [.lf32 data] =
    (onB (V3.Buffer.WriteF32LENext data) >>= fun x => pure .unit : GoM (V3.St × V) V) := by
  rw [call_of (f := fun_WriteF32LENext) (by rfl) (by rfl)]
  unfold fun_WriteF32LENext
  src [↓use (WriteF32LE fuel d hf _ _), ↓use (SeekByte fuel d _ _)]
  gom [V3.Buffer.WriteF32LENext]

theorem ReadF32LE (fuel d : Nat) (hf : 2 ^ 64 < fuel) (off : Int64) (n : Int64) :
    P.call fuel (d + 1) (str% "ReadF32LE") [.i64 off, .i64 n] =
    (onB (V3.Buffer.ReadF32LE off n) >>= fun x => pure (.lf32 x) : GoM (V3.St × V) V) := by
  rw [call_of (f := fun_ReadF32LE) (by rfl) (by rfl)]
  unfold fun_ReadF32LE
  src
  gom [V3.Buffer.ReadF32LE]
  down
  refine loopGoto_bind (U := UInt32) (doLoop_eq _ _) (fun a u i => [.i64 off, .i64 n, .lf32 a, .i64 i, .u32 u]) ?_
    (fun _ _ _ => rfl) _ 0 _ 0 (Nat.le_trans (rounds_le _ _) hf)
  intro i a u k k' h
  src
  try gom
  down
  all_goals first | exact h _ u | exact h _ _

theorem ReadF32LENext (fuel d : Nat) (hf : 2 ^ 64 < fuel) (n : Int64) :
    P.call fuel (d + 2) (str% "ReadF32LENext") [.i64 n] =
    (onB (V3.Buffer.ReadF32LENext n) >>= fun x => pure (.lf32 x) : GoM (V3.St × V) V) := by
  rw [call_of (f := fun_ReadF32LENext) (by rfl) (by rfl)]
  unfold fun_ReadF32LENext
  src [↓use (ReadF32LE fuel d hf _ _), ↓use (SeekByte fuel d _ _)]
  gom [V3.Buffer.ReadF32LENext]

theorem WriteF32BE (fuel d : Nat) (hf : 2 ^ 64 < fuel) (off : Int64) (data : List F32) :
    P.call fuel (d + 1) (str% "WriteF32BE") [.i64 off, .lf32 data] =
    (onB (V3.Buffer.WriteF32BE off data) >>= fun x => pure .unit : GoM (V3.St × V) V) := by
  rw [call_of (f := fun_WriteF32BE) (by rfl) (by rfl)]
  unfold fun_WriteF32BE
  src
  gom [V3.Buffer.WriteF32BE]
  down
  refine loopGoto_bind (U := Unit) (doLoop_eq _ _) (fun a u i => [.i64 off, .lf32 data, .i64 i, .i64 (Crunch.len data)]) ?_
    (fun _ _ _ => rfl) _ 0 () () (Nat.le_trans (rounds_le _ _) hf)
  intro i a u k k' h
  src
  try gom
  down
  all_goals first | exact h _ u | exact h _ _

theorem WriteF32BENext (fuel d : Nat) (hf : 2 ^ 64 < fuel) (data : List F32) :
    P.call fuel (d + 2) (str% "WriteF32BENext") [.lf32 data] =
    (onB (V3.Buffer.WriteF32BENext data) >>= fun x => pure .unit : GoM (V3.St × V) V) := by
  rw [call_of (f := fun_WriteF32BENext) (by rfl) (by rfl)]
  unfold fun_WriteF32BENext
  src [↓use (WriteF32BE fuel d hf _ _), ↓use (SeekByte fuel d _ _)]
  gom [V3.Buffer.WriteF32BENext]

theorem ReadF32BE (fuel d : Nat) (hf : 2 ^ 64 < fuel) (off : Int64) (n : Int64) :
    P.call fuel (d + 1) (str% "ReadF32BE") [.i64 off, .i64 n] =
    (onB (V3.Buffer.ReadF32BE off n) >>= fun x => pure (.lf32 x) : GoM (V3.St × V) V) := by
  rw [call_of (f := fun_ReadF32BE) (by rfl) (by rfl)]
  unfold fun_ReadF32BE
  src
  gom [V3.Buffer.ReadF32BE]
  down
  refine loopGoto_bind (U := UInt32) (doLoop_eq _ _) (fun a u i => [.i64 off, .i64 n, .lf32 a, .i64 i, .u32 u]) ?_
    (fun _ _ _ => rfl) _ 0 _ 0 (Nat.le_trans (rounds_le _ _) hf)
  intro i a u k k' h
  src
  try gom
  down
  all_goals first | exact h _ u | exact h _ _

theorem ReadF32BENext (fuel d : Nat) (hf : 2 ^ 64 < fuel) (n : Int64) :
    P.call fuel (d + 2) (str% "ReadF32BENext") [.i64 n] =
    (onB (V3.Buffer.ReadF32BENext n) >>= fun x => pure (.lf32 x) : GoM (V3.St × V) V) := by
  rw [call_of (f := fun_ReadF32BENext) (by rfl) (by rfl)]
  unfold fun_ReadF32BENext
  src [↓use (ReadF32BE fuel d hf _ _), ↓use (SeekByte fuel d _ _)]
  gom [V3.Buffer.ReadF32BENext]

theorem WriteF64LE (fuel d : Nat) (hf : 2 ^ 64 < fuel) (off : Int64) (data : List F64) :
    P.call fuel (d + 1) (str% "WriteF64LE") [.i64 off, .lf64 data] =
    (onB (V3.Buffer.WriteF64LE off data) >>= fun x => pure .unit : GoM (V3.St × V) V) := by
  rw [call_of (f := fun_WriteF64LE) (by rfl) (by rfl)]
  unfold fun_WriteF64LE
  src
  gom [V3.Buffer.WriteF64LE]
  down
  refine loopGoto_bind (U := Unit) (doLoop_eq _ _) (fun a u i => [.i64 off, .lf64 data, .i64 i, .i64 (Crunch.len data)]) ?_
    (fun _ _ _ => rfl) _ 0 () () (Nat.le_trans (rounds_le _ _) hf)
  intro i a u k k' h
  src
  try gom
  down
  all_goals first | exact h _ u | exact h _ _

theorem WriteF64LENext (fuel d : Nat) (hf : 2 ^ 64 < fuel) (data : List F64) :
    P.call fuel (d + 2) (str% "WriteF64LENext") [.lf64 data] =
    (onB (V3.Buffer.WriteF64LENext data) >>= fun x => pure .unit : GoM (V3.St × V) V) := by
  rw [call_of (f := fun_WriteF64LENext) (by rfl) (by rfl)]
  unfold fun_WriteF64LENext
  src [↓use (WriteF64LE fuel d hf _ _), ↓use (SeekByte fuel d _ _)]
  gom [V3.Buffer.WriteF64LENext]

theorem ReadF64LE (fuel d : Nat) (hf : 2 ^ 64 < fuel) (off : Int64) (n : Int64) :
    P.call fuel (d + 1) (str% "ReadF64LE") [.i64 off, .i64 n] =
    (onB (V3.Buffer.ReadF64LE off n) >>= fun x => pure (.lf64 x) : GoM (V3.St × V) V) := by
  rw [call_of (f := fun_ReadF64LE) (by rfl) (by rfl)]
  unfold fun_ReadF64LE
  src
  gom [V3.Buffer.ReadF64LE]
  down
  refine loopGoto_bind (U := UInt64) (doLoop_eq _ _) (fun a u i => [.i64 off, .i64 n, .lf64 a, .i64 i, .u64 u]) ?_
    (fun _ _ _ => rfl) _ 0 _ 0 (Nat.le_trans (rounds_le _ _) hf)
  intro i a u k k' h
  src
  try gom
  down
  all_goals first | exact h _ u | exact h _ _

theorem ReadF64LENext (fuel d : Nat) (hf : 2 ^ 64 < fuel) (n : Int64) :
    P.call fuel (d + 2) (str% "ReadF64LENext") [.i64 n] =
    (onB (V3.Buffer.ReadF64LENext n) >>= fun x => pure (.lf64 x) : GoM (V3.St × V) V) := by
  rw [call_of (f := fun_ReadF64LENext) (by rfl) (by rfl)]
  unfold fun_ReadF64LENext
  src [↓use (ReadF64LE fuel d hf _ _), ↓use (SeekByte fuel d _ _)]
  gom [V3.Buffer.ReadF64LENext]

theorem WriteF64BE (fuel d : Nat) (hf : 2 ^ 64 < fuel) (off : Int64) (data : List F64) :
    P.call fuel (d + 1) (str% "WriteF64BE") [.i64 off, .lf64 data] =
    (onB (V3.Buffer.WriteF64BE off data) >>= fun x => pure .unit : GoM (V3.St × V) V) := by
  rw [call_of (f := fun_WriteF64BE) (by rfl) (by rfl)]
  unfold fun_WriteF64BE
  src
  gom [V3.Buffer.WriteF64BE]
  down
  refine loopGoto_bind (U := Unit) (doLoop_eq _ _) (fun a u i => [.i64 off, .lf64 data, .i64 i, .i64 (Crunch.len data)]) ?_
    (fun _ _ _ => rfl) _ 0 () () (Nat.le_trans (rounds_le _ _) hf)
  intro i a u k k' h
  src
  try gom
  down
  all_goals first | exact h _ u | exact h _ _

theorem WriteF64BENext (fuel d : Nat) (hf : 2 ^ 64 < fuel) (data : List F64) :
    P.call fuel (d + 2) (str% "WriteF64BENext") [.lf64 data] =
    (onB (V3.Buffer.WriteF64BENext data) >>= fun x => pure .unit : GoM (V3.St × V) V) := by
  rw [call_of (f := fun_WriteF64BENext) (by rfl) (by rfl)]
  unfold fun_WriteF64BENext
  src [↓use (WriteF64BE fuel d hf _ _), ↓use (SeekByte fuel d _ _)]
  gom [V3.Buffer.WriteF64BENext]

theorem ReadF64BE (fuel d : Nat) (hf : 2 ^ 64 < fuel) (off : Int64) (n : Int64) :
    P.call fuel (d + 1) (str% "ReadF64BE") [.i64 off, .i64 n] =
    (onB (V3.Buffer.ReadF64BE off n) >>= fun x => pure (.lf64 x) : GoM (V3.St × V) V) := by
  rw [call_of (f := fun_ReadF64BE) (by rfl) (by rfl)]
  unfold fun_ReadF64BE
  src
  gom [V3.Buffer.ReadF64BE]
  down
  refine loopGoto_bind (U := UInt64) (doLoop_eq _ _) (fun a u i => [.i64 off, .i64 n, .lf64 a, .i64 i, .u64 u]) ?_
    (fun _ _ _ => rfl) _ 0 _ 0 (Nat.le_trans (rounds_le _ _) hf)
  intro i a u k k' h
  src
  try gom
  down
  all_goals first | exact h _ u | exact h _ _

theorem ReadF64BENext (fuel d : Nat) (hf : 2 ^ 64 < fuel) (n : Int64) :
    P.call fuel (d + 2) (str% "ReadF64BENext") [.i64 n] =
    (onB (V3.Buffer.ReadF64BENext n) >>= fun x => pure (.lf64 x) : GoM (V3.St × V) V) := by
  rw [call_of (f := fun_ReadF64BENext) (by rfl) (by rfl)]
  unfold fun_ReadF64BENext
  src [↓use (ReadF64BE fuel d hf _ _), ↓use (SeekByte fuel d _ _)]
  gom [V3.Buffer.ReadF64BENext]

end Crunch.Src.V3Buffer
