import Verif.Src.Tactic
import Verif.Src.Text.V2Mini
import Verif.V2.MiniTyped
import Verif.Src.V2Mini

/-! The typed methods of v2/minibuf.go, from their text.  Written by tools/src_proofs.py. -/

set_option linter.unusedVariables false
set_option linter.unusedSimpArgs false

namespace Crunch.Src.V2Mini
open V3.Mini (onB callOut)

theorem writeU16LE (fuel d : Nat) (hf : 2 ^ 64 < fuel) (off : Int64) (data : List UInt16) :
    P.call fuel (d + 1) (str% "writeU16LE") [.i64 off, .lu16 data] =
    (onB (V2.Mini.writeU16LE off data) >>= fun x => pure .unit : GoM (V3.St × V) V) := by
  rw [call_of (f := fun_writeU16LE) (by rfl) (by rfl)]
  unfold fun_writeU16LE
  src
  gom [V2.Mini.writeU16LE]
  down
  refine loopGoto_bind (U := Unit) (doLoop_eq _ _) (fun a u i => [.i64 off, .lu16 data, .i64 i, .i64 (Crunch.len data)]) ?_
    (fun _ _ _ => rfl) _ 0 () () (Nat.le_trans (rounds_le _ _) hf)
  intro i a u k k' h
  src
  try gom
  down
  all_goals first | exact h _ u | exact h _ _

theorem WriteU16LE (fuel d : Nat) (hf : 2 ^ 64 < fuel) (off : Int64) (data : List UInt16) :
    P.call fuel (d + 2) (str% "WriteU16LE") [.i64 off, .lu16 data] =
    (onB (V2.Mini.WriteU16LE off data) >>= fun x => pure .unit : GoM (V3.St × V) V) := by
  rw [call_of (f := fun_WriteU16LE) (by rfl) (by rfl)]
  unfold fun_WriteU16LE
  src [↓use (writeU16LE fuel d hf _ _)]
  gom [V2.Mini.WriteU16LE]

theorem WriteU16LENext (fuel d : Nat) (hf : 2 ^ 64 < fuel) (data : List UInt16) :
    P.call fuel (d + 2) (str% "WriteU16LENext") [.lu16 data] =
    (onB (V2.Mini.WriteU16LENext data) >>= fun x => pure .unit : GoM (V3.St × V) V) := by
  rw [call_of (f := fun_WriteU16LENext) (by rfl) (by rfl)]
  unfold fun_WriteU16LENext
  src [↓use (writeU16LE fuel d hf _ _), ↓use (seek fuel d _ _)]
  gom [V2.Mini.WriteU16LENext]

theorem readU16LE (fuel d : Nat) (hf : 2 ^ 64 < fuel) (off : Int64) (n : Int64) (x : List UInt16) (k : V → GoM (V3.St × V) β) :
    atOut (.lu16 x) (P.call fuel (d + 1) (str% "readU16LE") [.ptr, .i64 off, .i64 n] >>= k) =
    through .lu16 (V2.Mini.readU16LE off n) x fun _ x => atOut (.lu16 x) (k .unit) := by
  rw [call_of (f := fun_readU16LE) (by rfl) (by rfl)]
  unfold fun_readU16LE
  src
  gom [V2.Mini.readU16LE]
  try outs
  down
  refine loopGoto_out (U := Unit) _ _ (doLoop_eq _ _) (fun a u i => [.ptr, .i64 off, .i64 n, .i64 i]) ?_
    (fun _ _ _ _ => rfl) _ 0 () () (Nat.le_trans (rounds_le _ _) hf)
  intro i a u x k k' h
  src
  try gom
  try outs
  down
  all_goals first | exact h _ _ u | exact h _ _ _

theorem ReadU16LE (fuel d : Nat) (hf : 2 ^ 64 < fuel) (off : Int64) (n : Int64) (x : List UInt16) (k : V → GoM (V3.St × V) β) :
    atOut (.lu16 x) (P.call fuel (d + 2) (str% "ReadU16LE") [.ptr, .i64 off, .i64 n] >>= k) =
    through .lu16 (V2.Mini.ReadU16LE off n) x fun _ x => atOut (.lu16 x) (k .unit) := by
  rw [call_of (f := fun_ReadU16LE) (by rfl) (by rfl)]
  unfold fun_ReadU16LE
  src
  gom [V2.Mini.ReadU16LE]
  try outs [readU16LE fuel d hf]

theorem ReadU16LENext (fuel d : Nat) (hf : 2 ^ 64 < fuel) (n : Int64) (x : List UInt16) (k : V → GoM (V3.St × V) β) :
    atOut (.lu16 x) (P.call fuel (d + 2) (str% "ReadU16LENext") [.ptr, .i64 n] >>= k) =
    through .lu16 (V2.Mini.ReadU16LENext n) x fun _ x => atOut (.lu16 x) (k .unit) := by
  rw [call_of (f := fun_ReadU16LENext) (by rfl) (by rfl)]
  unfold fun_ReadU16LENext
  src [↓use (seek fuel d _ _)]
  gom [V2.Mini.ReadU16LENext]
  try outs [readU16LE fuel d hf]

theorem writeU16BE (fuel d : Nat) (hf : 2 ^ 64 < fuel) (off : Int64) (data : List UInt16) :
    P.call fuel (d + 1) (str% "writeU16BE") [.i64 off, .lu16 data] =
    (onB (V2.Mini.writeU16BE off data) >>= fun x => pure .unit : GoM (V3.St × V) V) := by
  rw [call_of (f := fun_writeU16BE) (by rfl) (by rfl)]
  unfold fun_writeU16BE
  src
  gom [V2.Mini.writeU16BE]
  down
  refine loopGoto_bind (U := Unit) (doLoop_eq _ _) (fun a u i => [.i64 off, .lu16 data, .i64 i, .i64 (Crunch.len data)]) ?_
    (fun _ _ _ => rfl) _ 0 () () (Nat.le_trans (rounds_le _ _) hf)
  intro i a u k k' h
  src
  try gom
  down
  all_goals first | exact h _ u | exact h _ _

theorem WriteU16BE (fuel d : Nat) (hf : 2 ^ 64 < fuel) (off : Int64) (data : List UInt16) :
    P.call fuel (d + 2) (str% "WriteU16BE") [.i64 off, .lu16 data] =
    (onB (V2.Mini.WriteU16BE off data) >>= fun x => pure .unit : GoM (V3.St × V) V) := by
  rw [call_of (f := fun_WriteU16BE) (by rfl) (by rfl)]
  unfold fun_WriteU16BE
  src [↓use (writeU16BE fuel d hf _ _)]
  gom [V2.Mini.WriteU16BE]

theorem WriteU16BENext (fuel d : Nat) (hf : 2 ^ 64 < fuel) (data : List UInt16) :
    P.call fuel (d + 2) (str% "WriteU16BENext") [.lu16 data] =
    (onB (V2.Mini.WriteU16BENext data) >>= fun x => pure .unit : GoM (V3.St × V) V) := by
  rw [call_of (f := fun_WriteU16BENext) (by rfl) (by rfl)]
  unfold fun_WriteU16BENext
  src [↓use (writeU16BE fuel d hf _ _), ↓use (seek fuel d _ _)]
  gom [V2.Mini.WriteU16BENext]

theorem readU16BE (fuel d : Nat) (hf : 2 ^ 64 < fuel) (off : Int64) (n : Int64) (x : List UInt16) (k : V → GoM (V3.St × V) β) :
    atOut (.lu16 x) (P.call fuel (d + 1) (str% "readU16BE") [.ptr, .i64 off, .i64 n] >>= k) =
    through .lu16 (V2.Mini.readU16BE off n) x fun _ x => atOut (.lu16 x) (k .unit) := by
  rw [call_of (f := fun_readU16BE) (by rfl) (by rfl)]
  unfold fun_readU16BE
  src
  gom [V2.Mini.readU16BE]
  try outs
  down
  refine loopGoto_out (U := Unit) _ _ (doLoop_eq _ _) (fun a u i => [.ptr, .i64 off, .i64 n, .i64 i]) ?_
    (fun _ _ _ _ => rfl) _ 0 () () (Nat.le_trans (rounds_le _ _) hf)
  intro i a u x k k' h
  src
  try gom
  try outs
  down
  all_goals first | exact h _ _ u | exact h _ _ _

theorem ReadU16BE (fuel d : Nat) (hf : 2 ^ 64 < fuel) (off : Int64) (n : Int64) (x : List UInt16) (k : V → GoM (V3.St × V) β) :
    atOut (.lu16 x) (P.call fuel (d + 2) (str% "ReadU16BE") [.ptr, .i64 off, .i64 n] >>= k) =
    through .lu16 (V2.Mini.ReadU16BE off n) x fun _ x => atOut (.lu16 x) (k .unit) := by
  rw [call_of (f := fun_ReadU16BE) (by rfl) (by rfl)]
  unfold fun_ReadU16BE
  src
  gom [V2.Mini.ReadU16BE]
  try outs [readU16BE fuel d hf]

theorem ReadU16BENext (fuel d : Nat) (hf : 2 ^ 64 < fuel) (n : Int64) (x : List UInt16) (k : V → GoM (V3.St × V) β) :
    atOut (.lu16 x) (P.call fuel (d + 2) (str% "ReadU16BENext") [.ptr, .i64 n] >>= k) =
    through .lu16 (V2.Mini.ReadU16BENext n) x fun _ x => atOut (.lu16 x) (k .unit) := by
  rw [call_of (f := fun_ReadU16BENext) (by rfl) (by rfl)]
  unfold fun_ReadU16BENext
  src [↓use (seek fuel d _ _)]
  gom [V2.Mini.ReadU16BENext]
  try outs [readU16BE fuel d hf]

theorem writeU32LE (fuel d : Nat) (hf : 2 ^ 64 < fuel) (off : Int64) (data : List UInt32) :
    P.call fuel (d + 1) (str% "writeU32LE") [.i64 off, .lu32 data] =
    (onB (V2.Mini.writeU32LE off data) >>= fun x => pure .unit : GoM (V3.St × V) V) := by
  rw [call_of (f := fun_writeU32LE) (by rfl) (by rfl)]
  unfold fun_writeU32LE
  src
  gom [V2.Mini.writeU32LE]
  down
  refine loopGoto_bind (U := Unit) (doLoop_eq _ _) (fun a u i => [.i64 off, .lu32 data, .i64 i, .i64 (Crunch.len data)]) ?_
    (fun _ _ _ => rfl) _ 0 () () (Nat.le_trans (rounds_le _ _) hf)
  intro i a u k k' h
  src
  try gom
  down
  all_goals first | exact h _ u | exact h _ _

theorem WriteU32LE (fuel d : Nat) (hf : 2 ^ 64 < fuel) (off : Int64) (data : List UInt32) :
    P.call fuel (d + 2) (str% "WriteU32LE") [.i64 off, .lu32 data] =
    (onB (V2.Mini.WriteU32LE off data) >>= fun x => pure .unit : GoM (V3.St × V) V) := by
  rw [call_of (f := fun_WriteU32LE) (by rfl) (by rfl)]
  unfold fun_WriteU32LE
  src [↓use (writeU32LE fuel d hf _ _)]
  gom [V2.Mini.WriteU32LE]

theorem WriteU32LENext (fuel d : Nat) (hf : 2 ^ 64 < fuel) (data : List UInt32) :
    P.call fuel (d + 2) (str% "WriteU32LENext") [.lu32 data] =
    (onB (V2.Mini.WriteU32LENext data) >>= fun x => pure .unit : GoM (V3.St × V) V) := by
  rw [call_of (f := fun_WriteU32LENext) (by rfl) (by rfl)]
  unfold fun_WriteU32LENext
  src [↓use (writeU32LE fuel d hf _ _), ↓use (seek fuel d _ _)]
  gom [V2.Mini.WriteU32LENext]

theorem readU32LE (fuel d : Nat) (hf : 2 ^ 64 < fuel) (off : Int64) (n : Int64) (x : List UInt32) (k : V → GoM (V3.St × V) β) :
    atOut (.lu32 x) (P.call fuel (d + 1) (str% "readU32LE") [.ptr, .i64 off, .i64 n] >>= k) =
    through .lu32 (V2.Mini.readU32LE off n) x fun _ x => atOut (.lu32 x) (k .unit) := by
  rw [call_of (f := fun_readU32LE) (by rfl) (by rfl)]
  unfold fun_readU32LE
  src
  gom [V2.Mini.readU32LE]
  try outs
  down
  refine loopGoto_out (U := Unit) _ _ (doLoop_eq _ _) (fun a u i => [.ptr, .i64 off, .i64 n, .i64 i]) ?_
    (fun _ _ _ _ => rfl) _ 0 () () (Nat.le_trans (rounds_le _ _) hf)
  intro i a u x k k' h
  src
  try gom
  try outs
  down
  all_goals first | exact h _ _ u | exact h _ _ _

theorem ReadU32LE (fuel d : Nat) (hf : 2 ^ 64 < fuel) (off : Int64) (n : Int64) (x : List UInt32) (k : V → GoM (V3.St × V) β) :
    atOut (.lu32 x) (P.call fuel (d + 2) (str% "ReadU32LE") [.ptr, .i64 off, .i64 n] >>= k) =
    through .lu32 (V2.Mini.ReadU32LE off n) x fun _ x => atOut (.lu32 x) (k .unit) := by
  rw [call_of (f := fun_ReadU32LE) (by rfl) (by rfl)]
  unfold fun_ReadU32LE
  src
  gom [V2.Mini.ReadU32LE]
  try outs [readU32LE fuel d hf]

theorem ReadU32LENext (fuel d : Nat) (hf : 2 ^ 64 < fuel) (n : Int64) (x : List UInt32) (k : V → GoM (V3.St × V) β) :
    atOut (.lu32 x) (P.call fuel (d + 2) (str% "ReadU32LENext") [.ptr, .i64 n] >>= k) =
    through .lu32 (V2.Mini.ReadU32LENext n) x fun _ x => atOut (.lu32 x) (k .unit) := by
  rw [call_of (f := fun_ReadU32LENext) (by rfl) (by rfl)]
  unfold fun_ReadU32LENext
  src [↓use (seek fuel d _ _)]
  gom [V2.Mini.ReadU32LENext]
  try outs [readU32LE fuel d hf]

theorem writeU32BE (fuel d : Nat) (hf : 2 ^ 64 < fuel) (off : Int64) (data : List UInt32) :
    P.call fuel (d + 1) (str% "writeU32BE") [.i64 off, .lu32 data] =
    (onB (V2.Mini.writeU32BE off data) >>= fun x => pure .unit : GoM (V3.St × V) V) := by
  rw [call_of (f := fun_writeU32BE) (by rfl) (by rfl)]
  unfold fun_writeU32BE
  src
  gom [V2.Mini.writeU32BE]
  down
  refine loopGoto_bind (U := Unit) (doLoop_eq _ _) (fun a u i => [.i64 off, .lu32 data, .i64 i, .i64 (Crunch.len data)]) ?_
    (fun _ _ _ => rfl) _ 0 () () (Nat.le_trans (rounds_le _ _) hf)
  intro i a u k k' h
  src
  try gom
  down
  all_goals first | exact h _ u | exact h _ _

theorem WriteU32BE (fuel d : Nat) (hf : 2 ^ 64 < fuel) (off : Int64) (data : List UInt32) :
    P.call fuel (d + 2) (str% "WriteU32BE") [.i64 off, .lu32 data] =
    (onB (V2.Mini.WriteU32BE off data) >>= fun x => pure .unit : GoM (V3.St × V) V) := by
  rw [call_of (f := fun_WriteU32BE) (by rfl) (by rfl)]
  unfold fun_WriteU32BE
  src [↓use (writeU32BE fuel d hf _ _)]
  gom [V2.Mini.WriteU32BE]

theorem WriteU32BENext (fuel d : Nat) (hf : 2 ^ 64 < fuel) (data : List UInt32) :
    P.call fuel (d + 2) (str% "WriteU32BENext") [.lu32 data] =
    (onB (V2.Mini.WriteU32BENext data) >>= fun x => pure .unit : GoM (V3.St × V) V) := by
  rw [call_of (f := fun_WriteU32BENext) (by rfl) (by rfl)]
  unfold fun_WriteU32BENext
  src [↓use (writeU32BE fuel d hf _ _), ↓use (seek fuel d _ _)]
  gom [V2.Mini.WriteU32BENext]

theorem readU32BE (fuel d : Nat) (hf : 2 ^ 64 < fuel) (off : Int64) (n : Int64) (x : List UInt32) (k : V → GoM (V3.St × V) β) :
    atOut (.lu32 x) (P.call fuel (d + 1) (str% "readU32BE") [.ptr, .i64 off, .i64 n] >>= k) =
    through .lu32 (V2.Mini.readU32BE off n) x fun _ x => atOut (.lu32 x) (k .unit) := by
  rw [call_of (f := fun_readU32BE) (by rfl) (by rfl)]
  unfold fun_readU32BE
  src
  gom [V2.Mini.readU32BE]
  try outs
  down
  refine loopGoto_out (U := Unit) _ _ (doLoop_eq _ _) (fun a u i => [.ptr, .i64 off, .i64 n, .i64 i]) ?_
    (fun _ _ _ _ => rfl) _ 0 () () (Nat.le_trans (rounds_le _ _) hf)
  intro i a u x k k' h
  src
  try gom
  try outs
  down
  all_goals first | exact h _ _ u | exact h _ _ _

theorem ReadU32BE (fuel d : Nat) (hf : 2 ^ 64 < fuel) (off : Int64) (n : Int64) (x : List UInt32) (k : V → GoM (V3.St × V) β) :
    atOut (.lu32 x) (P.call fuel (d + 2) (str% "ReadU32BE") [.ptr, .i64 off, .i64 n] >>= k) =
    through .lu32 (V2.Mini.ReadU32BE off n) x fun _ x => atOut (.lu32 x) (k .unit) := by
  rw [call_of (f := fun_ReadU32BE) (by rfl) (by rfl)]
  unfold fun_ReadU32BE
  src
  gom [V2.Mini.ReadU32BE]
  try outs [readU32BE fuel d hf]

theorem ReadU32BENext (fuel d : Nat) (hf : 2 ^ 64 < fuel) (n : Int64) (x : List UInt32) (k : V → GoM (V3.St × V) β) :
    atOut (.lu32 x) (P.call fuel (d + 2) (str% "ReadU32BENext") [.ptr, .i64 n] >>= k) =
    through .lu32 (V2.Mini.ReadU32BENext n) x fun _ x => atOut (.lu32 x) (k .unit) := by
  rw [call_of (f := fun_ReadU32BENext) (by rfl) (by rfl)]
  unfold fun_ReadU32BENext
  src [↓use (seek fuel d _ _)]
  gom [V2.Mini.ReadU32BENext]
  try outs [readU32BE fuel d hf]

theorem writeU64LE (fuel d : Nat) (hf : 2 ^ 64 < fuel) (off : Int64) (data : List UInt64) :
    P.call fuel (d + 1) (str% "writeU64LE") [.i64 off, .lu64 data] =
    (onB (V2.Mini.writeU64LE off data) >>= fun x => pure .unit : GoM (V3.St × V) V) := by
  rw [call_of (f := fun_writeU64LE) (by rfl) (by rfl)]
  unfold fun_writeU64LE
  src
  gom [V2.Mini.writeU64LE]
  down
  refine loopGoto_bind (U := Unit) (doLoop_eq _ _) (fun a u i => [.i64 off, .lu64 data, .i64 i, .i64 (Crunch.len data)]) ?_
    (fun _ _ _ => rfl) _ 0 () () (Nat.le_trans (rounds_le _ _) hf)
  intro i a u k k' h
  src
  try gom
  down
  all_goals first | exact h _ u | exact h _ _

theorem WriteU64LE (fuel d : Nat) (hf : 2 ^ 64 < fuel) (off : Int64) (data : List UInt64) :
    P.call fuel (d + 2) (str% "WriteU64LE") [.i64 off, .lu64 data] =
    (onB (V2.Mini.WriteU64LE off data) >>= fun x => pure .unit : GoM (V3.St × V) V) := by
  rw [call_of (f := fun_WriteU64LE) (by rfl) (by rfl)]
  unfold fun_WriteU64LE
  src [↓use (writeU64LE fuel d hf _ _)]
  gom [V2.Mini.WriteU64LE]

theorem WriteU64LENext (fuel d : Nat) (hf : 2 ^ 64 < fuel) (data : List UInt64) :
    P.call fuel (d + 2) (str% "WriteU64LENext") [.lu64 data] =
    (onB (V2.Mini.WriteU64LENext data) >>= fun x => pure .unit : GoM (V3.St × V) V) := by
  rw [call_of (f := fun_WriteU64LENext) (by rfl) (by rfl)]
  unfold fun_WriteU64LENext
  src [↓use (writeU64LE fuel d hf _ _), ↓use (seek fuel d _ _)]
  gom [V2.Mini.WriteU64LENext]

theorem readU64LE (fuel d : Nat) (hf : 2 ^ 64 < fuel) (off : Int64) (n : Int64) (x : List UInt64) (k : V → GoM (V3.St × V) β) :
    atOut (.lu64 x) (P.call fuel (d + 1) (str% "readU64LE") [.ptr, .i64 off, .i64 n] >>= k) =
    through .lu64 (V2.Mini.readU64LE off n) x fun _ x => atOut (.lu64 x) (k .unit) := by
  rw [call_of (f := fun_readU64LE) (by rfl) (by rfl)]
  unfold fun_readU64LE
  src
  gom [V2.Mini.readU64LE]
  try outs
  down
  refine loopGoto_out (U := Unit) _ _ (doLoop_eq _ _) (fun a u i => [.ptr, .i64 off, .i64 n, .i64 i]) ?_
    (fun _ _ _ _ => rfl) _ 0 () () (Nat.le_trans (rounds_le _ _) hf)
  intro i a u x k k' h
  src
  try gom
  try outs
  down
  all_goals first | exact h _ _ u | exact h _ _ _

theorem ReadU64LE (fuel d : Nat) (hf : 2 ^ 64 < fuel) (off : Int64) (n : Int64) (x : List UInt64) (k : V → GoM (V3.St × V) β) :
    atOut (.lu64 x) (P.call fuel (d + 2) (str% "ReadU64LE") [.ptr, .i64 off, .i64 n] >>= k) =
    through .lu64 (V2.Mini.ReadU64LE off n) x fun _ x => atOut (.lu64 x) (k .unit) := by
  rw [call_of (f := fun_ReadU64LE) (by rfl) (by rfl)]
  unfold fun_ReadU64LE
  src
  gom [V2.Mini.ReadU64LE]
  try outs [readU64LE fuel d hf]

theorem ReadU64LENext (fuel d : Nat) (hf : 2 ^ 64 < fuel) (n : Int64) (x : List UInt64) (k : V → GoM (V3.St × V) β) :
    atOut (.lu64 x) (P.call fuel (d + 2) (str% "ReadU64LENext") [.ptr, .i64 n] >>= k) =
    through .lu64 (V2.Mini.ReadU64LENext n) x fun _ x => atOut (.lu64 x) (k .unit) := by
  rw [call_of (f := fun_ReadU64LENext) (by rfl) (by rfl)]
  unfold fun_ReadU64LENext
  src [↓use (seek fuel d _ _)]
  gom [V2.Mini.ReadU64LENext]
  try outs [readU64LE fuel d hf]

theorem writeU64BE (fuel d : Nat) (hf : 2 ^ 64 < fuel) (off : Int64) (data : List UInt64) :
    P.call fuel (d + 1) (str% "writeU64BE") [.i64 off, .lu64 data] =
    (onB (V2.Mini.writeU64BE off data) >>= fun x => pure .unit : GoM (V3.St × V) V) := by
  rw [call_of (f := fun_writeU64BE) (by rfl) (by rfl)]
  unfold fun_writeU64BE
  src
  gom [V2.Mini.writeU64BE]
  down
  refine loopGoto_bind (U := Unit) (doLoop_eq _ _) (fun a u i => [.i64 off, .lu64 data, .i64 i, .i64 (Crunch.len data)]) ?_
    (fun _ _ _ => rfl) _ 0 () () (Nat.le_trans (rounds_le _ _) hf)
  intro i a u k k' h
  src
  try gom
  down
  all_goals first | exact h _ u | exact h _ _

theorem WriteU64BE (fuel d : Nat) (hf : 2 ^ 64 < fuel) (off : Int64) (data : List UInt64) :
    P.call fuel (d + 2) (str% "WriteU64BE") [.i64 off, .lu64 data] =
    (onB (V2.Mini.WriteU64BE off data) >>= fun x => pure .unit : GoM (V3.St × V) V) := by
  rw [call_of (f := fun_WriteU64BE) (by rfl) (by rfl)]
  unfold fun_WriteU64BE
  src [↓use (writeU64BE fuel d hf _ _)]
  gom [V2.Mini.WriteU64BE]

theorem WriteU64BENext (fuel d : Nat) (hf : 2 ^ 64 < fuel) (data : List UInt64) :
    P.call fuel (d + 2) (str% "WriteU64BENext") [.lu64 data] =
    (onB (V2.Mini.WriteU64BENext data) >>= fun x => pure .unit : GoM (V3.St × V) V) := by
  rw [call_of (f := fun_WriteU64BENext) (by rfl) (by rfl)]
  unfold fun_WriteU64BENext
  src [↓use (writeU64BE fuel d hf _ _), ↓use (seek fuel d _ _)]
  gom [V2.Mini.WriteU64BENext]

theorem readU64BE (fuel d : Nat) (hf : 2 ^ 64 < fuel) (off : Int64) (n : Int64) (x : List UInt64) (k : V → GoM (V3.St × V) β) :
    atOut (.lu64 x) (P.call fuel (d + 1) (str% "readU64BE") [.ptr, .i64 off, .i64 n] >>= k) =
    through .lu64 (V2.Mini.readU64BE off n) x fun _ x => atOut (.lu64 x) (k .unit) := by
  rw [call_of (f := fun_readU64BE) (by rfl) (by rfl)]
  unfold fun_readU64BE
  src
  gom [V2.Mini.readU64BE]
  try outs
  down
  refine loopGoto_out (U := Unit) _ _ (doLoop_eq _ _) (fun a u i => [.ptr, .i64 off, .i64 n, .i64 i]) ?_
    (fun _ _ _ _ => rfl) _ 0 () () (Nat.le_trans (rounds_le _ _) hf)
  intro i a u x k k' h
  src
  try gom
  try outs
  down
  all_goals first | exact h _ _ u | exact h _ _ _

theorem ReadU64BE (fuel d : Nat) (hf : 2 ^ 64 < fuel) (off : Int64) (n : Int64) (x : List UInt64) (k : V → GoM (V3.St × V) β) :
    atOut (.lu64 x) (P.call fuel (d + 2) (str% "ReadU64BE") [.ptr, .i64 off, .i64 n] >>= k) =
    through .lu64 (V2.Mini.ReadU64BE off n) x fun _ x => atOut (.lu64 x) (k .unit) := by
  rw [call_of (f := fun_ReadU64BE) (by rfl) (by rfl)]
  unfold fun_ReadU64BE
  src
  gom [V2.Mini.ReadU64BE]
  try outs [readU64BE fuel d hf]

theorem ReadU64BENext (fuel d : Nat) (hf : 2 ^ 64 < fuel) (n : Int64) (x : List UInt64) (k : V → GoM (V3.St × V) β) :
    atOut (.lu64 x) (P.call fuel (d + 2) (str% "ReadU64BENext") [.ptr, .i64 n] >>= k) =
    through .lu64 (V2.Mini.ReadU64BENext n) x fun _ x => atOut (.lu64 x) (k .unit) := by
  rw [call_of (f := fun_ReadU64BENext) (by rfl) (by rfl)]
  unfold fun_ReadU64BENext
  src [↓use (seek fuel d _ _)]
  gom [V2.Mini.ReadU64BENext]
  try outs [readU64BE fuel d hf]

end Crunch.Src.V2Mini
