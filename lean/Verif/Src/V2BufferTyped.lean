import Verif.Src.TacticProg
import Verif.Src.Text.V2Buffer
import Verif.V2.BufferTyped
import Verif.Src.V2Buffer

/-! The typed methods of v2/buffer.go, from their text.  Written by tools/src_proofs.py. -/

set_option linter.unusedVariables false
set_option linter.unusedSimpArgs false

namespace Crunch.Src.V2Buffer
open V3.Mini (onB callOut)

theorem writeU16LE (fuel d : Nat) (hf : 2 ^ 64 < fuel) (off : Int64) (data : List UInt16) :
    P.call fuel (d + 1) (str% "writeU16LE") [.i64 off, .lu16 data] =
    (V2.Buffer.writeU16LE off data >>= fun x => pure .unit : Prog V) := by
  rw [call_of (f := fun_writeU16LE) (by rfl) (by rfl)]
  unfold fun_writeU16LE
  srcp
  prog [V2.Buffer.writeU16LE]
  downp
  refine loopGoto_bind (U := Unit) (prog_doLoop _ _) (fun a u i => [.i64 off, .lu16 data, .i64 i, .i64 (Crunch.len data)]) ?_
    (fun _ _ _ => rfl) _ 0 () () (Nat.le_trans (rounds_le _ _) hf)
  intro i a u k k' h
  srcp
  try prog
  downp
  all_goals first | exact h _ u | exact h _ _

theorem WriteU16LE (fuel d : Nat) (hf : 2 ^ 64 < fuel) (off : Int64) (data : List UInt16) :
    P.call fuel (d + 2) (str% "WriteU16LE") [.i64 off, .lu16 data] =
    (V2.Buffer.WriteU16LE off data >>= fun x => pure .unit : Prog V) := by
  rw [call_of (f := fun_WriteU16LE) (by rfl) (by rfl)]
  unfold fun_WriteU16LE
  srcp [↓use (writeU16LE fuel d hf _ _)]
  prog [V2.Buffer.WriteU16LE]

theorem WriteU16LENext (fuel d : Nat) (hf : 2 ^ 64 < fuel) (data : List UInt16) :
    P.call fuel (d + 2) (str% "WriteU16LENext") [.lu16 data] =
    (V2.Buffer.WriteU16LENext data >>= fun x => pure .unit : Prog V) := by
  rw [call_of (f := fun_WriteU16LENext) (by rfl) (by rfl)]
  unfold fun_WriteU16LENext
  srcp [↓use (writeU16LE fuel d hf _ _), ↓use (seek fuel d _ _)]
  prog [V2.Buffer.WriteU16LENext]

theorem readU16LE (fuel d : Nat) (hf : 2 ^ 64 < fuel) (off : Int64) (n : Int64) :
    P.call fuel (d + 1) (str% "readU16LE") [.i64 off, .i64 n] =
    (V2.Buffer.readU16LE off n >>= fun x => pure (.lu16 x) : Prog V) := by
  rw [call_of (f := fun_readU16LE) (by rfl) (by rfl)]
  unfold fun_readU16LE
  srcp
  prog [V2.Buffer.readU16LE]
  downp
  refine loopGoto_bind (U := Unit) (prog_doLoop _ _) (fun a u i => [.i64 off, .i64 n, .lu16 a, .i64 i]) ?_
    (fun _ _ _ => rfl) _ 0 _ () (Nat.le_trans (rounds_le _ _) hf)
  intro i a u k k' h
  srcp
  try prog
  downp
  all_goals first | exact h _ u | exact h _ _

theorem ReadU16LE (fuel d : Nat) (hf : 2 ^ 64 < fuel) (off : Int64) (n : Int64) :
    P.call fuel (d + 2) (str% "ReadU16LE") [.i64 off, .i64 n] =
    (V2.Buffer.ReadU16LE off n >>= fun x => pure (.lu16 x) : Prog V) := by
  rw [call_of (f := fun_ReadU16LE) (by rfl) (by rfl)]
  unfold fun_ReadU16LE
  srcp [↓use (readU16LE fuel d hf _ _)]
  prog [V2.Buffer.ReadU16LE]

theorem ReadU16LENext (fuel d : Nat) (hf : 2 ^ 64 < fuel) (n : Int64) :
    P.call fuel (d + 2) (str% "ReadU16LENext") [.i64 n] =
    (V2.Buffer.ReadU16LENext n >>= fun x => pure (.lu16 x) : Prog V) := by
  rw [call_of (f := fun_ReadU16LENext) (by rfl) (by rfl)]
  unfold fun_ReadU16LENext
  srcp [↓use (readU16LE fuel d hf _ _), ↓use (seek fuel d _ _)]
  prog [V2.Buffer.ReadU16LENext]

theorem writeU16BE (fuel d : Nat) (hf : 2 ^ 64 < fuel) (off : Int64) (data : List UInt16) :
    P.call fuel (d + 1) (str% "writeU16BE") [.i64 off, .lu16 data] =
    (V2.Buffer.writeU16BE off data >>= fun x => pure .unit : Prog V) := by
  rw [call_of (f := fun_writeU16BE) (by rfl) (by rfl)]
  unfold fun_writeU16BE
  srcp
  prog [V2.Buffer.writeU16BE]
  downp
  refine loopGoto_bind (U := Unit) (prog_doLoop _ _) (fun a u i => [.i64 off, .lu16 data, .i64 i, .i64 (Crunch.len data)]) ?_
    (fun _ _ _ => rfl) _ 0 () () (Nat.le_trans (rounds_le _ _) hf)
  intro i a u k k' h
  srcp
  try prog
  downp
  all_goals first | exact h _ u | exact h _ _

theorem WriteU16BE (fuel d : Nat) (hf : 2 ^ 64 < fuel) (off : Int64) (data : List UInt16) :
    P.call fuel (d + 2) (str% "WriteU16BE") [.i64 off, .lu16 data] =
    (V2.Buffer.WriteU16BE off data >>= fun x => pure .unit : Prog V) := by
  rw [call_of (f := fun_WriteU16BE) (by rfl) (by rfl)]
  unfold fun_WriteU16BE
  srcp [↓use (writeU16BE fuel d hf _ _)]
  prog [V2.Buffer.WriteU16BE]

theorem WriteU16BENext (fuel d : Nat) (hf : 2 ^ 64 < fuel) (data : List UInt16) :
    P.call fuel (d + 2) (str% "WriteU16BENext") [.lu16 data] =
    (V2.Buffer.WriteU16BENext data >>= fun x => pure .unit : Prog V) := by
  rw [call_of (f := fun_WriteU16BENext) (by rfl) (by rfl)]
  unfold fun_WriteU16BENext
  srcp [↓use (writeU16BE fuel d hf _ _), ↓use (seek fuel d _ _)]
  prog [V2.Buffer.WriteU16BENext]

theorem readU16BE (fuel d : Nat) (hf : 2 ^ 64 < fuel) (off : Int64) (n : Int64) :
    P.call fuel (d + 1) (str% "readU16BE") [.i64 off, .i64 n] =
    (V2.Buffer.readU16BE off n >>= fun x => pure (.lu16 x) : Prog V) := by
  rw [call_of (f := fun_readU16BE) (by rfl) (by rfl)]
  unfold fun_readU16BE
  srcp
  prog [V2.Buffer.readU16BE]
  downp
  refine loopGoto_bind (U := Unit) (prog_doLoop _ _) (fun a u i => [.i64 off, .i64 n, .lu16 a, .i64 i]) ?_
    (fun _ _ _ => rfl) _ 0 _ () (Nat.le_trans (rounds_le _ _) hf)
  intro i a u k k' h
  srcp
  try prog
  downp
  all_goals first | exact h _ u | exact h _ _

theorem ReadU16BE (fuel d : Nat) (hf : 2 ^ 64 < fuel) (off : Int64) (n : Int64) :
    P.call fuel (d + 2) (str% "ReadU16BE") [.i64 off, .i64 n] =
    (V2.Buffer.ReadU16BE off n >>= fun x => pure (.lu16 x) : Prog V) := by
  rw [call_of (f := fun_ReadU16BE) (by rfl) (by rfl)]
  unfold fun_ReadU16BE
  srcp [↓use (readU16BE fuel d hf _ _)]
  prog [V2.Buffer.ReadU16BE]

theorem ReadU16BENext (fuel d : Nat) (hf : 2 ^ 64 < fuel) (n : Int64) :
    P.call fuel (d + 2) (str% "ReadU16BENext") [.i64 n] =
    (V2.Buffer.ReadU16BENext n >>= fun x => pure (.lu16 x) : Prog V) := by
  rw [call_of (f := fun_ReadU16BENext) (by rfl) (by rfl)]
  unfold fun_ReadU16BENext
  srcp [↓use (readU16BE fuel d hf _ _), ↓use (seek fuel d _ _)]
  prog [V2.Buffer.ReadU16BENext]

theorem writeU32LE (fuel d : Nat) (hf : 2 ^ 64 < fuel) (off : Int64) (data : List UInt32) :
    P.call fuel (d + 1) (str% "writeU32LE") [.i64 off, .lu32 data] =
    (V2.Buffer.writeU32LE off data >>= fun x => pure .unit : Prog V) := by
  rw [call_of (f := fun_writeU32LE) (by rfl) (by rfl)]
  unfold fun_writeU32LE
  srcp
  prog [V2.Buffer.writeU32LE]
  downp
  refine loopGoto_bind (U := Unit) (prog_doLoop _ _) (fun a u i => [.i64 off, .lu32 data, .i64 i, .i64 (Crunch.len data)]) ?_
    (fun _ _ _ => rfl) _ 0 () () (Nat.le_trans (rounds_le _ _) hf)
  intro i a u k k' h
  srcp
  try prog
  downp
  all_goals first | exact h _ u | exact h _ _

theorem WriteU32LE (fuel d : Nat) (hf : 2 ^ 64 < fuel) (off : Int64) (data : List UInt32) :
    P.call fuel (d + 2) (str% "WriteU32LE") [.i64 off, .lu32 data] =
    (V2.Buffer.WriteU32LE off data >>= fun x => pure .unit : Prog V) := by
  rw [call_of (f := fun_WriteU32LE) (by rfl) (by rfl)]
  unfold fun_WriteU32LE
  srcp [↓use (writeU32LE fuel d hf _ _)]
  prog [V2.Buffer.WriteU32LE]

theorem WriteU32LENext (fuel d : Nat) (hf : 2 ^ 64 < fuel) (data : List UInt32) :
    P.call fuel (d + 2) (str% "WriteU32LENext") [.lu32 data] =
    (V2.Buffer.WriteU32LENext data >>= fun x => pure .unit : Prog V) := by
  rw [call_of (f := fun_WriteU32LENext) (by rfl) (by rfl)]
  unfold fun_WriteU32LENext
  srcp [↓use (writeU32LE fuel d hf _ _), ↓use (seek fuel d _ _)]
  prog [V2.Buffer.WriteU32LENext]

theorem readU32LE (fuel d : Nat) (hf : 2 ^ 64 < fuel) (off : Int64) (n : Int64) :
    P.call fuel (d + 1) (str% "readU32LE") [.i64 off, .i64 n] =
    (V2.Buffer.readU32LE off n >>= fun x => pure (.lu32 x) : Prog V) := by
  rw [call_of (f := fun_readU32LE) (by rfl) (by rfl)]
  unfold fun_readU32LE
  srcp
  prog [V2.Buffer.readU32LE]
  downp
  refine loopGoto_bind (U := Unit) (prog_doLoop _ _) (fun a u i => [.i64 off, .i64 n, .lu32 a, .i64 i]) ?_
    (fun _ _ _ => rfl) _ 0 _ () (Nat.le_trans (rounds_le _ _) hf)
  intro i a u k k' h
  srcp
  try prog
  downp
  all_goals first | exact h _ u | exact h _ _

theorem ReadU32LE (fuel d : Nat) (hf : 2 ^ 64 < fuel) (off : Int64) (n : Int64) :
    P.call fuel (d + 2) (str% "ReadU32LE") [.i64 off, .i64 n] =
    (V2.Buffer.ReadU32LE off n >>= fun x => pure (.lu32 x) : Prog V) := by
  rw [call_of (f := fun_ReadU32LE) (by rfl) (by rfl)]
  unfold fun_ReadU32LE
  srcp [↓use (readU32LE fuel d hf _ _)]
  prog [V2.Buffer.ReadU32LE]

theorem ReadU32LENext (fuel d : Nat) (hf : 2 ^ 64 < fuel) (n : Int64) :
    P.call fuel (d + 2) (str% "ReadU32LENext") [.i64 n] =
    (V2.Buffer.ReadU32LENext n >>= fun x => pure (.lu32 x) : Prog V) := by
  rw [call_of (f := fun_ReadU32LENext) (by rfl) (by rfl)]
  unfold fun_ReadU32LENext
  srcp [↓use (readU32LE fuel d hf _ _), ↓use (seek fuel d _ _)]
  prog [V2.Buffer.ReadU32LENext]

theorem writeU32BE (fuel d : Nat) (hf : 2 ^ 64 < fuel) (off : Int64) (data : List UInt32) :
    P.call fuel (d + 1) (str% "writeU32BE") [.i64 off, .lu32 data] =
    (V2.Buffer.writeU32BE off data >>= fun x => pure .unit : Prog V) := by
  rw [call_of (f := fun_writeU32BE) (by rfl) (by rfl)]
  unfold fun_writeU32BE
  srcp
  prog [V2.Buffer.writeU32BE]
  downp
  refine loopGoto_bind (U := Unit) (prog_doLoop _ _) (fun a u i => [.i64 off, .lu32 data, .i64 i, .i64 (Crunch.len data)]) ?_
    (fun _ _ _ => rfl) _ 0 () () (Nat.le_trans (rounds_le _ _) hf)
  intro i a u k k' h
  srcp
  try prog
  downp
  all_goals first | exact h _ u | exact h _ _

theorem WriteU32BE (fuel d : Nat) (hf : 2 ^ 64 < fuel) (off : Int64) (data : List UInt32) :
    P.call fuel (d + 2) (str% "WriteU32BE") [.i64 off, .lu32 data] =
    (V2.Buffer.WriteU32BE off data >>= fun x => pure .unit : Prog V) := by
  rw [call_of (f := fun_WriteU32BE) (by rfl) (by rfl)]
  unfold fun_WriteU32BE
  srcp [↓use (writeU32BE fuel d hf _ _)]
  prog [V2.Buffer.WriteU32BE]

theorem WriteU32BENext (fuel d : Nat) (hf : 2 ^ 64 < fuel) (data : List UInt32) :
    P.call fuel (d + 2) (str% "WriteU32BENext") [.lu32 data] =
    (V2.Buffer.WriteU32BENext data >>= fun x => pure .unit : Prog V) := by
  rw [call_of (f := fun_WriteU32BENext) (by rfl) (by rfl)]
  unfold fun_WriteU32BENext
  srcp [↓use (writeU32BE fuel d hf _ _), ↓use (seek fuel d _ _)]
  prog [V2.Buffer.WriteU32BENext]

theorem readU32BE (fuel d : Nat) (hf : 2 ^ 64 < fuel) (off : Int64) (n : Int64) :
    P.call fuel (d + 1) (str% "readU32BE") [.i64 off, .i64 n] =
    (V2.Buffer.readU32BE off n >>= fun x => pure (.lu32 x) : Prog V) := by
  rw [call_of (f := fun_readU32BE) (by rfl) (by rfl)]
  unfold fun_readU32BE
  srcp
  prog [V2.Buffer.readU32BE]
  downp
  refine loopGoto_bind (U := Unit) (prog_doLoop _ _) (fun a u i => [.i64 off, .i64 n, .lu32 a, .i64 i]) ?_
    (fun _ _ _ => rfl) _ 0 _ () (Nat.le_trans (rounds_le _ _) hf)
  intro i a u k k' h
  srcp
  try prog
  downp
  all_goals first | exact h _ u | exact h _ _

theorem ReadU32BE (fuel d : Nat) (hf : 2 ^ 64 < fuel) (off : Int64) (n : Int64) :
    P.call fuel (d + 2) (str% "ReadU32BE") [.i64 off, .i64 n] =
    (V2.Buffer.ReadU32BE off n >>= fun x => pure (.lu32 x) : Prog V) := by
  rw [call_of (f := fun_ReadU32BE) (by rfl) (by rfl)]
  unfold fun_ReadU32BE
  srcp [↓use (readU32BE fuel d hf _ _)]
  prog [V2.Buffer.ReadU32BE]

theorem ReadU32BENext (fuel d : Nat) (hf : 2 ^ 64 < fuel) (n : Int64) :
    P.call fuel (d + 2) (str% "ReadU32BENext") [.i64 n] =
    (V2.Buffer.ReadU32BENext n >>= fun x => pure (.lu32 x) : Prog V) := by
  rw [call_of (f := fun_ReadU32BENext) (by rfl) (by rfl)]
  unfold fun_ReadU32BENext
  srcp [↓use (readU32BE fuel d hf _ _), ↓use (seek fuel d _ _)]
  prog [V2.Buffer.ReadU32BENext]

theorem writeU64LE (fuel d : Nat) (hf : 2 ^ 64 < fuel) (off : Int64) (data : List UInt64) :
    P.call fuel (d + 1) (str% "writeU64LE") [.i64 off, .lu64 data] =
    (V2.Buffer.writeU64LE off data >>= fun x => pure .unit : Prog V) := by
  rw [call_of (f := fun_writeU64LE) (by rfl) (by rfl)]
  unfold fun_writeU64LE
  srcp
  prog [V2.Buffer.writeU64LE]
  downp
  refine loopGoto_bind (U := Unit) (prog_doLoop _ _) (fun a u i => [.i64 off, .lu64 data, .i64 i, .i64 (Crunch.len data)]) ?_
    (fun _ _ _ => rfl) _ 0 () () (Nat.le_trans (rounds_le _ _) hf)
  intro i a u k k' h
  srcp
  try prog
  downp
  all_goals first | exact h _ u | exact h _ _

theorem WriteU64LE (fuel d : Nat) (hf : 2 ^ 64 < fuel) (off : Int64) (data : List UInt64) :
    P.call fuel (d + 2) (str% "WriteU64LE") [.i64 off, .lu64 data] =
    (V2.Buffer.WriteU64LE off data >>= fun x => pure .unit : Prog V) := by
  rw [call_of (f := fun_WriteU64LE) (by rfl) (by rfl)]
  unfold fun_WriteU64LE
  srcp [↓use (writeU64LE fuel d hf _ _)]
  prog [V2.Buffer.WriteU64LE]

theorem WriteU64LENext (fuel d : Nat) (hf : 2 ^ 64 < fuel) (data : List UInt64) :
    P.call fuel (d + 2) (str% "WriteU64LENext") [.lu64 data] =
    (V2.Buffer.WriteU64LENext data >>= fun x => pure .unit : Prog V) := by
  rw [call_of (f := fun_WriteU64LENext) (by rfl) (by rfl)]
  unfold fun_WriteU64LENext
  srcp [↓use (writeU64LE fuel d hf _ _), ↓use (seek fuel d _ _)]
  prog [V2.Buffer.WriteU64LENext]

theorem readU64LE (fuel d : Nat) (hf : 2 ^ 64 < fuel) (off : Int64) (n : Int64) :
    P.call fuel (d + 1) (str% "readU64LE") [.i64 off, .i64 n] =
    (V2.Buffer.readU64LE off n >>= fun x => pure (.lu64 x) : Prog V) := by
  rw [call_of (f := fun_readU64LE) (by rfl) (by rfl)]
  unfold fun_readU64LE
  srcp
  prog [V2.Buffer.readU64LE]
  downp
  refine loopGoto_bind (U := Unit) (prog_doLoop _ _) (fun a u i => [.i64 off, .i64 n, .lu64 a, .i64 i]) ?_
    (fun _ _ _ => rfl) _ 0 _ () (Nat.le_trans (rounds_le _ _) hf)
  intro i a u k k' h
  srcp
  try prog
  downp
  all_goals first | exact h _ u | exact h _ _

theorem ReadU64LE (fuel d : Nat) (hf : 2 ^ 64 < fuel) (off : Int64) (n : Int64) :
    P.call fuel (d + 2) (str% "ReadU64LE") [.i64 off, .i64 n] =
    (V2.Buffer.ReadU64LE off n >>= fun x => pure (.lu64 x) : Prog V) := by
  rw [call_of (f := fun_ReadU64LE) (by rfl) (by rfl)]
  unfold fun_ReadU64LE
  srcp [↓use (readU64LE fuel d hf _ _)]
  prog [V2.Buffer.ReadU64LE]

theorem ReadU64LENext (fuel d : Nat) (hf : 2 ^ 64 < fuel) (n : Int64) :
    P.call fuel (d + 2) (str% "ReadU64LENext") [.i64 n] =
    (V2.Buffer.ReadU64LENext n >>= fun x => pure (.lu64 x) : Prog V) := by
  rw [call_of (f := fun_ReadU64LENext) (by rfl) (by rfl)]
  unfold fun_ReadU64LENext
  srcp [↓use (readU64LE fuel d hf _ _), ↓use (seek fuel d _ _)]
  prog [V2.Buffer.ReadU64LENext]

theorem writeU64BE (fuel d : Nat) (hf : 2 ^ 64 < fuel) (off : Int64) (data : List UInt64) :
    P.call fuel (d + 1) (str% "writeU64BE") [.i64 off, .lu64 data] =
    (V2.Buffer.writeU64BE off data >>= fun x => pure .unit : Prog V) := by
  rw [call_of (f := fun_writeU64BE) (by rfl) (by rfl)]
  unfold fun_writeU64BE
  srcp
  prog [V2.Buffer.writeU64BE]
  downp
  refine loopGoto_bind (U := Unit) (prog_doLoop _ _) (fun a u i => [.i64 off, .lu64 data, .i64 i, .i64 (Crunch.len data)]) ?_
    (fun _ _ _ => rfl) _ 0 () () (Nat.le_trans (rounds_le _ _) hf)
  intro i a u k k' h
  srcp
  try prog
  downp
  all_goals first | exact h _ u | exact h _ _

theorem WriteU64BE (fuel d : Nat) (hf : 2 ^ 64 < fuel) (off : Int64) (data : List UInt64) :
    P.call fuel (d + 2) (str% "WriteU64BE") [.i64 off, .lu64 data] =
    (V2.Buffer.WriteU64BE off data >>= fun x => pure .unit : Prog V) := by
  rw [call_of (f := fun_WriteU64BE) (by rfl) (by rfl)]
  unfold fun_WriteU64BE
  srcp [↓use (writeU64BE fuel d hf _ _)]
  prog [V2.Buffer.WriteU64BE]

theorem WriteU64BENext (fuel d : Nat) (hf : 2 ^ 64 < fuel) (data : List UInt64) :
    P.call fuel (d + 2) (str% "WriteU64BENext") [.lu64 data] =
    (V2.Buffer.WriteU64BENext data >>= fun x => pure .unit : Prog V) := by
  rw [call_of (f := fun_WriteU64BENext) (by rfl) (by rfl)]
  unfold fun_WriteU64BENext
  srcp [↓use (writeU64BE fuel d hf _ _), ↓use (seek fuel d _ _)]
  prog [V2.Buffer.WriteU64BENext]

theorem readU64BE (fuel d : Nat) (hf : 2 ^ 64 < fuel) (off : Int64) (n : Int64) :
    P.call fuel (d + 1) (str% "readU64BE") [.i64 off, .i64 n] =
    (V2.Buffer.readU64BE off n >>= fun x => pure (.lu64 x) : Prog V) := by
  rw [call_of (f := fun_readU64BE) (by rfl) (by rfl)]
  unfold fun_readU64BE
  srcp
  prog [V2.Buffer.readU64BE]
  downp
  refine loopGoto_bind (U := Unit) (prog_doLoop _ _) (fun a u i => [.i64 off, .i64 n, .lu64 a, .i64 i]) ?_
    (fun _ _ _ => rfl) _ 0 _ () (Nat.le_trans (rounds_le _ _) hf)
  intro i a u k k' h
  srcp
  try prog
  downp
  all_goals first | exact h _ u | exact h _ _

theorem ReadU64BE (fuel d : Nat) (hf : 2 ^ 64 < fuel) (off : Int64) (n : Int64) :
    P.call fuel (d + 2) (str% "ReadU64BE") [.i64 off, .i64 n] =
    (V2.Buffer.ReadU64BE off n >>= fun x => pure (.lu64 x) : Prog V) := by
  rw [call_of (f := fun_ReadU64BE) (by rfl) (by rfl)]
  unfold fun_ReadU64BE
  srcp [↓use (readU64BE fuel d hf _ _)]
  prog [V2.Buffer.ReadU64BE]

theorem ReadU64BENext (fuel d : Nat) (hf : 2 ^ 64 < fuel) (n : Int64) :
    P.call fuel (d + 2) (str% "ReadU64BENext") [.i64 n] =
    (V2.Buffer.ReadU64BENext n >>= fun x => pure (.lu64 x) : Prog V) := by
  rw [call_of (f := fun_ReadU64BENext) (by rfl) (by rfl)]
  unfold fun_ReadU64BENext
  srcp [↓use (readU64BE fuel d hf _ _), ↓use (seek fuel d _ _)]
  prog [V2.Buffer.ReadU64BENext]

end Crunch.Src.V2Buffer
