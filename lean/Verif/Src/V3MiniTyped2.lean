import Verif.Src.Tactic
import Verif.Src.Text.V3Mini
import Verif.V3.MiniTyped
import Verif.Src.V3Mini

/-! The typed methods of v3/minibuf.generated.go, from their text.  Written by tools/src_proofs.py. -/

set_option linter.unusedVariables false
set_option linter.unusedSimpArgs false

namespace Crunch.Src.V3Mini
open V3.Mini (onB callOut)

theorem WriteI16LE (fuel d : Nat) (hf : 2 ^ 64 < fuel) (off : Int64) (data : List Int16) :
    P.call fuel (d + 1) (str% "WriteI16LE") [.i64 off, .li16 data] =
    (onB (V3.Mini.WriteI16LE off data) >>= fun x => pure .unit : GoM (V3.St × V) V) := by
  rw [call_of (f := fun_WriteI16LE) (by rfl) (by rfl)]
  unfold fun_WriteI16LE
  src
  gom [V3.Mini.WriteI16LE]
  down
  refine loopGoto_bind (U := Unit) (doLoop_eq _ _) (fun a u i => [.i64 off, .li16 data, .i64 i, .i64 (Crunch.len data)]) ?_
    (fun _ _ _ => rfl) _ 0 () () (Nat.le_trans (rounds_le _ _) hf)
  intro i a u k k' h
  src
  try gom
  down
  all_goals first | exact h _ u | exact h _ _

theorem WriteI16LENext (fuel d : Nat) (hf : 2 ^ 64 < fuel) (data : List Int16) :
    P.call fuel (d + 2) (str% "WriteI16LENext") [.li16 data] =
    (onB (V3.Mini.WriteI16LENext data) >>= fun x => pure .unit : GoM (V3.St × V) V) := by
  rw [call_of (f := fun_WriteI16LENext) (by rfl) (by rfl)]
  unfold fun_WriteI16LENext
  src [↓use (WriteI16LE fuel d hf _ _), ↓use (SeekByte fuel d _ _)]
  gom [V3.Mini.WriteI16LENext]

theorem ReadI16LE (fuel d : Nat) (hf : 2 ^ 64 < fuel) (off : Int64) (n : Int64) (x : List Int16) (k : V → GoM (V3.St × V) β) :
    atOut (.li16 x) (P.call fuel (d + 1) (str% "ReadI16LE") [.ptr, .i64 off, .i64 n] >>= k) =
    through .li16 (V3.Mini.ReadI16LE off n) x fun _ x => atOut (.li16 x) (k .unit) := by
  rw [call_of (f := fun_ReadI16LE) (by rfl) (by rfl)]
  unfold fun_ReadI16LE
  src
  gom [V3.Mini.ReadI16LE]
  try outs
  down
  refine loopGoto_out (U := Unit) _ _ (doLoop_eq _ _) (fun a u i => [.ptr, .i64 off, .i64 n, .i64 i]) ?_
    (fun _ _ _ _ => rfl) _ 0 () () (Nat.le_trans (rounds_le _ _) hf)
  intro i a u x k k' h
  src
  try gom
  try outs
  down
  all_goals first | exact h _ _ u | exact h _ _ _

theorem ReadI16LENext (fuel d : Nat) (hf : 2 ^ 64 < fuel) (n : Int64) (x : List Int16) (k : V → GoM (V3.St × V) β) :
    atOut (.li16 x) (P.call fuel (d + 2) (str% "ReadI16LENext") [.ptr, .i64 n] >>= k) =
    through .li16 (V3.Mini.ReadI16LENext n) x fun _ x => atOut (.li16 x) (k .unit) := by
  rw [call_of (f := fun_ReadI16LENext) (by rfl) (by rfl)]
  unfold fun_ReadI16LENext
  src [↓use (SeekByte fuel d _ _)]
  gom [V3.Mini.ReadI16LENext]
  try outs [ReadI16LE fuel d hf]

theorem WriteI16BE (fuel d : Nat) (hf : 2 ^ 64 < fuel) (off : Int64) (data : List Int16) :
    P.call fuel (d + 1) (str% "WriteI16BE") [.i64 off, .li16 data] =
    (onB (V3.Mini.WriteI16BE off data) >>= fun x => pure .unit : GoM (V3.St × V) V) := by
  rw [call_of (f := fun_WriteI16BE) (by rfl) (by rfl)]
  unfold fun_WriteI16BE
  src
  gom [V3.Mini.WriteI16BE]
  down
  refine loopGoto_bind (U := Unit) (doLoop_eq _ _) (fun a u i => [.i64 off, .li16 data, .i64 i, .i64 (Crunch.len data)]) ?_
    (fun _ _ _ => rfl) _ 0 () () (Nat.le_trans (rounds_le _ _) hf)
  intro i a u k k' h
  src
  try gom
  down
  all_goals first | exact h _ u | exact h _ _

theorem WriteI16BENext (fuel d : Nat) (hf : 2 ^ 64 < fuel) (data : List Int16) :
    P.call fuel (d + 2) (str% "WriteI16BENext") [.li16 data] =
    (onB (V3.Mini.WriteI16BENext data) >>= fun x => pure .unit : GoM (V3.St × V) V) := by
  rw [call_of (f := fun_WriteI16BENext) (by rfl) (by rfl)]
  unfold fun_WriteI16BENext
  src [↓use (WriteI16BE fuel d hf _ _), ↓use (SeekByte fuel d _ _)]
  gom [V3.Mini.WriteI16BENext]

theorem ReadI16BE (fuel d : Nat) (hf : 2 ^ 64 < fuel) (off : Int64) (n : Int64) (x : List Int16) (k : V → GoM (V3.St × V) β) :
    atOut (.li16 x) (P.call fuel (d + 1) (str% "ReadI16BE") [.ptr, .i64 off, .i64 n] >>= k) =
    through .li16 (V3.Mini.ReadI16BE off n) x fun _ x => atOut (.li16 x) (k .unit) := by
  rw [call_of (f := fun_ReadI16BE) (by rfl) (by rfl)]
  unfold fun_ReadI16BE
  src
  gom [V3.Mini.ReadI16BE]
  try outs
  down
  refine loopGoto_out (U := Unit) _ _ (doLoop_eq _ _) (fun a u i => [.ptr, .i64 off, .i64 n, .i64 i]) ?_
    (fun _ _ _ _ => rfl) _ 0 () () (Nat.le_trans (rounds_le _ _) hf)
  intro i a u x k k' h
  src
  try gom
  try outs
  down
  all_goals first | exact h _ _ u | exact h _ _ _

theorem ReadI16BENext (fuel d : Nat) (hf : 2 ^ 64 < fuel) (n : Int64) (x : List Int16) (k : V → GoM (V3.St × V) β) :
    atOut (.li16 x) (P.call fuel (d + 2) (str% "ReadI16BENext") [.ptr, .i64 n] >>= k) =
    through .li16 (V3.Mini.ReadI16BENext n) x fun _ x => atOut (.li16 x) (k .unit) := by
  rw [call_of (f := fun_ReadI16BENext) (by rfl) (by rfl)]
  unfold fun_ReadI16BENext
  src [↓use (SeekByte fuel d _ _)]
  gom [V3.Mini.ReadI16BENext]
  try outs [ReadI16BE fuel d hf]

theorem WriteI32LE (fuel d : Nat) (hf : 2 ^ 64 < fuel) (off : Int64) (data : List Int32) :
    P.call fuel (d + 1) (str% "WriteI32LE") [.i64 off, .li32 data] =
    (onB (V3.Mini.WriteI32LE off data) >>= fun x => pure .unit : GoM (V3.St × V) V) := by
  rw [call_of (f := fun_WriteI32LE) (by rfl) (by rfl)]
  unfold fun_WriteI32LE
  src
  gom [V3.Mini.WriteI32LE]
  down
  refine loopGoto_bind (U := Unit) (doLoop_eq _ _) (fun a u i => [.i64 off, .li32 data, .i64 i, .i64 (Crunch.len data)]) ?_
    (fun _ _ _ => rfl) _ 0 () () (Nat.le_trans (rounds_le _ _) hf)
  intro i a u k k' h
  src
  try gom
  down
  all_goals first | exact h _ u | exact h _ _

theorem WriteI32LENext (fuel d : Nat) (hf : 2 ^ 64 < fuel) (data : List Int32) :
    P.call fuel (d + 2) (str% "WriteI32LENext") [.li32 data] =
    (onB (V3.Mini.WriteI32LENext data) >>= fun x => pure .unit : GoM (V3.St × V) V) := by
  rw [call_of (f := fun_WriteI32LENext) (by rfl) (by rfl)]
  unfold fun_WriteI32LENext
  src [↓use (WriteI32LE fuel d hf _ _), ↓use (SeekByte fuel d _ _)]
  gom [V3.Mini.WriteI32LENext]

theorem ReadI32LE (fuel d : Nat) (hf : 2 ^ 64 < fuel) (off : Int64) (n : Int64) (x : List Int32) (k : V → GoM (V3.St × V) β) :
    atOut (.li32 x) (P.call fuel (d + 1) (str% "ReadI32LE") [.ptr, .i64 off, .i64 n] >>= k) =
    through .li32 (V3.Mini.ReadI32LE off n) x fun _ x => atOut (.li32 x) (k .unit) := by
  rw [call_of (f := fun_ReadI32LE) (by rfl) (by rfl)]
  unfold fun_ReadI32LE
  src
  gom [V3.Mini.ReadI32LE]
  try outs
  down
  refine loopGoto_out (U := Unit) _ _ (doLoop_eq _ _) (fun a u i => [.ptr, .i64 off, .i64 n, .i64 i]) ?_
    (fun _ _ _ _ => rfl) _ 0 () () (Nat.le_trans (rounds_le _ _) hf)
  intro i a u x k k' h
  src
  try gom
  try outs
  down
  all_goals first | exact h _ _ u | exact h _ _ _

theorem ReadI32LENext (fuel d : Nat) (hf : 2 ^ 64 < fuel) (n : Int64) (x : List Int32) (k : V → GoM (V3.St × V) β) :
    atOut (.li32 x) (P.call fuel (d + 2) (str% "ReadI32LENext") [.ptr, .i64 n] >>= k) =
    through .li32 (V3.Mini.ReadI32LENext n) x fun _ x => atOut (.li32 x) (k .unit) := by
  rw [call_of (f := fun_ReadI32LENext) (by rfl) (by rfl)]
  unfold fun_ReadI32LENext
  src [↓use (SeekByte fuel d _ _)]
  gom [V3.Mini.ReadI32LENext]
  try outs [ReadI32LE fuel d hf]

theorem WriteI32BE (fuel d : Nat) (hf : 2 ^ 64 < fuel) (off : Int64) (data : List Int32) :
    P.call fuel (d + 1) (str% "WriteI32BE") [.i64 off, .li32 data] =
    (onB (V3.Mini.WriteI32BE off data) >>= fun x => pure .unit : GoM (V3.St × V) V) := by
  rw [call_of (f := fun_WriteI32BE) (by rfl) (by rfl)]
  unfold fun_WriteI32BE
  src
  gom [V3.Mini.WriteI32BE]
  down
  refine loopGoto_bind (U := Unit) (doLoop_eq _ _) (fun a u i => [.i64 off, .li32 data, .i64 i, .i64 (Crunch.len data)]) ?_
    (fun _ _ _ => rfl) _ 0 () () (Nat.le_trans (rounds_le _ _) hf)
  intro i a u k k' h
  src
  try gom
  down
  all_goals first | exact h _ u | exact h _ _

theorem WriteI32BENext (fuel d : Nat) (hf : 2 ^ 64 < fuel) (data : List Int32) :
    P.call fuel (d + 2) (str% "WriteI32BENext") [.li32 data] =
    (onB (V3.Mini.WriteI32BENext data) >>= fun x => pure .unit : GoM (V3.St × V) V) := by
  rw [call_of (f := fun_WriteI32BENext) (by rfl) (by rfl)]
  unfold fun_WriteI32BENext
  src [↓use (WriteI32BE fuel d hf _ _), ↓use (SeekByte fuel d _ _)]
  gom [V3.Mini.WriteI32BENext]

theorem ReadI32BE (fuel d : Nat) (hf : 2 ^ 64 < fuel) (off : Int64) (n : Int64) (x : List Int32) (k : V → GoM (V3.St × V) β) :
    atOut (.li32 x) (P.call fuel (d + 1) (str% "ReadI32BE") [.ptr, .i64 off, .i64 n] >>= k) =
    through .li32 (V3.Mini.ReadI32BE off n) x fun _ x => atOut (.li32 x) (k .unit) := by
  rw [call_of (f := fun_ReadI32BE) (by rfl) (by rfl)]
  unfold fun_ReadI32BE
  src
  gom [V3.Mini.ReadI32BE]
  try outs
  down
  refine loopGoto_out (U := Unit) _ _ (doLoop_eq _ _) (fun a u i => [.ptr, .i64 off, .i64 n, .i64 i]) ?_
    (fun _ _ _ _ => rfl) _ 0 () () (Nat.le_trans (rounds_le _ _) hf)
  intro i a u x k k' h
  src
  try gom
  try outs
  down
  all_goals first | exact h _ _ u | exact h _ _ _

theorem ReadI32BENext (fuel d : Nat) (hf : 2 ^ 64 < fuel) (n : Int64) (x : List Int32) (k : V → GoM (V3.St × V) β) :
    atOut (.li32 x) (P.call fuel (d + 2) (str% "ReadI32BENext") [.ptr, .i64 n] >>= k) =
    through .li32 (V3.Mini.ReadI32BENext n) x fun _ x => atOut (.li32 x) (k .unit) := by
  rw [call_of (f := fun_ReadI32BENext) (by rfl) (by rfl)]
  unfold fun_ReadI32BENext
  src [↓use (SeekByte fuel d _ _)]
  gom [V3.Mini.ReadI32BENext]
  try outs [ReadI32BE fuel d hf]

theorem WriteI64LE (fuel d : Nat) (hf : 2 ^ 64 < fuel) (off : Int64) (data : List Int64) :
    P.call fuel (d + 1) (str% "WriteI64LE") [.i64 off, .li64 data] =
    (onB (V3.Mini.WriteI64LE off data) >>= fun x => pure .unit : GoM (V3.St × V) V) := by
  rw [call_of (f := fun_WriteI64LE) (by rfl) (by rfl)]
  unfold fun_WriteI64LE
  src
  gom [V3.Mini.WriteI64LE]
  down
  refine loopGoto_bind (U := Unit) (doLoop_eq _ _) (fun a u i => [.i64 off, .li64 data, .i64 i, .i64 (Crunch.len data)]) ?_
    (fun _ _ _ => rfl) _ 0 () () (Nat.le_trans (rounds_le _ _) hf)
  intro i a u k k' h
  src
  try gom
  down
  all_goals first | exact h _ u | exact h _ _

theorem WriteI64LENext (fuel d : Nat) (hf : 2 ^ 64 < fuel) (data : List Int64) :
    P.call fuel (d + 2) (str% "WriteI64LENext") [.li64 data] =
    (onB (V3.Mini.WriteI64LENext data) >>= fun x => pure .unit : GoM (V3.St × V) V) := by
  rw [call_of (f := fun_WriteI64LENext) (by rfl) (by rfl)]
  unfold fun_WriteI64LENext
  src [↓use (WriteI64LE fuel d hf _ _), ↓use (SeekByte fuel d _ _)]
  gom [V3.Mini.WriteI64LENext]

theorem ReadI64LE (fuel d : Nat) (hf : 2 ^ 64 < fuel) (off : Int64) (n : Int64) (x : List Int64) (k : V → GoM (V3.St × V) β) :
    atOut (.li64 x) (P.call fuel (d + 1) (str% "ReadI64LE") [.ptr, .i64 off, .i64 n] >>= k) =
    through .li64 (V3.Mini.ReadI64LE off n) x fun _ x => atOut (.li64 x) (k .unit) := by
  rw [call_of (f := fun_ReadI64LE) (by rfl) (by rfl)]
  unfold fun_ReadI64LE
  src
  gom [V3.Mini.ReadI64LE]
  try outs
  down
  refine loopGoto_out (U := Unit) _ _ (doLoop_eq _ _) (fun a u i => [.ptr, .i64 off, .i64 n, .i64 i]) ?_
    (fun _ _ _ _ => rfl) _ 0 () () (Nat.le_trans (rounds_le _ _) hf)
  intro i a u x k k' h
  src
  try gom
  try outs
  down
  all_goals first | exact h _ _ u | exact h _ _ _

theorem ReadI64LENext (fuel d : Nat) (hf : 2 ^ 64 < fuel) (n : Int64) (x : List Int64) (k : V → GoM (V3.St × V) β) :
    atOut (.li64 x) (P.call fuel (d + 2) (str% "ReadI64LENext") [.ptr, .i64 n] >>= k) =
    through .li64 (V3.Mini.ReadI64LENext n) x fun _ x => atOut (.li64 x) (k .unit) := by
  rw [call_of (f := fun_ReadI64LENext) (by rfl) (by rfl)]
  unfold fun_ReadI64LENext
  src [↓use (SeekByte fuel d _ _)]
  gom [V3.Mini.ReadI64LENext]
  try outs [ReadI64LE fuel d hf]

theorem WriteI64BE (fuel d : Nat) (hf : 2 ^ 64 < fuel) (off : Int64) (data : List Int64) :
    P.call fuel (d + 1) (str% "WriteI64BE") [.i64 off, .li64 data] =
    (onB (V3.Mini.WriteI64BE off data) >>= fun x => pure .unit : GoM (V3.St × V) V) := by
  rw [call_of (f := fun_WriteI64BE) (by rfl) (by rfl)]
  unfold fun_WriteI64BE
  src
  gom [V3.Mini.WriteI64BE]
  down
  refine loopGoto_bind (U := Unit) (doLoop_eq _ _) (fun a u i => [.i64 off, .li64 data, .i64 i, .i64 (Crunch.len data)]) ?_
    (fun _ _ _ => rfl) _ 0 () () (Nat.le_trans (rounds_le _ _) hf)
  intro i a u k k' h
  src
  try gom
  down
  all_goals first | exact h _ u | exact h _ _

theorem WriteI64BENext (fuel d : Nat) (hf : 2 ^ 64 < fuel) (data : List Int64) :
    P.call fuel (d + 2) (str% "WriteI64BENext") [.li64 data] =
    (onB (V3.Mini.WriteI64BENext data) >>= fun x => pure .unit : GoM (V3.St × V) V) := by
  rw [call_of (f := fun_WriteI64BENext) (by rfl) (by rfl)]
  unfold fun_WriteI64BENext
  src [↓use (WriteI64BE fuel d hf _ _), ↓use (SeekByte fuel d _ _)]
  gom [V3.Mini.WriteI64BENext]

theorem ReadI64BE (fuel d : Nat) (hf : 2 ^ 64 < fuel) (off : Int64) (n : Int64) (x : List Int64) (k : V → GoM (V3.St × V) β) :
    atOut (.li64 x) (P.call fuel (d + 1) (str% "ReadI64BE") [.ptr, .i64 off, .i64 n] >>= k) =
    through .li64 (V3.Mini.ReadI64BE off n) x fun _ x => atOut (.li64 x) (k .unit) := by
  rw [call_of (f := fun_ReadI64BE) (by rfl) (by rfl)]
  unfold fun_ReadI64BE
  src
  gom [V3.Mini.ReadI64BE]
  try outs
  down
  refine loopGoto_out (U := Unit) _ _ (doLoop_eq _ _) (fun a u i => [.ptr, .i64 off, .i64 n, .i64 i]) ?_
    (fun _ _ _ _ => rfl) _ 0 () () (Nat.le_trans (rounds_le _ _) hf)
  intro i a u x k k' h
  src
  try gom
  try outs
  down
  all_goals first | exact h _ _ u | exact h _ _ _

theorem ReadI64BENext (fuel d : Nat) (hf : 2 ^ 64 < fuel) (n : Int64) (x : List Int64) (k : V → GoM (V3.St × V) β) :
    atOut (.li64 x) (P.call fuel (d + 2) (str% "ReadI64BENext") [.ptr, .i64 n] >>= k) =
    through .li64 (V3.Mini.ReadI64BENext n) x fun _ x => atOut (.li64 x) (k .unit) := by
  rw [call_of (f := fun_ReadI64BENext) (by rfl) (by rfl)]
  unfold fun_ReadI64BENext
  src [↓use (SeekByte fuel d _ _)]
  gom [V3.Mini.ReadI64BENext]
  try outs [ReadI64BE fuel d hf]

end Crunch.Src.V3Mini
