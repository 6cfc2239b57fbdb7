import Verif.Src.Tactic
import Verif.Src.Text.V3Buffer
import Verif.V3.Buffer

/-! The methods of v3/buffer.generated.go other than the typed ones, from their text.  Written by tools/src_proofs.py. -/

set_option linter.unusedVariables false
set_option linter.unusedSimpArgs false

namespace Crunch.Src.V3Buffer
open V3.Mini (onB callOut)

/-- the errors of v3/errors.go -/
def errs : List (Gen.Str × GoError) := [
  (str% "BufferOverreadError", V3.BufferOverreadError),
  (str% "BufferUnderreadError", V3.BufferUnderreadError),
  (str% "BufferOverwriteError", V3.BufferOverwriteError),
  (str% "BufferUnderwriteError", V3.BufferUnderwriteError),
  (str% "BufferInvalidByteCountError", V3.BufferInvalidByteCountError),
  (str% "BytesBufNegativeReadError", V3.BytesBufNegativeReadError)]

/-- the package: v3/buffer.generated.go -/
def P : Pkg := ⟨funs, errs⟩

theorem Refresh (fuel d : Nat) :
    P.call fuel (d + 1) (str% "Refresh") [] =
    (onB (V3.Buffer.Refresh) >>= fun x => pure .unit : GoM (V3.St × V) V) := by
  rw [call_of (f := fun_Refresh) (by rfl) (by rfl)]
  unfold fun_Refresh
  src
  gom [V3.Buffer.Refresh]
  funext s
  simp only [run_getB, run_modB, run_ite, run_onMem]

theorem SeekBit (fuel d : Nat) (off : Int64) (r : Bool) :
    P.call fuel (d + 1) (str% "SeekBit") [.i64 off, .bool r] =
    (onB (V3.Buffer.SeekBit off r) >>= fun x => pure .unit : GoM (V3.St × V) V) := by
  rw [call_of (f := fun_SeekBit) (by rfl) (by rfl)]
  unfold fun_SeekBit
  src
  gom [V3.Buffer.SeekBit]
  funext s
  simp only [run_getB, run_modB, run_ite, run_onMem]

theorem SeekBit_num (fuel d : Nat) (off : Nat) (r : Bool) :
    P.call fuel (d + 1) (str% "SeekBit") [.num off, .bool r] =
    (onB (V3.Buffer.SeekBit (Int64.ofNat off) r) >>= fun x => pure .unit : GoM (V3.St × V) V) := by
  rw [call_of (f := fun_SeekBit) (by rfl) (by rfl)]
  unfold fun_SeekBit
  src
  gom [V3.Buffer.SeekBit]
  funext s
  simp only [run_getB, run_modB, run_ite, run_onMem]

theorem SeekByte (fuel d : Nat) (off : Int64) (r : Bool) :
    P.call fuel (d + 1) (str% "SeekByte") [.i64 off, .bool r] =
    (onB (V3.Buffer.SeekByte off r) >>= fun x => pure .unit : GoM (V3.St × V) V) := by
  rw [call_of (f := fun_SeekByte) (by rfl) (by rfl)]
  unfold fun_SeekByte
  src
  gom [V3.Buffer.SeekByte]
  funext s
  simp only [run_getB, run_modB, run_ite, run_onMem]

theorem SeekByte_num (fuel d : Nat) (off : Nat) (r : Bool) :
    P.call fuel (d + 1) (str% "SeekByte") [.num off, .bool r] =
    (onB (V3.Buffer.SeekByte (Int64.ofNat off) r) >>= fun x => pure .unit : GoM (V3.St × V) V) := by
  rw [call_of (f := fun_SeekByte) (by rfl) (by rfl)]
  unfold fun_SeekByte
  src
  gom [V3.Buffer.SeekByte]
  funext s
  simp only [run_getB, run_modB, run_ite, run_onMem]

theorem ReadBit (fuel d : Nat) (off : Int64) :
    P.call fuel (d + 1) (str% "ReadBit") [.i64 off] =
    (onB (V3.Buffer.ReadBit off) >>= fun x => pure (.u8 x) : GoM (V3.St × V) V) := by
  rw [call_of (f := fun_ReadBit) (by rfl) (by rfl)]
  unfold fun_ReadBit
  src
  gom [V3.Buffer.ReadBit]

theorem ReadBitNext (fuel d : Nat) :
    P.call fuel (d + 2) (str% "ReadBitNext") [] =
    (onB (V3.Buffer.ReadBitNext) >>= fun x => pure (.u8 x) : GoM (V3.St × V) V) := by
  rw [call_of (f := fun_ReadBitNext) (by rfl) (by rfl)]
  unfold fun_ReadBitNext
  src [↓use (ReadBit fuel d _), ↓use (SeekBit_num fuel d _ _)]
  gom [V3.Buffer.ReadBitNext]

theorem ReadBits (fuel d : Nat) (hf : 2 ^ 64 < fuel) (off : Int64) (n : Int64) :
    P.call fuel (d + 2) (str% "ReadBits") [.i64 off, .i64 n] =
    (onB (V3.Buffer.ReadBits off n) >>= fun x => pure (.u64 x) : GoM (V3.St × V) V) := by
  rw [call_of (f := fun_ReadBits) (by rfl) (by rfl)]
  unfold fun_ReadBits
  src [↓use (ReadBit fuel d _)]
  gom [V3.Buffer.ReadBits]
  down
  refine loopGoto_bind (U := Unit) (doLoop_eq _ _) (fun a u i => [.i64 off, .i64 n, .u64 a, .i64 i]) ?_
    (fun _ _ _ => rfl) _ 0 0 () (Nat.le_trans (rounds_le _ _) hf)
  intro i a u k k' h
  src [↓use (ReadBit fuel d _)]
  try gom
  down
  all_goals first | exact h _ u | exact h _ _

theorem ReadBitsNext (fuel d : Nat) (hf : 2 ^ 64 < fuel) (n : Int64) :
    P.call fuel (d + 3) (str% "ReadBitsNext") [.i64 n] =
    (onB (V3.Buffer.ReadBitsNext n) >>= fun x => pure (.u64 x) : GoM (V3.St × V) V) := by
  rw [call_of (f := fun_ReadBitsNext) (by rfl) (by rfl)]
  unfold fun_ReadBitsNext
  src [↓use (ReadBits fuel d hf _ _), ↓use (SeekBit fuel (d + 1) _ _)]
  gom [V3.Buffer.ReadBitsNext]

theorem SetBit (fuel d : Nat) (off : Int64) :
    P.call fuel (d + 1) (str% "SetBit") [.i64 off] =
    (onB (V3.Buffer.SetBit off) >>= fun x => pure .unit : GoM (V3.St × V) V) := by
  rw [call_of (f := fun_SetBit) (by rfl) (by rfl)]
  unfold fun_SetBit
  src
  gom [V3.Buffer.SetBit]

theorem SetBitNext (fuel d : Nat) :
    P.call fuel (d + 2) (str% "SetBitNext") [] =
    (onB (V3.Buffer.SetBitNext) >>= fun x => pure .unit : GoM (V3.St × V) V) := by
  rw [call_of (f := fun_SetBitNext) (by rfl) (by rfl)]
  unfold fun_SetBitNext
  src [↓use (SetBit fuel d _), ↓use (SeekBit_num fuel d _ _)]
  gom [V3.Buffer.SetBitNext]

theorem ClearBit (fuel d : Nat) (off : Int64) :
    P.call fuel (d + 1) (str% "ClearBit") [.i64 off] =
    (onB (V3.Buffer.ClearBit off) >>= fun x => pure .unit : GoM (V3.St × V) V) := by
  rw [call_of (f := fun_ClearBit) (by rfl) (by rfl)]
  unfold fun_ClearBit
  src
  gom [V3.Buffer.ClearBit]

theorem ClearBitNext (fuel d : Nat) :
    P.call fuel (d + 2) (str% "ClearBitNext") [] =
    (onB (V3.Buffer.ClearBitNext) >>= fun x => pure .unit : GoM (V3.St × V) V) := by
  rw [call_of (f := fun_ClearBitNext) (by rfl) (by rfl)]
  unfold fun_ClearBitNext
  src [↓use (ClearBit fuel d _), ↓use (SeekBit_num fuel d _ _)]
  gom [V3.Buffer.ClearBitNext]

theorem FlipBit (fuel d : Nat) (off : Int64) :
    P.call fuel (d + 1) (str% "FlipBit") [.i64 off] =
    (onB (V3.Buffer.FlipBit off) >>= fun x => pure .unit : GoM (V3.St × V) V) := by
  rw [call_of (f := fun_FlipBit) (by rfl) (by rfl)]
  unfold fun_FlipBit
  src
  gom [V3.Buffer.FlipBit]

theorem FlipBitNext (fuel d : Nat) :
    P.call fuel (d + 2) (str% "FlipBitNext") [] =
    (onB (V3.Buffer.FlipBitNext) >>= fun x => pure .unit : GoM (V3.St × V) V) := by
  rw [call_of (f := fun_FlipBitNext) (by rfl) (by rfl)]
  unfold fun_FlipBitNext
  src [↓use (FlipBit fuel d _), ↓use (SeekBit_num fuel d _ _)]
  gom [V3.Buffer.FlipBitNext]

theorem SetBits (fuel d : Nat) (hf : 2 ^ 64 < fuel) (off : Int64) (data : UInt64) (n : Int64) :
    P.call fuel (d + 2) (str% "SetBits") [.i64 off, .u64 data, .i64 n] =
    (onB (V3.Buffer.SetBits off data n) >>= fun x => pure .unit : GoM (V3.St × V) V) := by
  rw [call_of (f := fun_SetBits) (by rfl) (by rfl)]
  unfold fun_SetBits
  src [↓use (ClearBit fuel d _), ↓use (SetBit fuel d _)]
  gom [V3.Buffer.SetBits]
  down
  refine loopGoto_bind (U := Unit) (doLoop_eq _ _) (fun a u i => [.i64 off, .u64 data, .i64 n, .i64 i]) ?_
    (fun _ _ _ => rfl) _ 0 () () (Nat.le_trans (rounds_le _ _) hf)
  intro i a u k k' h
  src [↓use (ClearBit fuel d _), ↓use (SetBit fuel d _)]
  try gom
  down
  all_goals first | exact h _ u | exact h _ _

theorem SetBitsNext (fuel d : Nat) (hf : 2 ^ 64 < fuel) (data : UInt64) (n : Int64) :
    P.call fuel (d + 3) (str% "SetBitsNext") [.u64 data, .i64 n] =
    (onB (V3.Buffer.SetBitsNext data n) >>= fun x => pure .unit : GoM (V3.St × V) V) := by
  rw [call_of (f := fun_SetBitsNext) (by rfl) (by rfl)]
  unfold fun_SetBitsNext
  src [↓use (SetBits fuel d hf _ _ _), ↓use (SeekBit fuel (d + 1) _ _)]
  gom [V3.Buffer.SetBitsNext]

theorem ClearAllBits (fuel d : Nat) (hf : 2 ^ 64 < fuel) :
    P.call fuel (d + 1) (str% "ClearAllBits") [] =
    (onB (V3.Buffer.ClearAllBits) >>= fun x => pure .unit : GoM (V3.St × V) V) := by
  rw [call_of (f := fun_ClearAllBits) (by rfl) (by rfl)]
  unfold fun_ClearAllBits
  src
  gom [V3.Buffer.ClearAllBits]
  down
  refine loopGoto_bind (U := Unit) (doLoop_eq _ _) (fun a u i => [.i64 i, .i64 _]) ?_
    (fun _ _ _ => rfl) _ 0 () () (Nat.le_trans (rounds_le _ _) hf)
  intro i a u k k' h
  src
  try gom
  down
  all_goals first | exact h _ u | exact h _ _

theorem SetAllBits (fuel d : Nat) (hf : 2 ^ 64 < fuel) :
    P.call fuel (d + 1) (str% "SetAllBits") [] =
    (onB (V3.Buffer.SetAllBits) >>= fun x => pure .unit : GoM (V3.St × V) V) := by
  rw [call_of (f := fun_SetAllBits) (by rfl) (by rfl)]
  unfold fun_SetAllBits
  src
  gom [V3.Buffer.SetAllBits]
  down
  refine loopGoto_bind (U := Unit) (doLoop_eq _ _) (fun a u i => [.i64 i, .i64 _]) ?_
    (fun _ _ _ => rfl) _ 0 () () (Nat.le_trans (rounds_le _ _) hf)
  intro i a u k k' h
  src
  try gom
  down
  all_goals first | exact h _ u | exact h _ _

theorem FlipAllBits (fuel d : Nat) (hf : 2 ^ 64 < fuel) :
    P.call fuel (d + 1) (str% "FlipAllBits") [] =
    (onB (V3.Buffer.FlipAllBits) >>= fun x => pure .unit : GoM (V3.St × V) V) := by
  rw [call_of (f := fun_FlipAllBits) (by rfl) (by rfl)]
  unfold fun_FlipAllBits
  src
  gom [V3.Buffer.FlipAllBits]
  down
  refine loopGoto_bind (U := Unit) (doLoop_eq _ _) (fun a u i => [.i64 i, .i64 _]) ?_
    (fun _ _ _ => rfl) _ 0 () () (Nat.le_trans (rounds_le _ _) hf)
  intro i a u k k' h
  src
  try gom
  down
  all_goals first | exact h _ u | exact h _ _

theorem AfterBit (fuel d : Nat) (l : List Int64) (hl : l.length < 2 ^ 63) :
    P.call fuel (d + 1) (str% "AfterBit") [.li64 l] =
    (onB (V3.Buffer.AfterBit l) >>= fun x => pure (.i64 x) : GoM (V3.St × V) V) := by
  rw [call_of (f := fun_AfterBit) (by rfl) (by rfl)]
  unfold fun_AfterBit
  src
  gom [V3.Buffer.AfterBit]
  funext s
  rcases l with _ | ⟨o, l⟩
  · rfl
  · rw [if_neg (len_cons_ne hl)]
    rfl

theorem AlignBit (fuel d : Nat) :
    P.call fuel (d + 1) (str% "AlignBit") [] =
    (onB (V3.Buffer.AlignBit) >>= fun x => pure .unit : GoM (V3.St × V) V) := by
  rw [call_of (f := fun_AlignBit) (by rfl) (by rfl)]
  unfold fun_AlignBit
  src
  gom [V3.Buffer.AlignBit]
  funext s
  simp only [run_getB, run_modB, run_ite, run_onMem]

theorem AfterByte (fuel d : Nat) (l : List Int64) (hl : l.length < 2 ^ 63) :
    P.call fuel (d + 1) (str% "AfterByte") [.li64 l] =
    (onB (V3.Buffer.AfterByte l) >>= fun x => pure (.i64 x) : GoM (V3.St × V) V) := by
  rw [call_of (f := fun_AfterByte) (by rfl) (by rfl)]
  unfold fun_AfterByte
  src
  gom [V3.Buffer.AfterByte]
  funext s
  rcases l with _ | ⟨o, l⟩
  · rfl
  · rw [if_neg (len_cons_ne hl)]
    rfl

theorem AlignByte (fuel d : Nat) :
    P.call fuel (d + 1) (str% "AlignByte") [] =
    (onB (V3.Buffer.AlignByte) >>= fun x => pure .unit : GoM (V3.St × V) V) := by
  rw [call_of (f := fun_AlignByte) (by rfl) (by rfl)]
  unfold fun_AlignByte
  src
  gom [V3.Buffer.AlignByte]
  funext s
  simp only [run_getB, run_modB, run_ite, run_onMem]

theorem WriteBytes (fuel d : Nat) (off : Int64) (data : Slice) :
    P.call fuel (d + 1) (str% "WriteBytes") [.i64 off, .bytes (.mem data)] =
    (onB (V3.Buffer.WriteBytes off data) >>= fun x => pure .unit : GoM (V3.St × V) V) := by
  rw [call_of (f := fun_WriteBytes) (by rfl) (by rfl)]
  unfold fun_WriteBytes
  src
  gom [V3.Buffer.WriteBytes]
  funext s
  simp only [run_getB, run_modB, run_ite, run_onMem]

theorem WriteBytesNext (fuel d : Nat) (data : Slice) :
    P.call fuel (d + 2) (str% "WriteBytesNext") [.bytes (.mem data)] =
    (onB (V3.Buffer.WriteBytesNext data) >>= fun x => pure .unit : GoM (V3.St × V) V) := by
  rw [call_of (f := fun_WriteBytesNext) (by rfl) (by rfl)]
  unfold fun_WriteBytesNext
  src [↓use (WriteBytes fuel d _ _), ↓use (SeekByte fuel d _ _)]
  gom [V3.Buffer.WriteBytesNext]

theorem WriteByte (fuel d : Nat) (off : Int64) (data : UInt8) :
    P.call fuel (d + 2) (str% "WriteByte") [.i64 off, .u8 data] =
    (onB (V3.Buffer.WriteByte off data) >>= fun x => pure .unit : GoM (V3.St × V) V) := by
  rw [call_of (f := fun_WriteByte) (by rfl) (by rfl)]
  unfold fun_WriteByte
  src [↓use (WriteBytes fuel d _ _), ↓gom_lit]
  gom [V3.Buffer.WriteByte]
  rfl

theorem WriteByteNext (fuel d : Nat) (data : UInt8) :
    P.call fuel (d + 2) (str% "WriteByteNext") [.u8 data] =
    (onB (V3.Buffer.WriteByteNext data) >>= fun x => pure .unit : GoM (V3.St × V) V) := by
  rw [call_of (f := fun_WriteByteNext) (by rfl) (by rfl)]
  unfold fun_WriteByteNext
  src [↓use (WriteBytes fuel d _ _), ↓use (SeekByte_num fuel d _ _), ↓gom_lit]
  gom [V3.Buffer.WriteByteNext]
  rfl

theorem ReadBytes (fuel d : Nat) (off : Int64) (n : Int64) :
    P.call fuel (d + 1) (str% "ReadBytes") [.i64 off, .i64 n] =
    (onB (V3.Buffer.ReadBytes off n) >>= fun x => pure (.bytes (.mem x)) : GoM (V3.St × V) V) := by
  rw [call_of (f := fun_ReadBytes) (by rfl) (by rfl)]
  unfold fun_ReadBytes
  src
  gom [V3.Buffer.ReadBytes]
  funext s
  simp only [run_getB, run_modB, run_ite, run_onMem]

theorem ReadBytes_num (fuel d : Nat) (off : Int64) (n : Nat) :
    P.call fuel (d + 1) (str% "ReadBytes") [.i64 off, .num n] =
    (onB (V3.Buffer.ReadBytes off (Int64.ofNat n)) >>= fun x => pure (.bytes (.mem x)) : GoM (V3.St × V) V) := by
  rw [call_of (f := fun_ReadBytes) (by rfl) (by rfl)]
  unfold fun_ReadBytes
  src
  gom [V3.Buffer.ReadBytes]
  funext s
  simp only [run_getB, run_modB, run_ite, run_onMem]

theorem ReadBytesNext (fuel d : Nat) (n : Int64) :
    P.call fuel (d + 2) (str% "ReadBytesNext") [.i64 n] =
    (onB (V3.Buffer.ReadBytesNext n) >>= fun x => pure (.bytes (.mem x)) : GoM (V3.St × V) V) := by
  rw [call_of (f := fun_ReadBytesNext) (by rfl) (by rfl)]
  unfold fun_ReadBytesNext
  src [↓use (ReadBytes fuel d _ _), ↓use (SeekByte fuel d _ _)]
  gom [V3.Buffer.ReadBytesNext]

theorem ReadByte (fuel d : Nat) (off : Int64) :
    P.call fuel (d + 2) (str% "ReadByte") [.i64 off] =
    (onB (V3.Buffer.ReadByte off) >>= fun x => pure (.u8 x) : GoM (V3.St × V) V) := by
  rw [call_of (f := fun_ReadByte) (by rfl) (by rfl)]
  unfold fun_ReadByte
  src [↓use (ReadBytes_num fuel d _ _)]
  gom [V3.Buffer.ReadByte]

theorem ReadByteNext (fuel d : Nat) :
    P.call fuel (d + 2) (str% "ReadByteNext") [] =
    (onB (V3.Buffer.ReadByteNext) >>= fun x => pure (.u8 x) : GoM (V3.St × V) V) := by
  rw [call_of (f := fun_ReadByteNext) (by rfl) (by rfl)]
  unfold fun_ReadByteNext
  src [↓use (ReadBytes_num fuel d _ _), ↓use (SeekByte_num fuel d _ _)]
  gom [V3.Buffer.ReadByteNext]

theorem TruncateLeft (fuel d : Nat) (n : Int64) :
    P.call fuel (d + 2) (str% "TruncateLeft") [.i64 n] =
    (onB (V3.Buffer.TruncateLeft n) >>= fun x => pure .unit : GoM (V3.St × V) V) := by
  rw [call_of (f := fun_TruncateLeft) (by rfl) (by rfl)]
  unfold fun_TruncateLeft
  src [↓use (Refresh fuel d)]
  gom [V3.Buffer.TruncateLeft]
  funext s
  simp only [run_getB, run_modB, run_ite, run_onMem]

theorem TruncateRight (fuel d : Nat) (n : Int64) :
    P.call fuel (d + 2) (str% "TruncateRight") [.i64 n] =
    (onB (V3.Buffer.TruncateRight n) >>= fun x => pure .unit : GoM (V3.St × V) V) := by
  rw [call_of (f := fun_TruncateRight) (by rfl) (by rfl)]
  unfold fun_TruncateRight
  src [↓use (Refresh fuel d)]
  gom [V3.Buffer.TruncateRight]
  funext s
  simp only [run_getB, run_modB, run_ite, run_onMem]

theorem Grow (fuel d : Nat) (n : Int64) :
    P.call fuel (d + 2) (str% "Grow") [.i64 n] =
    (onB (V3.Buffer.Grow n) >>= fun x => pure .unit : GoM (V3.St × V) V) := by
  rw [call_of (f := fun_Grow) (by rfl) (by rfl)]
  unfold fun_Grow
  src [↓use (Refresh fuel d), ↓gom_makeCap]
  gom [V3.Buffer.Grow]
  funext s
  simp only [run_getB, run_modB, run_ite, run_onMem]

theorem Reset (fuel d : Nat) :
    P.call fuel (d + 1) (str% "Reset") [] =
    (onB (V3.Buffer.Reset) >>= fun x => pure .unit : GoM (V3.St × V) V) := by
  rw [call_of (f := fun_Reset) (by rfl) (by rfl)]
  unfold fun_Reset
  src
  gom [V3.Buffer.Reset]

theorem Bytes (fuel d : Nat) :
    P.call fuel (d + 1) (str% "Bytes") [] =
    (onB (V3.Buffer.Bytes) >>= fun x => pure (.bytes (.mem x)) : GoM (V3.St × V) V) := by
  rw [call_of (f := fun_Bytes) (by rfl) (by rfl)]
  unfold fun_Bytes
  src
  gom [V3.Buffer.Bytes]

theorem ByteCapacity (fuel d : Nat) :
    P.call fuel (d + 1) (str% "ByteCapacity") [] =
    (onB (V3.Buffer.ByteCapacity) >>= fun x => pure (.i64 x) : GoM (V3.St × V) V) := by
  rw [call_of (f := fun_ByteCapacity) (by rfl) (by rfl)]
  unfold fun_ByteCapacity
  src
  gom [V3.Buffer.ByteCapacity]

theorem BitCapacity (fuel d : Nat) :
    P.call fuel (d + 1) (str% "BitCapacity") [] =
    (onB (V3.Buffer.BitCapacity) >>= fun x => pure (.i64 x) : GoM (V3.St × V) V) := by
  rw [call_of (f := fun_BitCapacity) (by rfl) (by rfl)]
  unfold fun_BitCapacity
  src
  gom [V3.Buffer.BitCapacity]

theorem ByteOffset (fuel d : Nat) :
    P.call fuel (d + 1) (str% "ByteOffset") [] =
    (onB (V3.Buffer.ByteOffset) >>= fun x => pure (.i64 x) : GoM (V3.St × V) V) := by
  rw [call_of (f := fun_ByteOffset) (by rfl) (by rfl)]
  unfold fun_ByteOffset
  src
  gom [V3.Buffer.ByteOffset]

theorem BitOffset (fuel d : Nat) :
    P.call fuel (d + 1) (str% "BitOffset") [] =
    (onB (V3.Buffer.BitOffset) >>= fun x => pure (.i64 x) : GoM (V3.St × V) V) := by
  rw [call_of (f := fun_BitOffset) (by rfl) (by rfl)]
  unfold fun_BitOffset
  src
  gom [V3.Buffer.BitOffset]

theorem NewBuffer (fuel d : Nat) (hf : 2 ^ 64 < fuel) (l : List Slice) (hl : l.length < 2 ^ 63) :
    P.call fuel (d + 2) (str% "NewBuffer") [.slices l] =
    (onB (V3.Buffer.NewBuffer l) >>= fun x => pure .unit : GoM (V3.St × V) V) := by
  rw [call_of (f := fun_NewBuffer) (by rfl) (by rfl)]
  unfold fun_NewBuffer
  src [↓use (Refresh fuel d), ↓gom_lit]
  gom [modB_modB, List.reverse_nil]
  rcases l with _ | ⟨s, _ | ⟨t, l⟩⟩
  · simp only [V3.Buffer.NewBuffer]; gom; rfl
  · simp only [V3.Buffer.NewBuffer]; gom; rfl
  · rw [if_neg (len_cons_ne hl), if_neg (len_cons_cons_ne hl)]
    simp only [V3.Buffer.NewBuffer]
    gom
    down
    refine loopGoto_bind (U := Unit) (doLoop_eq _ _) (fun a u i => [.slices (s :: t :: l), .i64 i, .i64 (Crunch.len (s :: t :: l))]) ?_
      (fun _ _ _ => rfl) _ 0 () () (Nat.le_trans (rounds_le _ _) hf)
    intro i a u k k' h
    src
    gom
    down
    exact h _ u

end Crunch.Src.V3Buffer
