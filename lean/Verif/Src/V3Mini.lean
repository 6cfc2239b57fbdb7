import Verif.Src.Tactic
import Verif.Src.Text.V3Mini
import Verif.V3.Mini

/-! The methods of v3/minibuf.generated.go other than the typed ones, from their text.  Written by tools/src_proofs.py. -/

set_option linter.unusedVariables false
set_option linter.unusedSimpArgs false

namespace Crunch.Src.V3Mini
open V3.Mini (onB callOut)

/-- the errors of v3/errors.go -/
def errs : List (Gen.Str × GoError) := [
  (str% "BufferOverreadError", V3.BufferOverreadError),
  (str% "BufferUnderreadError", V3.BufferUnderreadError),
  (str% "BufferOverwriteError", V3.BufferOverwriteError),
  (str% "BufferUnderwriteError", V3.BufferUnderwriteError),
  (str% "BufferInvalidByteCountError", V3.BufferInvalidByteCountError),
  (str% "BytesBufNegativeReadError", V3.BytesBufNegativeReadError)]

/-- the package: v3/minibuf.generated.go -/
def P : Pkg := ⟨funs, errs⟩

theorem Refresh (fuel d : Nat) :
    P.call fuel (d + 1) (str% "Refresh") [] =
    (onB (V3.Mini.Refresh) >>= fun x => pure .unit : GoM (V3.St × V) V) := by
  rw [call_of (f := fun_Refresh) (by rfl) (by rfl)]
  unfold fun_Refresh
  src
  gom [V3.Mini.Refresh]
  funext s
  simp only [run_getB, run_modB, run_ite, run_onMem]

theorem SeekBit (fuel d : Nat) (off : Int64) (r : Bool) :
    P.call fuel (d + 1) (str% "SeekBit") [.i64 off, .bool r] =
    (onB (V3.Mini.SeekBit off r) >>= fun x => pure .unit : GoM (V3.St × V) V) := by
  rw [call_of (f := fun_SeekBit) (by rfl) (by rfl)]
  unfold fun_SeekBit
  src
  gom [V3.Mini.SeekBit]
  funext s
  simp only [run_getB, run_modB, run_ite, run_onMem]

theorem SeekBit_num (fuel d : Nat) (off : Nat) (r : Bool) :
    P.call fuel (d + 1) (str% "SeekBit") [.num off, .bool r] =
    (onB (V3.Mini.SeekBit (Int64.ofNat off) r) >>= fun x => pure .unit : GoM (V3.St × V) V) := by
  rw [call_of (f := fun_SeekBit) (by rfl) (by rfl)]
  unfold fun_SeekBit
  src
  gom [V3.Mini.SeekBit]
  funext s
  simp only [run_getB, run_modB, run_ite, run_onMem]

theorem SeekByte (fuel d : Nat) (off : Int64) (r : Bool) :
    P.call fuel (d + 1) (str% "SeekByte") [.i64 off, .bool r] =
    (onB (V3.Mini.SeekByte off r) >>= fun x => pure .unit : GoM (V3.St × V) V) := by
  rw [call_of (f := fun_SeekByte) (by rfl) (by rfl)]
  unfold fun_SeekByte
  src
  gom [V3.Mini.SeekByte]
  funext s
  simp only [run_getB, run_modB, run_ite, run_onMem]

theorem SeekByte_num (fuel d : Nat) (off : Nat) (r : Bool) :
    P.call fuel (d + 1) (str% "SeekByte") [.num off, .bool r] =
    (onB (V3.Mini.SeekByte (Int64.ofNat off) r) >>= fun x => pure .unit : GoM (V3.St × V) V) := by
  rw [call_of (f := fun_SeekByte) (by rfl) (by rfl)]
  unfold fun_SeekByte
  src
  gom [V3.Mini.SeekByte]
  funext s
  simp only [run_getB, run_modB, run_ite, run_onMem]

theorem ReadBit (fuel d : Nat) (off : Int64) (x : UInt8) (k : V → GoM (V3.St × V) β) :
    atOut (.u8 x) (P.call fuel (d + 1) (str% "ReadBit") [.ptr, .i64 off] >>= k) =
    through .u8 (V3.Mini.ReadBit off) x fun _ x => atOut (.u8 x) (k .unit) := by
  rw [call_of (f := fun_ReadBit) (by rfl) (by rfl)]
  unfold fun_ReadBit
  src
  gom [V3.Mini.ReadBit]
  try outs

theorem ReadBitNext (fuel d : Nat) (x : UInt8) (k : V → GoM (V3.St × V) β) :
    atOut (.u8 x) (P.call fuel (d + 2) (str% "ReadBitNext") [.ptr] >>= k) =
    through .u8 (V3.Mini.ReadBitNext) x fun _ x => atOut (.u8 x) (k .unit) := by
  rw [call_of (f := fun_ReadBitNext) (by rfl) (by rfl)]
  unfold fun_ReadBitNext
  src [↓use (SeekBit_num fuel d _ _)]
  gom [V3.Mini.ReadBitNext]
  try outs [ReadBit fuel d]

theorem ReadBits (fuel d : Nat) (hf : 2 ^ 64 < fuel) (off : Int64) (n : Int64) (x : UInt64) (k : V → GoM (V3.St × V) β) :
    atOut (.u64 x) (P.call fuel (d + 2) (str% "ReadBits") [.ptr, .i64 off, .i64 n] >>= k) =
    through .u64 (V3.Mini.ReadBits off n) x fun _ x => atOut (.u64 x) (k .unit) := by
  rw [call_of (f := fun_ReadBits) (by rfl) (by rfl)]
  unfold fun_ReadBits
  src [↓use (withOut_of V.u8 _ fun k => ReadBit fuel d _ _ k)]
  gom [V3.Mini.ReadBits]
  try outs
  down
  refine loopGoto_out (U := Unit) _ _ (doLoop_eq _ _) (fun a u i => [.ptr, .i64 off, .i64 n, .u8 a, .i64 i]) ?_
    (fun _ _ _ _ => rfl) _ 0 0 () (Nat.le_trans (rounds_le _ _) hf)
  intro i a u x k k' h
  src [↓use (withOut_of V.u8 _ fun k => ReadBit fuel d _ _ k)]
  try gom
  try outs
  down
  all_goals first | exact h _ _ u | exact h _ _ _

theorem ReadBitsNext (fuel d : Nat) (hf : 2 ^ 64 < fuel) (n : Int64) (x : UInt64) (k : V → GoM (V3.St × V) β) :
    atOut (.u64 x) (P.call fuel (d + 3) (str% "ReadBitsNext") [.ptr, .i64 n] >>= k) =
    through .u64 (V3.Mini.ReadBitsNext n) x fun _ x => atOut (.u64 x) (k .unit) := by
  rw [call_of (f := fun_ReadBitsNext) (by rfl) (by rfl)]
  unfold fun_ReadBitsNext
  src [↓use (SeekBit fuel (d + 1) _ _)]
  gom [V3.Mini.ReadBitsNext]
  try outs [ReadBits fuel d hf]

theorem SetBit (fuel d : Nat) (off : Int64) :
    P.call fuel (d + 1) (str% "SetBit") [.i64 off] =
    (onB (V3.Mini.SetBit off) >>= fun x => pure .unit : GoM (V3.St × V) V) := by
  rw [call_of (f := fun_SetBit) (by rfl) (by rfl)]
  unfold fun_SetBit
  src
  gom [V3.Mini.SetBit]

theorem SetBitNext (fuel d : Nat) :
    P.call fuel (d + 2) (str% "SetBitNext") [] =
    (onB (V3.Mini.SetBitNext) >>= fun x => pure .unit : GoM (V3.St × V) V) := by
  rw [call_of (f := fun_SetBitNext) (by rfl) (by rfl)]
  unfold fun_SetBitNext
  src [↓use (SetBit fuel d _), ↓use (SeekBit_num fuel d _ _)]
  gom [V3.Mini.SetBitNext]

theorem ClearBit (fuel d : Nat) (off : Int64) :
    P.call fuel (d + 1) (str% "ClearBit") [.i64 off] =
    (onB (V3.Mini.ClearBit off) >>= fun x => pure .unit : GoM (V3.St × V) V) := by
  rw [call_of (f := fun_ClearBit) (by rfl) (by rfl)]
  unfold fun_ClearBit
  src
  gom [V3.Mini.ClearBit]

theorem ClearBitNext (fuel d : Nat) :
    P.call fuel (d + 2) (str% "ClearBitNext") [] =
    (onB (V3.Mini.ClearBitNext) >>= fun x => pure .unit : GoM (V3.St × V) V) := by
  rw [call_of (f := fun_ClearBitNext) (by rfl) (by rfl)]
  unfold fun_ClearBitNext
  src [↓use (ClearBit fuel d _), ↓use (SeekBit_num fuel d _ _)]
  gom [V3.Mini.ClearBitNext]

theorem FlipBit (fuel d : Nat) (off : Int64) :
    P.call fuel (d + 1) (str% "FlipBit") [.i64 off] =
    (onB (V3.Mini.FlipBit off) >>= fun x => pure .unit : GoM (V3.St × V) V) := by
  rw [call_of (f := fun_FlipBit) (by rfl) (by rfl)]
  unfold fun_FlipBit
  src
  gom [V3.Mini.FlipBit]

theorem FlipBitNext (fuel d : Nat) :
    P.call fuel (d + 2) (str% "FlipBitNext") [] =
    (onB (V3.Mini.FlipBitNext) >>= fun x => pure .unit : GoM (V3.St × V) V) := by
  rw [call_of (f := fun_FlipBitNext) (by rfl) (by rfl)]
  unfold fun_FlipBitNext
  src [↓use (FlipBit fuel d _), ↓use (SeekBit_num fuel d _ _)]
  gom [V3.Mini.FlipBitNext]

theorem SetBits (fuel d : Nat) (hf : 2 ^ 64 < fuel) (off : Int64) (data : UInt64) (n : Int64) :
    P.call fuel (d + 2) (str% "SetBits") [.i64 off, .u64 data, .i64 n] =
    (onB (V3.Mini.SetBits off data n) >>= fun x => pure .unit : GoM (V3.St × V) V) := by
  rw [call_of (f := fun_SetBits) (by rfl) (by rfl)]
  unfold fun_SetBits
  src [↓use (ClearBit fuel d _), ↓use (SetBit fuel d _)]
  gom [V3.Mini.SetBits]
  down
  refine loopGoto_bind (U := Unit) (doLoop_eq _ _) (fun a u i => [.i64 off, .u64 data, .i64 n, .i64 i]) ?_
    (fun _ _ _ => rfl) _ 0 () () (Nat.le_trans (rounds_le _ _) hf)
  intro i a u k k' h
  src [↓use (ClearBit fuel d _), ↓use (SetBit fuel d _)]
  try gom
  down
  all_goals first | exact h _ u | exact h _ _

theorem SetBitsNext (fuel d : Nat) (hf : 2 ^ 64 < fuel) (data : UInt64) (n : Int64) :
    P.call fuel (d + 3) (str% "SetBitsNext") [.u64 data, .i64 n] =
    (onB (V3.Mini.SetBitsNext data n) >>= fun x => pure .unit : GoM (V3.St × V) V) := by
  rw [call_of (f := fun_SetBitsNext) (by rfl) (by rfl)]
  unfold fun_SetBitsNext
  src [↓use (SetBits fuel d hf _ _ _), ↓use (SeekBit fuel (d + 1) _ _)]
  gom [V3.Mini.SetBitsNext]

theorem ClearAllBits (fuel d : Nat) (hf : 2 ^ 64 < fuel) :
    P.call fuel (d + 1) (str% "ClearAllBits") [] =
    (onB (V3.Mini.ClearAllBits) >>= fun x => pure .unit : GoM (V3.St × V) V) := by
  rw [call_of (f := fun_ClearAllBits) (by rfl) (by rfl)]
  unfold fun_ClearAllBits
  src
  gom [V3.Mini.ClearAllBits]
  down
  refine loopGoto_bind (U := Unit) (doLoop_eq _ _) (fun a u i => [.i64 i, .i64 _]) ?_
    (fun _ _ _ => rfl) _ 0 () () (Nat.le_trans (rounds_le _ _) hf)
  intro i a u k k' h
  src
  try gom
  down
  all_goals first | exact h _ u | exact h _ _

theorem SetAllBits (fuel d : Nat) (hf : 2 ^ 64 < fuel) :
    P.call fuel (d + 1) (str% "SetAllBits") [] =
    (onB (V3.Mini.SetAllBits) >>= fun x => pure .unit : GoM (V3.St × V) V) := by
  rw [call_of (f := fun_SetAllBits) (by rfl) (by rfl)]
  unfold fun_SetAllBits
  src
  gom [V3.Mini.SetAllBits]
  down
  refine loopGoto_bind (U := Unit) (doLoop_eq _ _) (fun a u i => [.i64 i, .i64 _]) ?_
    (fun _ _ _ => rfl) _ 0 () () (Nat.le_trans (rounds_le _ _) hf)
  intro i a u k k' h
  src
  try gom
  down
  all_goals first | exact h _ u | exact h _ _

theorem FlipAllBits (fuel d : Nat) (hf : 2 ^ 64 < fuel) :
    P.call fuel (d + 1) (str% "FlipAllBits") [] =
    (onB (V3.Mini.FlipAllBits) >>= fun x => pure .unit : GoM (V3.St × V) V) := by
  rw [call_of (f := fun_FlipAllBits) (by rfl) (by rfl)]
  unfold fun_FlipAllBits
  src
  gom [V3.Mini.FlipAllBits]
  down
  refine loopGoto_bind (U := Unit) (doLoop_eq _ _) (fun a u i => [.i64 i, .i64 _]) ?_
    (fun _ _ _ => rfl) _ 0 () () (Nat.le_trans (rounds_le _ _) hf)
  intro i a u k k' h
  src
  try gom
  down
  all_goals first | exact h _ u | exact h _ _

theorem AfterBit (fuel d : Nat) (l : List Int64) (hl : l.length < 2 ^ 63) (x : Int64) (k : V → GoM (V3.St × V) β) :
    atOut (.i64 x) (P.call fuel (d + 1) (str% "AfterBit") [.ptr, .li64 l] >>= k) =
    through .i64 (V3.Mini.AfterBit l) x fun _ x => atOut (.i64 x) (k .unit) := by
  rw [call_of (f := fun_AfterBit) (by rfl) (by rfl)]
  unfold fun_AfterBit
  src
  gom [V3.Mini.AfterBit]
  try outs
  funext s
  rcases l with _ | ⟨o, l⟩
  · rfl
  · rw [if_neg (len_cons_ne hl)]
    rfl

theorem AlignBit (fuel d : Nat) :
    P.call fuel (d + 1) (str% "AlignBit") [] =
    (onB (V3.Mini.AlignBit) >>= fun x => pure .unit : GoM (V3.St × V) V) := by
  rw [call_of (f := fun_AlignBit) (by rfl) (by rfl)]
  unfold fun_AlignBit
  src
  gom [V3.Mini.AlignBit]
  funext s
  simp only [run_getB, run_modB, run_ite, run_onMem]

theorem AfterByte (fuel d : Nat) (l : List Int64) (hl : l.length < 2 ^ 63) (x : Int64) (k : V → GoM (V3.St × V) β) :
    atOut (.i64 x) (P.call fuel (d + 1) (str% "AfterByte") [.ptr, .li64 l] >>= k) =
    through .i64 (V3.Mini.AfterByte l) x fun _ x => atOut (.i64 x) (k .unit) := by
  rw [call_of (f := fun_AfterByte) (by rfl) (by rfl)]
  unfold fun_AfterByte
  src
  gom [V3.Mini.AfterByte]
  try outs
  funext s
  rcases l with _ | ⟨o, l⟩
  · rfl
  · rw [if_neg (len_cons_ne hl)]
    rfl

theorem AlignByte (fuel d : Nat) :
    P.call fuel (d + 1) (str% "AlignByte") [] =
    (onB (V3.Mini.AlignByte) >>= fun x => pure .unit : GoM (V3.St × V) V) := by
  rw [call_of (f := fun_AlignByte) (by rfl) (by rfl)]
  unfold fun_AlignByte
  src
  gom [V3.Mini.AlignByte]
  funext s
  simp only [run_getB, run_modB, run_ite, run_onMem]

theorem WriteBytes (fuel d : Nat) (off : Int64) (data : Slice) :
    P.call fuel (d + 1) (str% "WriteBytes") [.i64 off, .bytes (.mem data)] =
    (onB (V3.Mini.WriteBytes off data) >>= fun x => pure .unit : GoM (V3.St × V) V) := by
  rw [call_of (f := fun_WriteBytes) (by rfl) (by rfl)]
  unfold fun_WriteBytes
  src
  gom [V3.Mini.WriteBytes]

theorem WriteBytesNext (fuel d : Nat) (data : Slice) :
    P.call fuel (d + 2) (str% "WriteBytesNext") [.bytes (.mem data)] =
    (onB (V3.Mini.WriteBytesNext data) >>= fun x => pure .unit : GoM (V3.St × V) V) := by
  rw [call_of (f := fun_WriteBytesNext) (by rfl) (by rfl)]
  unfold fun_WriteBytesNext
  src [↓use (WriteBytes fuel d _ _), ↓use (SeekByte fuel d _ _)]
  gom [V3.Mini.WriteBytesNext]

theorem ReadBytes (fuel d : Nat) (off : Int64) (n : Int64) (x : Slice) (k : V → GoM (V3.St × V) β) :
    atOut (.bytes (.mem x)) (P.call fuel (d + 1) (str% "ReadBytes") [.ptr, .i64 off, .i64 n] >>= k) =
    through (fun x => .bytes (.mem x)) (V3.Mini.ReadBytes off n) x fun _ x => atOut (.bytes (.mem x)) (k .unit) := by
  rw [call_of (f := fun_ReadBytes) (by rfl) (by rfl)]
  unfold fun_ReadBytes
  src
  gom [V3.Mini.ReadBytes]
  try outs

theorem ReadBytesNext (fuel d : Nat) (n : Int64) (x : Slice) (k : V → GoM (V3.St × V) β) :
    atOut (.bytes (.mem x)) (P.call fuel (d + 2) (str% "ReadBytesNext") [.ptr, .i64 n] >>= k) =
    through (fun x => .bytes (.mem x)) (V3.Mini.ReadBytesNext n) x fun _ x => atOut (.bytes (.mem x)) (k .unit) := by
  rw [call_of (f := fun_ReadBytesNext) (by rfl) (by rfl)]
  unfold fun_ReadBytesNext
  src [↓use (SeekByte fuel d _ _)]
  gom [V3.Mini.ReadBytesNext]
  try outs [ReadBytes fuel d]

theorem TruncateLeft (fuel d : Nat) (n : Int64) :
    P.call fuel (d + 2) (str% "TruncateLeft") [.i64 n] =
    (onB (V3.Mini.TruncateLeft n) >>= fun x => pure .unit : GoM (V3.St × V) V) := by
  rw [call_of (f := fun_TruncateLeft) (by rfl) (by rfl)]
  unfold fun_TruncateLeft
  src [↓use (Refresh fuel d)]
  gom [V3.Mini.TruncateLeft]
  funext s
  simp only [run_getB, run_modB, run_ite, run_onMem]

theorem TruncateRight (fuel d : Nat) (n : Int64) :
    P.call fuel (d + 2) (str% "TruncateRight") [.i64 n] =
    (onB (V3.Mini.TruncateRight n) >>= fun x => pure .unit : GoM (V3.St × V) V) := by
  rw [call_of (f := fun_TruncateRight) (by rfl) (by rfl)]
  unfold fun_TruncateRight
  src [↓use (Refresh fuel d)]
  gom [V3.Mini.TruncateRight]
  funext s
  simp only [run_getB, run_modB, run_ite, run_onMem]

theorem Grow (fuel d : Nat) (n : Int64) :
    P.call fuel (d + 2) (str% "Grow") [.i64 n] =
    (onB (V3.Mini.Grow n) >>= fun x => pure .unit : GoM (V3.St × V) V) := by
  rw [call_of (f := fun_Grow) (by rfl) (by rfl)]
  unfold fun_Grow
  src [↓use (Refresh fuel d), ↓gom_makeCap]
  gom [V3.Mini.Grow]
  funext s
  simp only [run_getB, run_modB, run_ite, run_onMem]

theorem Reset (fuel d : Nat) :
    P.call fuel (d + 1) (str% "Reset") [] =
    (onB (V3.Mini.Reset) >>= fun x => pure .unit : GoM (V3.St × V) V) := by
  rw [call_of (f := fun_Reset) (by rfl) (by rfl)]
  unfold fun_Reset
  src
  gom [V3.Mini.Reset]

theorem Bytes (fuel d : Nat) (x : Slice) (k : V → GoM (V3.St × V) β) :
    atOut (.bytes (.mem x)) (P.call fuel (d + 1) (str% "Bytes") [.ptr] >>= k) =
    through (fun x => .bytes (.mem x)) (V3.Mini.Bytes) x fun _ x => atOut (.bytes (.mem x)) (k .unit) := by
  rw [call_of (f := fun_Bytes) (by rfl) (by rfl)]
  unfold fun_Bytes
  src
  gom [V3.Mini.Bytes]
  try outs

theorem ByteCapacity (fuel d : Nat) (x : Int64) (k : V → GoM (V3.St × V) β) :
    atOut (.i64 x) (P.call fuel (d + 1) (str% "ByteCapacity") [.ptr] >>= k) =
    through .i64 (V3.Mini.ByteCapacity) x fun _ x => atOut (.i64 x) (k .unit) := by
  rw [call_of (f := fun_ByteCapacity) (by rfl) (by rfl)]
  unfold fun_ByteCapacity
  src
  gom [V3.Mini.ByteCapacity]
  try outs

theorem BitCapacity (fuel d : Nat) (x : Int64) (k : V → GoM (V3.St × V) β) :
    atOut (.i64 x) (P.call fuel (d + 1) (str% "BitCapacity") [.ptr] >>= k) =
    through .i64 (V3.Mini.BitCapacity) x fun _ x => atOut (.i64 x) (k .unit) := by
  rw [call_of (f := fun_BitCapacity) (by rfl) (by rfl)]
  unfold fun_BitCapacity
  src
  gom [V3.Mini.BitCapacity]
  try outs

theorem ByteOffset (fuel d : Nat) (x : Int64) (k : V → GoM (V3.St × V) β) :
    atOut (.i64 x) (P.call fuel (d + 1) (str% "ByteOffset") [.ptr] >>= k) =
    through .i64 (V3.Mini.ByteOffset) x fun _ x => atOut (.i64 x) (k .unit) := by
  rw [call_of (f := fun_ByteOffset) (by rfl) (by rfl)]
  unfold fun_ByteOffset
  src
  gom [V3.Mini.ByteOffset]
  try outs

theorem BitOffset (fuel d : Nat) (x : Int64) (k : V → GoM (V3.St × V) β) :
    atOut (.i64 x) (P.call fuel (d + 1) (str% "BitOffset") [.ptr] >>= k) =
    through .i64 (V3.Mini.BitOffset) x fun _ x => atOut (.i64 x) (k .unit) := by
  rw [call_of (f := fun_BitOffset) (by rfl) (by rfl)]
  unfold fun_BitOffset
  src
  gom [V3.Mini.BitOffset]
  try outs

theorem NewMiniBuffer (fuel d : Nat) (hf : 2 ^ 64 < fuel) (l : List Slice) (hl : l.length < 2 ^ 63) :
    P.call fuel (d + 2) (str% "NewMiniBuffer") [.ptr, .slices l] =
    (onB (V3.Mini.NewMiniBuffer l) >>= fun x => pure .unit : GoM (V3.St × V) V) := by
  rw [call_of (f := fun_NewMiniBuffer) (by rfl) (by rfl)]
  unfold fun_NewMiniBuffer
  src [↓use (Refresh fuel d), ↓gom_lit]
  gom [modB_modB, List.reverse_nil]
  rcases l with _ | ⟨s, _ | ⟨t, l⟩⟩
  · simp only [V3.Mini.NewMiniBuffer]; gom; rfl
  · simp only [V3.Mini.NewMiniBuffer]; gom; rfl
  · rw [if_neg (len_cons_ne hl), if_neg (len_cons_cons_ne hl)]
    simp only [V3.Mini.NewMiniBuffer]
    gom
    down
    refine loopGoto_bind (U := Unit) (doLoop_eq _ _) (fun a u i => [.ptr, .slices (s :: t :: l), .i64 i, .i64 (Crunch.len (s :: t :: l))]) ?_
      (fun _ _ _ => rfl) _ 0 () () (Nat.le_trans (rounds_le _ _) hf)
    intro i a u k k' h
    src
    gom
    down
    exact h _ u

end Crunch.Src.V3Mini
