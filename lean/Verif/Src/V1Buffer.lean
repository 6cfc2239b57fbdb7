import Verif.Src.TacticProg
import Verif.Src.Text.V1Buffer
import Verif.Src.Text.V1Utils
import Verif.V1.Buffer

/-! The methods of v1/buffer.go other than those for complex values, from their text.  Written by tools/src_proofs.py. -/

set_option linter.unusedVariables false
set_option linter.unusedSimpArgs false

namespace Crunch.Src.V1Buffer
open V3.Mini (onB callOut)

/-- the errors of v1/errors.go -/
def errs : List (Gen.Str × GoError) := [
  (str% "BufferOverreadError", V1.BufferOverreadError),
  (str% "BufferUnderreadError", V1.BufferUnderreadError),
  (str% "BufferOverwriteError", V1.BufferOverwriteError),
  (str% "BufferUnderwriteError", V1.BufferUnderwriteError),
  (str% "BufferInvalidIntegerSizeError", V1.BufferInvalidIntegerSizeError),
  (str% "BufferInvalidEndiannessError", V1.BufferInvalidEndiannessError),
  (str% "BufferInvalidByteCountError", V1.BufferInvalidByteCountError),
  (str% "BufferInvalidBitError", V1.BufferInvalidBitError)]

/-- the package: v1/buffer.go and v1/utils.go -/
def P : Pkg := ⟨V1Utils.funs ++ funs, errs⟩

theorem atob (fuel d : Nat) (b : Bool) : P.call fuel (d + 1) (str% "atob") [.bool b] = (pure (.u8 (V1.atob b)) : Prog V) := by
  rw [call_of (f := V1Utils.fun_atob) (by rfl) (by rfl)]
  unfold V1Utils.fun_atob
  srcp
  cases b <;> rfl

theorem seekbit (fuel d : Nat) (off : Int64) (r : Bool) :
    P.call fuel (d + 1) (str% "seekbit") [.i64 off, .bool r] =
    (V1.Buffer.seekbit off r >>= fun x => pure .unit : Prog V) := by
  rw [call_of (f := fun_seekbit) (by rfl) (by rfl)]
  unfold fun_seekbit
  srcp
  prog [V1.Buffer.seekbit]

theorem seekbit_num (fuel d : Nat) (off : Nat) (r : Bool) :
    P.call fuel (d + 1) (str% "seekbit") [.num off, .bool r] =
    (V1.Buffer.seekbit (Int64.ofNat off) r >>= fun x => pure .unit : Prog V) := by
  rw [call_of (f := fun_seekbit) (by rfl) (by rfl)]
  unfold fun_seekbit
  srcp
  prog [V1.Buffer.seekbit]

theorem readbit (fuel d : Nat) (off : Int64) :
    P.call fuel (d + 2) (str% "readbit") [.i64 off] =
    (V1.Buffer.readbit off >>= fun x => pure (.u8 x) : Prog V) := by
  rw [call_of (f := fun_readbit) (by rfl) (by rfl)]
  unfold fun_readbit
  srcp [↓use_pure (atob fuel d _)]
  prog [V1.Buffer.readbit, bne_decide]

theorem readbits (fuel d : Nat) (hf : 2 ^ 64 < fuel) (off : Int64) (n : Int64) :
    P.call fuel (d + 3) (str% "readbits") [.i64 off, .i64 n] =
    (V1.Buffer.readbits off n >>= fun x => pure (.u64 x) : Prog V) := by
  rw [call_of (f := fun_readbits) (by rfl) (by rfl)]
  unfold fun_readbits
  srcp [↓use (readbit fuel d _)]
  prog [V1.Buffer.readbits]
  downp
  refine loopFor_bind (U := Unit) (prog_forLoop _ _) (fun a u i => [.i64 off, .i64 n, .u64 a, .i64 i]) ?_ ?_ ?_
    (fun _ _ _ => rfl) _ 0 0 () (Nat.lt_of_le_of_lt (left_le _ _) hf)
  · intro i a u k; srcp
  · intro i a u k; srcp
  · intro i a u k k' h
    srcp [↓use (readbit fuel d _)]
    try prog
    downp
    all_goals first | exact h _ u | exact h _ _

theorem setbit (fuel d : Nat) (off : Int64) (data : UInt8) :
    P.call fuel (d + 1) (str% "setbit") [.i64 off, .u8 data] =
    (V1.Buffer.setbit off data >>= fun x => pure .unit : Prog V) := by
  rw [call_of (f := fun_setbit) (by rfl) (by rfl)]
  unfold fun_setbit
  srcp
  prog [V1.Buffer.setbit]

theorem setbits (fuel d : Nat) (hf : 2 ^ 64 < fuel) (off : Int64) (data : UInt64) (n : Int64) :
    P.call fuel (d + 2) (str% "setbits") [.i64 off, .u64 data, .i64 n] =
    (V1.Buffer.setbits off data n >>= fun x => pure .unit : Prog V) := by
  rw [call_of (f := fun_setbits) (by rfl) (by rfl)]
  unfold fun_setbits
  srcp [↓use (setbit fuel d _ _)]
  prog [V1.Buffer.setbits]
  downp
  refine loopFor_bind (U := Unit) (prog_forLoop _ _) (fun a u i => [.i64 off, .u64 data, .i64 n, .i64 i]) ?_ ?_ ?_
    (fun _ _ _ => rfl) _ 0 () () (Nat.lt_of_le_of_lt (left_le _ _) hf)
  · intro i a u k; srcp
  · intro i a u k; srcp
  · intro i a u k k' h
    srcp [↓use (setbit fuel d _ _)]
    try prog
    downp
    all_goals first | exact h _ u | exact h _ _

theorem flipbit (fuel d : Nat) (off : Int64) :
    P.call fuel (d + 1) (str% "flipbit") [.i64 off] =
    (V1.Buffer.flipbit off >>= fun x => pure .unit : Prog V) := by
  rw [call_of (f := fun_flipbit) (by rfl) (by rfl)]
  unfold fun_flipbit
  srcp
  prog [V1.Buffer.flipbit]

theorem clearallbits (fuel d : Nat) (hf : 2 ^ 64 < fuel) :
    P.call fuel (d + 1) (str% "clearallbits") [] =
    (V1.Buffer.clearallbits >>= fun x => pure .unit : Prog V) := by
  rw [call_of (f := fun_clearallbits) (by rfl) (by rfl)]
  unfold fun_clearallbits
  srcp
  prog [V1.Buffer.clearallbits]
  downp
  refine loopRange_bind (U := V) (prog_forLoop _ _) (fun a u => [u]) ?_
    (fun _ _ => rfl) _ 0 () .unit (Nat.lt_of_le_of_lt (left_le _ _) hf)
  intro i a u k k' h
  srcp
  try prog
  downp
  all_goals first | exact h _ u | exact h _ _

theorem setallbits (fuel d : Nat) (hf : 2 ^ 64 < fuel) :
    P.call fuel (d + 1) (str% "setallbits") [] =
    (V1.Buffer.setallbits >>= fun x => pure .unit : Prog V) := by
  rw [call_of (f := fun_setallbits) (by rfl) (by rfl)]
  unfold fun_setallbits
  srcp
  prog [V1.Buffer.setallbits]
  downp
  refine loopRange_bind (U := V) (prog_forLoop _ _) (fun a u => [u]) ?_
    (fun _ _ => rfl) _ 0 () .unit (Nat.lt_of_le_of_lt (left_le _ _) hf)
  intro i a u k k' h
  srcp
  try prog
  downp
  all_goals first | exact h _ u | exact h _ _

theorem flipallbits (fuel d : Nat) (hf : 2 ^ 64 < fuel) :
    P.call fuel (d + 1) (str% "flipallbits") [] =
    (V1.Buffer.flipallbits >>= fun x => pure .unit : Prog V) := by
  rw [call_of (f := fun_flipallbits) (by rfl) (by rfl)]
  unfold fun_flipallbits
  srcp
  prog [V1.Buffer.flipallbits]
  downp
  refine loopRange_bind (U := V) (prog_forLoop _ _) (fun a u => [u]) ?_
    (fun _ _ => rfl) _ 0 () .unit (Nat.lt_of_le_of_lt (left_le _ _) hf)
  intro i a u k k' h
  srcp
  try prog
  downp
  all_goals first | exact h _ u | exact h _ _

theorem afterbit (fuel d : Nat) (l : List Int64) (hl : l.length < 2 ^ 63) :
    P.call fuel (d + 1) (str% "afterbit") [.li64 l] =
    (V1.Buffer.afterbit l >>= fun x => pure (.i64 x) : Prog V) := by
  rw [call_of (f := fun_afterbit) (by rfl) (by rfl)]
  unfold fun_afterbit
  srcp
  prog [V1.Buffer.afterbit]
  rcases l with _ | ⟨o, l⟩
  · rfl
  · rw [if_neg (len_cons_ne hl)]
    rfl

theorem write (fuel d : Nat) (hf : 2 ^ 64 < fuel) (off : Int64) (data : Crunch.Src) :
    P.call fuel (d + 1) (str% "write") [.i64 off, .bytes data] =
    (V1.Buffer.write off data >>= fun x => pure .unit : Prog V) := by
  rw [call_of (f := fun_write) (by rfl) (by rfl)]
  unfold fun_write
  srcp
  prog [V1.Buffer.write]
  downp
  refine loopGoto_bind (U := Unit) (prog_doLoop _ _) (fun a u i => [.i64 off, .bytes data, .i64 i, .i64 (Int64.ofNat data.len)]) ?_
    (fun _ _ _ => rfl) _ 0 () () (Nat.le_trans (rounds_le _ _) hf)
  intro i a u k k' h
  srcp
  try prog
  downp
  all_goals first | exact h _ u | exact h _ _

theorem read (fuel d : Nat) (off : Int64) (n : Int64) :
    P.call fuel (d + 1) (str% "read") [.i64 off, .i64 n] =
    (V1.Buffer.read off n >>= fun x => pure (.bytes (.mem x)) : Prog V) := by
  rw [call_of (f := fun_read) (by rfl) (by rfl)]
  unfold fun_read
  srcp
  prog [V1.Buffer.read]

theorem read_num (fuel d : Nat) (off : Int64) (n : Nat) :
    P.call fuel (d + 1) (str% "read") [.i64 off, .num n] =
    (V1.Buffer.read off (Int64.ofNat n) >>= fun x => pure (.bytes (.mem x)) : Prog V) := by
  rw [call_of (f := fun_read) (by rfl) (by rfl)]
  unfold fun_read
  srcp
  prog [V1.Buffer.read]

theorem seek (fuel d : Nat) (off : Int64) (r : Bool) :
    P.call fuel (d + 1) (str% "seek") [.i64 off, .bool r] =
    (V1.Buffer.seek off r >>= fun x => pure .unit : Prog V) := by
  rw [call_of (f := fun_seek) (by rfl) (by rfl)]
  unfold fun_seek
  srcp
  prog [V1.Buffer.seek]

theorem seek_num (fuel d : Nat) (off : Nat) (r : Bool) :
    P.call fuel (d + 1) (str% "seek") [.num off, .bool r] =
    (V1.Buffer.seek (Int64.ofNat off) r >>= fun x => pure .unit : Prog V) := by
  rw [call_of (f := fun_seek) (by rfl) (by rfl)]
  unfold fun_seek
  srcp
  prog [V1.Buffer.seek]

theorem after (fuel d : Nat) (l : List Int64) (hl : l.length < 2 ^ 63) :
    P.call fuel (d + 1) (str% "after") [.li64 l] =
    (V1.Buffer.after l >>= fun x => pure (.i64 x) : Prog V) := by
  rw [call_of (f := fun_after) (by rfl) (by rfl)]
  unfold fun_after
  srcp
  prog [V1.Buffer.after]
  rcases l with _ | ⟨o, l⟩
  · rfl
  · rw [if_neg (len_cons_ne hl)]
    rfl

theorem refresh (fuel d : Nat) :
    P.call fuel (d + 1) (str% "refresh") [] =
    (V1.Buffer.refresh >>= fun x => pure .unit : Prog V) := by
  rw [call_of (f := fun_refresh) (by rfl) (by rfl)]
  unfold fun_refresh
  srcp
  prog [V1.Buffer.refresh]

theorem grow (fuel d : Nat) (n : Int64) :
    P.call fuel (d + 2) (str% "grow") [.i64 n] =
    (V1.Buffer.grow n >>= fun x => pure .unit : Prog V) := by
  rw [call_of (f := fun_grow) (by rfl) (by rfl)]
  unfold fun_grow
  srcp [↓use (refresh fuel d)]
  prog [V1.Buffer.grow]

theorem alignbit (fuel d : Nat) :
    P.call fuel (d + 1) (str% "alignbit") [] =
    (V1.Buffer.alignbit >>= fun x => pure .unit : Prog V) := by
  rw [call_of (f := fun_alignbit) (by rfl) (by rfl)]
  unfold fun_alignbit
  srcp
  prog [V1.Buffer.alignbit]

theorem alignbyte (fuel d : Nat) :
    P.call fuel (d + 1) (str% "alignbyte") [] =
    (V1.Buffer.alignbyte >>= fun x => pure .unit : Prog V) := by
  rw [call_of (f := fun_alignbyte) (by rfl) (by rfl)]
  unfold fun_alignbyte
  srcp
  prog [V1.Buffer.alignbyte]

theorem NewBuffer (fuel d : Nat) (hf : 2 ^ 64 < fuel) (l : List Slice) (hl : l.length < 2 ^ 63) :
    P.call fuel (d + 2) (str% "NewBuffer") [.slices l] = (V1.Buffer.NewBuffer l >>= fun x => pure .unit : Prog V) := by
  rw [call_of (f := fun_NewBuffer) (by rfl) (by rfl)]
  unfold fun_NewBuffer
  srcp [↓use (refresh fuel d)]
  prog [List.reverse_nil]
  rcases l with _ | ⟨s, _ | ⟨t, l⟩⟩
  · simp only [V1.Buffer.NewBuffer]; prog; rfl
  · simp only [V1.Buffer.NewBuffer]; prog; rfl
  · rw [if_neg (len_cons_ne hl), if_neg (len_cons_cons_ne hl)]
    simp only [V1.Buffer.NewBuffer]
    prog
    downp
    refine loopRange_bind (U := V) (prog_forLoop _ _) (fun a u => [.slices (s :: t :: l), u]) ?_
      (fun _ _ => rfl) _ 0 () .unit (Nat.lt_of_le_of_lt (left_le _ _) hf)
    intro i a u k k' h
    srcp
    prog
    downp
    exact h _ _

theorem Bytes (fuel d : Nat) :
    P.call fuel (d + 1) (str% "Bytes") [] =
    (V1.Buffer.Bytes >>= fun x => pure (.bytes (.mem x)) : Prog V) := by
  rw [call_of (f := fun_Bytes) (by rfl) (by rfl)]
  unfold fun_Bytes
  srcp
  prog [V1.Buffer.Bytes]

theorem Capacity (fuel d : Nat) :
    P.call fuel (d + 1) (str% "Capacity") [] =
    (V1.Buffer.Capacity >>= fun x => pure (.i64 x) : Prog V) := by
  rw [call_of (f := fun_Capacity) (by rfl) (by rfl)]
  unfold fun_Capacity
  srcp
  prog [V1.Buffer.Capacity]

theorem BitCapacity (fuel d : Nat) :
    P.call fuel (d + 1) (str% "BitCapacity") [] =
    (V1.Buffer.BitCapacity >>= fun x => pure (.i64 x) : Prog V) := by
  rw [call_of (f := fun_BitCapacity) (by rfl) (by rfl)]
  unfold fun_BitCapacity
  srcp
  prog [V1.Buffer.BitCapacity]

theorem Offset (fuel d : Nat) :
    P.call fuel (d + 1) (str% "Offset") [] =
    (V1.Buffer.Offset >>= fun x => pure (.i64 x) : Prog V) := by
  rw [call_of (f := fun_Offset) (by rfl) (by rfl)]
  unfold fun_Offset
  srcp
  prog [V1.Buffer.Offset]

theorem BitOffset (fuel d : Nat) :
    P.call fuel (d + 1) (str% "BitOffset") [] =
    (V1.Buffer.BitOffset >>= fun x => pure (.i64 x) : Prog V) := by
  rw [call_of (f := fun_BitOffset) (by rfl) (by rfl)]
  unfold fun_BitOffset
  srcp
  prog [V1.Buffer.BitOffset]

theorem Refresh (fuel d : Nat) :
    P.call fuel (d + 2) (str% "Refresh") [] =
    (V1.Buffer.Refresh >>= fun x => pure .unit : Prog V) := by
  rw [call_of (f := fun_Refresh) (by rfl) (by rfl)]
  unfold fun_Refresh
  srcp [↓use (refresh fuel d)]
  prog [V1.Buffer.Refresh]

theorem Grow (fuel d : Nat) (n : Int64) :
    P.call fuel (d + 3) (str% "Grow") [.i64 n] =
    (V1.Buffer.Grow n >>= fun x => pure .unit : Prog V) := by
  rw [call_of (f := fun_Grow) (by rfl) (by rfl)]
  unfold fun_Grow
  srcp [↓use (grow fuel d _)]
  prog [V1.Buffer.Grow]

theorem Seek (fuel d : Nat) (off : Int64) (r : Bool) :
    P.call fuel (d + 2) (str% "Seek") [.i64 off, .bool r] =
    (V1.Buffer.Seek off r >>= fun x => pure .unit : Prog V) := by
  rw [call_of (f := fun_Seek) (by rfl) (by rfl)]
  unfold fun_Seek
  srcp [↓use (seek fuel d _ _)]
  prog [V1.Buffer.Seek]

theorem SeekBit (fuel d : Nat) (off : Int64) (r : Bool) :
    P.call fuel (d + 2) (str% "SeekBit") [.i64 off, .bool r] =
    (V1.Buffer.SeekBit off r >>= fun x => pure .unit : Prog V) := by
  rw [call_of (f := fun_SeekBit) (by rfl) (by rfl)]
  unfold fun_SeekBit
  srcp [↓use (seekbit fuel d _ _)]
  prog [V1.Buffer.SeekBit]

theorem AlignBit (fuel d : Nat) :
    P.call fuel (d + 2) (str% "AlignBit") [] =
    (V1.Buffer.AlignBit >>= fun x => pure .unit : Prog V) := by
  rw [call_of (f := fun_AlignBit) (by rfl) (by rfl)]
  unfold fun_AlignBit
  srcp [↓use (alignbit fuel d)]
  prog [V1.Buffer.AlignBit]

theorem AlignByte (fuel d : Nat) :
    P.call fuel (d + 2) (str% "AlignByte") [] =
    (V1.Buffer.AlignByte >>= fun x => pure .unit : Prog V) := by
  rw [call_of (f := fun_AlignByte) (by rfl) (by rfl)]
  unfold fun_AlignByte
  srcp [↓use (alignbyte fuel d)]
  prog [V1.Buffer.AlignByte]

theorem After (fuel d : Nat) (l : List Int64) (hl : l.length < 2 ^ 63) :
    P.call fuel (d + 2) (str% "After") [.li64 l] =
    (V1.Buffer.After l >>= fun x => pure (.i64 x) : Prog V) := by
  rw [call_of (f := fun_After) (by rfl) (by rfl)]
  unfold fun_After
  srcp [↓use (after fuel d l hl)]
  prog [V1.Buffer.After]

theorem AfterBit (fuel d : Nat) (l : List Int64) (hl : l.length < 2 ^ 63) :
    P.call fuel (d + 2) (str% "AfterBit") [.li64 l] =
    (V1.Buffer.AfterBit l >>= fun x => pure (.i64 x) : Prog V) := by
  rw [call_of (f := fun_AfterBit) (by rfl) (by rfl)]
  unfold fun_AfterBit
  srcp [↓use (afterbit fuel d l hl)]
  prog [V1.Buffer.AfterBit]

theorem ReadByte (fuel d : Nat) (off : Int64) :
    P.call fuel (d + 2) (str% "ReadByte") [.i64 off] =
    (V1.Buffer.ReadByte off >>= fun x => pure (.u8 x) : Prog V) := by
  rw [call_of (f := fun_ReadByte) (by rfl) (by rfl)]
  unfold fun_ReadByte
  srcp [↓use (read_num fuel d _ _)]
  prog [V1.Buffer.ReadByte]

theorem WriteByte (fuel d : Nat) (hf : 2 ^ 64 < fuel) (off : Int64) (data : UInt8) :
    P.call fuel (d + 2) (str% "WriteByte") [.i64 off, .u8 data] =
    (V1.Buffer.WriteByte off data >>= fun x => pure .unit : Prog V) := by
  rw [call_of (f := fun_WriteByte) (by rfl) (by rfl)]
  unfold fun_WriteByte
  srcp [↓use (write fuel d hf _ _)]
  prog [V1.Buffer.WriteByte]

theorem ReadByteNext (fuel d : Nat) :
    P.call fuel (d + 2) (str% "ReadByteNext") [] =
    (V1.Buffer.ReadByteNext >>= fun x => pure (.u8 x) : Prog V) := by
  rw [call_of (f := fun_ReadByteNext) (by rfl) (by rfl)]
  unfold fun_ReadByteNext
  srcp [↓use (read_num fuel d _ _), ↓use (seek_num fuel d _ _)]
  prog [V1.Buffer.ReadByteNext]

theorem WriteByteNext (fuel d : Nat) (hf : 2 ^ 64 < fuel) (data : UInt8) :
    P.call fuel (d + 2) (str% "WriteByteNext") [.u8 data] =
    (V1.Buffer.WriteByteNext data >>= fun x => pure .unit : Prog V) := by
  rw [call_of (f := fun_WriteByteNext) (by rfl) (by rfl)]
  unfold fun_WriteByteNext
  srcp [↓use (write fuel d hf _ _), ↓use (seek_num fuel d _ _)]
  prog [V1.Buffer.WriteByteNext]

theorem ReadBytes (fuel d : Nat) (off : Int64) (n : Int64) :
    P.call fuel (d + 2) (str% "ReadBytes") [.i64 off, .i64 n] =
    (V1.Buffer.ReadBytes off n >>= fun x => pure (.bytes (.mem x)) : Prog V) := by
  rw [call_of (f := fun_ReadBytes) (by rfl) (by rfl)]
  unfold fun_ReadBytes
  srcp [↓use (read fuel d _ _)]
  prog [V1.Buffer.ReadBytes]

theorem WriteBytes (fuel d : Nat) (hf : 2 ^ 64 < fuel) (off : Int64) (data : Slice) :
    P.call fuel (d + 2) (str% "WriteBytes") [.i64 off, .bytes (.mem data)] =
    (V1.Buffer.WriteBytes off data >>= fun x => pure .unit : Prog V) := by
  rw [call_of (f := fun_WriteBytes) (by rfl) (by rfl)]
  unfold fun_WriteBytes
  srcp [↓use (write fuel d hf _ _)]
  prog [V1.Buffer.WriteBytes]

theorem ReadBytesNext (fuel d : Nat) (n : Int64) :
    P.call fuel (d + 2) (str% "ReadBytesNext") [.i64 n] =
    (V1.Buffer.ReadBytesNext n >>= fun x => pure (.bytes (.mem x)) : Prog V) := by
  rw [call_of (f := fun_ReadBytesNext) (by rfl) (by rfl)]
  unfold fun_ReadBytesNext
  srcp [↓use (read fuel d _ _), ↓use (seek fuel d _ _)]
  prog [V1.Buffer.ReadBytesNext]

theorem WriteBytesNext (fuel d : Nat) (hf : 2 ^ 64 < fuel) (data : Slice) :
    P.call fuel (d + 2) (str% "WriteBytesNext") [.bytes (.mem data)] =
    (V1.Buffer.WriteBytesNext data >>= fun x => pure .unit : Prog V) := by
  rw [call_of (f := fun_WriteBytesNext) (by rfl) (by rfl)]
  unfold fun_WriteBytesNext
  srcp [↓use (write fuel d hf _ _), ↓use (seek fuel d _ _)]
  prog [V1.Buffer.WriteBytesNext]

theorem ReadBit (fuel d : Nat) (off : Int64) :
    P.call fuel (d + 3) (str% "ReadBit") [.i64 off] =
    (V1.Buffer.ReadBit off >>= fun x => pure (.u8 x) : Prog V) := by
  rw [call_of (f := fun_ReadBit) (by rfl) (by rfl)]
  unfold fun_ReadBit
  srcp [↓use (readbit fuel d _)]
  prog [V1.Buffer.ReadBit]

theorem ReadBits (fuel d : Nat) (hf : 2 ^ 64 < fuel) (off : Int64) (n : Int64) :
    P.call fuel (d + 4) (str% "ReadBits") [.i64 off, .i64 n] =
    (V1.Buffer.ReadBits off n >>= fun x => pure (.u64 x) : Prog V) := by
  rw [call_of (f := fun_ReadBits) (by rfl) (by rfl)]
  unfold fun_ReadBits
  srcp [↓use (readbits fuel d hf _ _)]
  prog [V1.Buffer.ReadBits]

theorem ReadBitNext (fuel d : Nat) :
    P.call fuel (d + 3) (str% "ReadBitNext") [] =
    (V1.Buffer.ReadBitNext >>= fun x => pure (.u8 x) : Prog V) := by
  rw [call_of (f := fun_ReadBitNext) (by rfl) (by rfl)]
  unfold fun_ReadBitNext
  srcp [↓use (readbit fuel d _), ↓use (seekbit_num fuel (d + 1) _ _)]
  prog [V1.Buffer.ReadBitNext]

theorem ReadBitsNext (fuel d : Nat) (hf : 2 ^ 64 < fuel) (n : Int64) :
    P.call fuel (d + 4) (str% "ReadBitsNext") [.i64 n] =
    (V1.Buffer.ReadBitsNext n >>= fun x => pure (.u64 x) : Prog V) := by
  rw [call_of (f := fun_ReadBitsNext) (by rfl) (by rfl)]
  unfold fun_ReadBitsNext
  srcp [↓use (readbits fuel d hf _ _), ↓use (seekbit fuel (d + 2) _ _)]
  prog [V1.Buffer.ReadBitsNext]

theorem SetBit (fuel d : Nat) (off : Int64) (data : UInt8) :
    P.call fuel (d + 2) (str% "SetBit") [.i64 off, .u8 data] =
    (V1.Buffer.SetBit off data >>= fun x => pure .unit : Prog V) := by
  rw [call_of (f := fun_SetBit) (by rfl) (by rfl)]
  unfold fun_SetBit
  srcp [↓use (setbit fuel d _ _)]
  prog [V1.Buffer.SetBit]

theorem SetBits (fuel d : Nat) (hf : 2 ^ 64 < fuel) (off : Int64) (data : UInt64) (n : Int64) :
    P.call fuel (d + 3) (str% "SetBits") [.i64 off, .u64 data, .i64 n] =
    (V1.Buffer.SetBits off data n >>= fun x => pure .unit : Prog V) := by
  rw [call_of (f := fun_SetBits) (by rfl) (by rfl)]
  unfold fun_SetBits
  srcp [↓use (setbits fuel d hf _ _ _)]
  prog [V1.Buffer.SetBits]

theorem SetBitNext (fuel d : Nat) (data : UInt8) :
    P.call fuel (d + 2) (str% "SetBitNext") [.u8 data] =
    (V1.Buffer.SetBitNext data >>= fun x => pure .unit : Prog V) := by
  rw [call_of (f := fun_SetBitNext) (by rfl) (by rfl)]
  unfold fun_SetBitNext
  srcp [↓use (setbit fuel d _ _), ↓use (seekbit_num fuel d _ _)]
  prog [V1.Buffer.SetBitNext]

theorem SetBitsNext (fuel d : Nat) (hf : 2 ^ 64 < fuel) (data : UInt64) (n : Int64) :
    P.call fuel (d + 3) (str% "SetBitsNext") [.u64 data, .i64 n] =
    (V1.Buffer.SetBitsNext data n >>= fun x => pure .unit : Prog V) := by
  rw [call_of (f := fun_SetBitsNext) (by rfl) (by rfl)]
  unfold fun_SetBitsNext
  srcp [↓use (setbits fuel d hf _ _ _), ↓use (seekbit fuel (d + 1) _ _)]
  prog [V1.Buffer.SetBitsNext]

theorem FlipBit (fuel d : Nat) (off : Int64) :
    P.call fuel (d + 2) (str% "FlipBit") [.i64 off] =
    (V1.Buffer.FlipBit off >>= fun x => pure .unit : Prog V) := by
  rw [call_of (f := fun_FlipBit) (by rfl) (by rfl)]
  unfold fun_FlipBit
  srcp [↓use (flipbit fuel d _)]
  prog [V1.Buffer.FlipBit]

theorem FlipBitNext (fuel d : Nat) :
    P.call fuel (d + 2) (str% "FlipBitNext") [] =
    (V1.Buffer.FlipBitNext >>= fun x => pure .unit : Prog V) := by
  rw [call_of (f := fun_FlipBitNext) (by rfl) (by rfl)]
  unfold fun_FlipBitNext
  srcp [↓use (flipbit fuel d _), ↓use (seekbit_num fuel d _ _)]
  prog [V1.Buffer.FlipBitNext]

theorem ClearAllBits (fuel d : Nat) (hf : 2 ^ 64 < fuel) :
    P.call fuel (d + 2) (str% "ClearAllBits") [] =
    (V1.Buffer.ClearAllBits >>= fun x => pure .unit : Prog V) := by
  rw [call_of (f := fun_ClearAllBits) (by rfl) (by rfl)]
  unfold fun_ClearAllBits
  srcp [↓use (clearallbits fuel d hf)]
  prog [V1.Buffer.ClearAllBits]

theorem SetAllBits (fuel d : Nat) (hf : 2 ^ 64 < fuel) :
    P.call fuel (d + 2) (str% "SetAllBits") [] =
    (V1.Buffer.SetAllBits >>= fun x => pure .unit : Prog V) := by
  rw [call_of (f := fun_SetAllBits) (by rfl) (by rfl)]
  unfold fun_SetAllBits
  srcp [↓use (setallbits fuel d hf)]
  prog [V1.Buffer.SetAllBits]

theorem FlipAllBits (fuel d : Nat) (hf : 2 ^ 64 < fuel) :
    P.call fuel (d + 2) (str% "FlipAllBits") [] =
    (V1.Buffer.FlipAllBits >>= fun x => pure .unit : Prog V) := by
  rw [call_of (f := fun_FlipAllBits) (by rfl) (by rfl)]
  unfold fun_FlipAllBits
  srcp [↓use (flipallbits fuel d hf)]
  prog [V1.Buffer.FlipAllBits]

end Crunch.Src.V1Buffer
