import Verif.Src.TacticProg
import Verif.Src.Text.V2Buffer
import Verif.Src.Text.V2Utils
import Verif.V2.Buffer

/-! The methods of v2/buffer.go other than the typed ones, from their text.  Written by tools/src_proofs.py. -/

set_option linter.unusedVariables false
set_option linter.unusedSimpArgs false

namespace Crunch.Src.V2Buffer
open V3.Mini (onB callOut)

/-- the errors of v2/errors.go -/
def errs : List (Gen.Str × GoError) := [
  (str% "BufferOverreadError", V2.BufferOverreadError),
  (str% "BufferUnderreadError", V2.BufferUnderreadError),
  (str% "BufferOverwriteError", V2.BufferOverwriteError),
  (str% "BufferUnderwriteError", V2.BufferUnderwriteError),
  (str% "BufferInvalidByteCountError", V2.BufferInvalidByteCountError),
  (str% "BufferInvalidBitError", V2.BufferInvalidBitError)]

/-- the package: v2/buffer.go and v2/utils.go -/
def P : Pkg := ⟨V2Utils.funs ++ funs, errs⟩

theorem atob (fuel d : Nat) (b : Bool) : P.call fuel (d + 1) (str% "atob") [.bool b] = (pure (.u8 (V2.atob b)) : Prog V) := by
  rw [call_of (f := V2Utils.fun_atob) (by rfl) (by rfl)]
  unfold V2Utils.fun_atob
  srcp
  cases b <;> rfl

theorem seekbit (fuel d : Nat) (off : Int64) (r : Bool) :
    P.call fuel (d + 1) (str% "seekbit") [.i64 off, .bool r] =
    (V2.Buffer.seekbit off r >>= fun x => pure .unit : Prog V) := by
  rw [call_of (f := fun_seekbit) (by rfl) (by rfl)]
  unfold fun_seekbit
  srcp
  prog [V2.Buffer.seekbit]

theorem seekbit_num (fuel d : Nat) (off : Nat) (r : Bool) :
    P.call fuel (d + 1) (str% "seekbit") [.num off, .bool r] =
    (V2.Buffer.seekbit (Int64.ofNat off) r >>= fun x => pure .unit : Prog V) := by
  rw [call_of (f := fun_seekbit) (by rfl) (by rfl)]
  unfold fun_seekbit
  srcp
  prog [V2.Buffer.seekbit]

theorem readbit (fuel d : Nat) (off : Int64) :
    P.call fuel (d + 2) (str% "readbit") [.i64 off] =
    (V2.Buffer.readbit off >>= fun x => pure (.u8 x) : Prog V) := by
  rw [call_of (f := fun_readbit) (by rfl) (by rfl)]
  unfold fun_readbit
  srcp [↓use_pure (atob fuel d _)]
  prog [V2.Buffer.readbit, bne_decide]

theorem readbits (fuel d : Nat) (hf : 2 ^ 64 < fuel) (off : Int64) (n : Int64) :
    P.call fuel (d + 3) (str% "readbits") [.i64 off, .i64 n] =
    (V2.Buffer.readbits off n >>= fun x => pure (.u64 x) : Prog V) := by
  rw [call_of (f := fun_readbits) (by rfl) (by rfl)]
  unfold fun_readbits
  srcp [↓use (readbit fuel d _)]
  prog [V2.Buffer.readbits]
  downp
  refine loopGoto_bind (U := Unit) (prog_doLoop _ _) (fun a u i => [.i64 off, .i64 n, .u64 a, .i64 i]) ?_
    (fun _ _ _ => rfl) _ 0 0 () (Nat.le_trans (rounds_le _ _) hf)
  intro i a u k k' h
  srcp [↓use (readbit fuel d _)]
  try prog
  downp
  all_goals first | exact h _ u | exact h _ _

theorem setbit (fuel d : Nat) (off : Int64) (data : UInt8) :
    P.call fuel (d + 1) (str% "setbit") [.i64 off, .u8 data] =
    (V2.Buffer.setbit off data >>= fun x => pure .unit : Prog V) := by
  rw [call_of (f := fun_setbit) (by rfl) (by rfl)]
  unfold fun_setbit
  srcp
  prog [V2.Buffer.setbit]

theorem setbits (fuel d : Nat) (hf : 2 ^ 64 < fuel) (off : Int64) (data : UInt64) (n : Int64) :
    P.call fuel (d + 2) (str% "setbits") [.i64 off, .u64 data, .i64 n] =
    (V2.Buffer.setbits off data n >>= fun x => pure .unit : Prog V) := by
  rw [call_of (f := fun_setbits) (by rfl) (by rfl)]
  unfold fun_setbits
  srcp [↓use (setbit fuel d _ _)]
  prog [V2.Buffer.setbits]
  downp
  refine loopGoto_bind (U := Unit) (prog_doLoop _ _) (fun a u i => [.i64 off, .u64 data, .i64 n, .i64 i]) ?_
    (fun _ _ _ => rfl) _ 0 () () (Nat.le_trans (rounds_le _ _) hf)
  intro i a u k k' h
  srcp [↓use (setbit fuel d _ _)]
  try prog
  downp
  all_goals first | exact h _ u | exact h _ _

theorem flipbit (fuel d : Nat) (off : Int64) :
    P.call fuel (d + 1) (str% "flipbit") [.i64 off] =
    (V2.Buffer.flipbit off >>= fun x => pure .unit : Prog V) := by
  rw [call_of (f := fun_flipbit) (by rfl) (by rfl)]
  unfold fun_flipbit
  srcp
  prog [V2.Buffer.flipbit]

theorem clearallbits (fuel d : Nat) (hf : 2 ^ 64 < fuel) :
    P.call fuel (d + 1) (str% "clearallbits") [] =
    (V2.Buffer.clearallbits >>= fun x => pure .unit : Prog V) := by
  rw [call_of (f := fun_clearallbits) (by rfl) (by rfl)]
  unfold fun_clearallbits
  srcp
  prog [V2.Buffer.clearallbits]
  downp
  refine loopGoto_bind (U := Unit) (prog_doLoop _ _) (fun a u i => [.i64 i, .i64 _]) ?_
    (fun _ _ _ => rfl) _ 0 () () (Nat.le_trans (rounds_le _ _) hf)
  intro i a u k k' h
  srcp
  try prog
  downp
  all_goals first | exact h _ u | exact h _ _

theorem setallbits (fuel d : Nat) (hf : 2 ^ 64 < fuel) :
    P.call fuel (d + 1) (str% "setallbits") [] =
    (V2.Buffer.setallbits >>= fun x => pure .unit : Prog V) := by
  rw [call_of (f := fun_setallbits) (by rfl) (by rfl)]
  unfold fun_setallbits
  srcp
  prog [V2.Buffer.setallbits]
  downp
  refine loopGoto_bind (U := Unit) (prog_doLoop _ _) (fun a u i => [.i64 i, .i64 _]) ?_
    (fun _ _ _ => rfl) _ 0 () () (Nat.le_trans (rounds_le _ _) hf)
  intro i a u k k' h
  srcp
  try prog
  downp
  all_goals first | exact h _ u | exact h _ _

theorem flipallbits (fuel d : Nat) (hf : 2 ^ 64 < fuel) :
    P.call fuel (d + 1) (str% "flipallbits") [] =
    (V2.Buffer.flipallbits >>= fun x => pure .unit : Prog V) := by
  rw [call_of (f := fun_flipallbits) (by rfl) (by rfl)]
  unfold fun_flipallbits
  srcp
  prog [V2.Buffer.flipallbits]
  downp
  refine loopGoto_bind (U := Unit) (prog_doLoop _ _) (fun a u i => [.i64 i, .i64 _]) ?_
    (fun _ _ _ => rfl) _ 0 () () (Nat.le_trans (rounds_le _ _) hf)
  intro i a u k k' h
  srcp
  try prog
  downp
  all_goals first | exact h _ u | exact h _ _

theorem afterbit (fuel d : Nat) (l : List Int64) (hl : l.length < 2 ^ 63) :
    P.call fuel (d + 1) (str% "afterbit") [.li64 l] =
    (V2.Buffer.afterbit l >>= fun x => pure (.i64 x) : Prog V) := by
  rw [call_of (f := fun_afterbit) (by rfl) (by rfl)]
  unfold fun_afterbit
  srcp
  prog [V2.Buffer.afterbit]
  rcases l with _ | ⟨o, l⟩
  · rfl
  · rw [if_neg (len_cons_ne hl)]
    rfl

theorem write (fuel d : Nat) (hf : 2 ^ 64 < fuel) (off : Int64) (data : Crunch.Src) :
    P.call fuel (d + 1) (str% "write") [.i64 off, .bytes data] =
    (V2.Buffer.write off data >>= fun x => pure .unit : Prog V) := by
  rw [call_of (f := fun_write) (by rfl) (by rfl)]
  unfold fun_write
  srcp
  prog [V2.Buffer.write]
  downp
  refine loopGoto_bind (U := Unit) (prog_doLoop _ _) (fun a u i => [.i64 off, .bytes data, .i64 i, .i64 (Int64.ofNat data.len)]) ?_
    (fun _ _ _ => rfl) _ 0 () () (Nat.le_trans (rounds_le _ _) hf)
  intro i a u k k' h
  srcp
  try prog
  downp
  all_goals first | exact h _ u | exact h _ _

theorem read (fuel d : Nat) (off : Int64) (n : Int64) :
    P.call fuel (d + 1) (str% "read") [.i64 off, .i64 n] =
    (V2.Buffer.read off n >>= fun x => pure (.bytes (.mem x)) : Prog V) := by
  rw [call_of (f := fun_read) (by rfl) (by rfl)]
  unfold fun_read
  srcp
  prog [V2.Buffer.read]

theorem read_num (fuel d : Nat) (off : Int64) (n : Nat) :
    P.call fuel (d + 1) (str% "read") [.i64 off, .num n] =
    (V2.Buffer.read off (Int64.ofNat n) >>= fun x => pure (.bytes (.mem x)) : Prog V) := by
  rw [call_of (f := fun_read) (by rfl) (by rfl)]
  unfold fun_read
  srcp
  prog [V2.Buffer.read]

theorem seek (fuel d : Nat) (off : Int64) (r : Bool) :
    P.call fuel (d + 1) (str% "seek") [.i64 off, .bool r] =
    (V2.Buffer.seek off r >>= fun x => pure .unit : Prog V) := by
  rw [call_of (f := fun_seek) (by rfl) (by rfl)]
  unfold fun_seek
  srcp
  prog [V2.Buffer.seek]

theorem seek_num (fuel d : Nat) (off : Nat) (r : Bool) :
    P.call fuel (d + 1) (str% "seek") [.num off, .bool r] =
    (V2.Buffer.seek (Int64.ofNat off) r >>= fun x => pure .unit : Prog V) := by
  rw [call_of (f := fun_seek) (by rfl) (by rfl)]
  unfold fun_seek
  srcp
  prog [V2.Buffer.seek]

theorem after (fuel d : Nat) (l : List Int64) (hl : l.length < 2 ^ 63) :
    P.call fuel (d + 1) (str% "after") [.li64 l] =
    (V2.Buffer.after l >>= fun x => pure (.i64 x) : Prog V) := by
  rw [call_of (f := fun_after) (by rfl) (by rfl)]
  unfold fun_after
  srcp
  prog [V2.Buffer.after]
  rcases l with _ | ⟨o, l⟩
  · rfl
  · rw [if_neg (len_cons_ne hl)]
    rfl

theorem refresh (fuel d : Nat) :
    P.call fuel (d + 1) (str% "refresh") [] =
    (V2.Buffer.refresh >>= fun x => pure .unit : Prog V) := by
  rw [call_of (f := fun_refresh) (by rfl) (by rfl)]
  unfold fun_refresh
  srcp
  prog [V2.Buffer.refresh]

theorem grow (fuel d : Nat) (n : Int64) :
    P.call fuel (d + 2) (str% "grow") [.i64 n] =
    (V2.Buffer.grow n >>= fun x => pure .unit : Prog V) := by
  rw [call_of (f := fun_grow) (by rfl) (by rfl)]
  unfold fun_grow
  srcp [↓use (refresh fuel d)]
  prog [V2.Buffer.grow]

theorem alignbit (fuel d : Nat) :
    P.call fuel (d + 1) (str% "alignbit") [] =
    (V2.Buffer.alignbit >>= fun x => pure .unit : Prog V) := by
  rw [call_of (f := fun_alignbit) (by rfl) (by rfl)]
  unfold fun_alignbit
  srcp
  prog [V2.Buffer.alignbit]

theorem alignbyte (fuel d : Nat) :
    P.call fuel (d + 1) (str% "alignbyte") [] =
    (V2.Buffer.alignbyte >>= fun x => pure .unit : Prog V) := by
  rw [call_of (f := fun_alignbyte) (by rfl) (by rfl)]
  unfold fun_alignbyte
  srcp
  prog [V2.Buffer.alignbyte]

theorem reset (fuel d : Nat) :
    P.call fuel (d + 1) (str% "reset") [] =
    (V2.Buffer.reset >>= fun x => pure .unit : Prog V) := by
  rw [call_of (f := fun_reset) (by rfl) (by rfl)]
  unfold fun_reset
  srcp
  prog [V2.Buffer.reset, List.reverse_nil]

theorem Reset (fuel d : Nat) :
    P.call fuel (d + 2) (str% "Reset") [] =
    (V2.Buffer.Reset >>= fun x => pure .unit : Prog V) := by
  rw [call_of (f := fun_Reset) (by rfl) (by rfl)]
  unfold fun_Reset
  srcp [↓use (reset fuel d)]
  prog [V2.Buffer.Reset]

theorem NewBuffer (fuel d : Nat) (hf : 2 ^ 64 < fuel) (l : List Slice) (hl : l.length < 2 ^ 63) :
    P.call fuel (d + 2) (str% "NewBuffer") [.slices l] = (V2.Buffer.NewBuffer l >>= fun x => pure .unit : Prog V) := by
  rw [call_of (f := fun_NewBuffer) (by rfl) (by rfl)]
  unfold fun_NewBuffer
  srcp [↓use (refresh fuel d)]
  prog [List.reverse_nil]
  rcases l with _ | ⟨s, _ | ⟨t, l⟩⟩
  · simp only [V2.Buffer.NewBuffer]; prog; rfl
  · simp only [V2.Buffer.NewBuffer]; prog; rfl
  · rw [if_neg (len_cons_ne hl), if_neg (len_cons_cons_ne hl)]
    simp only [V2.Buffer.NewBuffer]
    prog
    downp
    refine loopRange_bind (U := V) (prog_forLoop _ _) (fun a u => [.slices (s :: t :: l), u]) ?_
      (fun _ _ => rfl) _ 0 () .unit (Nat.lt_of_le_of_lt (left_le _ _) hf)
    intro i a u k k' h
    srcp
    prog
    downp
    exact h _ _

theorem Bytes (fuel d : Nat) :
    P.call fuel (d + 1) (str% "Bytes") [] =
    (V2.Buffer.Bytes >>= fun x => pure (.bytes (.mem x)) : Prog V) := by
  rw [call_of (f := fun_Bytes) (by rfl) (by rfl)]
  unfold fun_Bytes
  srcp
  prog [V2.Buffer.Bytes]

theorem Capacity (fuel d : Nat) :
    P.call fuel (d + 1) (str% "Capacity") [] =
    (V2.Buffer.Capacity >>= fun x => pure (.i64 x) : Prog V) := by
  rw [call_of (f := fun_Capacity) (by rfl) (by rfl)]
  unfold fun_Capacity
  srcp
  prog [V2.Buffer.Capacity]

theorem BitCapacity (fuel d : Nat) :
    P.call fuel (d + 1) (str% "BitCapacity") [] =
    (V2.Buffer.BitCapacity >>= fun x => pure (.i64 x) : Prog V) := by
  rw [call_of (f := fun_BitCapacity) (by rfl) (by rfl)]
  unfold fun_BitCapacity
  srcp
  prog [V2.Buffer.BitCapacity]

theorem Offset (fuel d : Nat) :
    P.call fuel (d + 1) (str% "Offset") [] =
    (V2.Buffer.Offset >>= fun x => pure (.i64 x) : Prog V) := by
  rw [call_of (f := fun_Offset) (by rfl) (by rfl)]
  unfold fun_Offset
  srcp
  prog [V2.Buffer.Offset]

theorem BitOffset (fuel d : Nat) :
    P.call fuel (d + 1) (str% "BitOffset") [] =
    (V2.Buffer.BitOffset >>= fun x => pure (.i64 x) : Prog V) := by
  rw [call_of (f := fun_BitOffset) (by rfl) (by rfl)]
  unfold fun_BitOffset
  srcp
  prog [V2.Buffer.BitOffset]

theorem Refresh (fuel d : Nat) :
    P.call fuel (d + 2) (str% "Refresh") [] =
    (V2.Buffer.Refresh >>= fun x => pure .unit : Prog V) := by
  rw [call_of (f := fun_Refresh) (by rfl) (by rfl)]
  unfold fun_Refresh
  srcp [↓use (refresh fuel d)]
  prog [V2.Buffer.Refresh]

theorem Grow (fuel d : Nat) (n : Int64) :
    P.call fuel (d + 3) (str% "Grow") [.i64 n] =
    (V2.Buffer.Grow n >>= fun x => pure .unit : Prog V) := by
  rw [call_of (f := fun_Grow) (by rfl) (by rfl)]
  unfold fun_Grow
  srcp [↓use (grow fuel d _)]
  prog [V2.Buffer.Grow]

theorem Seek (fuel d : Nat) (off : Int64) (r : Bool) :
    P.call fuel (d + 2) (str% "Seek") [.i64 off, .bool r] =
    (V2.Buffer.Seek off r >>= fun x => pure .unit : Prog V) := by
  rw [call_of (f := fun_Seek) (by rfl) (by rfl)]
  unfold fun_Seek
  srcp [↓use (seek fuel d _ _)]
  prog [V2.Buffer.Seek]

theorem SeekBit (fuel d : Nat) (off : Int64) (r : Bool) :
    P.call fuel (d + 2) (str% "SeekBit") [.i64 off, .bool r] =
    (V2.Buffer.SeekBit off r >>= fun x => pure .unit : Prog V) := by
  rw [call_of (f := fun_SeekBit) (by rfl) (by rfl)]
  unfold fun_SeekBit
  srcp [↓use (seekbit fuel d _ _)]
  prog [V2.Buffer.SeekBit]

theorem AlignBit (fuel d : Nat) :
    P.call fuel (d + 2) (str% "AlignBit") [] =
    (V2.Buffer.AlignBit >>= fun x => pure .unit : Prog V) := by
  rw [call_of (f := fun_AlignBit) (by rfl) (by rfl)]
  unfold fun_AlignBit
  srcp [↓use (alignbit fuel d)]
  prog [V2.Buffer.AlignBit]

theorem AlignByte (fuel d : Nat) :
    P.call fuel (d + 2) (str% "AlignByte") [] =
    (V2.Buffer.AlignByte >>= fun x => pure .unit : Prog V) := by
  rw [call_of (f := fun_AlignByte) (by rfl) (by rfl)]
  unfold fun_AlignByte
  srcp [↓use (alignbyte fuel d)]
  prog [V2.Buffer.AlignByte]

theorem After (fuel d : Nat) (l : List Int64) (hl : l.length < 2 ^ 63) :
    P.call fuel (d + 2) (str% "After") [.li64 l] =
    (V2.Buffer.After l >>= fun x => pure (.i64 x) : Prog V) := by
  rw [call_of (f := fun_After) (by rfl) (by rfl)]
  unfold fun_After
  srcp [↓use (after fuel d l hl)]
  prog [V2.Buffer.After]

theorem AfterBit (fuel d : Nat) (l : List Int64) (hl : l.length < 2 ^ 63) :
    P.call fuel (d + 2) (str% "AfterBit") [.li64 l] =
    (V2.Buffer.AfterBit l >>= fun x => pure (.i64 x) : Prog V) := by
  rw [call_of (f := fun_AfterBit) (by rfl) (by rfl)]
  unfold fun_AfterBit
  srcp [↓use (afterbit fuel d l hl)]
  prog [V2.Buffer.AfterBit]

theorem ReadByte (fuel d : Nat) (off : Int64) :
    P.call fuel (d + 2) (str% "ReadByte") [.i64 off] =
    (V2.Buffer.ReadByte off >>= fun x => pure (.u8 x) : Prog V) := by
  rw [call_of (f := fun_ReadByte) (by rfl) (by rfl)]
  unfold fun_ReadByte
  srcp [↓use (read_num fuel d _ _)]
  prog [V2.Buffer.ReadByte]

theorem WriteByte (fuel d : Nat) (hf : 2 ^ 64 < fuel) (off : Int64) (data : UInt8) :
    P.call fuel (d + 2) (str% "WriteByte") [.i64 off, .u8 data] =
    (V2.Buffer.WriteByte off data >>= fun x => pure .unit : Prog V) := by
  rw [call_of (f := fun_WriteByte) (by rfl) (by rfl)]
  unfold fun_WriteByte
  srcp [↓use (write fuel d hf _ _)]
  prog [V2.Buffer.WriteByte]

theorem ReadByteNext (fuel d : Nat) :
    P.call fuel (d + 2) (str% "ReadByteNext") [] =
    (V2.Buffer.ReadByteNext >>= fun x => pure (.u8 x) : Prog V) := by
  rw [call_of (f := fun_ReadByteNext) (by rfl) (by rfl)]
  unfold fun_ReadByteNext
  srcp [↓use (read_num fuel d _ _), ↓use (seek_num fuel d _ _)]
  prog [V2.Buffer.ReadByteNext]

theorem WriteByteNext (fuel d : Nat) (hf : 2 ^ 64 < fuel) (data : UInt8) :
    P.call fuel (d + 2) (str% "WriteByteNext") [.u8 data] =
    (V2.Buffer.WriteByteNext data >>= fun x => pure .unit : Prog V) := by
  rw [call_of (f := fun_WriteByteNext) (by rfl) (by rfl)]
  unfold fun_WriteByteNext
  srcp [↓use (write fuel d hf _ _), ↓use (seek_num fuel d _ _)]
  prog [V2.Buffer.WriteByteNext]

theorem ReadBytes (fuel d : Nat) (off : Int64) (n : Int64) :
    P.call fuel (d + 2) (str% "ReadBytes") [.i64 off, .i64 n] =
    (V2.Buffer.ReadBytes off n >>= fun x => pure (.bytes (.mem x)) : Prog V) := by
  rw [call_of (f := fun_ReadBytes) (by rfl) (by rfl)]
  unfold fun_ReadBytes
  srcp [↓use (read fuel d _ _)]
  prog [V2.Buffer.ReadBytes]

theorem WriteBytes (fuel d : Nat) (hf : 2 ^ 64 < fuel) (off : Int64) (data : Slice) :
    P.call fuel (d + 2) (str% "WriteBytes") [.i64 off, .bytes (.mem data)] =
    (V2.Buffer.WriteBytes off data >>= fun x => pure .unit : Prog V) := by
  rw [call_of (f := fun_WriteBytes) (by rfl) (by rfl)]
  unfold fun_WriteBytes
  srcp [↓use (write fuel d hf _ _)]
  prog [V2.Buffer.WriteBytes]

theorem ReadBytesNext (fuel d : Nat) (n : Int64) :
    P.call fuel (d + 2) (str% "ReadBytesNext") [.i64 n] =
    (V2.Buffer.ReadBytesNext n >>= fun x => pure (.bytes (.mem x)) : Prog V) := by
  rw [call_of (f := fun_ReadBytesNext) (by rfl) (by rfl)]
  unfold fun_ReadBytesNext
  srcp [↓use (read fuel d _ _), ↓use (seek fuel d _ _)]
  prog [V2.Buffer.ReadBytesNext]

theorem WriteBytesNext (fuel d : Nat) (hf : 2 ^ 64 < fuel) (data : Slice) :
    P.call fuel (d + 2) (str% "WriteBytesNext") [.bytes (.mem data)] =
    (V2.Buffer.WriteBytesNext data >>= fun x => pure .unit : Prog V) := by
  rw [call_of (f := fun_WriteBytesNext) (by rfl) (by rfl)]
  unfold fun_WriteBytesNext
  srcp [↓use (write fuel d hf _ _), ↓use (seek fuel d _ _)]
  prog [V2.Buffer.WriteBytesNext]

theorem ReadBit (fuel d : Nat) (off : Int64) :
    P.call fuel (d + 3) (str% "ReadBit") [.i64 off] =
    (V2.Buffer.ReadBit off >>= fun x => pure (.u8 x) : Prog V) := by
  rw [call_of (f := fun_ReadBit) (by rfl) (by rfl)]
  unfold fun_ReadBit
  srcp [↓use (readbit fuel d _)]
  prog [V2.Buffer.ReadBit]

theorem ReadBits (fuel d : Nat) (hf : 2 ^ 64 < fuel) (off : Int64) (n : Int64) :
    P.call fuel (d + 4) (str% "ReadBits") [.i64 off, .i64 n] =
    (V2.Buffer.ReadBits off n >>= fun x => pure (.u64 x) : Prog V) := by
  rw [call_of (f := fun_ReadBits) (by rfl) (by rfl)]
  unfold fun_ReadBits
  srcp [↓use (readbits fuel d hf _ _)]
  prog [V2.Buffer.ReadBits]

theorem ReadBitNext (fuel d : Nat) :
    P.call fuel (d + 3) (str% "ReadBitNext") [] =
    (V2.Buffer.ReadBitNext >>= fun x => pure (.u8 x) : Prog V) := by
  rw [call_of (f := fun_ReadBitNext) (by rfl) (by rfl)]
  unfold fun_ReadBitNext
  srcp [↓use (readbit fuel d _), ↓use (seekbit_num fuel (d + 1) _ _)]
  prog [V2.Buffer.ReadBitNext]

theorem ReadBitsNext (fuel d : Nat) (hf : 2 ^ 64 < fuel) (n : Int64) :
    P.call fuel (d + 4) (str% "ReadBitsNext") [.i64 n] =
    (V2.Buffer.ReadBitsNext n >>= fun x => pure (.u64 x) : Prog V) := by
  rw [call_of (f := fun_ReadBitsNext) (by rfl) (by rfl)]
  unfold fun_ReadBitsNext
  srcp [↓use (readbits fuel d hf _ _), ↓use (seekbit fuel (d + 2) _ _)]
  prog [V2.Buffer.ReadBitsNext]

theorem SetBit (fuel d : Nat) (off : Int64) (data : UInt8) :
    P.call fuel (d + 2) (str% "SetBit") [.i64 off, .u8 data] =
    (V2.Buffer.SetBit off data >>= fun x => pure .unit : Prog V) := by
  rw [call_of (f := fun_SetBit) (by rfl) (by rfl)]
  unfold fun_SetBit
  srcp [↓use (setbit fuel d _ _)]
  prog [V2.Buffer.SetBit]

theorem SetBits (fuel d : Nat) (hf : 2 ^ 64 < fuel) (off : Int64) (data : UInt64) (n : Int64) :
    P.call fuel (d + 3) (str% "SetBits") [.i64 off, .u64 data, .i64 n] =
    (V2.Buffer.SetBits off data n >>= fun x => pure .unit : Prog V) := by
  rw [call_of (f := fun_SetBits) (by rfl) (by rfl)]
  unfold fun_SetBits
  srcp [↓use (setbits fuel d hf _ _ _)]
  prog [V2.Buffer.SetBits]

theorem SetBitNext (fuel d : Nat) (data : UInt8) :
    P.call fuel (d + 2) (str% "SetBitNext") [.u8 data] =
    (V2.Buffer.SetBitNext data >>= fun x => pure .unit : Prog V) := by
  rw [call_of (f := fun_SetBitNext) (by rfl) (by rfl)]
  unfold fun_SetBitNext
  srcp [↓use (setbit fuel d _ _), ↓use (seekbit_num fuel d _ _)]
  prog [V2.Buffer.SetBitNext]

theorem SetBitsNext (fuel d : Nat) (hf : 2 ^ 64 < fuel) (data : UInt64) (n : Int64) :
    P.call fuel (d + 3) (str% "SetBitsNext") [.u64 data, .i64 n] =
    (V2.Buffer.SetBitsNext data n >>= fun x => pure .unit : Prog V) := by
  rw [call_of (f := fun_SetBitsNext) (by rfl) (by rfl)]
  unfold fun_SetBitsNext
  srcp [↓use (setbits fuel d hf _ _ _), ↓use (seekbit fuel (d + 1) _ _)]
  prog [V2.Buffer.SetBitsNext]

theorem FlipBit (fuel d : Nat) (off : Int64) :
    P.call fuel (d + 2) (str% "FlipBit") [.i64 off] =
    (V2.Buffer.FlipBit off >>= fun x => pure .unit : Prog V) := by
  rw [call_of (f := fun_FlipBit) (by rfl) (by rfl)]
  unfold fun_FlipBit
  srcp [↓use (flipbit fuel d _)]
  prog [V2.Buffer.FlipBit]

theorem FlipBitNext (fuel d : Nat) :
    P.call fuel (d + 2) (str% "FlipBitNext") [] =
    (V2.Buffer.FlipBitNext >>= fun x => pure .unit : Prog V) := by
  rw [call_of (f := fun_FlipBitNext) (by rfl) (by rfl)]
  unfold fun_FlipBitNext
  srcp [↓use (flipbit fuel d _), ↓use (seekbit_num fuel d _ _)]
  prog [V2.Buffer.FlipBitNext]

theorem ClearAllBits (fuel d : Nat) (hf : 2 ^ 64 < fuel) :
    P.call fuel (d + 2) (str% "ClearAllBits") [] =
    (V2.Buffer.ClearAllBits >>= fun x => pure .unit : Prog V) := by
  rw [call_of (f := fun_ClearAllBits) (by rfl) (by rfl)]
  unfold fun_ClearAllBits
  srcp [↓use (clearallbits fuel d hf)]
  prog [V2.Buffer.ClearAllBits]

theorem SetAllBits (fuel d : Nat) (hf : 2 ^ 64 < fuel) :
    P.call fuel (d + 2) (str% "SetAllBits") [] =
    (V2.Buffer.SetAllBits >>= fun x => pure .unit : Prog V) := by
  rw [call_of (f := fun_SetAllBits) (by rfl) (by rfl)]
  unfold fun_SetAllBits
  srcp [↓use (setallbits fuel d hf)]
  prog [V2.Buffer.SetAllBits]

theorem FlipAllBits (fuel d : Nat) (hf : 2 ^ 64 < fuel) :
    P.call fuel (d + 2) (str% "FlipAllBits") [] =
    (V2.Buffer.FlipAllBits >>= fun x => pure .unit : Prog V) := by
  rw [call_of (f := fun_FlipAllBits) (by rfl) (by rfl)]
  unfold fun_FlipAllBits
  srcp [↓use (flipallbits fuel d hf)]
  prog [V2.Buffer.FlipAllBits]

end Crunch.Src.V2Buffer
