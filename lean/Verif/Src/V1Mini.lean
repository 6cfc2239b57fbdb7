import Verif.Src.Tactic
import Verif.Src.Text.V1Mini
import Verif.Src.Text.V1Utils
import Verif.V1.Mini

/-! The methods of v1/minibuf.go other than those for complex values, from their text.  Written by tools/src_proofs.py. -/

set_option linter.unusedVariables false
set_option linter.unusedSimpArgs false

namespace Crunch.Src.V1Mini
open V3.Mini (onB callOut)

/-- the errors of v1/errors.go -/
def errs : List (Gen.Str × GoError) := [
  (str% "BufferOverreadError", V1.BufferOverreadError),
  (str% "BufferUnderreadError", V1.BufferUnderreadError),
  (str% "BufferOverwriteError", V1.BufferOverwriteError),
  (str% "BufferUnderwriteError", V1.BufferUnderwriteError),
  (str% "BufferInvalidIntegerSizeError", V1.BufferInvalidIntegerSizeError),
  (str% "BufferInvalidEndiannessError", V1.BufferInvalidEndiannessError),
  (str% "BufferInvalidByteCountError", V1.BufferInvalidByteCountError),
  (str% "BufferInvalidBitError", V1.BufferInvalidBitError)]

/-- the package: v1/minibuf.go and v1/utils.go -/
def P : Pkg := ⟨V1Utils.funs ++ funs, errs⟩

theorem atob (fuel d : Nat) (b : Bool) : P.call fuel (d + 1) (str% "atob") [.bool b] = (pure (.u8 (V1.atob b)) : GoM (V3.St × V) V) := by
  rw [call_of (f := V1Utils.fun_atob) (by rfl) (by rfl)]
  unfold V1Utils.fun_atob
  src
  cases b <;> rfl

theorem seekbit (fuel d : Nat) (off : Int64) (r : Bool) :
    P.call fuel (d + 1) (str% "seekbit") [.i64 off, .bool r] =
    (onB (V1.Mini.seekbit off r) >>= fun x => pure .unit : GoM (V3.St × V) V) := by
  rw [call_of (f := fun_seekbit) (by rfl) (by rfl)]
  unfold fun_seekbit
  src
  gom [V1.Mini.seekbit]
  funext s
  simp only [run_getB, run_modB, run_ite, run_onMem]

theorem seekbit_num (fuel d : Nat) (off : Nat) (r : Bool) :
    P.call fuel (d + 1) (str% "seekbit") [.num off, .bool r] =
    (onB (V1.Mini.seekbit (Int64.ofNat off) r) >>= fun x => pure .unit : GoM (V3.St × V) V) := by
  rw [call_of (f := fun_seekbit) (by rfl) (by rfl)]
  unfold fun_seekbit
  src
  gom [V1.Mini.seekbit]
  funext s
  simp only [run_getB, run_modB, run_ite, run_onMem]

theorem readbit (fuel d : Nat) (off : Int64) (x : UInt8) (k : V → GoM (V3.St × V) β) :
    atOut (.u8 x) (P.call fuel (d + 2) (str% "readbit") [.ptr, .i64 off] >>= k) =
    through .u8 (V1.Mini.readbit off) x fun _ x => atOut (.u8 x) (k .unit) := by
  rw [call_of (f := fun_readbit) (by rfl) (by rfl)]
  unfold fun_readbit
  src [↓use_pure (atob fuel d _)]
  gom [V1.Mini.readbit, bne_decide]
  try outs

theorem readbits (fuel d : Nat) (hf : 2 ^ 64 < fuel) (off : Int64) (n : Int64) (x : UInt64) (k : V → GoM (V3.St × V) β) :
    atOut (.u64 x) (P.call fuel (d + 3) (str% "readbits") [.ptr, .i64 off, .i64 n] >>= k) =
    through .u64 (V1.Mini.readbits off n) x fun _ x => atOut (.u64 x) (k .unit) := by
  rw [call_of (f := fun_readbits) (by rfl) (by rfl)]
  unfold fun_readbits
  src [↓use (withOut_of V.u8 _ fun k => readbit fuel d _ _ k)]
  gom [V1.Mini.readbits]
  try outs
  down
  refine loopFor_out (U := Unit) _ _ (forLoop_eq _ _) (fun a u i => [.ptr, .i64 off, .i64 n, .u8 a, .i64 i]) ?_ ?_ ?_
    (fun _ _ _ _ => rfl) _ 0 0 () (Nat.lt_of_le_of_lt (left_le _ _) hf)
  · intro i a u k; src
  · intro i a u k; src
  · intro i a u x k k' h
    src [↓use (withOut_of V.u8 _ fun k => readbit fuel d _ _ k)]
    try gom
    try outs
    down
    all_goals first | exact h _ _ u | exact h _ _ _

theorem setbit (fuel d : Nat) (off : Int64) (data : UInt8) :
    P.call fuel (d + 1) (str% "setbit") [.i64 off, .u8 data] =
    (onB (V1.Mini.setbit off data) >>= fun x => pure .unit : GoM (V3.St × V) V) := by
  rw [call_of (f := fun_setbit) (by rfl) (by rfl)]
  unfold fun_setbit
  src
  gom [V1.Mini.setbit]

theorem setbits (fuel d : Nat) (hf : 2 ^ 64 < fuel) (off : Int64) (data : UInt64) (n : Int64) :
    P.call fuel (d + 2) (str% "setbits") [.i64 off, .u64 data, .i64 n] =
    (onB (V1.Mini.setbits off data n) >>= fun x => pure .unit : GoM (V3.St × V) V) := by
  rw [call_of (f := fun_setbits) (by rfl) (by rfl)]
  unfold fun_setbits
  src [↓use (setbit fuel d _ _)]
  gom [V1.Mini.setbits]
  down
  refine loopFor_bind (U := Unit) (forLoop_eq _ _) (fun a u i => [.i64 off, .u64 data, .i64 n, .i64 i]) ?_ ?_ ?_
    (fun _ _ _ => rfl) _ 0 () () (Nat.lt_of_le_of_lt (left_le _ _) hf)
  · intro i a u k; src
  · intro i a u k; src
  · intro i a u k k' h
    src [↓use (setbit fuel d _ _)]
    try gom
    down
    all_goals first | exact h _ u | exact h _ _

theorem flipbit (fuel d : Nat) (off : Int64) :
    P.call fuel (d + 1) (str% "flipbit") [.i64 off] =
    (onB (V1.Mini.flipbit off) >>= fun x => pure .unit : GoM (V3.St × V) V) := by
  rw [call_of (f := fun_flipbit) (by rfl) (by rfl)]
  unfold fun_flipbit
  src
  gom [V1.Mini.flipbit]

theorem clearallbits (fuel d : Nat) (hf : 2 ^ 64 < fuel) :
    P.call fuel (d + 1) (str% "clearallbits") [] =
    (onB (V1.Mini.clearallbits) >>= fun x => pure .unit : GoM (V3.St × V) V) := by
  rw [call_of (f := fun_clearallbits) (by rfl) (by rfl)]
  unfold fun_clearallbits
  src
  gom [V1.Mini.clearallbits]
  down
  refine loopRange_bind (U := V) (forLoop_eq _ _) (fun a u => [u]) ?_
    (fun _ _ => rfl) _ 0 () .unit (Nat.lt_of_le_of_lt (left_le _ _) hf)
  intro i a u k k' h
  src
  try gom
  down
  all_goals first | exact h _ u | exact h _ _

theorem setallbits (fuel d : Nat) (hf : 2 ^ 64 < fuel) :
    P.call fuel (d + 1) (str% "setallbits") [] =
    (onB (V1.Mini.setallbits) >>= fun x => pure .unit : GoM (V3.St × V) V) := by
  rw [call_of (f := fun_setallbits) (by rfl) (by rfl)]
  unfold fun_setallbits
  src
  gom [V1.Mini.setallbits]
  down
  refine loopRange_bind (U := V) (forLoop_eq _ _) (fun a u => [u]) ?_
    (fun _ _ => rfl) _ 0 () .unit (Nat.lt_of_le_of_lt (left_le _ _) hf)
  intro i a u k k' h
  src
  try gom
  down
  all_goals first | exact h _ u | exact h _ _

theorem flipallbits (fuel d : Nat) (hf : 2 ^ 64 < fuel) :
    P.call fuel (d + 1) (str% "flipallbits") [] =
    (onB (V1.Mini.flipallbits) >>= fun x => pure .unit : GoM (V3.St × V) V) := by
  rw [call_of (f := fun_flipallbits) (by rfl) (by rfl)]
  unfold fun_flipallbits
  src
  gom [V1.Mini.flipallbits]
  down
  refine loopRange_bind (U := V) (forLoop_eq _ _) (fun a u => [u]) ?_
    (fun _ _ => rfl) _ 0 () .unit (Nat.lt_of_le_of_lt (left_le _ _) hf)
  intro i a u k k' h
  src
  try gom
  down
  all_goals first | exact h _ u | exact h _ _

theorem afterbit (fuel d : Nat) (l : List Int64) (hl : l.length < 2 ^ 63) (x : Int64) (k : V → GoM (V3.St × V) β) :
    atOut (.i64 x) (P.call fuel (d + 1) (str% "afterbit") [.ptr, .li64 l] >>= k) =
    through .i64 (V1.Mini.afterbit l) x fun _ x => atOut (.i64 x) (k .unit) := by
  rw [call_of (f := fun_afterbit) (by rfl) (by rfl)]
  unfold fun_afterbit
  src
  gom [V1.Mini.afterbit]
  try outs
  funext s
  rcases l with _ | ⟨o, l⟩
  · rfl
  · rw [if_neg (len_cons_ne hl)]
    rfl

theorem write (fuel d : Nat) (hf : 2 ^ 64 < fuel) (off : Int64) (data : Slice) :
    P.call fuel (d + 1) (str% "write") [.i64 off, .bytes (.mem data)] =
    (onB (V1.Mini.write off data) >>= fun x => pure .unit : GoM (V3.St × V) V) := by
  rw [call_of (f := fun_write) (by rfl) (by rfl)]
  unfold fun_write
  src
  gom [V1.Mini.write]
  down
  refine loopGoto_bind (U := Unit) (doLoop_eq _ _) (fun a u i => [.i64 off, .bytes (.mem data), .i64 i, .i64 (Int64.ofNat data.len)]) ?_
    (fun _ _ _ => rfl) _ 0 () () (Nat.le_trans (rounds_le _ _) hf)
  intro i a u k k' h
  src
  try gom
  down
  all_goals first | exact h _ u | exact h _ _

theorem read (fuel d : Nat) (off : Int64) (n : Int64) (x : Slice) (k : V → GoM (V3.St × V) β) :
    atOut (.bytes (.mem x)) (P.call fuel (d + 1) (str% "read") [.ptr, .i64 off, .i64 n] >>= k) =
    through (fun x => .bytes (.mem x)) (V1.Mini.read off n) x fun _ x => atOut (.bytes (.mem x)) (k .unit) := by
  rw [call_of (f := fun_read) (by rfl) (by rfl)]
  unfold fun_read
  src
  gom [V1.Mini.read]
  try outs

theorem seek (fuel d : Nat) (off : Int64) (r : Bool) :
    P.call fuel (d + 1) (str% "seek") [.i64 off, .bool r] =
    (onB (V1.Mini.seek off r) >>= fun x => pure .unit : GoM (V3.St × V) V) := by
  rw [call_of (f := fun_seek) (by rfl) (by rfl)]
  unfold fun_seek
  src
  gom [V1.Mini.seek]
  funext s
  simp only [run_getB, run_modB, run_ite, run_onMem]

theorem seek_num (fuel d : Nat) (off : Nat) (r : Bool) :
    P.call fuel (d + 1) (str% "seek") [.num off, .bool r] =
    (onB (V1.Mini.seek (Int64.ofNat off) r) >>= fun x => pure .unit : GoM (V3.St × V) V) := by
  rw [call_of (f := fun_seek) (by rfl) (by rfl)]
  unfold fun_seek
  src
  gom [V1.Mini.seek]
  funext s
  simp only [run_getB, run_modB, run_ite, run_onMem]

theorem after (fuel d : Nat) (l : List Int64) (hl : l.length < 2 ^ 63) (x : Int64) (k : V → GoM (V3.St × V) β) :
    atOut (.i64 x) (P.call fuel (d + 1) (str% "after") [.ptr, .li64 l] >>= k) =
    through .i64 (V1.Mini.after l) x fun _ x => atOut (.i64 x) (k .unit) := by
  rw [call_of (f := fun_after) (by rfl) (by rfl)]
  unfold fun_after
  src
  gom [V1.Mini.after]
  try outs
  funext s
  rcases l with _ | ⟨o, l⟩
  · rfl
  · rw [if_neg (len_cons_ne hl)]
    rfl

theorem refresh (fuel d : Nat) :
    P.call fuel (d + 1) (str% "refresh") [] =
    (onB (V1.Mini.refresh) >>= fun x => pure .unit : GoM (V3.St × V) V) := by
  rw [call_of (f := fun_refresh) (by rfl) (by rfl)]
  unfold fun_refresh
  src
  gom [V1.Mini.refresh]
  funext s
  simp only [run_getB, run_modB, run_ite, run_onMem]

theorem grow (fuel d : Nat) (n : Int64) :
    P.call fuel (d + 2) (str% "grow") [.i64 n] =
    (onB (V1.Mini.grow n) >>= fun x => pure .unit : GoM (V3.St × V) V) := by
  rw [call_of (f := fun_grow) (by rfl) (by rfl)]
  unfold fun_grow
  src [↓use (refresh fuel d), ↓gom_make]
  gom [V1.Mini.grow]

theorem alignbit (fuel d : Nat) :
    P.call fuel (d + 1) (str% "alignbit") [] =
    (onB (V1.Mini.alignbit) >>= fun x => pure .unit : GoM (V3.St × V) V) := by
  rw [call_of (f := fun_alignbit) (by rfl) (by rfl)]
  unfold fun_alignbit
  src
  gom [V1.Mini.alignbit]
  funext s
  simp only [run_getB, run_modB, run_ite, run_onMem]

theorem alignbyte (fuel d : Nat) :
    P.call fuel (d + 1) (str% "alignbyte") [] =
    (onB (V1.Mini.alignbyte) >>= fun x => pure .unit : GoM (V3.St × V) V) := by
  rw [call_of (f := fun_alignbyte) (by rfl) (by rfl)]
  unfold fun_alignbyte
  src
  gom [V1.Mini.alignbyte]
  funext s
  simp only [run_getB, run_modB, run_ite, run_onMem]

theorem NewMiniBuffer (fuel d : Nat) (hf : 2 ^ 64 < fuel) (l : List Slice) (hl : l.length < 2 ^ 63) :
    P.call fuel (d + 2) (str% "NewMiniBuffer") [.ptr, .slices l] =
    (onB (V1.Mini.NewMiniBuffer l) >>= fun x => pure .unit : GoM (V3.St × V) V) := by
  rw [call_of (f := fun_NewMiniBuffer) (by rfl) (by rfl)]
  unfold fun_NewMiniBuffer
  src [↓use (refresh fuel d), ↓gom_lit]
  gom [modB_modB, List.reverse_nil]
  rcases l with _ | ⟨s, _ | ⟨t, l⟩⟩
  · simp only [V1.Mini.NewMiniBuffer]; gom; rfl
  · simp only [V1.Mini.NewMiniBuffer]; gom; rfl
  · rw [if_neg (len_cons_ne hl), if_neg (len_cons_cons_ne hl)]
    simp only [V1.Mini.NewMiniBuffer]
    gom
    down
    refine loopRange_bind (U := V) (forLoop_eq _ _) (fun a u => [.ptr, .slices (s :: t :: l), u]) ?_
      (fun _ _ => rfl) _ 0 () .unit (Nat.lt_of_le_of_lt (left_le _ _) hf)
    intro i a u k k' h
    src
    gom
    down
    exact h _ _

theorem Bytes (fuel d : Nat) (x : Slice) (k : V → GoM (V3.St × V) β) :
    atOut (.bytes (.mem x)) (P.call fuel (d + 1) (str% "Bytes") [.ptr] >>= k) =
    through (fun x => .bytes (.mem x)) (V1.Mini.Bytes) x fun _ x => atOut (.bytes (.mem x)) (k .unit) := by
  rw [call_of (f := fun_Bytes) (by rfl) (by rfl)]
  unfold fun_Bytes
  src
  gom [V1.Mini.Bytes]
  try outs

theorem Capacity (fuel d : Nat) (x : Int64) (k : V → GoM (V3.St × V) β) :
    atOut (.i64 x) (P.call fuel (d + 1) (str% "Capacity") [.ptr] >>= k) =
    through .i64 (V1.Mini.Capacity) x fun _ x => atOut (.i64 x) (k .unit) := by
  rw [call_of (f := fun_Capacity) (by rfl) (by rfl)]
  unfold fun_Capacity
  src
  gom [V1.Mini.Capacity]
  try outs

theorem BitCapacity (fuel d : Nat) (x : Int64) (k : V → GoM (V3.St × V) β) :
    atOut (.i64 x) (P.call fuel (d + 1) (str% "BitCapacity") [.ptr] >>= k) =
    through .i64 (V1.Mini.BitCapacity) x fun _ x => atOut (.i64 x) (k .unit) := by
  rw [call_of (f := fun_BitCapacity) (by rfl) (by rfl)]
  unfold fun_BitCapacity
  src
  gom [V1.Mini.BitCapacity]
  try outs

theorem Offset (fuel d : Nat) (x : Int64) (k : V → GoM (V3.St × V) β) :
    atOut (.i64 x) (P.call fuel (d + 1) (str% "Offset") [.ptr] >>= k) =
    through .i64 (V1.Mini.Offset) x fun _ x => atOut (.i64 x) (k .unit) := by
  rw [call_of (f := fun_Offset) (by rfl) (by rfl)]
  unfold fun_Offset
  src
  gom [V1.Mini.Offset]
  try outs

theorem BitOffset (fuel d : Nat) (x : Int64) (k : V → GoM (V3.St × V) β) :
    atOut (.i64 x) (P.call fuel (d + 1) (str% "BitOffset") [.ptr] >>= k) =
    through .i64 (V1.Mini.BitOffset) x fun _ x => atOut (.i64 x) (k .unit) := by
  rw [call_of (f := fun_BitOffset) (by rfl) (by rfl)]
  unfold fun_BitOffset
  src
  gom [V1.Mini.BitOffset]
  try outs

theorem Refresh (fuel d : Nat) :
    P.call fuel (d + 2) (str% "Refresh") [] =
    (onB (V1.Mini.Refresh) >>= fun x => pure .unit : GoM (V3.St × V) V) := by
  rw [call_of (f := fun_Refresh) (by rfl) (by rfl)]
  unfold fun_Refresh
  src [↓use (refresh fuel d)]
  gom [V1.Mini.Refresh]

theorem Grow (fuel d : Nat) (n : Int64) :
    P.call fuel (d + 3) (str% "Grow") [.i64 n] =
    (onB (V1.Mini.Grow n) >>= fun x => pure .unit : GoM (V3.St × V) V) := by
  rw [call_of (f := fun_Grow) (by rfl) (by rfl)]
  unfold fun_Grow
  src [↓use (grow fuel d _)]
  gom [V1.Mini.Grow]

theorem Seek (fuel d : Nat) (off : Int64) (r : Bool) :
    P.call fuel (d + 2) (str% "Seek") [.i64 off, .bool r] =
    (onB (V1.Mini.Seek off r) >>= fun x => pure .unit : GoM (V3.St × V) V) := by
  rw [call_of (f := fun_Seek) (by rfl) (by rfl)]
  unfold fun_Seek
  src [↓use (seek fuel d _ _)]
  gom [V1.Mini.Seek]

theorem SeekBit (fuel d : Nat) (off : Int64) (r : Bool) :
    P.call fuel (d + 2) (str% "SeekBit") [.i64 off, .bool r] =
    (onB (V1.Mini.SeekBit off r) >>= fun x => pure .unit : GoM (V3.St × V) V) := by
  rw [call_of (f := fun_SeekBit) (by rfl) (by rfl)]
  unfold fun_SeekBit
  src [↓use (seekbit fuel d _ _)]
  gom [V1.Mini.SeekBit]

theorem AlignBit (fuel d : Nat) :
    P.call fuel (d + 2) (str% "AlignBit") [] =
    (onB (V1.Mini.AlignBit) >>= fun x => pure .unit : GoM (V3.St × V) V) := by
  rw [call_of (f := fun_AlignBit) (by rfl) (by rfl)]
  unfold fun_AlignBit
  src [↓use (alignbit fuel d)]
  gom [V1.Mini.AlignBit]

theorem AlignByte (fuel d : Nat) :
    P.call fuel (d + 2) (str% "AlignByte") [] =
    (onB (V1.Mini.AlignByte) >>= fun x => pure .unit : GoM (V3.St × V) V) := by
  rw [call_of (f := fun_AlignByte) (by rfl) (by rfl)]
  unfold fun_AlignByte
  src [↓use (alignbyte fuel d)]
  gom [V1.Mini.AlignByte]

theorem After (fuel d : Nat) (l : List Int64) (hl : l.length < 2 ^ 63) (x : Int64) (k : V → GoM (V3.St × V) β) :
    atOut (.i64 x) (P.call fuel (d + 2) (str% "After") [.ptr, .li64 l] >>= k) =
    through .i64 (V1.Mini.After l) x fun _ x => atOut (.i64 x) (k .unit) := by
  rw [call_of (f := fun_After) (by rfl) (by rfl)]
  unfold fun_After
  src
  gom [V1.Mini.After]
  try outs [after fuel d l hl]

theorem AfterBit (fuel d : Nat) (l : List Int64) (hl : l.length < 2 ^ 63) (x : Int64) (k : V → GoM (V3.St × V) β) :
    atOut (.i64 x) (P.call fuel (d + 2) (str% "AfterBit") [.ptr, .li64 l] >>= k) =
    through .i64 (V1.Mini.AfterBit l) x fun _ x => atOut (.i64 x) (k .unit) := by
  rw [call_of (f := fun_AfterBit) (by rfl) (by rfl)]
  unfold fun_AfterBit
  src
  gom [V1.Mini.AfterBit]
  try outs [afterbit fuel d l hl]

theorem ReadBytes (fuel d : Nat) (off : Int64) (n : Int64) (x : Slice) (k : V → GoM (V3.St × V) β) :
    atOut (.bytes (.mem x)) (P.call fuel (d + 2) (str% "ReadBytes") [.ptr, .i64 off, .i64 n] >>= k) =
    through (fun x => .bytes (.mem x)) (V1.Mini.ReadBytes off n) x fun _ x => atOut (.bytes (.mem x)) (k .unit) := by
  rw [call_of (f := fun_ReadBytes) (by rfl) (by rfl)]
  unfold fun_ReadBytes
  src
  gom [V1.Mini.ReadBytes]
  try outs [read fuel d]

theorem WriteBytes (fuel d : Nat) (hf : 2 ^ 64 < fuel) (off : Int64) (data : Slice) :
    P.call fuel (d + 2) (str% "WriteBytes") [.i64 off, .bytes (.mem data)] =
    (onB (V1.Mini.WriteBytes off data) >>= fun x => pure .unit : GoM (V3.St × V) V) := by
  rw [call_of (f := fun_WriteBytes) (by rfl) (by rfl)]
  unfold fun_WriteBytes
  src [↓use (write fuel d hf _ _)]
  gom [V1.Mini.WriteBytes]

theorem ReadBytesNext (fuel d : Nat) (n : Int64) (x : Slice) (k : V → GoM (V3.St × V) β) :
    atOut (.bytes (.mem x)) (P.call fuel (d + 2) (str% "ReadBytesNext") [.ptr, .i64 n] >>= k) =
    through (fun x => .bytes (.mem x)) (V1.Mini.ReadBytesNext n) x fun _ x => atOut (.bytes (.mem x)) (k .unit) := by
  rw [call_of (f := fun_ReadBytesNext) (by rfl) (by rfl)]
  unfold fun_ReadBytesNext
  src [↓use (seek fuel d _ _)]
  gom [V1.Mini.ReadBytesNext]
  try outs [read fuel d]

theorem WriteBytesNext (fuel d : Nat) (hf : 2 ^ 64 < fuel) (data : Slice) :
    P.call fuel (d + 2) (str% "WriteBytesNext") [.bytes (.mem data)] =
    (onB (V1.Mini.WriteBytesNext data) >>= fun x => pure .unit : GoM (V3.St × V) V) := by
  rw [call_of (f := fun_WriteBytesNext) (by rfl) (by rfl)]
  unfold fun_WriteBytesNext
  src [↓use (write fuel d hf _ _), ↓use (seek fuel d _ _)]
  gom [V1.Mini.WriteBytesNext]

theorem ReadBit (fuel d : Nat) (off : Int64) (x : UInt8) (k : V → GoM (V3.St × V) β) :
    atOut (.u8 x) (P.call fuel (d + 3) (str% "ReadBit") [.ptr, .i64 off] >>= k) =
    through .u8 (V1.Mini.ReadBit off) x fun _ x => atOut (.u8 x) (k .unit) := by
  rw [call_of (f := fun_ReadBit) (by rfl) (by rfl)]
  unfold fun_ReadBit
  src
  gom [V1.Mini.ReadBit]
  try outs [readbit fuel d]

theorem ReadBits (fuel d : Nat) (hf : 2 ^ 64 < fuel) (off : Int64) (n : Int64) (x : UInt64) (k : V → GoM (V3.St × V) β) :
    atOut (.u64 x) (P.call fuel (d + 4) (str% "ReadBits") [.ptr, .i64 off, .i64 n] >>= k) =
    through .u64 (V1.Mini.ReadBits off n) x fun _ x => atOut (.u64 x) (k .unit) := by
  rw [call_of (f := fun_ReadBits) (by rfl) (by rfl)]
  unfold fun_ReadBits
  src
  gom [V1.Mini.ReadBits]
  try outs [readbits fuel d hf]

theorem ReadBitNext (fuel d : Nat) (x : UInt8) (k : V → GoM (V3.St × V) β) :
    atOut (.u8 x) (P.call fuel (d + 3) (str% "ReadBitNext") [.ptr] >>= k) =
    through .u8 (V1.Mini.ReadBitNext) x fun _ x => atOut (.u8 x) (k .unit) := by
  rw [call_of (f := fun_ReadBitNext) (by rfl) (by rfl)]
  unfold fun_ReadBitNext
  src [↓use (seekbit_num fuel (d + 1) _ _)]
  gom [V1.Mini.ReadBitNext]
  try outs [readbit fuel d]

theorem ReadBitsNext (fuel d : Nat) (hf : 2 ^ 64 < fuel) (n : Int64) (x : UInt64) (k : V → GoM (V3.St × V) β) :
    atOut (.u64 x) (P.call fuel (d + 4) (str% "ReadBitsNext") [.ptr, .i64 n] >>= k) =
    through .u64 (V1.Mini.ReadBitsNext n) x fun _ x => atOut (.u64 x) (k .unit) := by
  rw [call_of (f := fun_ReadBitsNext) (by rfl) (by rfl)]
  unfold fun_ReadBitsNext
  src [↓use (seekbit fuel (d + 2) _ _)]
  gom [V1.Mini.ReadBitsNext]
  try outs [readbits fuel d hf]

theorem SetBit (fuel d : Nat) (off : Int64) (data : UInt8) :
    P.call fuel (d + 2) (str% "SetBit") [.i64 off, .u8 data] =
    (onB (V1.Mini.SetBit off data) >>= fun x => pure .unit : GoM (V3.St × V) V) := by
  rw [call_of (f := fun_SetBit) (by rfl) (by rfl)]
  unfold fun_SetBit
  src [↓use (setbit fuel d _ _)]
  gom [V1.Mini.SetBit]

theorem SetBits (fuel d : Nat) (hf : 2 ^ 64 < fuel) (off : Int64) (data : UInt64) (n : Int64) :
    P.call fuel (d + 3) (str% "SetBits") [.i64 off, .u64 data, .i64 n] =
    (onB (V1.Mini.SetBits off data n) >>= fun x => pure .unit : GoM (V3.St × V) V) := by
  rw [call_of (f := fun_SetBits) (by rfl) (by rfl)]
  unfold fun_SetBits
  src [↓use (setbits fuel d hf _ _ _)]
  gom [V1.Mini.SetBits]

theorem SetBitNext (fuel d : Nat) (data : UInt8) :
    P.call fuel (d + 2) (str% "SetBitNext") [.u8 data] =
    (onB (V1.Mini.SetBitNext data) >>= fun x => pure .unit : GoM (V3.St × V) V) := by
  rw [call_of (f := fun_SetBitNext) (by rfl) (by rfl)]
  unfold fun_SetBitNext
  src [↓use (setbit fuel d _ _), ↓use (seekbit_num fuel d _ _)]
  gom [V1.Mini.SetBitNext]

theorem SetBitsNext (fuel d : Nat) (hf : 2 ^ 64 < fuel) (data : UInt64) (n : Int64) :
    P.call fuel (d + 3) (str% "SetBitsNext") [.u64 data, .i64 n] =
    (onB (V1.Mini.SetBitsNext data n) >>= fun x => pure .unit : GoM (V3.St × V) V) := by
  rw [call_of (f := fun_SetBitsNext) (by rfl) (by rfl)]
  unfold fun_SetBitsNext
  src [↓use (setbits fuel d hf _ _ _), ↓use (seekbit fuel (d + 1) _ _)]
  gom [V1.Mini.SetBitsNext]

theorem FlipBit (fuel d : Nat) (off : Int64) :
    P.call fuel (d + 2) (str% "FlipBit") [.i64 off] =
    (onB (V1.Mini.FlipBit off) >>= fun x => pure .unit : GoM (V3.St × V) V) := by
  rw [call_of (f := fun_FlipBit) (by rfl) (by rfl)]
  unfold fun_FlipBit
  src [↓use (flipbit fuel d _)]
  gom [V1.Mini.FlipBit]

theorem FlipBitNext (fuel d : Nat) :
    P.call fuel (d + 2) (str% "FlipBitNext") [] =
    (onB (V1.Mini.FlipBitNext) >>= fun x => pure .unit : GoM (V3.St × V) V) := by
  rw [call_of (f := fun_FlipBitNext) (by rfl) (by rfl)]
  unfold fun_FlipBitNext
  src [↓use (flipbit fuel d _), ↓use (seekbit_num fuel d _ _)]
  gom [V1.Mini.FlipBitNext]

theorem ClearAllBits (fuel d : Nat) (hf : 2 ^ 64 < fuel) :
    P.call fuel (d + 2) (str% "ClearAllBits") [] =
    (onB (V1.Mini.ClearAllBits) >>= fun x => pure .unit : GoM (V3.St × V) V) := by
  rw [call_of (f := fun_ClearAllBits) (by rfl) (by rfl)]
  unfold fun_ClearAllBits
  src [↓use (clearallbits fuel d hf)]
  gom [V1.Mini.ClearAllBits]

theorem SetAllBits (fuel d : Nat) (hf : 2 ^ 64 < fuel) :
    P.call fuel (d + 2) (str% "SetAllBits") [] =
    (onB (V1.Mini.SetAllBits) >>= fun x => pure .unit : GoM (V3.St × V) V) := by
  rw [call_of (f := fun_SetAllBits) (by rfl) (by rfl)]
  unfold fun_SetAllBits
  src [↓use (setallbits fuel d hf)]
  gom [V1.Mini.SetAllBits]

theorem FlipAllBits (fuel d : Nat) (hf : 2 ^ 64 < fuel) :
    P.call fuel (d + 2) (str% "FlipAllBits") [] =
    (onB (V1.Mini.FlipAllBits) >>= fun x => pure .unit : GoM (V3.St × V) V) := by
  rw [call_of (f := fun_FlipAllBits) (by rfl) (by rfl)]
  unfold fun_FlipAllBits
  src [↓use (flipallbits fuel d hf)]
  gom [V1.Mini.FlipAllBits]

end Crunch.Src.V1Mini
