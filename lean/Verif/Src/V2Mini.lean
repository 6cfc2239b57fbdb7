import Verif.Src.Tactic
import Verif.Src.Text.V2Mini
import Verif.Src.Text.V2Utils
import Verif.V2.Mini

/-! The methods of v2/minibuf.go other than the typed ones, from their text.  Written by tools/src_proofs.py. -/

set_option linter.unusedVariables false
set_option linter.unusedSimpArgs false

namespace Crunch.Src.V2Mini
open V3.Mini (onB callOut)

/-- the errors of v2/errors.go -/
def errs : List (Gen.Str × GoError) := [
  (str% "BufferOverreadError", V2.BufferOverreadError),
  (str% "BufferUnderreadError", V2.BufferUnderreadError),
  (str% "BufferOverwriteError", V2.BufferOverwriteError),
  (str% "BufferUnderwriteError", V2.BufferUnderwriteError),
  (str% "BufferInvalidByteCountError", V2.BufferInvalidByteCountError),
  (str% "BufferInvalidBitError", V2.BufferInvalidBitError)]

/-- the package: v2/minibuf.go and v2/utils.go -/
def P : Pkg := ⟨V2Utils.funs ++ funs, errs⟩

theorem atob (fuel d : Nat) (b : Bool) : P.call fuel (d + 1) (str% "atob") [.bool b] = (pure (.u8 (V2.atob b)) : GoM (V3.St × V) V) := by
  rw [call_of (f := V2Utils.fun_atob) (by rfl) (by rfl)]
  unfold V2Utils.fun_atob
  src
  cases b <;> rfl

theorem seekbit (fuel d : Nat) (off : Int64) (r : Bool) :
    P.call fuel (d + 1) (str% "seekbit") [.i64 off, .bool r] =
    (onB (V2.Mini.seekbit off r) >>= fun x => pure .unit : GoM (V3.St × V) V) := by
  rw [call_of (f := fun_seekbit) (by rfl) (by rfl)]
  unfold fun_seekbit
  src
  gom [V2.Mini.seekbit]
  funext s
  simp only [run_getB, run_modB, run_ite, run_onMem]

theorem seekbit_num (fuel d : Nat) (off : Nat) (r : Bool) :
    P.call fuel (d + 1) (str% "seekbit") [.num off, .bool r] =
    (onB (V2.Mini.seekbit (Int64.ofNat off) r) >>= fun x => pure .unit : GoM (V3.St × V) V) := by
  rw [call_of (f := fun_seekbit) (by rfl) (by rfl)]
  unfold fun_seekbit
  src
  gom [V2.Mini.seekbit]
  funext s
  simp only [run_getB, run_modB, run_ite, run_onMem]

theorem readbit (fuel d : Nat) (off : Int64) (x : UInt8) (k : V → GoM (V3.St × V) β) :
    atOut (.u8 x) (P.call fuel (d + 2) (str% "readbit") [.ptr, .i64 off] >>= k) =
    through .u8 (V2.Mini.readbit off) x fun _ x => atOut (.u8 x) (k .unit) := by
  rw [call_of (f := fun_readbit) (by rfl) (by rfl)]
  unfold fun_readbit
  src [↓use_pure (atob fuel d _)]
  gom [V2.Mini.readbit, bne_decide]
  try outs

theorem readbits (fuel d : Nat) (hf : 2 ^ 64 < fuel) (off : Int64) (n : Int64) (x : UInt64) (k : V → GoM (V3.St × V) β) :
    atOut (.u64 x) (P.call fuel (d + 3) (str% "readbits") [.ptr, .i64 off, .i64 n] >>= k) =
    through .u64 (V2.Mini.readbits off n) x fun _ x => atOut (.u64 x) (k .unit) := by
  rw [call_of (f := fun_readbits) (by rfl) (by rfl)]
  unfold fun_readbits
  src [↓use (withOut_of V.u8 _ fun k => readbit fuel d _ _ k)]
  gom [V2.Mini.readbits]
  try outs
  down
  refine loopGoto_out (U := Unit) _ _ (doLoop_eq _ _) (fun a u i => [.ptr, .i64 off, .i64 n, .u8 a, .i64 i]) ?_
    (fun _ _ _ _ => rfl) _ 0 0 () (Nat.le_trans (rounds_le _ _) hf)
  intro i a u x k k' h
  src [↓use (withOut_of V.u8 _ fun k => readbit fuel d _ _ k)]
  try gom
  try outs
  down
  all_goals first | exact h _ _ u | exact h _ _ _

theorem setbit (fuel d : Nat) (off : Int64) (data : UInt8) :
    P.call fuel (d + 1) (str% "setbit") [.i64 off, .u8 data] =
    (onB (V2.Mini.setbit off data) >>= fun x => pure .unit : GoM (V3.St × V) V) := by
  rw [call_of (f := fun_setbit) (by rfl) (by rfl)]
  unfold fun_setbit
  src
  gom [V2.Mini.setbit]

theorem setbits (fuel d : Nat) (hf : 2 ^ 64 < fuel) (off : Int64) (data : UInt64) (n : Int64) :
    P.call fuel (d + 2) (str% "setbits") [.i64 off, .u64 data, .i64 n] =
    (onB (V2.Mini.setbits off data n) >>= fun x => pure .unit : GoM (V3.St × V) V) := by
  rw [call_of (f := fun_setbits) (by rfl) (by rfl)]
  unfold fun_setbits
  src [↓use (setbit fuel d _ _)]
  gom [V2.Mini.setbits]
  down
  refine loopGoto_bind (U := Unit) (doLoop_eq _ _) (fun a u i => [.i64 off, .u64 data, .i64 n, .i64 i]) ?_
    (fun _ _ _ => rfl) _ 0 () () (Nat.le_trans (rounds_le _ _) hf)
  intro i a u k k' h
  src [↓use (setbit fuel d _ _)]
  try gom
  down
  all_goals first | exact h _ u | exact h _ _

theorem flipbit (fuel d : Nat) (off : Int64) :
    P.call fuel (d + 1) (str% "flipbit") [.i64 off] =
    (onB (V2.Mini.flipbit off) >>= fun x => pure .unit : GoM (V3.St × V) V) := by
  rw [call_of (f := fun_flipbit) (by rfl) (by rfl)]
  unfold fun_flipbit
  src
  gom [V2.Mini.flipbit]

theorem clearallbits (fuel d : Nat) (hf : 2 ^ 64 < fuel) :
    P.call fuel (d + 1) (str% "clearallbits") [] =
    (onB (V2.Mini.clearallbits) >>= fun x => pure .unit : GoM (V3.St × V) V) := by
  rw [call_of (f := fun_clearallbits) (by rfl) (by rfl)]
  unfold fun_clearallbits
  src
  gom [V2.Mini.clearallbits]
  down
  refine loopGoto_bind (U := Unit) (doLoop_eq _ _) (fun a u i => [.i64 i, .i64 _]) ?_
    (fun _ _ _ => rfl) _ 0 () () (Nat.le_trans (rounds_le _ _) hf)
  intro i a u k k' h
  src
  try gom
  down
  all_goals first | exact h _ u | exact h _ _

theorem setallbits (fuel d : Nat) (hf : 2 ^ 64 < fuel) :
    P.call fuel (d + 1) (str% "setallbits") [] =
    (onB (V2.Mini.setallbits) >>= fun x => pure .unit : GoM (V3.St × V) V) := by
  rw [call_of (f := fun_setallbits) (by rfl) (by rfl)]
  unfold fun_setallbits
  src
  gom [V2.Mini.setallbits]
  down
  refine loopGoto_bind (U := Unit) (doLoop_eq _ _) (fun a u i => [.i64 i, .i64 _]) ?_
    (fun _ _ _ => rfl) _ 0 () () (Nat.le_trans (rounds_le _ _) hf)
  intro i a u k k' h
  src
  try gom
  down
  all_goals first | exact h _ u | exact h _ _

theorem flipallbits (fuel d : Nat) (hf : 2 ^ 64 < fuel) :
    P.call fuel (d + 1) (str% "flipallbits") [] =
    (onB (V2.Mini.flipallbits) >>= fun x => pure .unit : GoM (V3.St × V) V) := by
  rw [call_of (f := fun_flipallbits) (by rfl) (by rfl)]
  unfold fun_flipallbits
  src
  gom [V2.Mini.flipallbits]
  down
  refine loopGoto_bind (U := Unit) (doLoop_eq _ _) (fun a u i => [.i64 i, .i64 _]) ?_
    (fun _ _ _ => rfl) _ 0 () () (Nat.le_trans (rounds_le _ _) hf)
  intro i a u k k' h
  src
  try gom
  down
  all_goals first | exact h _ u | exact h _ _

theorem afterbit (fuel d : Nat) (l : List Int64) (hl : l.length < 2 ^ 63) (x : Int64) (k : V → GoM (V3.St × V) β) :
    atOut (.i64 x) (P.call fuel (d + 1) (str% "afterbit") [.ptr, .li64 l] >>= k) =
    through .i64 (V2.Mini.afterbit l) x fun _ x => atOut (.i64 x) (k .unit) := by
  rw [call_of (f := fun_afterbit) (by rfl) (by rfl)]
  unfold fun_afterbit
  src
  gom [V2.Mini.afterbit]
  try outs
  funext s
  rcases l with _ | ⟨o, l⟩
  · rfl
  · rw [if_neg (len_cons_ne hl)]
    rfl

theorem write (fuel d : Nat) (hf : 2 ^ 64 < fuel) (off : Int64) (data : Slice) :
    P.call fuel (d + 1) (str% "write") [.i64 off, .bytes (.mem data)] =
    (onB (V2.Mini.write off data) >>= fun x => pure .unit : GoM (V3.St × V) V) := by
  rw [call_of (f := fun_write) (by rfl) (by rfl)]
  unfold fun_write
  src
  gom [V2.Mini.write]
  down
  refine loopGoto_bind (U := Unit) (doLoop_eq _ _) (fun a u i => [.i64 off, .bytes (.mem data), .i64 i, .i64 (Int64.ofNat data.len)]) ?_
    (fun _ _ _ => rfl) _ 0 () () (Nat.le_trans (rounds_le _ _) hf)
  intro i a u k k' h
  src
  try gom
  down
  all_goals first | exact h _ u | exact h _ _

theorem read (fuel d : Nat) (off : Int64) (n : Int64) (x : Slice) (k : V → GoM (V3.St × V) β) :
    atOut (.bytes (.mem x)) (P.call fuel (d + 1) (str% "read") [.ptr, .i64 off, .i64 n] >>= k) =
    through (fun x => .bytes (.mem x)) (V2.Mini.read off n) x fun _ x => atOut (.bytes (.mem x)) (k .unit) := by
  rw [call_of (f := fun_read) (by rfl) (by rfl)]
  unfold fun_read
  src
  gom [V2.Mini.read]
  try outs

theorem seek (fuel d : Nat) (off : Int64) (r : Bool) :
    P.call fuel (d + 1) (str% "seek") [.i64 off, .bool r] =
    (onB (V2.Mini.seek off r) >>= fun x => pure .unit : GoM (V3.St × V) V) := by
  rw [call_of (f := fun_seek) (by rfl) (by rfl)]
  unfold fun_seek
  src
  gom [V2.Mini.seek]
  funext s
  simp only [run_getB, run_modB, run_ite, run_onMem]

theorem seek_num (fuel d : Nat) (off : Nat) (r : Bool) :
    P.call fuel (d + 1) (str% "seek") [.num off, .bool r] =
    (onB (V2.Mini.seek (Int64.ofNat off) r) >>= fun x => pure .unit : GoM (V3.St × V) V) := by
  rw [call_of (f := fun_seek) (by rfl) (by rfl)]
  unfold fun_seek
  src
  gom [V2.Mini.seek]
  funext s
  simp only [run_getB, run_modB, run_ite, run_onMem]

theorem after (fuel d : Nat) (l : List Int64) (hl : l.length < 2 ^ 63) (x : Int64) (k : V → GoM (V3.St × V) β) :
    atOut (.i64 x) (P.call fuel (d + 1) (str% "after") [.ptr, .li64 l] >>= k) =
    through .i64 (V2.Mini.after l) x fun _ x => atOut (.i64 x) (k .unit) := by
  rw [call_of (f := fun_after) (by rfl) (by rfl)]
  unfold fun_after
  src
  gom [V2.Mini.after]
  try outs
  funext s
  rcases l with _ | ⟨o, l⟩
  · rfl
  · rw [if_neg (len_cons_ne hl)]
    rfl

theorem refresh (fuel d : Nat) :
    P.call fuel (d + 1) (str% "refresh") [] =
    (onB (V2.Mini.refresh) >>= fun x => pure .unit : GoM (V3.St × V) V) := by
  rw [call_of (f := fun_refresh) (by rfl) (by rfl)]
  unfold fun_refresh
  src
  gom [V2.Mini.refresh]
  funext s
  simp only [run_getB, run_modB, run_ite, run_onMem]

theorem grow (fuel d : Nat) (n : Int64) :
    P.call fuel (d + 2) (str% "grow") [.i64 n] =
    (onB (V2.Mini.grow n) >>= fun x => pure .unit : GoM (V3.St × V) V) := by
  rw [call_of (f := fun_grow) (by rfl) (by rfl)]
  unfold fun_grow
  src [↓use (refresh fuel d), ↓gom_make]
  gom [V2.Mini.grow]

theorem alignbit (fuel d : Nat) :
    P.call fuel (d + 1) (str% "alignbit") [] =
    (onB (V2.Mini.alignbit) >>= fun x => pure .unit : GoM (V3.St × V) V) := by
  rw [call_of (f := fun_alignbit) (by rfl) (by rfl)]
  unfold fun_alignbit
  src
  gom [V2.Mini.alignbit]
  funext s
  simp only [run_getB, run_modB, run_ite, run_onMem]

theorem alignbyte (fuel d : Nat) :
    P.call fuel (d + 1) (str% "alignbyte") [] =
    (onB (V2.Mini.alignbyte) >>= fun x => pure .unit : GoM (V3.St × V) V) := by
  rw [call_of (f := fun_alignbyte) (by rfl) (by rfl)]
  unfold fun_alignbyte
  src
  gom [V2.Mini.alignbyte]
  funext s
  simp only [run_getB, run_modB, run_ite, run_onMem]

theorem reset (fuel d : Nat) :
    P.call fuel (d + 1) (str% "reset") [] =
    (onB (V2.Mini.reset) >>= fun x => pure .unit : GoM (V3.St × V) V) := by
  rw [call_of (f := fun_reset) (by rfl) (by rfl)]
  unfold fun_reset
  src [↓gom_lit]
  gom [V2.Mini.reset, List.reverse_nil]

theorem Reset (fuel d : Nat) :
    P.call fuel (d + 2) (str% "Reset") [] =
    (onB (V2.Mini.Reset) >>= fun x => pure .unit : GoM (V3.St × V) V) := by
  rw [call_of (f := fun_Reset) (by rfl) (by rfl)]
  unfold fun_Reset
  src [↓use (reset fuel d)]
  gom [V2.Mini.Reset]

theorem NewMiniBuffer (fuel d : Nat) (hf : 2 ^ 64 < fuel) (l : List Slice) (hl : l.length < 2 ^ 63) :
    P.call fuel (d + 2) (str% "NewMiniBuffer") [.ptr, .slices l] =
    (onB (V2.Mini.NewMiniBuffer l) >>= fun x => pure .unit : GoM (V3.St × V) V) := by
  rw [call_of (f := fun_NewMiniBuffer) (by rfl) (by rfl)]
  unfold fun_NewMiniBuffer
  src [↓use (refresh fuel d), ↓gom_lit]
  gom [modB_modB, List.reverse_nil]
  rcases l with _ | ⟨s, _ | ⟨t, l⟩⟩
  · simp only [V2.Mini.NewMiniBuffer]; gom; rfl
  · simp only [V2.Mini.NewMiniBuffer]; gom; rfl
  · rw [if_neg (len_cons_ne hl), if_neg (len_cons_cons_ne hl)]
    simp only [V2.Mini.NewMiniBuffer]
    gom
    down
    refine loopRange_bind (U := V) (forLoop_eq _ _) (fun a u => [.ptr, .slices (s :: t :: l), u]) ?_
      (fun _ _ => rfl) _ 0 () .unit (Nat.lt_of_le_of_lt (left_le _ _) hf)
    intro i a u k k' h
    src
    gom
    down
    exact h _ _

theorem Bytes (fuel d : Nat) (x : Slice) (k : V → GoM (V3.St × V) β) :
    atOut (.bytes (.mem x)) (P.call fuel (d + 1) (str% "Bytes") [.ptr] >>= k) =
    through (fun x => .bytes (.mem x)) (V2.Mini.Bytes) x fun _ x => atOut (.bytes (.mem x)) (k .unit) := by
  rw [call_of (f := fun_Bytes) (by rfl) (by rfl)]
  unfold fun_Bytes
  src
  gom [V2.Mini.Bytes]
  try outs

theorem Capacity (fuel d : Nat) (x : Int64) (k : V → GoM (V3.St × V) β) :
    atOut (.i64 x) (P.call fuel (d + 1) (str% "Capacity") [.ptr] >>= k) =
    through .i64 (V2.Mini.Capacity) x fun _ x => atOut (.i64 x) (k .unit) := by
  rw [call_of (f := fun_Capacity) (by rfl) (by rfl)]
  unfold fun_Capacity
  src
  gom [V2.Mini.Capacity]
  try outs

theorem BitCapacity (fuel d : Nat) (x : Int64) (k : V → GoM (V3.St × V) β) :
    atOut (.i64 x) (P.call fuel (d + 1) (str% "BitCapacity") [.ptr] >>= k) =
    through .i64 (V2.Mini.BitCapacity) x fun _ x => atOut (.i64 x) (k .unit) := by
  rw [call_of (f := fun_BitCapacity) (by rfl) (by rfl)]
  unfold fun_BitCapacity
  src
  gom [V2.Mini.BitCapacity]
  try outs

theorem Offset (fuel d : Nat) (x : Int64) (k : V → GoM (V3.St × V) β) :
    atOut (.i64 x) (P.call fuel (d + 1) (str% "Offset") [.ptr] >>= k) =
    through .i64 (V2.Mini.Offset) x fun _ x => atOut (.i64 x) (k .unit) := by
  rw [call_of (f := fun_Offset) (by rfl) (by rfl)]
  unfold fun_Offset
  src
  gom [V2.Mini.Offset]
  try outs

theorem BitOffset (fuel d : Nat) (x : Int64) (k : V → GoM (V3.St × V) β) :
    atOut (.i64 x) (P.call fuel (d + 1) (str% "BitOffset") [.ptr] >>= k) =
    through .i64 (V2.Mini.BitOffset) x fun _ x => atOut (.i64 x) (k .unit) := by
  rw [call_of (f := fun_BitOffset) (by rfl) (by rfl)]
  unfold fun_BitOffset
  src
  gom [V2.Mini.BitOffset]
  try outs

theorem Refresh (fuel d : Nat) :
    P.call fuel (d + 2) (str% "Refresh") [] =
    (onB (V2.Mini.Refresh) >>= fun x => pure .unit : GoM (V3.St × V) V) := by
  rw [call_of (f := fun_Refresh) (by rfl) (by rfl)]
  unfold fun_Refresh
  src [↓use (refresh fuel d)]
  gom [V2.Mini.Refresh]

theorem Grow (fuel d : Nat) (n : Int64) :
    P.call fuel (d + 3) (str% "Grow") [.i64 n] =
    (onB (V2.Mini.Grow n) >>= fun x => pure .unit : GoM (V3.St × V) V) := by
  rw [call_of (f := fun_Grow) (by rfl) (by rfl)]
  unfold fun_Grow
  src [↓use (grow fuel d _)]
  gom [V2.Mini.Grow]

theorem Seek (fuel d : Nat) (off : Int64) (r : Bool) :
    P.call fuel (d + 2) (str% "Seek") [.i64 off, .bool r] =
    (onB (V2.Mini.Seek off r) >>= fun x => pure .unit : GoM (V3.St × V) V) := by
  rw [call_of (f := fun_Seek) (by rfl) (by rfl)]
  unfold fun_Seek
  src [↓use (seek fuel d _ _)]
  gom [V2.Mini.Seek]

theorem SeekBit (fuel d : Nat) (off : Int64) (r : Bool) :
    P.call fuel (d + 2) (str% "SeekBit") [.i64 off, .bool r] =
    (onB (V2.Mini.SeekBit off r) >>= fun x => pure .unit : GoM (V3.St × V) V) := by
  rw [call_of (f := fun_SeekBit) (by rfl) (by rfl)]
  unfold fun_SeekBit
  src [↓use (seekbit fuel d _ _)]
  gom [V2.Mini.SeekBit]

theorem AlignBit (fuel d : Nat) :
    P.call fuel (d + 2) (str% "AlignBit") [] =
    (onB (V2.Mini.AlignBit) >>= fun x => pure .unit : GoM (V3.St × V) V) := by
  rw [call_of (f := fun_AlignBit) (by rfl) (by rfl)]
  unfold fun_AlignBit
  src [↓use (alignbit fuel d)]
  gom [V2.Mini.AlignBit]

theorem AlignByte (fuel d : Nat) :
    P.call fuel (d + 2) (str% "AlignByte") [] =
    (onB (V2.Mini.AlignByte) >>= fun x => pure .unit : GoM (V3.St × V) V) := by
  rw [call_of (f := fun_AlignByte) (by rfl) (by rfl)]
  unfold fun_AlignByte
  src [↓use (alignbyte fuel d)]
  gom [V2.Mini.AlignByte]

theorem After (fuel d : Nat) (l : List Int64) (hl : l.length < 2 ^ 63) (x : Int64) (k : V → GoM (V3.St × V) β) :
    atOut (.i64 x) (P.call fuel (d + 2) (str% "After") [.ptr, .li64 l] >>= k) =
    through .i64 (V2.Mini.After l) x fun _ x => atOut (.i64 x) (k .unit) := by
  rw [call_of (f := fun_After) (by rfl) (by rfl)]
  unfold fun_After
  src
  gom [V2.Mini.After]
  try outs [after fuel d l hl]

theorem AfterBit (fuel d : Nat) (l : List Int64) (hl : l.length < 2 ^ 63) (x : Int64) (k : V → GoM (V3.St × V) β) :
    atOut (.i64 x) (P.call fuel (d + 2) (str% "AfterBit") [.ptr, .li64 l] >>= k) =
    through .i64 (V2.Mini.AfterBit l) x fun _ x => atOut (.i64 x) (k .unit) := by
  rw [call_of (f := fun_AfterBit) (by rfl) (by rfl)]
  unfold fun_AfterBit
  src
  gom [V2.Mini.AfterBit]
  try outs [afterbit fuel d l hl]

theorem ReadBytes (fuel d : Nat) (off : Int64) (n : Int64) (x : Slice) (k : V → GoM (V3.St × V) β) :
    atOut (.bytes (.mem x)) (P.call fuel (d + 2) (str% "ReadBytes") [.ptr, .i64 off, .i64 n] >>= k) =
    through (fun x => .bytes (.mem x)) (V2.Mini.ReadBytes off n) x fun _ x => atOut (.bytes (.mem x)) (k .unit) := by
  rw [call_of (f := fun_ReadBytes) (by rfl) (by rfl)]
  unfold fun_ReadBytes
  src
  gom [V2.Mini.ReadBytes]
  try outs [read fuel d]

theorem WriteBytes (fuel d : Nat) (hf : 2 ^ 64 < fuel) (off : Int64) (data : Slice) :
    P.call fuel (d + 2) (str% "WriteBytes") [.i64 off, .bytes (.mem data)] =
    (onB (V2.Mini.WriteBytes off data) >>= fun x => pure .unit : GoM (V3.St × V) V) := by
  rw [call_of (f := fun_WriteBytes) (by rfl) (by rfl)]
  unfold fun_WriteBytes
  src [↓use (write fuel d hf _ _)]
  gom [V2.Mini.WriteBytes]

theorem ReadBytesNext (fuel d : Nat) (n : Int64) (x : Slice) (k : V → GoM (V3.St × V) β) :
    atOut (.bytes (.mem x)) (P.call fuel (d + 2) (str% "ReadBytesNext") [.ptr, .i64 n] >>= k) =
    through (fun x => .bytes (.mem x)) (V2.Mini.ReadBytesNext n) x fun _ x => atOut (.bytes (.mem x)) (k .unit) := by
  rw [call_of (f := fun_ReadBytesNext) (by rfl) (by rfl)]
  unfold fun_ReadBytesNext
  src [↓use (seek fuel d _ _)]
  gom [V2.Mini.ReadBytesNext]
  try outs [read fuel d]

theorem WriteBytesNext (fuel d : Nat) (hf : 2 ^ 64 < fuel) (data : Slice) :
    P.call fuel (d + 2) (str% "WriteBytesNext") [.bytes (.mem data)] =
    (onB (V2.Mini.WriteBytesNext data) >>= fun x => pure .unit : GoM (V3.St × V) V) := by
  rw [call_of (f := fun_WriteBytesNext) (by rfl) (by rfl)]
  unfold fun_WriteBytesNext
  src [↓use (write fuel d hf _ _), ↓use (seek fuel d _ _)]
  gom [V2.Mini.WriteBytesNext]

theorem ReadBit (fuel d : Nat) (off : Int64) (x : UInt8) (k : V → GoM (V3.St × V) β) :
    atOut (.u8 x) (P.call fuel (d + 3) (str% "ReadBit") [.ptr, .i64 off] >>= k) =
    through .u8 (V2.Mini.ReadBit off) x fun _ x => atOut (.u8 x) (k .unit) := by
  rw [call_of (f := fun_ReadBit) (by rfl) (by rfl)]
  unfold fun_ReadBit
  src
  gom [V2.Mini.ReadBit]
  try outs [readbit fuel d]

theorem ReadBits (fuel d : Nat) (hf : 2 ^ 64 < fuel) (off : Int64) (n : Int64) (x : UInt64) (k : V → GoM (V3.St × V) β) :
    atOut (.u64 x) (P.call fuel (d + 4) (str% "ReadBits") [.ptr, .i64 off, .i64 n] >>= k) =
    through .u64 (V2.Mini.ReadBits off n) x fun _ x => atOut (.u64 x) (k .unit) := by
  rw [call_of (f := fun_ReadBits) (by rfl) (by rfl)]
  unfold fun_ReadBits
  src
  gom [V2.Mini.ReadBits]
  try outs [readbits fuel d hf]

theorem ReadBitNext (fuel d : Nat) (x : UInt8) (k : V → GoM (V3.St × V) β) :
    atOut (.u8 x) (P.call fuel (d + 3) (str% "ReadBitNext") [.ptr] >>= k) =
    through .u8 (V2.Mini.ReadBitNext) x fun _ x => atOut (.u8 x) (k .unit) := by
  rw [call_of (f := fun_ReadBitNext) (by rfl) (by rfl)]
  unfold fun_ReadBitNext
  src [↓use (seekbit_num fuel (d + 1) _ _)]
  gom [V2.Mini.ReadBitNext]
  try outs [readbit fuel d]

theorem ReadBitsNext (fuel d : Nat) (hf : 2 ^ 64 < fuel) (n : Int64) (x : UInt64) (k : V → GoM (V3.St × V) β) :
    atOut (.u64 x) (P.call fuel (d + 4) (str% "ReadBitsNext") [.ptr, .i64 n] >>= k) =
    through .u64 (V2.Mini.ReadBitsNext n) x fun _ x => atOut (.u64 x) (k .unit) := by
  rw [call_of (f := fun_ReadBitsNext) (by rfl) (by rfl)]
  unfold fun_ReadBitsNext
  src [↓use (seekbit fuel (d + 2) _ _)]
  gom [V2.Mini.ReadBitsNext]
  try outs [readbits fuel d hf]

theorem SetBit (fuel d : Nat) (off : Int64) (data : UInt8) :
    P.call fuel (d + 2) (str% "SetBit") [.i64 off, .u8 data] =
    (onB (V2.Mini.SetBit off data) >>= fun x => pure .unit : GoM (V3.St × V) V) := by
  rw [call_of (f := fun_SetBit) (by rfl) (by rfl)]
  unfold fun_SetBit
  src [↓use (setbit fuel d _ _)]
  gom [V2.Mini.SetBit]

theorem SetBits (fuel d : Nat) (hf : 2 ^ 64 < fuel) (off : Int64) (data : UInt64) (n : Int64) :
    P.call fuel (d + 3) (str% "SetBits") [.i64 off, .u64 data, .i64 n] =
    (onB (V2.Mini.SetBits off data n) >>= fun x => pure .unit : GoM (V3.St × V) V) := by
  rw [call_of (f := fun_SetBits) (by rfl) (by rfl)]
  unfold fun_SetBits
  src [↓use (setbits fuel d hf _ _ _)]
  gom [V2.Mini.SetBits]

theorem SetBitNext (fuel d : Nat) (data : UInt8) :
    P.call fuel (d + 2) (str% "SetBitNext") [.u8 data] =
    (onB (V2.Mini.SetBitNext data) >>= fun x => pure .unit : GoM (V3.St × V) V) := by
  rw [call_of (f := fun_SetBitNext) (by rfl) (by rfl)]
  unfold fun_SetBitNext
  src [↓use (setbit fuel d _ _), ↓use (seekbit_num fuel d _ _)]
  gom [V2.Mini.SetBitNext]

theorem SetBitsNext (fuel d : Nat) (hf : 2 ^ 64 < fuel) (data : UInt64) (n : Int64) :
    P.call fuel (d + 3) (str% "SetBitsNext") [.u64 data, .i64 n] =
    (onB (V2.Mini.SetBitsNext data n) >>= fun x => pure .unit : GoM (V3.St × V) V) := by
  rw [call_of (f := fun_SetBitsNext) (by rfl) (by rfl)]
  unfold fun_SetBitsNext
  src [↓use (setbits fuel d hf _ _ _), ↓use (seekbit fuel (d + 1) _ _)]
  gom [V2.Mini.SetBitsNext]

theorem FlipBit (fuel d : Nat) (off : Int64) :
    P.call fuel (d + 2) (str% "FlipBit") [.i64 off] =
    (onB (V2.Mini.FlipBit off) >>= fun x => pure .unit : GoM (V3.St × V) V) := by
  rw [call_of (f := fun_FlipBit) (by rfl) (by rfl)]
  unfold fun_FlipBit
  src [↓use (flipbit fuel d _)]
  gom [V2.Mini.FlipBit]

theorem FlipBitNext (fuel d : Nat) :
    P.call fuel (d + 2) (str% "FlipBitNext") [] =
    (onB (V2.Mini.FlipBitNext) >>= fun x => pure .unit : GoM (V3.St × V) V) := by
  rw [call_of (f := fun_FlipBitNext) (by rfl) (by rfl)]
  unfold fun_FlipBitNext
  src [↓use (flipbit fuel d _), ↓use (seekbit_num fuel d _ _)]
  gom [V2.Mini.FlipBitNext]

theorem ClearAllBits (fuel d : Nat) (hf : 2 ^ 64 < fuel) :
    P.call fuel (d + 2) (str% "ClearAllBits") [] =
    (onB (V2.Mini.ClearAllBits) >>= fun x => pure .unit : GoM (V3.St × V) V) := by
  rw [call_of (f := fun_ClearAllBits) (by rfl) (by rfl)]
  unfold fun_ClearAllBits
  src [↓use (clearallbits fuel d hf)]
  gom [V2.Mini.ClearAllBits]

theorem SetAllBits (fuel d : Nat) (hf : 2 ^ 64 < fuel) :
    P.call fuel (d + 2) (str% "SetAllBits") [] =
    (onB (V2.Mini.SetAllBits) >>= fun x => pure .unit : GoM (V3.St × V) V) := by
  rw [call_of (f := fun_SetAllBits) (by rfl) (by rfl)]
  unfold fun_SetAllBits
  src [↓use (setallbits fuel d hf)]
  gom [V2.Mini.SetAllBits]

theorem FlipAllBits (fuel d : Nat) (hf : 2 ^ 64 < fuel) :
    P.call fuel (d + 2) (str% "FlipAllBits") [] =
    (onB (V2.Mini.FlipAllBits) >>= fun x => pure .unit : GoM (V3.St × V) V) := by
  rw [call_of (f := fun_FlipAllBits) (by rfl) (by rfl)]
  unfold fun_FlipAllBits
  src [↓use (flipallbits fuel d hf)]
  gom [V2.Mini.FlipAllBits]

end Crunch.Src.V2Mini
