import Verif.Props.V1Seq
import Verif.Props.V2Mini
import Verif.V1.MiniApi

/-!
# Properties of v1 `MiniBuffer` next to v2 (C77, C80)
-/

namespace Crunch.V1
open Spec
open V3 (St WF Val Outs Kind demo demo_wf demoSrc demoOuts)
open V3.Mini (callOut onB getOut putOut)
open V2 (Op2)

/-! ## C77 -/

theorem for_do {body : Int64 → α → GoM σ α} {n : Int64} (a : α) (h : 0 < n) : forLoop body n 0 a = doLoop body n 0 a := by
  have hn : 0 < n.toInt := by rw [Int64.lt_iff_toInt_lt, toInt_zero'] at h; exact h
  have h1 := toInt_lt' n
  rw [eq_ofNat n (by omega), doLoop_pos _ _ (by omega) (by omega)]
  exact forLoop_iter body n.toInt.toNat (by omega) n.toInt.toNat 0 a (by omega)

theorem for_stop {body : Int64 → α → GoM σ α} {n : Int64} (a : α) (h : ¬ 0 < n) : forLoop body n 0 a = pure a := by
  rw [forLoop.eq_def, if_neg h]

theorem mini_readbits_eq (off n : Int64) (h : 0 < n) : Mini.readbits off n = V2.Mini.readbits off n := by
  unfold Mini.readbits V2.Mini.readbits
  rw [for_do _ h]; rfl
theorem mini_setbits_eq (off : Int64) (d : UInt64) (n : Int64) (h : 0 < n) : Mini.setbits off d n = V2.Mini.setbits off d n := by
  unfold Mini.setbits V2.Mini.setbits
  rw [for_do _ h]; rfl

theorem wrapG_eq (f : α → Val) (m : GoM St α) : wrapG (fun a => .val (f a)) m = wrapG .val (V3.wrapVal f m) := by
  unfold wrapG V3.wrapVal
  rw [bind_assoc']; rfl

/-- C77: the v1 `MiniBuffer` method is, for all arguments, states and previous contents of its result variable, the v2 method
of the same name.  Bit counts must be positive; the calls over the whole buffer are in the next theorem. -/
theorem C77_mini_same (o : Outs) (any : Any) (op : Op1) (op2 : Op2) (h : toV2 op = some op2) (hc : Counted op) (hw : Whole op = false) :
    miniCall1 o any op = (V2.miniCall o op2).map (wrapG .val) := by
  cases op with
  | writeComplex p d w e => cases h
  | readComplex p n w e => cases h
  | clearAll => cases hw
  | setAll => cases hw
  | flipAll => cases hw
  | readBits p n =>
    cases h
    cases p
    · simp only [miniCall1, V2.miniCall, Mini.ReadBitsNext, V2.Mini.ReadBitsNext, mini_readbits_eq _ n hc, Option.map_some, wrapG_eq]; rfl
    · simp only [miniCall1, V2.miniCall, Mini.ReadBits, V2.Mini.ReadBits, mini_readbits_eq _ n hc, Option.map_some, wrapG_eq]
  | setBits p d n =>
    cases h
    cases p
    · simp only [miniCall1, V2.miniCall, Mini.SetBitsNext, V2.Mini.SetBitsNext, mini_setbits_eq _ d n hc, Option.map_some, ← wrapG_eq]; rfl
    · simp only [miniCall1, V2.miniCall, Mini.SetBits, V2.Mini.SetBits, mini_setbits_eq _ d n hc, Option.map_some, ← wrapG_eq]
  | writeBytes p _ => cases h; cases p <;> simp only [miniCall1, V2.miniCall, Option.map_some, ← wrapG_eq] <;> rfl
  | readBytes p _ => cases h; cases p <;> simp only [miniCall1, V2.miniCall, Option.map_some, ← wrapG_eq] <;> rfl
  | readBit p => cases h; cases p <;> simp only [miniCall1, V2.miniCall, Option.map_some, ← wrapG_eq] <;> rfl
  | setBit p _ => cases h; cases p <;> simp only [miniCall1, V2.miniCall, Option.map_some, ← wrapG_eq] <;> rfl
  | flipBit p => cases h; cases p <;> simp only [miniCall1, V2.miniCall, Option.map_some, ← wrapG_eq] <;> rfl
  | writeByte p _ => cases h; rfl
  | readByte p => cases h; rfl
  | _ => cases h; simp only [miniCall1, V2.miniCall, Option.map_some, ← wrapG_eq]; rfl

/-- C77 for the calls over the whole buffer, when there is a byte in it. -/
theorem C77_mini_whole_buffer {s : St} (h : s.OK) (hb : s.bytes ≠ []) :
    Mini.ClearAllBits s = V2.Mini.ClearAllBits s ∧ Mini.SetAllBits s = V2.Mini.SetAllBits s ∧
    Mini.FlipAllBits s = V2.Mini.FlipAllBits s := by
  have hM := maxAlloc_lt; have hL := h.len_le_max
  have hlen := V3.length_bytes h
  have hp : 0 < s.b.buf.len := by
    have := List.length_pos_iff.mpr hb
    omega
  have h0 : (0 : Int64) < Int64.ofNat s.b.buf.len := by
    rw [Int64.lt_iff_toInt_lt, toInt_ofNat (by omega), toInt_zero']; omega
  have key : ∀ body : Int64 → Unit → GoM St Unit,
      (V3.getB >>= fun b => forLoop body (Int64.ofNat b.buf.len) 0 ()) s = (V3.getB >>= fun b => doLoop body (Int64.ofNat b.buf.len) 0 ()) s := by
    intro body
    rw [V3.getB_bind, V3.getB_bind, for_do _ h0]
  exact ⟨key _, key _, key _⟩

/-- C77, what the two theorems above leave out: with no bits to go over, or an empty buffer, v1 does nothing (v2 reads or
writes the first bit or byte all the same). -/
theorem C77_mini_nothing_to_do (s : St) (off n : Int64) (d : UInt64) (x : UInt64) (hn : n.toInt ≤ 0) :
    Mini.ReadBits off n (s, x) = (.ok (), (s, x)) ∧ Mini.SetBits off d n s = (.ok (), s) ∧
    (s.b.buf.len = 0 → Mini.ClearAllBits s = (.ok (), s) ∧ Mini.SetAllBits s = (.ok (), s) ∧ Mini.FlipAllBits s = (.ok (), s)) := by
  have h0 : ¬ (0 : Int64) < n := by rw [Int64.lt_iff_toInt_lt, toInt_zero']; omega
  refine ⟨?_, ?_, fun he => ?_⟩
  · show Mini.readbits off n (s, x) = _
    unfold Mini.readbits
    rw [for_stop _ h0]; rfl
  · show Mini.setbits off d n s = _
    unfold Mini.setbits
    rw [for_stop _ h0]; rfl
  · have key : ∀ body : Int64 → Unit → GoM St Unit,
        (V3.getB >>= fun b => forLoop body (Int64.ofNat b.buf.len) 0 ()) s = (.ok (), s) := by
      intro body
      rw [V3.getB_bind, he, for_stop _ (by decide)]; rfl
    exact ⟨key _, key _, key _⟩

/-- C77 for the constructor. -/
theorem C77_mini_constructor (slices : List Slice) : Mini.NewMiniBuffer slices = V2.Mini.NewMiniBuffer slices := rfl

/-- v1 leaves the variable alone, v2 shifts a bit into it. -/
example : callOut (Mini.ReadBits 4 0) 5 demo = (.ok 5, demo) ∧ (callOut (V2.Mini.ReadBits 7 0) 5 demo).1 matches .ok 11 := by
  refine ⟨?_, by decide +kernel⟩
  unfold callOut
  rw [(C77_mini_nothing_to_do demo 4 0 0 5 (by decide)).1]

/-! ## C80 -/

/-- C80: `WriteComplex` of unsigned integers on a v1 `MiniBuffer` is the v2 method `WriteU16LE` … `WriteU64BE` for them: the
same bytes at the same place, also when not all of them fit, and the same panic. -/
theorem C80_mini_writeComplex {s : St} (h : s.OK) (k : V2.UKind) (e : Endian) (off : Int64) (l : List k.kind.Ty)
    (hl : l.length * k.kind.size ≤ maxAlloc) :
    Mini.WriteComplex off (asAny k l) (sizeOf k) (some e) s = V2.Mini.Write k e off l s := by
  have hlen := V3.length_enc k.kind e l
  have hpos : 0 < k.kind.size := by cases k <;> decide
  have e1 : Mini.WriteComplex off (asAny k l) (sizeOf k) (some e) = Mini.writeLit off (V3.enc k.kind e l) := by
    cases k
    · exact mini_writeComplex_u16 off l e hl
    · exact mini_writeComplex_u32 off l e hl
    · exact mini_writeComplex_u64 off l e hl
  rw [e1, mini_writeLit_run h off _ (by omega), V2.mini_write_typed, hlen]
  by_cases hne : l = []
  · subst hne
    rw [V3.mini_write_nil, if_neg (by simp), if_neg (by simp)]; rfl
  · have hp : 0 < l.length * k.kind.size := Nat.mul_pos (List.length_pos_iff.mpr hne) hpos
    rw [V3.mini_write_run h _ _ _ _ hl hne]
    simp only [hp, true_and, Int.natCast_mul]

/-- C80 for reads: a `ReadComplex` whose integers all lie inside the buffer stores in its variable what the v2 method stores in a
slice of the right length, whatever either held before. -/
theorem C80_mini_readComplex {s : St} (h : s.OK) (k : V2.UKind) (e : Endian) (off n : Int64) (hn : 0 < n.toInt) (h0 : 0 ≤ off.toInt)
    (hr : off.toInt + n.toInt * k.kind.size ≤ s.bytes.length) (any : Any) (x : List k.kind.Ty) (hx : x.length = n.toInt.toNat) :
    ∃ l : List k.kind.Ty, l.length = n.toInt.toNat ∧ callOut (Mini.ReadComplex off n (sizeOf k) (some e)) any s = (.ok (asAny k l), s) ∧
      callOut (V2.Mini.Read k e off n) x s = (.ok l, s) := by
  have hM := maxAlloc_lt; have hf := h.fits; have hlc := h.len_le; have hsm := h.small
  have hlen := V3.length_bytes h
  rw [hlen] at hr
  have hpos : 0 < k.kind.size := by cases k <;> decide
  have hmul : n.toInt ≤ n.toInt * k.kind.size := by
    have := Int.mul_le_mul_of_nonneg_left (show (1 : Int) ≤ k.kind.size by omega) (show 0 ≤ n.toInt by omega)
    omega
  have hnat : ((n.toInt.toNat * k.kind.size : Nat) : Int) = n.toInt * k.kind.size := by
    rw [Int.natCast_mul, Int.toNat_of_nonneg (by omega)]
  have hlo : V3.loops n = n.toInt.toNat := by unfold V3.loops; omega
  refine ⟨V3.dec k.kind e n.toInt.toNat (s.bytes.drop off.toInt.toNat), ?_, ?_, ?_⟩
  · simp [V3.dec]
  · have hd : V3.dec k.kind e n.toInt.toNat (St.from s off.toInt.toNat) = V3.dec k.kind e n.toInt.toNat (s.bytes.drop off.toInt.toNat) := by
      apply V3.dec_congr
      show Spec.slice (List.drop _ (s.mem.array s.b.buf.arr)) _ _ = _
      rw [V3.slice_drop, V3.slice_drop, slice_bytes _ _ (by omega), Nat.add_assoc]
    have c : miniRead k.kind e (asAny k) off n s any = (.ok (), (s, asAny k (V3.dec k.kind e n.toInt.toNat (s.bytes.drop off.toInt.toNat)))) := by
      unfold miniRead
      rw [if_pos ⟨by omega, h0, by omega⟩, if_pos (by omega), hd]
    unfold callOut
    have r : Mini.ReadComplex off n (sizeOf k) (some e) (s, any) = miniRead k.kind e (asAny k) off n s any := by
      cases k
      · exact mini_readComplex_u16 h off n e any
      · exact mini_readComplex_u32 h off n e any
      · exact mini_readComplex_u64 h off n e any
    rw [r, c]
  · rw [V2.mini_read_typed, V3.mini_read_callOut h k.kind e off n x (by rw [hx]; omega), hlo, if_pos ⟨h0, by rw [← hx] at *; omega, by omega⟩,
      List.drop_of_length_le (l := x) (by omega), List.append_nil]

/-- After a success, move the byte offset by `n`; after a panic do nothing. -/
def thenMoveM (n : Int64) (r : Res Unit × St × β) : Res Unit × St × β :=
  match r with
  | (.ok a, s, o) => (.ok a, { s with b := { s.b with off := s.b.off + n } }, o)
  | (.panic p, s, o) => (.panic p, s, o)

/-- C80: `ReadComplexNext` is `ReadComplex` at the offset, which then moves by `n` times the integer size. -/
theorem C80_mini_readComplexNext (s : St) (any : Any) (n size : Int64) (o : ByteOrder) :
    Mini.ReadComplexNext n size o (s, any) = thenMoveM (n * size) (Mini.ReadComplex s.b.off n size o (s, any)) := by
  show (Mini.readComplex s.b.off n size o >>= fun _ => onB (Mini.seek (n * size) true)) (s, any) = thenMoveM _ (Mini.readComplex s.b.off n size o (s, any))
  rw [bind_run]
  cases Mini.readComplex s.b.off n size o (s, any) with
  | mk r t => cases r <;> rfl

/-- C80: `WriteComplexNext` is `WriteComplex` at the offset, which then moves by the number of integers times their size. -/
theorem C80_mini_writeComplexNext (s : St) (d : Any) (size : Int64) (o : ByteOrder) :
    Mini.WriteComplexNext d size o s =
      match Mini.WriteComplex s.b.off d size o s with
      | (.ok _, t) => (.ok (), { t with b := { t.b with off := t.b.off + Int64.ofNat d.count * size } })
      | (.panic p, t) => (.panic p, t) := by
  show (Mini.writeComplex s.b.off d size o >>= _) s = match Mini.writeComplex s.b.off d size o s with | (.ok _, t) => _ | (.panic p, t) => _
  rw [bind_run]
  cases h : Mini.writeComplex s.b.off d size o s with
  | mk r t =>
    cases r with
    | panic p => rfl
    | ok a =>
      have ok1 : ∀ {p : Panic} {q : Prop}, (.panic p, s) = (Res.ok a, t) → q := fun h => nomatch h
      by_cases h1 : size = Unsigned8
      · subst h1
        cases d with
        | bytes l => rfl
        | _ => exact ok1 h
      by_cases h2 : size = Unsigned16
      · subst h2
        cases d with
        | u16 l => rfl
        | _ => exact ok1 h
      by_cases h4 : size = Unsigned32
      · subst h4
        cases d with
        | u32 l => rfl
        | _ => exact ok1 h
      by_cases h8 : size = Unsigned64
      · subst h8
        cases d with
        | u64 l => rfl
        | _ => exact ok1 h
      rw [mini_writeComplex_other _ _ _ _ h1 h2 h4 h8] at h
      exact nomatch h

/-- Two 16-bit integers at 11: one byte fits, v1 and v2 store it and panic. -/
example : Mini.WriteComplex 11 (.u16 [0x0102, 0x0304]) Unsigned16 (some .be) demo = V2.Mini.Write .u16 .be 11 [(0x0102 : UInt16), (0x0304 : UInt16)] demo ∧
    (Mini.WriteComplex 11 (.u16 [0x0102, 0x0304]) Unsigned16 (some .be) demo).2.bytes = [3, 4, 5, 6, 7, 8, 9, 10, 11, 12, 13, 1] :=
  ⟨C80_mini_writeComplex demo_wf.ok .u16 .be 11 [(0x0102 : UInt16), (0x0304 : UInt16)] (by decide), by decide +kernel⟩
example : ∃ l : List (V2.UKind.u16).kind.Ty, l.length = 2 ∧ callOut (Mini.ReadComplex 3 2 Unsigned16 (some .be)) .other demo = (.ok (asAny .u16 l), demo) ∧
    callOut (V2.Mini.Read .u16 .be 3 2) [(0 : UInt16), (9 : UInt16)] demo = (.ok l, demo) :=
  C80_mini_readComplex demo_wf.ok .u16 .be 3 2 (by decide) (by decide) (by decide) .other [(0 : UInt16), (9 : UInt16)] rfl
example : ((Mini.WriteComplexNext (.u32 [1, 2]) Unsigned32 (some .le)) demo).2.b.off = 11 := by
  rw [C80_mini_writeComplexNext]; decide +kernel

end Crunch.V1
