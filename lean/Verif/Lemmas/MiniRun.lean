import Verif.Lemmas.Step
import Verif.V3.MiniApi

/-!
`MiniBuffer` calls for every argument: results through out variables, the Next forms, and what happens outside
the range `Buffer` would accept.
-/

namespace Crunch.V3
open Spec Mini

/-! ## out parameters -/

/-- Lift an outcome on `(buffer, out)` to the caller of a method with a local result variable. -/
def outRes {X : Type} : Res Unit × (St × X) → Res X × St
  | (.ok _, s) => (.ok s.2, s.1)
  | (.panic p, s) => (.panic p, s.1)

theorem callOut_run {X : Type} (m : GoM (St × X) Unit) (x : X) (s : St) : callOut m x s = outRes (m (s, x)) := by
  unfold callOut
  rcases m (s, x) with ⟨_ | _, _⟩ <;> rfl

/-- A Next method with an out parameter: the positioned one at the current offset, then the seek. -/
theorem callOut_next {X : Type} (f : Int64 → GoM (St × X) Unit) (d : Int64) (x : X) (s : St) :
    callOut (onB getB >>= fun b => f b.off >>= fun _ => onB (Mini.SeekByte d true)) x s =
      advance d (callOut (f s.b.off) x s) := by
  rw [callOut_run, callOut_run, bind_run]
  simp only [onB, getB]
  rw [bind_run]
  rcases f s.b.off (s, x) with ⟨_ | _, _⟩ <;> rfl

theorem callOut_nextBit {X : Type} (f : Int64 → GoM (St × X) Unit) (d : Int64) (x : X) (s : St) :
    callOut (onB getB >>= fun b => f b.boff >>= fun _ => onB (Mini.SeekBit d true)) x s =
      advanceBit d (callOut (f s.b.boff) x s) := by
  rw [callOut_run, callOut_run, bind_run]
  simp only [onB, getB]
  rw [bind_run]
  rcases f s.b.boff (s, x) with ⟨_ | _, _⟩ <;> rfl

theorem mini_seek_after (m : GoM St Unit) (d : Int64) (s : St) :
    (m >>= fun _ => Mini.SeekByte d true) s = advance d (m s) := by
  rw [bind_run]
  rcases m s with ⟨_ | _, s'⟩ <;> rfl

theorem mini_seekBit_after (m : GoM St Unit) (d : Int64) (s : St) :
    (m >>= fun _ => Mini.SeekBit d true) s = advanceBit d (m s) := by
  rw [bind_run]
  rcases m s with ⟨_ | _, s'⟩ <;> rfl

theorem mini_writeNext_run (k : Kind) (e : Endian) (data : List k.Ty) (s : St) :
    Mini.WriteNext k e data s = advance (len data * Int64.ofNat k.size) (Mini.Write k e s.b.off data s) := by
  rw [mini_writeNext, getB_bind, mini_seek_after]
theorem mini_readNext_run (k : Kind) (e : Endian) (n : Int64) (x : List k.Ty) (s : St) :
    callOut (Mini.ReadNext k e n) x s = advance (n * Int64.ofNat k.size) (callOut (Mini.Read k e s.b.off n) x s) := by
  rw [mini_readNext]; exact callOut_next (fun o => Mini.Read k e o n) _ x s
theorem mini_writeBytesNext_run (data : Slice) (s : St) :
    Mini.WriteBytesNext data s = advance (Int64.ofNat data.len) (Mini.WriteBytes s.b.off data s) := by
  unfold Mini.WriteBytesNext; rw [getB_bind, mini_seek_after]
theorem mini_readBytesNext_run (n : Int64) (x : Slice) (s : St) :
    callOut (Mini.ReadBytesNext n) x s = advance n (callOut (Mini.ReadBytes s.b.off n) x s) :=
  callOut_next (fun o => Mini.ReadBytes o n) n x s
theorem mini_readBitNext_run (x : UInt8) (s : St) :
    callOut Mini.ReadBitNext x s = advanceBit 1 (callOut (Mini.ReadBit s.b.boff) x s) :=
  callOut_nextBit Mini.ReadBit 1 x s
theorem mini_readBitsNext_run (n : Int64) (x : UInt64) (s : St) :
    callOut (Mini.ReadBitsNext n) x s = advanceBit n (callOut (Mini.ReadBits s.b.boff n) x s) :=
  callOut_nextBit (fun o => Mini.ReadBits o n) n x s
theorem mini_setBitNext_run (s : St) : Mini.SetBitNext s = advanceBit 1 (Mini.SetBit s.b.boff s) := by
  unfold Mini.SetBitNext; rw [getB_bind, mini_seekBit_after]
theorem mini_clearBitNext_run (s : St) : Mini.ClearBitNext s = advanceBit 1 (Mini.ClearBit s.b.boff s) := by
  unfold Mini.ClearBitNext; rw [getB_bind, mini_seekBit_after]
theorem mini_flipBitNext_run (s : St) : Mini.FlipBitNext s = advanceBit 1 (Mini.FlipBit s.b.boff s) := by
  unfold Mini.FlipBitNext; rw [getB_bind, mini_seekBit_after]
theorem mini_setBitsNext_run (d : UInt64) (n : Int64) (s : St) :
    Mini.SetBitsNext d n s = advanceBit n (Mini.SetBits s.b.boff d n s) := by
  unfold Mini.SetBitsNext; rw [getB_bind, mini_seekBit_after]

theorem onB_at {X : Type} (m : GoM St α) (s : St) (x : X) : onB m (s, x) = ((m s).1, ((m s).2, x)) := rfl

/-! ## slices -/

/-- `MiniBuffer.ReadBytes` for every argument: Go allows reslicing up to the capacity. -/
theorem mini_readBytes_run {s : St} (h : s.OK) (off n : Int64) (x : Slice) :
    callOut (Mini.ReadBytes off n) x s =
      if 0 ≤ off.toInt ∧ 0 ≤ n.toInt ∧ off.toInt + n.toInt ≤ s.b.buf.cap then
        (.ok ⟨s.b.buf.arr, s.b.buf.off + off.toInt.toNat, n.toInt.toNat, s.b.buf.cap - off.toInt.toNat⟩, s)
      else (.panic .sliceBounds, s) := by
  have hM := maxAlloc_lt
  have hc := h.cap_le
  have o1 := toInt_lt' off; have o2 := le_toInt' off
  have n1 := toInt_lt' n; have n2 := le_toInt' n
  have e : (off + n).toInt = wrap (off.toInt + n.toInt) := by rw [toInt_add]; rfl
  have hr : onMem (reslice s.b.buf off (off + n)) s =
      if 0 ≤ off.toInt ∧ 0 ≤ n.toInt ∧ off.toInt + n.toInt ≤ s.b.buf.cap then
        (.ok ⟨s.b.buf.arr, s.b.buf.off + off.toInt.toNat, n.toInt.toNat, s.b.buf.cap - off.toInt.toNat⟩, s)
      else (.panic .sliceBounds, s) := by
    simp only [onMem, reslice, e]
    by_cases h1 : 0 ≤ off.toInt ∧ 0 ≤ n.toInt ∧ off.toInt + n.toInt ≤ s.b.buf.cap
    · rw [if_pos (by unfold wrap; omega), if_pos h1, wrap_id (by omega) (by omega)]
      rw [show (off.toInt + n.toInt).toNat - off.toInt.toNat = n.toInt.toNat by omega]
    · rw [if_neg (by unfold wrap; omega), if_neg h1]
  rw [callOut_run]
  unfold Mini.ReadBytes
  rw [bind_run]
  show outRes ((onB (onMem (reslice s.b.buf off (off + n))) >>= fun r => putOut r) (s, x)) = _
  rw [bind_run, onB_at, hr]
  by_cases h1 : 0 ≤ off.toInt ∧ 0 ≤ n.toInt ∧ off.toInt + n.toInt ≤ s.b.buf.cap
  · rw [if_pos h1]; rfl
  · rw [if_neg h1]; rfl

/-! ## bits at negative offsets -/

theorem neg_div8 {off : Int64} (h : off.toInt < 0) : (off / 8).toInt = -((-off.toInt) / 8) := by
  rw [toInt_div8, if_neg (by omega)]

theorem neg_mod8 {off : Int64} (h : off.toInt < 0) (h8 : -8 < off.toInt) :
    8 ≤ (7 - (off % 8).toUInt64).toNat := by
  have hm := toInt_mod8 off
  rw [if_neg (by omega)] at hm
  have : (off % 8).toUInt64.toNat = (off.toInt + 2 ^ 64).toNat := by
    rw [← pat_i64, hm]; omega
  rw [UInt64.toNat_sub, this]
  show _ ≤ (2 ^ 64 - _ + 7) % 2 ^ 64
  omega

theorem neg_sub_mod8 {off : Int64} (h : off.toInt < 0) (h8 : -8 < off.toInt) :
    8 ≤ (7 - off % 8).toUInt64.toNat := by
  have hm := toInt_mod8 off
  rw [if_neg (by omega)] at hm
  rw [← pat_i64, toInt_sub, hm]
  show _ ≤ ((((7 : Int) - _ + _) % _ - _) % _).toNat
  omega

/-- The mask of a shift by eight or more is empty. -/
theorem shl8_big {c : UInt64} (h : 8 ≤ c.toNat) : shl8 1 c = 0 := by
  unfold shl8
  rw [if_neg (by rw [UInt64.lt_iff_toNat_lt]; exact Nat.not_lt.mpr h)]

/-- Reading a bit before the start. -/
theorem mini_readBit_neg {s : St} (hs : s.OK) {off : Int64} (h0 : off.toInt < 0) (o : UInt8) :
    Mini.ReadBit off (s, o) =
      if -8 < off.toInt ∧ s.b.buf.len ≠ 0 then (.ok (), (s, 0)) else (.panic .index, (s, o)) := by
  unfold Mini.ReadBit
  rw [bind_run]
  simp only [onB, bufLoad_run hs, neg_div8 h0]
  by_cases h1 : -8 < off.toInt ∧ s.b.buf.len ≠ 0
  · rw [if_pos (by omega), if_pos h1]
    simp only [putOut, shr8_one]
    rw [decide_eq_false (Nat.not_lt.mpr (neg_mod8 h0 h1.1))]
    rfl
  · rw [if_neg (by omega), if_neg h1]

/-- A single-bit update before the start: it goes to byte 0 with an empty mask. -/
theorem rmw_neg {s : St} (hs : s.OK) {off : Int64} (h0 : off.toInt < 0) (f : UInt8 → UInt8)
    (hf : -8 < off.toInt → ∀ x, f x = x) :
    (bufLoad (off / 8) >>= fun x => bufStore (off / 8) (f x)) s =
      if -8 < off.toInt ∧ s.b.buf.len ≠ 0 then (.ok (), s) else (.panic .index, s) := by
  have hb := length_bytes hs
  rw [bind_run, bufLoad_run hs]
  simp only [neg_div8 h0]
  by_cases h1 : -8 < off.toInt ∧ s.b.buf.len ≠ 0
  · rw [if_pos (by omega), if_pos h1]
    simp only [hf h1.1]
    rw [bufStore_run hs]
    simp only [neg_div8 h0]
    rw [if_pos (by omega), show (-(-off.toInt / 8)).toNat = 0 by omega,
      write_eq_put hs (by rw [List.length_singleton]; omega)]
    rw [List.getD, List.getElem?_eq_getElem (show 0 < s.bytes.length by omega)]
    have : patch s.bytes 0 [s.bytes[0]'(by omega)] = s.bytes := by
      apply List.ext_getElem?
      intro j
      rw [getElem?_patch (by simp; omega)]
      simp only [List.length_singleton]
      by_cases hj : j = 0
      · subst hj; rw [if_pos (by omega)]; simp
      · rw [if_neg (by omega)]
    show (_, s.put (patch s.bytes 0 [s.bytes[0]'(by omega)])) = _
    rw [this, put_self hs]
  · rw [if_neg (by omega), if_neg h1]

theorem mini_setBit_neg {s : St} (hs : s.OK) {off : Int64} (h0 : off.toInt < 0) :
    Mini.SetBit off s = if -8 < off.toInt ∧ s.b.buf.len ≠ 0 then (.ok (), s) else (.panic .index, s) := by
  unfold Mini.SetBit
  refine rmw_neg hs h0 (fun x => x ||| shl8 1 (7 - off % 8).toUInt64) (fun h8 x => ?_)
  simp only [shl8_big (neg_sub_mod8 h0 h8), UInt8.or_zero]

theorem mini_clearBit_neg {s : St} (hs : s.OK) {off : Int64} (h0 : off.toInt < 0) :
    Mini.ClearBit off s = if -8 < off.toInt ∧ s.b.buf.len ≠ 0 then (.ok (), s) else (.panic .index, s) := by
  unfold Mini.ClearBit
  refine rmw_neg hs h0 (fun x => x &&& ~~~(shl8 1 (7 - off % 8).toUInt64)) (fun h8 x => ?_)
  simp only [shl8_big (neg_sub_mod8 h0 h8)]
  rw [show ~~~(0 : UInt8) = -1 by decide, UInt8.and_neg_one]

theorem mini_flipBit_neg {s : St} (hs : s.OK) {off : Int64} (h0 : off.toInt < 0) :
    Mini.FlipBit off s = if -8 < off.toInt ∧ s.b.buf.len ≠ 0 then (.ok (), s) else (.panic .index, s) := by
  unfold Mini.FlipBit
  refine rmw_neg hs h0 (fun x => x ^^^ shl8 1 (7 - off % 8).toUInt64) (fun h8 x => ?_)
  simp only [shl8_big (neg_sub_mod8 h0 h8), UInt8.xor_zero]

theorem iter_shift (f : Nat → α → GoM σ α) :
    ∀ (c m : Nat) (a : α), iter f c m a = iter (fun k => f (m + k)) c 0 a := by
  have : ∀ (c d m : Nat) (a : α), iter f c (m + d) a = iter (fun k => f (m + k)) c d a := by
    intro c
    induction c with
    | zero => intros; rfl
    | succ c ih =>
      intro d m a
      simp only [iter]
      congr 1; funext a'
      exact ih (d + 1) m a'
  intro c m a; exact this c 0 m a

theorem iter_noop {f : Nat → α → GoM σ α} {s : σ} {a : α} :
    ∀ (c m : Nat), (∀ k, m ≤ k → k < m + c → f k a s = (.ok a, s)) → iter f c m a s = (.ok a, s) := by
  intro c
  induction c with
  | zero => intros; rfl
  | succ c ih =>
    intro m h
    simp only [iter]
    rw [bind_ok (h m (Nat.le_refl _) (by omega))]
    exact ih (m + 1) (fun k h1 h2 => h k (by omega) (by omega))

theorem neg_ofNat {off : Int64} (h0 : off.toInt < 0) (h8 : -8 < off.toInt) (k : Nat) :
    Int64.ofNat (0 + (-off.toInt).toNat + k) = -off + Int64.ofNat k := by
  rw [Int64.ofNat_add]
  congr 1
  apply Int64.toInt_inj.mp
  rw [toInt_ofNat (by omega), Int64.toInt_neg]
  simp only [Int.bmod]; omega

theorem loops_neg {off n : Int64} (h0 : off.toInt < 0) (h2 : ¬ loops n ≤ (-off.toInt).toNat) :
    loops n = (-off.toInt).toNat + loops (n + off) := by
  have n1 := toInt_lt' n; have n2 := le_toInt' n
  have : (n + off).toInt = n.toInt + off.toInt := by rw [toInt_add]; unfold loops at h2; omega
  unfold loops at *; rw [this]; omega

/-- `SetBits` from before the start: at -8 or below (or with no bytes at all) the first bit panics; from -7 … -1 the bits that would
land before the start are dropped and the rest is written from bit 0. -/
theorem mini_setBits_neg {s : St} (hs : s.OK) {off : Int64} (h0 : off.toInt < 0) (data : UInt64) (n : Int64) :
    Mini.SetBits off data n s =
      if ¬ (-8 < off.toInt ∧ s.b.buf.len ≠ 0) then (.panic .index, s)
      else if loops n ≤ (-off.toInt).toNat then (.ok (), s)
      else Mini.SetBits 0 data (n + off) s := by
  have n1 := toInt_lt' n; have n2 := le_toInt' n
  unfold Mini.SetBits
  rw [doLoop_loops, doLoop_loops]
  by_cases h1 : -8 < off.toInt ∧ s.b.buf.len ≠ 0
  · rw [if_neg (fun h => h h1)]
    have step : ∀ k : Nat, k < (-off.toInt).toNat → k < 8 →
        (if (shr64 data (n - Int64.ofNat k - 1).toUInt64 &&& 1).toUInt8 = 0 then Mini.ClearBit (off + Int64.ofNat k)
          else Mini.SetBit (off + Int64.ofNat k)) s = (.ok (), s) := by
      intro k hk h8
      have e : (off + Int64.ofNat k).toInt = off.toInt + k := by
        rw [toInt_add, toInt_ofNat (by omega)]; omega
      split
      · rw [mini_clearBit_neg hs (by omega), if_pos (by omega)]
      · rw [mini_setBit_neg hs (by omega), if_pos (by omega)]
    by_cases h2 : loops n ≤ (-off.toInt).toNat
    · rw [if_pos h2]
      exact iter_noop _ 0 (fun k _ hk => step k (by omega) (by omega))
    · rw [if_neg h2]
      rw [loops_neg h0 h2, iter_add, bind_ok (iter_noop _ 0 (fun k _ hk => step k (by omega) (by omega))), iter_shift]
      congr 1
      funext k _
      have e0 := neg_ofNat h0 h1.1 k
      have e1 : off + Int64.ofNat (0 + (-off.toInt).toNat + k) = 0 + Int64.ofNat k := by
        rw [e0]; grind
      have e2 : n - Int64.ofNat (0 + (-off.toInt).toNat + k) - 1 = n + off - Int64.ofNat k - 1 := by
        rw [e0]; grind
      rw [e1, e2]
  · rw [if_pos h1]
    have : loops n = (loops n - 1) + 1 := by unfold loops; omega
    rw [this]
    simp only [iter]
    apply bind_panic
    have e : off + Int64.ofNat 0 = off := by simp
    rw [e]
    split
    · rw [mini_clearBit_neg hs h0, if_neg h1]
    · rw [mini_setBit_neg hs h0, if_neg h1]

/-- One round of `ReadBits`. -/
def bitsBody (off : Int64) (i : Nat) (bout : UInt8) : GoM (St × UInt64) UInt8 := do
  let bout ← Mini.onB (Mini.callOut (Mini.ReadBit (off + Int64.ofNat i)) bout)
  let out ← Mini.getOut
  Mini.putOut ((out <<< 1) ||| bout.toUInt64)
  return bout

theorem mini_readBits_eq (off n : Int64) :
    Mini.ReadBits off n = (iter (bitsBody off) (loops n) 0 0 >>= fun _ => pure ()) := by
  unfold Mini.ReadBits
  rw [doLoop_loops]; rfl

theorem bitsBody_ok {s : St} {off : Int64} {i : Nat} {bout b : UInt8} {out : UInt64}
    (h : Mini.ReadBit (off + Int64.ofNat i) (s, bout) = (.ok (), (s, b))) :
    bitsBody off i bout (s, out) = (.ok b, (s, (out <<< 1) ||| b.toUInt64)) := by
  unfold bitsBody
  rw [bind_run, onB_at, callOut_run, h]; rfl

theorem bitsBody_panic {s : St} {off : Int64} {i : Nat} {bout b : UInt8} {out : UInt64} {p : Panic}
    (h : Mini.ReadBit (off + Int64.ofNat i) (s, bout) = (.panic p, (s, b))) :
    bitsBody off i bout (s, out) = (.panic p, (s, out)) := by
  unfold bitsBody
  rw [bind_run, onB_at, callOut_run, h]; rfl

/-- `ReadBits` from before the start: the bits before the start read as zeros. -/
theorem mini_readBits_neg {s : St} (hs : s.OK) {off : Int64} (h0 : off.toInt < 0) (n : Int64) (out : UInt64) :
    Mini.ReadBits off n (s, out) =
      if ¬ (-8 < off.toInt ∧ s.b.buf.len ≠ 0) then (.panic .index, (s, out))
      else if loops n ≤ (-off.toInt).toNat then (.ok (), (s, UInt64.ofNat (out.toNat * 2 ^ loops n)))
      else Mini.ReadBits 0 (n + off) (s, UInt64.ofNat (out.toNat * 2 ^ (-off.toInt).toNat)) := by
  rw [mini_readBits_eq, mini_readBits_eq]
  by_cases h1 : -8 < off.toInt ∧ s.b.buf.len ≠ 0
  · rw [if_neg (fun h => h h1)]
    have step : ∀ (c k : Nat) (b : UInt8) (out : UInt64), b = 0 → k + c ≤ (-off.toInt).toNat → k + c < 8 →
        iter (bitsBody off) c k b (s, out) = (.ok 0, (s, UInt64.ofNat (out.toNat * 2 ^ c))) := by
      intro c
      induction c with
      | zero => intro k b out hb _ _; subst hb; simp [iter, pure_run]
      | succ c ih =>
        intro k b out hb hk h8
        have e : (off + Int64.ofNat k).toInt = off.toInt + k := by
          rw [toInt_add, toInt_ofNat (by omega)]; omega
        have e2 : (out <<< 1) ||| (0 : UInt8).toUInt64 = UInt64.ofNat (out.toNat * 2) := by
          apply UInt64.toNat_inj.mp
          simp [UInt64.toNat_shiftLeft, Nat.shiftLeft_eq]
        simp only [iter]
        rw [bind_ok (bitsBody_ok (b := 0) (by rw [mini_readBit_neg hs (by omega), if_pos (by omega)])), e2,
          ih (k + 1) 0 _ rfl (by omega) (by omega)]
        congr 2
        apply UInt64.toNat_inj.mp
        simp only [UInt64.toNat_ofNat']
        rw [Nat.mod_mul_mod, Nat.mul_assoc, ← Nat.pow_succ']
    by_cases h2 : loops n ≤ (-off.toInt).toNat
    · rw [if_pos h2, bind_ok (step (loops n) 0 0 out rfl (by omega) (by omega))]; rfl
    · rw [if_neg h2]
      rw [loops_neg h0 h2, iter_add, bind_assoc', bind_ok (step _ 0 0 out rfl (by omega) (by omega)), iter_shift]
      have : (fun k => bitsBody off (0 + (-off.toInt).toNat + k)) = bitsBody 0 := by
        funext k b
        unfold bitsBody
        rw [neg_ofNat h0 h1.1, show off + (-off + Int64.ofNat k) = 0 + Int64.ofNat k by grind]
      rw [this]
  · rw [if_pos h1]
    have : loops n = (loops n - 1) + 1 := by unfold loops; omega
    rw [this]
    simp only [iter]
    rw [bind_assoc']
    exact bind_panic (bitsBody_panic (b := 0) (by
      rw [show off + Int64.ofNat 0 = off by simp, mini_readBit_neg hs h0, if_neg h1]))

/-- `ReadBits` of bits that are not all there. -/
theorem mini_readBits_over {s : St} (h : s.OK) (off : Int64) (h0 : 0 ≤ off.toInt) (n : Int64) (out : UInt64)
    (h1 : 8 * s.b.buf.len < off.toInt + loops n) : (Mini.ReadBits off n (s, out)).1 = .panic .index := by
  have o1 := toInt_lt' off
  have hL := h.len_le_max; have hM := maxAlloc_lt
  rw [mini_readBits_eq]
  generalize hc : min (loops n) (8 * s.b.buf.len - off.toInt.toNat) = c
  have hl1 : 1 ≤ loops n := by unfold loops; omega
  have e : loops n = c + ((loops n - c - 1) + 1) := by omega
  have pre : ∃ b out', iter (bitsBody off) c 0 0 (s, out) = (.ok b, (s, out')) := by
    by_cases hz : c = 0
    · subst hz; exact ⟨0, out, rfl⟩
    · obtain ⟨i1, b, i2⟩ := mini_readBits_iter h off h0 c 0 0 out (by omega)
      exact ⟨b, _, Prod.ext i2 i1⟩
  obtain ⟨b, out', hp⟩ := pre
  rw [e, iter_add, bind_assoc', bind_ok hp]
  simp only [iter]
  rw [bind_assoc', bind_panic (bitsBody_panic (b := b) (p := .index) ?_)]
  have n1 := toInt_lt' n
  by_cases hw : off.toInt + (0 + c : Nat) < 2 ^ 63
  · have e1 : (off + Int64.ofNat (0 + c)).toInt = off.toInt + (0 + c : Nat) := by
      rw [toInt_add, toInt_ofNat (by omega)]; omega
    rw [mini_readBit_run h (by omega), if_neg (by omega)]
  · omega

/-! ## readers never change the buffer -/

/-- A method with an out parameter that leaves buffer and memory alone. -/
def ReadOnly {X : Type} (m : GoM (St × X) α) : Prop := ∀ s x, s.OK → (m (s, x)).2.1 = s

theorem ReadOnly.bind {X : Type} {m : GoM (St × X) α} {f : α → GoM (St × X) β} (hm : ReadOnly m) (hf : ∀ a, ReadOnly (f a)) :
    ReadOnly (m >>= f) := by
  intro s x h
  have h1 := hm s x h
  rw [bind_run]
  rcases hr : m (s, x) with ⟨a | p, s', x'⟩
  · rw [hr] at h1
    simp only at h1 ⊢
    subst h1
    exact hf a s' x' h
  · rw [hr] at h1; exact h1

theorem ReadOnly.pure {X : Type} (a : α) : ReadOnly (Pure.pure a : GoM (St × X) α) := fun _ _ _ => rfl
theorem ReadOnly.getOut {X : Type} : ReadOnly (Mini.getOut : GoM (St × X) X) := fun _ _ _ => rfl
theorem ReadOnly.putOut {X : Type} (x : X) : ReadOnly (Mini.putOut x) := fun _ _ _ => rfl

theorem ReadOnly.iter {X : Type} {f : Nat → α → GoM (St × X) α} (hf : ∀ k a, ReadOnly (f k a)) :
    ∀ c m a, ReadOnly (iter f c m a) := by
  intro c
  induction c with
  | zero => intro m a; exact ReadOnly.pure a
  | succ c ih => intro m a; exact (hf m a).bind (fun a' => ih (m + 1) a')

theorem ReadOnly.callOut {X : Type} {m : GoM (St × X) Unit} (h : ReadOnly m) (x : X) (s : St) (hs : s.OK) : (Mini.callOut m x s).2 = s := by
  rw [callOut_run]
  have := h s x hs
  rcases hr : m (s, x) with ⟨a | p, s', x'⟩ <;> (rw [hr] at this; exact this)

theorem ReadOnly.readBit (off : Int64) : ReadOnly (Mini.ReadBit off) := by
  intro s x h
  by_cases h0 : 0 ≤ off.toInt
  · rw [mini_readBit_run h h0]; split <;> rfl
  · rw [mini_readBit_neg h (by omega)]; split <;> rfl

theorem ReadOnly.readBits (off n : Int64) : ReadOnly (Mini.ReadBits off n) := by
  rw [mini_readBits_eq]
  refine ReadOnly.bind (ReadOnly.iter (fun k b => ?_) _ _ _) (fun _ => ReadOnly.pure ())
  refine ReadOnly.bind (fun s x h => (ReadOnly.readBit _).callOut b s h) (fun b' => ?_)
  exact ReadOnly.getOut.bind fun o => (ReadOnly.putOut _).bind fun _ => ReadOnly.pure _

theorem ReadOnly.readBody (k : Kind) (e : Endian) (off : Int64) (m : Nat) : ReadOnly (V3.readBody k e off m) := by
  unfold V3.readBody
  refine ReadOnly.bind (fun s x h => ?_) (fun v => ReadOnly.getOut.bind fun o => ?_)
  · show (loadVal k e off (m * k.size) s).2 = s
    unfold loadVal
    rw [bind_run]
    have : ∀ l, (loadMany off l s).2 = s := by
      intro l
      induction l with
      | nil => rfl
      | cons i l ih =>
        simp only [loadMany]
        rw [bind_run, bufLoad_run h]
        split
        · rename_i hh
          split at hh
          · cases hh
            rw [bind_run]
            rcases hl : loadMany off l s with ⟨_ | _, _⟩ <;> (rw [hl] at ih; exact ih)
          · cases hh
        · rename_i hh
          split at hh <;> cases hh
          rfl
    have := this (order e k.size (m * k.size))
    revert this
    rcases loadMany off (order e k.size (m * k.size)) s with ⟨_ | _, _⟩ <;> exact id
  · refine ReadOnly.bind (fun s x _ => ?_) (fun _ => ReadOnly.putOut _)
    unfold setIdx
    split <;> rfl

theorem ReadOnly.read (k : Kind) (e : Endian) (off n : Int64) : ReadOnly (Mini.Read k e off n) := by
  have n1 := toInt_lt' n
  by_cases h : n.toInt ≤ 0
  · rw [mini_read_nonpos _ _ _ _ h]
    have := mini_read_iter k e off 1 (by decide) (by decide)
    rw [show (1 : Int64) = Int64.ofNat 1 by rfl, this]
    exact ReadOnly.iter (fun m _ => ReadOnly.readBody k e off m) _ _ _
  · have e1 : n = Int64.ofNat n.toInt.toNat := by
      apply Int64.toInt_inj.mp; rw [toInt_ofNat (by omega)]; omega
    rw [e1, mini_read_iter k e off _ (by omega) (by omega)]
    exact ReadOnly.iter (fun m _ => ReadOnly.readBody k e off m) _ _ _

end Crunch.V3
