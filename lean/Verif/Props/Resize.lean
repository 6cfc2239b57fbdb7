import Verif.Props.Bits

/-!
# Seeking, aligning, truncating, growing, resetting (C27 … C33, C37, C47, C49)
-/

namespace Crunch.V3
open Spec

/-! ## C27 -/

/-- C27: `SeekByte`/`SeekBit` set one offset (`int64` addition wraps around) and change nothing else. -/
theorem C27_seek (s : St) (o : Int64) :
    (∃ s', Buffer.SeekByte o false s = (.ok (), s') ∧ s' = { s with b := { s.b with off := s'.b.off } } ∧ s'.b.off = o) ∧
    (∃ s', Buffer.SeekByte o true s = (.ok (), s') ∧ s' = { s with b := { s.b with off := s'.b.off } } ∧
      s'.b.off.toInt = (s.b.off.toInt + o.toInt).bmod (2 ^ 64)) ∧
    (∃ s', Buffer.SeekBit o false s = (.ok (), s') ∧ s' = { s with b := { s.b with boff := s'.b.boff } } ∧ s'.b.boff = o) ∧
    (∃ s', Buffer.SeekBit o true s = (.ok (), s') ∧ s' = { s with b := { s.b with boff := s'.b.boff } } ∧
      s'.b.boff.toInt = (s.b.boff.toInt + o.toInt).bmod (2 ^ 64)) :=
  ⟨⟨_, buffer_seekByte_run s o false, rfl, rfl⟩, ⟨_, buffer_seekByte_run s o true, rfl, Int64.toInt_add _ _⟩,
   ⟨_, buffer_seekBit_run s o false, rfl, rfl⟩, ⟨_, buffer_seekBit_run s o true, rfl, Int64.toInt_add _ _⟩⟩

/-- C27: `AfterByte`/`AfterBit` return `capacity - position - 1` (in `int64`) and change nothing; only
the first variadic argument counts. -/
theorem C27_after {s : St} (h : WF s) (o : Int64) (os : List Int64) :
    (∃ v, Buffer.AfterByte [] s = (.ok v, s) ∧ v.toInt = ((s.bytes.length : Int) - s.b.off.toInt - 1).bmod (2 ^ 64)) ∧
    (∃ v, Buffer.AfterByte (o :: os) s = (.ok v, s) ∧ v.toInt = ((s.bytes.length : Int) - o.toInt - 1).bmod (2 ^ 64)) ∧
    (∃ v, Buffer.AfterBit [] s = (.ok v, s) ∧
      v.toInt = (8 * (s.bytes.length : Int) - s.b.boff.toInt - 1).bmod (2 ^ 64)) ∧
    (∃ v, Buffer.AfterBit (o :: os) s = (.ok v, s) ∧ v.toInt = (8 * (s.bytes.length : Int) - o.toInt - 1).bmod (2 ^ 64)) := by
  rw [length_bytes h.ok]
  have key : ∀ (c x : Int64), (c - x - 1).toInt = (c.toInt - x.toInt - 1).bmod (2 ^ 64) := by
    intro c x
    rw [Int64.toInt_sub, Int64.toInt_sub, show (1 : Int64).toInt = 1 from rfl, Int.bmod_sub_bmod]
  refine ⟨⟨_, rfl, ?_⟩, ⟨_, rfl, ?_⟩, ⟨_, rfl, ?_⟩, ⟨_, rfl, ?_⟩⟩
  · rw [key, h.cap_toInt]
  · rw [key, h.cap_toInt]
  · rw [key, h.bcap_toInt]
  · rw [key, h.bcap_toInt]

example : Buffer.AfterByte [] demo = (.ok 8, demo) := by
  obtain ⟨⟨v, h1, h2⟩, _⟩ := C27_after demo_wf 0 []
  rw [h1]
  have : v.toInt = (8 : Int64).toInt := h2.trans (by decide)
  rw [Int64.toInt_inj.mp this]

/-! ## C28 -/

/-- C28: `AlignBit` makes the bit offset eight times the byte offset (modulo 2^64 in general). -/
theorem C28_alignBit (s : St) :
    ∃ s', Buffer.AlignBit s = (.ok (), s') ∧ s' = { s with b := { s.b with boff := s'.b.boff } } ∧
      s'.b.boff.toInt = (8 * s.b.off.toInt).bmod (2 ^ 64) ∧
      (-2 ^ 60 ≤ s.b.off.toInt → s.b.off.toInt < 2 ^ 60 → s'.b.boff.toInt = 8 * s.b.off.toInt) := by
  have e : (s.b.off * 8).toInt = (8 * s.b.off.toInt).bmod (2 ^ 64) := by
    rw [Int64.toInt_mul, show (8 : Int64).toInt = 8 from rfl, Int.mul_comm]
  refine ⟨_, rfl, rfl, e, fun h1 h2 => ?_⟩
  show (s.b.off * 8).toInt = _
  rw [toInt_mul, show (8 : Int64).toInt = 8 from rfl]; omega

theorem tdiv8 (x : Int) : x.tdiv 8 = if 0 ≤ x then x / 8 else -(-x / 8) := by
  split
  · rename_i h; exact Int.tdiv_eq_ediv_of_nonneg h
  · rw [← Int.tdiv_eq_ediv_of_nonneg (a := -x) (by omega), Int.neg_tdiv, Int.neg_neg]

/-- C28: `AlignByte` makes the byte offset the bit offset divided by eight, rounded toward zero. -/
theorem C28_alignByte (s : St) :
    ∃ s', Buffer.AlignByte s = (.ok (), s') ∧ s' = { s with b := { s.b with off := s'.b.off } } ∧
      s'.b.off.toInt = s.b.boff.toInt.tdiv 8 := by
  refine ⟨_, rfl, rfl, ?_⟩
  show (s.b.boff / 8).toInt = _
  rw [Int64.toInt_div, show (8 : Int64).toInt = 8 from rfl]
  have h1 := s.b.boff.toInt_lt; have h2 := s.b.boff.le_toInt
  have h3 := tdiv8 s.b.boff.toInt
  apply Int.bmod_eq_of_le <;> omega

/-- C28: `AlignBit` then `AlignByte` restores the byte offset when it is within ±2^60. -/
theorem C28_align_round_trip (s : St) (h1 : -2 ^ 60 ≤ s.b.off.toInt) (h2 : s.b.off.toInt < 2 ^ 60) :
    ∃ s', (Buffer.AlignBit >>= fun _ => Buffer.AlignByte) s = (.ok (), s') ∧ s'.b.off = s.b.off ∧
      s'.b.boff.toInt = 8 * s.b.off.toInt := by
  obtain ⟨s1, r1, e1, _, p1⟩ := C28_alignBit s
  obtain ⟨s2, r2, e2, p2⟩ := C28_alignByte s1
  refine ⟨s2, by rw [bind_ok r1]; exact r2, ?_, ?_⟩
  · apply Int64.toInt_inj.mp
    rw [p2, p1 h1 h2, tdiv8]; omega
  · rw [e2]; exact p1 h1 h2

example : ∃ s', (Buffer.AlignBit >>= fun _ => Buffer.AlignByte) demo = (.ok (), s') ∧ s'.b.off = 3 :=
  let ⟨s', h1, h2, _⟩ := C28_align_round_trip demo (by decide) (by decide)
  ⟨s', h1, h2⟩

/-- C28: `AlignByte` then `AlignBit` rounds a non-negative bit offset down to a multiple of eight. -/
theorem C28_align_down (s : St) (h0 : 0 ≤ s.b.boff.toInt) :
    ∃ s', (Buffer.AlignByte >>= fun _ => Buffer.AlignBit) s = (.ok (), s') ∧
      s'.b.boff.toInt = s.b.boff.toInt - s.b.boff.toInt % 8 ∧ s'.b.off.toInt = s.b.boff.toInt / 8 := by
  obtain ⟨s1, r1, e1, p1⟩ := C28_alignByte s
  obtain ⟨s2, r2, e2, _, p2⟩ := C28_alignBit s1
  have hb := toInt_lt' s.b.boff
  rw [Int.tdiv_eq_ediv_of_nonneg h0] at p1
  refine ⟨s2, by rw [bind_ok r1]; exact r2, ?_, ?_⟩
  · rw [p2 (by omega) (by omega), p1]; omega
  · rw [e2]; exact p1

example : ∃ s', (Buffer.AlignByte >>= fun _ => Buffer.AlignBit) demo = (.ok (), s') ∧ s'.b.boff.toInt = 0 :=
  let ⟨s', h1, h2, _⟩ := C28_align_down demo (by decide)
  ⟨s', h1, h2⟩

/-! ## C29 -/

/-- C29: truncation removes exactly the first/last `n` bytes and keeps everything else. -/
theorem C29_truncate {s : St} (h : WF s) (n : Int64) (h0 : 0 ≤ n.toInt) (h1 : n.toInt ≤ s.bytes.length) :
    (∃ s', Buffer.TruncateLeft n s = (.ok (), s') ∧ s'.bytes = s.bytes.drop n.toInt.toNat ∧ s'.mem = s.mem ∧
      s'.b.off = s.b.off ∧ s'.b.boff = s.b.boff ∧ WF s' ∧ s'.b.cap.toInt = s.bytes.length - n.toInt ∧
      s'.b.bcap.toInt = 8 * (s.bytes.length - n.toInt)) ∧
    (∃ s', Buffer.TruncateRight n s = (.ok (), s') ∧ s'.bytes = s.bytes.take (s.bytes.length - n.toInt.toNat) ∧
      s'.mem = s.mem ∧
      s'.b.off = s.b.off ∧ s'.b.boff = s.b.boff ∧ WF s' ∧ s'.b.cap.toInt = s.bytes.length - n.toInt ∧
      s'.b.bcap.toInt = 8 * (s.bytes.length - n.toInt)) := by
  have hb := length_bytes h.ok
  have hc := h.ok.len_le
  have w1 : WF (s.refit s.mem (s.b.buf.skip n.toInt.toNat)) := WF.refit (h.ok.skip (by omega))
  have w2 : WF (s.refit s.mem (s.b.buf.withLen (s.b.buf.len - n.toInt.toNat))) := WF.refit (h.ok.withLen (by omega))
  refine ⟨⟨s.refit s.mem (s.b.buf.skip n.toInt.toNat), ?_, ?_, rfl, rfl, rfl, w1, ?_, ?_⟩,
    ⟨s.refit s.mem (s.b.buf.withLen (s.b.buf.len - n.toInt.toNat)), ?_, ?_, rfl, rfl, rfl, w2, ?_, ?_⟩⟩
  · rw [buffer_truncateLeft_run h, if_pos (by omega)]
  · rw [refit_bytes, view_skip]; rfl
  · rw [w1.cap_toInt]; simp only [refit_buf, Slice.skip]; omega
  · rw [w1.bcap_toInt]; simp only [refit_buf, Slice.skip]; omega
  · rw [buffer_truncateRight_run h, if_pos (by omega)]
  · rw [refit_bytes, view_withLen _ _ (by omega), hb]; rfl
  · rw [w2.cap_toInt]; simp only [refit_buf, Slice.withLen]; omega
  · rw [w2.bcap_toInt]; simp only [refit_buf, Slice.withLen]; omega

example : ∃ s', Buffer.TruncateLeft 5 demo = (.ok (), s') ∧ s'.bytes = [8, 9, 10, 11, 12, 13, 14] := by
  obtain ⟨s', h1, h2, _⟩ := (C29_truncate demo_wf 5 (by decide) (by decide)).1
  exact ⟨s', h1, h2.trans (by decide)⟩

/-- C29: the errors of truncation; nothing changes. -/
theorem C29_truncate_errors {s : St} (h : WF s) (n : Int64) :
    (n.toInt < 0 → Buffer.TruncateLeft n s = (.panic (.err BufferInvalidByteCountError), s) ∧
      Buffer.TruncateRight n s = (.panic (.err BufferInvalidByteCountError), s)) ∧
    (s.bytes.length < n.toInt → Buffer.TruncateLeft n s = (.panic .sliceBounds, s) ∧
      Buffer.TruncateRight n s = (.panic .sliceBounds, s)) := by
  rw [length_bytes h.ok, buffer_truncateLeft_run h, buffer_truncateRight_run h]
  constructor
  · intro hn; rw [if_pos hn, if_neg (by omega), if_neg (by omega)]; exact ⟨rfl, rfl⟩
  · intro hn; rw [if_neg (show ¬ n.toInt < 0 by omega), if_neg (by omega), if_neg (by omega)]; exact ⟨rfl, rfl⟩

/-! ## C30 -/

theorem toInt_add_fit {m n : Int64} {L : Nat} (h1 : 0 ≤ m.toInt) (h2 : 0 ≤ n.toInt) (h3 : m.toInt + n.toInt ≤ L)
    (hL : L < 2 ^ 50) : (m + n).toInt = m.toInt + n.toInt := by
  rw [toInt_add]; omega

/-- C30: truncations add up and commute; the whole state (contents, fields, memory) is the same. -/
theorem C30_truncate_algebra {s : St} (h : WF s) (m n : Int64) (hm : 0 ≤ m.toInt) (hn : 0 ≤ n.toInt)
    (hmn : m.toInt + n.toInt ≤ s.bytes.length) :
    (Buffer.TruncateLeft m >>= fun _ => Buffer.TruncateLeft n) s = Buffer.TruncateLeft (m + n) s ∧
    (Buffer.TruncateRight m >>= fun _ => Buffer.TruncateRight n) s = Buffer.TruncateRight (m + n) s ∧
    (Buffer.TruncateLeft m >>= fun _ => Buffer.TruncateRight n) s =
      (Buffer.TruncateRight n >>= fun _ => Buffer.TruncateLeft m) s ∧
    ∃ s', (Buffer.TruncateLeft m >>= fun _ => Buffer.TruncateRight n) s = (.ok (), s') ∧
      s'.bytes = (s.bytes.drop m.toInt.toNat).take (s.bytes.length - m.toInt.toNat - n.toInt.toNat) := by
  have hb := length_bytes h.ok
  have hL := h.len_lt
  have hc := h.ok.len_le
  have hadd := toInt_add_fit hm hn hmn (by omega)
  have wl : WF (s.refit s.mem (s.b.buf.skip m.toInt.toNat)) := WF.refit (h.ok.skip (by omega))
  have wr : WF (s.refit s.mem (s.b.buf.withLen (s.b.buf.len - m.toInt.toNat))) := WF.refit (h.ok.withLen (by omega))
  have wr' : WF (s.refit s.mem (s.b.buf.withLen (s.b.buf.len - n.toInt.toNat))) := WF.refit (h.ok.withLen (by omega))
  have l1 : Buffer.TruncateLeft m s = (.ok (), s.refit s.mem (s.b.buf.skip m.toInt.toNat)) := by
    rw [buffer_truncateLeft_run h, if_pos (by omega)]
  have r1 : Buffer.TruncateRight m s = (.ok (), s.refit s.mem (s.b.buf.withLen (s.b.buf.len - m.toInt.toNat))) := by
    rw [buffer_truncateRight_run h, if_pos (by omega)]
  have r2 : Buffer.TruncateRight n s = (.ok (), s.refit s.mem (s.b.buf.withLen (s.b.buf.len - n.toInt.toNat))) := by
    rw [buffer_truncateRight_run h, if_pos (by omega)]
  have lr : Buffer.TruncateRight n (s.refit s.mem (s.b.buf.skip m.toInt.toNat)) =
      (.ok (), s.refit s.mem ((s.b.buf.skip m.toInt.toNat).withLen (s.b.buf.len - m.toInt.toNat - n.toInt.toNat))) := by
    rw [buffer_truncateRight_run wl, if_pos (by simp only [refit_buf, Slice.skip]; omega)]; rfl
  refine ⟨?_, ?_, ?_, _, by rw [bind_ok l1, lr], ?_⟩
  · rw [bind_ok l1, buffer_truncateLeft_run wl, buffer_truncateLeft_run h, hadd]
    rw [if_pos (by simp only [refit_buf, Slice.skip]; omega), if_pos (by omega)]
    simp only [St.refit, Slice.skip]
    rw [show (m.toInt + n.toInt).toNat = m.toInt.toNat + n.toInt.toNat by omega, Nat.sub_sub, Nat.sub_sub, Nat.add_assoc]
  · rw [bind_ok r1, buffer_truncateRight_run wr, buffer_truncateRight_run h, hadd]
    rw [if_pos (by simp only [refit_buf, Slice.withLen]; omega), if_pos (by omega)]
    simp only [St.refit, Slice.withLen]
    rw [show (m.toInt + n.toInt).toNat = m.toInt.toNat + n.toInt.toNat by omega, Nat.sub_sub]
  · rw [bind_ok l1, bind_ok r2, lr, buffer_truncateLeft_run wr',
      if_pos (by simp only [refit_buf, Slice.withLen]; omega)]
    simp only [St.refit, Slice.withLen, Slice.skip]
    rw [Nat.sub_sub, Nat.sub_sub, Nat.add_comm m.toInt.toNat]
  · rw [refit_bytes, view_withLen _ _ (by simp only [Slice.skip]; omega), view_skip, hb]; rfl

example : (Buffer.TruncateLeft 3 >>= fun _ => Buffer.TruncateRight 4) demo =
    (Buffer.TruncateRight 4 >>= fun _ => Buffer.TruncateLeft 3) demo :=
  (C30_truncate_algebra demo_wf 3 4 (by decide) (by decide) (by decide)).2.2.1

/-! ## C31 -/

/-- C31: a `Grow(n)` that returns adds exactly `n` bytes and keeps the existing ones, the offsets,
and every other array; the cached capacities are right afterwards. -/
theorem C31_grow {s s' : St} (h : WF s) (n : Int64) (hr : Buffer.Grow n s = (.ok (), s')) :
    0 ≤ n.toInt ∧ (s'.bytes.length : Int) = s.bytes.length + n.toInt ∧ s'.bytes.take s.bytes.length = s.bytes ∧
    s'.b.off = s.b.off ∧ s'.b.boff = s.b.boff ∧ s'.b.cap.toInt = s.bytes.length + n.toInt ∧
    s'.b.bcap.toInt = 8 * (s.bytes.length + n.toInt) ∧ WF s' ∧ Unchanged s.mem s'.mem := by
  have hb := length_bytes h.ok
  have hc := h.ok.len_le
  rw [buffer_grow_run h] at hr
  split at hr
  · simp at hr
  rename_i h0
  split at hr
  · rename_i h1
    injection hr with _ hr; subst hr
    have w : WF (s.refit s.mem (s.b.buf.withLen (s.b.buf.len + n.toInt.toNat))) := WF.refit (h.ok.withLen (by omega))
    have hb' := length_bytes w.ok
    simp only [refit_buf, Slice.withLen] at hb'
    refine ⟨by omega, by simp only [Slice.withLen] at *; omega, ?_, rfl, rfl, ?_, ?_, w, fun _ _ => rfl⟩
    · rw [refit_bytes, view_withLen_window _ _ (by omega), List.take_take, hb]
      simp only [Heap.window, St.bytes, Heap.view]
      rw [List.take_take]; congr 1; omega
    · rw [w.cap_toInt]; simp only [refit_buf, Slice.withLen]; omega
    · rw [w.bcap_toInt]; simp only [refit_buf, Slice.withLen]; omega
  · rename_i h1
    split at hr
    · rename_i h2
      injection hr with _ hr; subst hr
      have w : WF (s.refit (moved s.mem s.b.buf ((s.b.buf.cap + n.toInt.toNat) * 2))
          (fresh s.mem (s.b.buf.len + n.toInt.toNat) ((s.b.buf.cap + n.toInt.toNat) * 2))) :=
        WF.refit (moved_ok h.ok (by omega) (by omega) (by omega))
      have hb' := length_bytes w.ok
      simp only [refit_buf, fresh] at hb'
      refine ⟨by omega, by simp only [fresh] at *; omega, ?_, rfl, rfl, ?_, ?_, w, ?_⟩
      · rw [refit_bytes, moved_view h.ok (by omega) (by omega)]
        exact List.take_left' rfl
      · rw [w.cap_toInt]; simp only [refit_buf, fresh]; omega
      · rw [w.bcap_toInt]; simp only [refit_buf, fresh]; omega
      · intro c hc'; exact array_alloc_lt hc'
    · simp at hr

/-- C31: when `Grow` returns and what it panics with; a panic changes nothing. -/
theorem C31_grow_outcome {s : St} (h : WF s) (n : Int64) :
    (n.toInt < 0 → Buffer.Grow n s = (.panic (.err BufferInvalidByteCountError), s)) ∧
    (0 ≤ n.toInt → s.bytes.length + n.toInt ≤ s.b.buf.cap ∨ 2 * (s.b.buf.cap + n.toInt) ≤ maxAlloc →
      ∃ s', Buffer.Grow n s = (.ok (), s')) ∧
    (∀ p s', Buffer.Grow n s = (.panic p, s') → s' = s) := by
  rw [length_bytes h.ok, buffer_grow_run h]
  refine ⟨fun h0 => by rw [if_pos h0], fun h0 h1 => ?_, fun p s' hr => ?_⟩
  · rw [if_neg (by omega)]
    by_cases h2 : s.b.buf.len + n.toInt ≤ s.b.buf.cap
    · rw [if_pos h2]; exact ⟨_, rfl⟩
    · rw [if_neg h2, if_pos (by omega)]; exact ⟨_, rfl⟩
  · split at hr
    · injection hr with _ hr; exact hr.symm
    · split at hr
      · simp at hr
      · split at hr
        · simp at hr
        · injection hr with _ hr; exact hr.symm

example : ∃ s', Buffer.Grow 100 demo = (.ok (), s') ∧ (s'.bytes.length : Int) = 112 := by
  obtain ⟨s', h1⟩ := (C31_grow_outcome demo_wf 100).2.1 (by decide) (by decide)
  exact ⟨s', h1, (C31_grow demo_wf 100 h1).2.1⟩

/-! ## C32 -/

/-- C32 is false: growing within the spare capacity exposes whatever the memory holds.  The witness
is a buffer over `[1, …, 4]` as `NewBuffer` makes it, truncated on the right by 2 and grown by 2. -/
theorem C32_grown_zero_false :
    ∃ s s' : St, WF s ∧ (Buffer.TruncateRight 2 >>= fun _ => Buffer.Grow 2) s = (.ok (), s') ∧
      s'.bytes = [1, 2, 3, 4] := by
  let s : St := ⟨⟨[[1, 2, 3, 4]], fun _ _ => 0⟩, ⟨⟨0, 0, 4, 4⟩, 0, 4, 0, 32⟩⟩
  have w : WF s := ⟨⟨by decide, by decide, by decide⟩, by decide, by decide⟩
  obtain ⟨s1, r1, b1, m1, _, _, w1, _⟩ := (C29_truncate w 2 (by decide) (by decide)).2
  refine ⟨s, s, w, ?_, by decide⟩
  have r2 : Buffer.TruncateRight 2 s = (.ok (), s.refit s.mem (s.b.buf.withLen 2)) := by
    rw [buffer_truncateRight_run w, if_pos (by decide)]; rfl
  have w2 : WF (s.refit s.mem (s.b.buf.withLen 2)) := WF.refit (w.ok.withLen (by decide))
  rw [bind_ok r2, buffer_grow_run w2, if_neg (by decide), if_pos (by decide)]; rfl

/-- C32, the part that holds: the added bytes are zero whenever `Grow` has to reallocate; otherwise they
are exactly the spare bytes of the backing array. -/
theorem C32_grown_zero_partial {s s' : St} (h : WF s) (n : Int64) (hr : Buffer.Grow n s = (.ok (), s')) :
    (s.b.buf.cap < s.bytes.length + n.toInt → s'.bytes = s.bytes ++ List.replicate n.toInt.toNat 0) ∧
    (s.bytes.length + n.toInt ≤ s.b.buf.cap → s'.bytes = (s.mem.window s.b.buf).take (s.bytes.length + n.toInt.toNat)) := by
  have hb := length_bytes h.ok
  rw [hb]
  rw [buffer_grow_run h] at hr
  split at hr
  · simp at hr
  rename_i h0
  split at hr
  · rename_i h1
    injection hr with _ hr; subst hr
    refine ⟨fun _ => by omega, fun _ => ?_⟩
    rw [refit_bytes, view_withLen_window _ _ (by omega)]
  · rename_i h1
    split at hr
    · rename_i h2
      injection hr with _ hr; subst hr
      refine ⟨fun _ => ?_, fun _ => by omega⟩
      have := h.ok.len_le
      rw [refit_bytes, moved_view h.ok (by omega) (by omega), Nat.add_sub_cancel_left]; rfl
    · simp at hr

example : ∃ s', Buffer.Grow 5 demo = (.ok (), s') ∧ s'.bytes = demo.bytes ++ [0, 0, 0, 0, 0] := by
  obtain ⟨s', h1⟩ := (C31_grow_outcome demo_wf 5).2.1 (by decide) (by decide)
  exact ⟨s', h1, (C32_grown_zero_partial demo_wf 5 h1).1 (by decide)⟩

/-! ## C33 -/

/-- C33: `Grow(n)` directly after `TruncateRight(n)` restores the whole state. -/
theorem C33_grow_undoes_truncateRight {s : St} (h : WF s) (n : Int64) (h0 : 0 ≤ n.toInt)
    (h1 : n.toInt ≤ s.bytes.length) :
    (Buffer.TruncateRight n >>= fun _ => Buffer.Grow n) s = (.ok (), s) := by
  have hb := length_bytes h.ok
  have hc := h.ok.len_le
  have r : Buffer.TruncateRight n s = (.ok (), s.refit s.mem (s.b.buf.withLen (s.b.buf.len - n.toInt.toNat))) := by
    rw [buffer_truncateRight_run h, if_pos (by omega)]
  have w : WF (s.refit s.mem (s.b.buf.withLen (s.b.buf.len - n.toInt.toNat))) := WF.refit (h.ok.withLen (by omega))
  rw [bind_ok r, buffer_grow_run w, if_neg (by omega), if_pos (by simp only [refit_buf, Slice.withLen]; omega)]
  congr 1
  refine Eq.trans ?_ (refit_self h)
  simp only [St.refit, Slice.withLen]
  rw [show s.b.buf.len - n.toInt.toNat + n.toInt.toNat = s.b.buf.len by omega]

example : (Buffer.TruncateRight 7 >>= fun _ => Buffer.Grow 7) demo = (.ok (), demo) :=
  C33_grow_undoes_truncateRight demo_wf 7 (by decide) (by decide)

/-! ## C37 -/

/-- C37: `Reset` never panics, empties the buffer, zeroes capacities and offsets, touches no memory. -/
theorem C37_reset (s : St) :
    ∃ s', Buffer.Reset s = (.ok (), s') ∧ s'.mem = s.mem ∧ s'.bytes = [] ∧ s'.b.off = 0 ∧ s'.b.boff = 0 ∧
      s'.b.cap = 0 ∧ s'.b.bcap = 0 := by
  refine ⟨_, buffer_reset_run, rfl, ?_, rfl, rfl, rfl, rfl⟩
  simp [St.bytes, Heap.view, Slice.withLen]

theorem reset_wf {s : St} (h : WF s) : WF ⟨s.mem, ⟨s.b.buf.withLen 0, 0, 0, 0, 0⟩⟩ :=
  ⟨h.ok.withLen (Nat.zero_le _), rfl, rfl⟩

/-! ## C47 -/

/-- C47: `MiniBuffer` resizing with negative counts. -/
theorem C47_mini_negative {s : St} (h : WF s) (n : Int64) (hn : n.toInt < 0) :
    (-n.toInt ≤ s.bytes.length →
      ∃ s', Mini.Grow n s = (.ok (), s') ∧ s'.mem = s.mem ∧ WF s' ∧
        s'.bytes = s.bytes.take (s.bytes.length - (-n.toInt).toNat)) ∧
    (s.bytes.length < -n.toInt → Mini.Grow n s = (.panic .sliceBounds, s)) ∧
    (s.bytes.length - n.toInt ≤ s.b.buf.cap →
      ∃ s', Mini.TruncateRight n s = (.ok (), s') ∧ s'.mem = s.mem ∧ WF s' ∧
        s'.bytes = (s.mem.window s.b.buf).take (s.bytes.length + (-n.toInt).toNat)) ∧
    (s.b.buf.cap < s.bytes.length - n.toInt → Mini.TruncateRight n s = (.panic .sliceBounds, s)) ∧
    Mini.TruncateLeft n s = (.panic .sliceBounds, s) := by
  have hb := length_bytes h.ok
  have hc := h.ok.len_le
  rw [hb, mini_grow_run h, mini_truncateRight_run h, mini_truncateLeft_run h]
  refine ⟨fun h1 => ?_, fun h1 => by rw [if_pos (by omega)], fun h1 => ?_, fun h1 => by rw [if_neg (by omega)],
    by rw [if_neg (by omega)]⟩
  · rw [if_neg (by omega), if_pos (by omega)]
    refine ⟨_, rfl, rfl, WF.refit (h.ok.withLen (by omega)), ?_⟩
    rw [refit_bytes, view_withLen _ _ (by omega)]
    show List.take _ s.bytes = _
    congr 1; omega
  · rw [if_pos (by omega)]
    refine ⟨_, rfl, rfl, WF.refit (h.ok.withLen (by omega)), ?_⟩
    rw [refit_bytes, view_withLen_window _ _ (by omega)]
    congr 1; omega

example : ∃ s', Mini.TruncateRight (-3) demo = (.ok (), s') ∧ s'.bytes = demo.bytes ++ [15, 16, 17] := by
  obtain ⟨s', h1, _, _, h2⟩ := (C47_mini_negative demo_wf (-3) (by decide)).2.2.1 (by decide)
  exact ⟨s', h1, h2.trans (by decide)⟩

end Crunch.V3
