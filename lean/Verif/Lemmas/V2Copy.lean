import Verif.Lemmas.V2Seq
import Verif.Lemmas.Resize
import Verif.Lemmas.ByteOps

/-! The v2 byte-by-byte copy, `grow` and `reset`. -/

namespace Crunch.V2
open V3 (St getB modB onMem WF)

/-- The byte the forward copy stores at position `i`: byte `i` of the source, unless the destination starts inside the
source, in which case the bytes before the destination repeat. -/
def copyByte (s : St) (p : Nat) (data : Slice) (i : Nat) : UInt8 :=
  (s.mem.view data).getD
    (if data.arr = s.b.buf.arr ∧ data.off < s.b.buf.off + p then i % (s.b.buf.off + p - data.off) else i) 0

/-- The first `m` bytes stored. -/
def copied (s : St) (p : Nat) (data : Slice) (m : Nat) : List UInt8 := (List.range m).map (copyByte s p data)

@[simp] theorem length_copied (s : St) (p : Nat) (data : Slice) (m : Nat) : (copied s p data m).length = m := by
  simp [copied]

theorem copied_succ (s : St) (p : Nat) (data : Slice) (m : Nat) :
    copied s p data (m + 1) = copied s p data m ++ [copyByte s p data m] := by
  simp [copied, List.range_succ]

/-- The loop body of v2 `write`. -/
def copyBody (off : Int64) (data : Slice) (i : Int64) (_ : Unit) : GoM St Unit := do
  let x ← onMem (loadAt data i)
  V3.bufStore (off + i) x

theorem write_eq (off : Int64) (data : Slice) : Mini.write off data = doLoop (copyBody off data) (Int64.ofNat data.len) 0 () := rfl

theorem load_copied {s : St} (h : s.OK) {p : Nat} {data : Slice} (hd : SliceOK s.mem data) {k : Nat} (hk : k < data.len)
    (hp : p + k ≤ s.b.buf.len) :
    ((s.write p (copied s p data k)).mem.array data.arr).getD (data.off + k) 0 = copyByte s p data k := by
  have h1 := h.len_le; have h2 := h.fits
  have d1 := hd.len_le; have d2 := hd.fits
  unfold V3.St.write
  simp only []
  rw [array_blit _ _ _ _ _ (by simp; omega)]
  have hv : ∀ j, j < data.len → (s.mem.view data).getD j 0 = (s.mem.array data.arr).getD (data.off + j) 0 := by
    intro j hj
    simp only [Heap.view, List.getD, List.getElem?_take, List.getElem?_drop, if_pos hj]
  unfold copyByte
  by_cases ha : s.b.buf.arr = data.arr
  · rw [if_pos ha]
    by_cases hlt : data.off < s.b.buf.off + p
    · rw [if_pos ⟨ha.symm, hlt⟩, hv _ (Nat.lt_of_le_of_lt (Nat.mod_le _ _) hk)]
      simp only [List.getD]
      rw [getElem?_patch (by simp; omega)]
      by_cases hin : s.b.buf.off + p ≤ data.off + k
      · rw [if_pos (by simp; omega)]
        have e : data.off + k - (s.b.buf.off + p) < k := by omega
        simp only [copied, List.getElem?_map, List.getElem?_range e, Option.map_some, Option.getD_some]
        unfold copyByte
        rw [if_pos ⟨ha.symm, hlt⟩, hv _ (Nat.lt_of_le_of_lt (Nat.mod_le _ _) (by omega))]
        rw [show data.off + k - (s.b.buf.off + p) = k - (s.b.buf.off + p - data.off) by omega,
          ← Nat.mod_eq_sub_mod (by omega)]
        rfl
      · rw [if_neg (by simp; omega), Nat.mod_eq_of_lt (by omega), ha]
    · rw [if_neg (fun hh => hlt hh.2), hv k hk]
      simp only [List.getD]
      rw [getElem?_patch (by simp; omega), if_neg (by simp; omega), ha]
  · rw [if_neg ha, if_neg (fun hh => ha hh.1.symm), hv k hk]

theorem copy_step {s : St} (h : s.OK) {off : Int64} (h0 : 0 ≤ off.toInt) {data : Slice} (hd : SliceOK s.mem data) {k : Nat}
    (hk : k < data.len) (hp : off.toInt.toNat + k < s.b.buf.len) :
    copyBody off data (Int64.ofNat k) () (s.write off.toInt.toNat (copied s off.toInt.toNat data k)) =
      (.ok (), s.write off.toInt.toNat (copied s off.toInt.toNat data (k + 1))) := by
  have hM := maxAlloc_lt; have hL := h.len_le_max; have hD := hd.len_le_max
  have ek : (Int64.ofNat k).toInt = k := toInt_ofNat (by omega)
  unfold copyBody
  rw [bind_run]
  simp only [onMem, loadAt, ek]
  rw [if_pos (by omega)]
  simp only [Int.toNat_natCast]
  rw [load_copied h hd hk (by omega)]
  have eo : (off + Int64.ofNat k).toInt = off.toInt + k := by
    rw [toInt_add, ek]; omega
  rw [V3.bufStore_run (V3.write_ok h _ _), eo, if_pos ⟨by omega, by rw [V3.write_b]; omega⟩]
  rw [show (off.toInt + (k : Int)).toNat = off.toInt.toNat + (copied s off.toInt.toNat data k).length by
    rw [length_copied]; omega]
  rw [V3.write_adj h (by rw [length_copied, List.length_singleton]; omega), ← copied_succ]

theorem copy_iter {s : St} (h : s.OK) {off : Int64} (h0 : 0 ≤ off.toInt) {data : Slice} (hd : SliceOK s.mem data) :
    ∀ c k, k + c ≤ data.len → off.toInt.toNat + k + c ≤ s.b.buf.len →
      iter (fun k => copyBody off data (Int64.ofNat k)) c k () (s.write off.toInt.toNat (copied s off.toInt.toNat data k)) =
        (.ok (), s.write off.toInt.toNat (copied s off.toInt.toNat data (k + c))) := by
  intro c
  induction c with
  | zero => intro k _ _; rfl
  | succ c ih =>
    intro k h1 h2
    simp only [iter, bind_run]
    rw [copy_step h h0 hd (by omega) (by omega)]
    simp only []
    rw [ih (k + 1) (by omega) (by omega)]
    rw [show k + 1 + c = k + (c + 1) by omega]

theorem copied_zero (s : St) (p : Nat) (data : Slice) : copied s p data 0 = [] := rfl

/-- v2 `MiniBuffer.write`, for every offset and source. -/
theorem mini_write_run {s : St} (h : s.OK) (off : Int64) {data : Slice} (hd : SliceOK s.mem data) :
    Mini.write off data s =
      if data.len = 0 ∨ off.toInt < 0 ∨ s.b.buf.len ≤ off.toInt then (.panic .index, s)
      else if off.toInt + data.len ≤ s.b.buf.len then
        (.ok (), s.write off.toInt.toNat (copied s off.toInt.toNat data data.len))
      else (.panic .index, s.write off.toInt.toNat (copied s off.toInt.toNat data (s.b.buf.len - off.toInt.toNat))) := by
  have hM := maxAlloc_lt; have hL := h.len_le_max; have hD := hd.len_le_max
  rw [write_eq]
  by_cases hz : data.len = 0
  · rw [if_pos (.inl hz), hz, doLoop_le_one _ _ (by decide)]
    unfold copyBody
    rw [bind_panic]
    simp only [onMem, loadAt]
    rw [if_neg (by rw [hz]; decide)]
  · rw [doLoop_pos _ _ (by omega) (by omega)]
    by_cases ho : off.toInt < 0 ∨ s.b.buf.len ≤ off.toInt
    · rw [if_pos (.inr ho)]
      obtain ⟨c, hc⟩ : ∃ c, data.len = c + 1 := ⟨data.len - 1, by omega⟩
      rw [hc]
      simp only [iter]
      apply bind_panic
      unfold copyBody
      rw [bind_ok (a := ((s.mem.array data.arr).getD data.off 0)) (s' := s)]
      · rw [V3.bufStore_run h, if_neg]
        have : (off + Int64.ofNat 0).toInt = off.toInt := by
          rw [toInt_add]; have := toInt_lt' off; have := le_toInt' off
          show (off.toInt + 0 + 2 ^ 63) % 2 ^ 64 - 2 ^ 63 = _; omega
        rw [this]; omega
      · simp only [onMem, loadAt]
        rw [if_pos (by show (0 : Int) ≤ 0 ∧ (0 : Int) < data.len; omega)]
        rfl
    · rw [if_neg (by omega)]
      by_cases hf : off.toInt + data.len ≤ s.b.buf.len
      · rw [if_pos hf]
        have := copy_iter h (off := off) (by omega) hd data.len 0 (by omega) (by omega)
        rw [copied_zero, V3.write_nil] at this
        rw [this, Nat.zero_add]
      · rw [if_neg hf]
        have e : data.len = (s.b.buf.len - off.toInt.toNat) + (data.len - (s.b.buf.len - off.toInt.toNat)) := by omega
        rw [e, iter_add, bind_run]
        have := copy_iter h (off := off) (by omega) hd (s.b.buf.len - off.toInt.toNat) 0 (by omega) (by omega)
        rw [copied_zero, V3.write_nil, Nat.zero_add] at this
        rw [this]
        simp only []
        obtain ⟨c, hc⟩ : ∃ c, data.len - (s.b.buf.len - off.toInt.toNat) = c + 1 :=
          ⟨data.len - (s.b.buf.len - off.toInt.toNat) - 1, by omega⟩
        rw [hc]
        simp only [iter, Nat.zero_add]
        generalize hw : s.write off.toInt.toNat (copied s off.toInt.toNat data (s.b.buf.len - off.toInt.toNat)) = w
        have wok : w.OK := hw ▸ V3.write_ok h _ _
        have wb : w.b = s.b := hw ▸ rfl
        apply bind_panic
        unfold copyBody
        rw [bind_ok (a := (w.mem.array data.arr).getD (data.off + (s.b.buf.len - off.toInt.toNat)) 0) (s' := w)]
        · rw [V3.bufStore_run wok, if_neg]
          rw [wb, toInt_add, toInt_ofNat (by omega)]
          omega
        · simp only [onMem, loadAt, toInt_ofNat (show s.b.buf.len - off.toInt.toNat < 2 ^ 63 by omega)]
          rw [if_pos (by omega), Int.toNat_natCast]

/-- The bytes copied are the source's when the destination does not start inside it. -/
theorem copied_eq_view {s : St} {p : Nat} {data : Slice} (hd : SliceOK s.mem data)
    (h : data.arr ≠ s.b.buf.arr ∨ s.b.buf.off + p ≤ data.off ∨ data.off + data.len ≤ s.b.buf.off + p) :
    copied s p data data.len = s.mem.view data := by
  apply List.ext_getElem
  · rw [length_copied, length_view hd]
  · intro i h1 h2
    simp only [copied, List.getElem_map, List.getElem_range, copyByte]
    rw [length_copied] at h1
    have : (if data.arr = s.b.buf.arr ∧ data.off < s.b.buf.off + p then i % (s.b.buf.off + p - data.off) else i) = i := by
      split
      · rw [Nat.mod_eq_of_lt (by omega)]
      · rfl
    rw [this, List.getD, List.getElem?_eq_getElem h2]
    rfl

/-! ## `Buffer.write` -/

/-- The locked loop of `Buffer.write` on a slice of memory. -/
theorem write_mem_leaky (off : Int64) (data : Slice) :
    Leaky (Buffer.write off (.mem data)) (getB >>= fun b =>
      Crunch.panicIf (off + Int64.ofNat data.len > b.cap) (.err BufferOverwriteError) >>= fun _ =>
        Crunch.panicIf (off < 0) (.err BufferUnderwriteError) >>= fun _ => Mini.write off data) := by
  refine write_leaky (fun cap => off + Int64.ofNat data.len > cap) (off < 0) (body := fun i _ => do
      let x ← Prog.srcAt (.mem data) i
      Prog.bufStore (off + i) x) (m := copyBody off data) (Int64.ofNat data.len) ?_ ?_
  · intro i a
    show (Prog.srcAt (.mem data) i >>= fun x => Prog.bufStore (off + i) x).run = _
    unfold copyBody
    rw [Prog.run_bind', lift_bind]
    show (Prog.loadAt data i).run >>= _ = _
    rw [Prog.run_loadAt]
    congr 1
    funext x
    rw [Prog.run_bufStore]
  · intro i a
    exact (noErr_loadAt _ _).bind fun _ => noErr_bufStore _ _

/-- The panic of a v2 `write` of `n` bytes at `off` into `L` bytes. -/
def writePanic (off n L : Int) : Panic :=
  if off + n < 2 ^ 63 ∧ off + n > L then .err BufferOverwriteError
  else if off < 0 then .err BufferUnderwriteError
  else .index

theorem write_checked_run {s : St} (h : WF s) (off : Int64) {data : Slice} (hd : SliceOK s.mem data) :
    (getB >>= fun b =>
      Crunch.panicIf (off + Int64.ofNat data.len > b.cap) (.err BufferOverwriteError) >>= fun _ =>
        Crunch.panicIf (off < 0) (.err BufferUnderwriteError) >>= fun _ => Mini.write off data : GoM St Unit) s =
      if 0 < data.len ∧ 0 ≤ off.toInt ∧ off.toInt + data.len ≤ s.b.buf.len then
        (.ok (), s.write off.toInt.toNat (copied s off.toInt.toNat data data.len))
      else (.panic (writePanic off.toInt data.len s.b.buf.len), s) := by
  have hM := maxAlloc_lt; have hL := h.len_lt; have hD := hd.len_le_max
  have o1 := toInt_lt' off; have o2 := le_toInt' off
  simp only [V3.getB_bind, panicIf_bind, GT.gt, Int64.lt_iff_toInt_lt, h.cap_toInt, toInt_add, toInt_zero', writePanic]
  rw [toInt_ofNat (show data.len < 2 ^ 63 by omega), mini_write_run h.ok off hd]
  by_cases h1 : off.toInt + data.len < 2 ^ 63
  · rw [show (off.toInt + data.len + 2 ^ 63) % 2 ^ 64 - 2 ^ 63 = off.toInt + data.len by omega]
    by_cases h2 : (s.b.buf.len : Int) < off.toInt + data.len
    · rw [if_pos h2, if_neg (by omega), if_pos (by omega)]
    · rw [if_neg h2]
      by_cases h3 : off.toInt < 0
      · rw [if_pos h3, if_neg (by omega), if_neg (by omega), if_pos h3]
      · rw [if_neg h3]
        by_cases h4 : data.len = 0
        · rw [if_pos (.inl h4), if_neg (by omega), if_neg (by omega), if_neg h3]
        · rw [if_neg (by omega), if_pos (by omega), if_pos (by omega)]
  · rw [if_neg (by omega), if_neg (by omega), if_pos (by omega), if_neg (by omega), if_neg (by omega), if_neg (by omega)]

/-- `Buffer.WriteBytes` executed alone on a well-formed buffer. -/
theorem writeBytes_run {s : St} (h : WF s) (off : Int64) {data : Slice} (hd : SliceOK s.mem data) :
    (Buffer.WriteBytes off data).run ⟨s, false⟩ =
      if 0 < data.len ∧ 0 ≤ off.toInt ∧ off.toInt + data.len ≤ s.b.buf.len then
        (.ok (), ⟨s.write off.toInt.toNat (copied s off.toInt.toNat data data.len), false⟩)
      else (.panic (writePanic off.toInt data.len s.b.buf.len),
        ⟨s, (writePanic off.toInt data.len s.b.buf.len).runtime⟩) := by
  have := write_mem_leaky off data s
  rw [write_checked_run h off hd] at this
  refine this.trans ?_
  split <;> rfl

/-! ## a literal byte -/

/-- What `write` of a literal does: the same loop over its bytes. -/
theorem write_lit_leaky (off : Int64) (v : UInt8) :
    Leaky (Buffer.write off (.lit [v])) (getB >>= fun b =>
      Crunch.panicIf (off + 1 > b.cap) (.err BufferOverwriteError) >>= fun _ =>
        Crunch.panicIf (off < 0) (.err BufferUnderwriteError) >>= fun _ => V3.bufStore off v) := by
  have e : (V3.bufStore off v) = doLoop (fun i _ => idx [v] i >>= fun x => V3.bufStore (off + i) x) 1 0 () := by
    rw [doLoop_le_one _ _ (by decide)]
    show _ = V3.bufStore (off + 0) v
    rw [show off + (0 : Int64) = off by grind]
  rw [e]
  refine write_leaky (fun cap => off + 1 > cap) (off < 0) (body := fun i _ => do
      let x ← Prog.srcAt (.lit [v]) i
      Prog.bufStore (off + i) x) (m := fun i _ => idx [v] i >>= fun x => V3.bufStore (off + i) x) 1 ?_ ?_
  · intro i a
    rw [Prog.run_bind', lift_bind, lift_idx, ← Prog.run_idx]
    have : Prog.srcAt (.lit [v]) i = Prog.idx [v] i := by
      unfold Prog.srcAt Prog.idx
      simp only [List.length_singleton]
      by_cases h : 0 ≤ i.toInt
      · by_cases h1 : i.toInt < (1 : Nat)
        · have : i.toInt.toNat = 0 := by omega
          rw [if_pos ⟨h, h1⟩, if_pos h, this]; rfl
        · rw [if_neg (by omega), if_pos h, List.getElem?_eq_none (show 1 ≤ i.toInt.toNat by omega)]
      · rw [if_neg (by omega), if_neg h]
    rw [this]
    congr 1
    funext x
    rw [Prog.run_bufStore]
  · intro i a
    exact (noErr_idx _ _).bind fun _ => noErr_bufStore _ _

theorem writeByte_run {s : St} (h : WF s) (off : Int64) (v : UInt8) :
    (Buffer.WriteByte off v).run ⟨s, false⟩ =
      if 0 ≤ off.toInt ∧ off.toInt + 1 ≤ s.b.buf.len then (.ok (), ⟨s.write off.toInt.toNat [v], false⟩)
      else (.panic (writePanic off.toInt 1 s.b.buf.len), ⟨s, (writePanic off.toInt 1 s.b.buf.len).runtime⟩) := by
  have hM := maxAlloc_lt; have hL := h.len_lt
  have o1 := toInt_lt' off; have o2 := le_toInt' off
  refine (write_lit_leaky off v s).trans ?_
  simp only [V3.getB_bind, panicIf_bind, GT.gt, Int64.lt_iff_toInt_lt, h.cap_toInt, toInt_add, toInt_zero', toInt_one', writePanic]
  rw [V3.bufStore_run h.ok]
  by_cases h1 : off.toInt + 1 < 2 ^ 63
  · rw [show (off.toInt + 1 + 2 ^ 63) % 2 ^ 64 - 2 ^ 63 = off.toInt + 1 by omega]
    by_cases h2 : (s.b.buf.len : Int) < off.toInt + 1
    · rw [if_pos h2, if_neg (by omega), if_pos (by omega)]; rfl
    · rw [if_neg h2]
      by_cases h3 : off.toInt < 0
      · rw [if_pos h3, if_neg (by omega), if_neg (by omega), if_pos h3]; rfl
      · rw [if_neg h3, if_pos (by omega), if_pos (by omega)]; rfl
  · rw [if_neg (by omega), if_neg (by omega), if_neg (by omega), if_neg (by omega), if_neg (by omega), if_neg (by omega)]
    rfl

/-! ## grow and reset -/

theorem grow_eq (n : Int64) (s : Sh) (hl : s.locked = false) :
    (Buffer.grow n).run s = ((Mini.grow n s.st).1, ⟨(Mini.grow n s.st).2, (Mini.grow n s.st).1.runtime⟩) := by
  obtain ⟨st, l⟩ := s
  cases hl
  unfold Buffer.grow Mini.grow
  show (Prog.buf >>= fun s => Prog.makeZero n >>= fun z => Prog.appendTo s z >>= fun r => Prog.assignBuf r >>= fun _ =>
    Prog.Unlock >>= fun _ => Buffer.refresh).run ⟨st, true⟩ = _
  show (Prog.makeZero n >>= fun z => Prog.appendTo st.b.buf z >>= fun r => Prog.assignBuf r >>= fun _ =>
    Prog.Unlock >>= fun _ => Buffer.refresh).run ⟨st, true⟩ = _
  rw [Prog.run_bind', bind_run]
  simp only [V3.getB_bind, panicIf_bind]
  unfold Prog.makeZero
  by_cases hn : n.toInt < 0 ∨ n.toInt > maxAlloc
  · rw [if_pos hn, if_pos hn]; rfl
  · rw [if_neg hn, if_neg hn]
    show (Prog.appendTo st.b.buf (.lit (List.replicate n.toInt.toNat 0)) >>= fun r => Prog.assignBuf r >>= fun _ =>
      Prog.Unlock >>= fun _ => Buffer.refresh).run ⟨st, true⟩ = _
    rw [Prog.run_bind', Prog.run_appendTo_lit, bind_run, bind_run]
    simp only [lift]
    cases e : onMem (appendBytes st.b.buf (List.replicate n.toInt.toNat 0)) st with
    | mk r t =>
      cases r with
      | ok a => rfl
      | panic q =>
        simp only [onMem, appendBytes] at e
        split at e
        · exact nomatch e
        · split at e
          · cases e; rfl
          · exact nomatch e

end Crunch.V2
