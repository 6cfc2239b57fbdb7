import Verif.Props.History
import Verif.Lemmas.MiniStep

/-!
# Properties of v3 `MiniBuffer` (C43 … C46, C64, C65, and C48 for `MiniBuffer`)
-/

namespace Crunch.V3
open Spec Mini

/-! ## C43 -/

/-- Whenever `a` is a success, `b` is the same success. -/
def Agrees (a b : Res α × St) : Prop := ∀ v s', a = (.ok v, s') → b = (.ok v, s')

theorem Agrees.refl (a : Res α × St) : Agrees a a := fun _ _ h => h

theorem Agrees.wrap {f : α → Val} {a b : Res α × St} (h : Agrees a b) : Agrees (wrapRes f a) (wrapRes f b) := by
  intro v s' e
  rcases a with ⟨x | p, t⟩
  · rw [h x t rfl]; exact e
  · cases e

theorem Agrees.advance {a b : Res α × St} {d : Int64} (h : Agrees a b) : Agrees (advance d a) (advance d b) := by
  intro v s' e
  rcases a with ⟨x | p, t⟩
  · rw [h x t rfl]; exact e
  · cases e

theorem Agrees.advanceBit {a b : Res α × St} {d : Int64} (h : Agrees a b) : Agrees (advanceBit d a) (advanceBit d b) := by
  intro v s' e
  rcases a with ⟨x | p, t⟩
  · rw [h x t rfl]; exact e
  · cases e

theorem Agrees.ite {c d : Prop} [Decidable c] [Decidable d] {a a' b b' : Res α × St} (hcd : c → d) (h : c → Agrees a b)
    (ha : ∀ v s', a' ≠ (.ok v, s')) : Agrees (if c then a else a') (if d then b else b') := by
  intro v s' e
  by_cases hc : c
  · rw [if_pos hc] at e; rw [if_pos (hcd hc)]; exact h hc v s' e
  · rw [if_neg hc] at e; exact absurd e (ha v s')

theorem panic_ne_ok {p : Panic} {s : St} : ∀ (v : α) s', ((.panic p : Res α), s) ≠ (.ok v, s') := fun _ _ h => by cases h

/-- The result variables are prepared as the caller of a `MiniBuffer` must: a typed read gets a slice of the length
it asks for, and a bit field is read into a variable that holds zero. -/
def Outs.Ready (o : Outs) : Op → Prop
  | .read k _ _ n => (o.typed k).length = n.toInt.toNat
  | .readBits _ _ => o.u64 = 0
  | _ => True

theorem agree_write {s : St} (h : WF s) (k : Kind) (e : Endian) (o : Int64) (data : List k.Ty)
    (hd : data.length * k.size ≤ maxAlloc) : Agrees (Buffer.Write k e o data s) (Mini.Write k e o data s) := by
  rw [buffer_write_run h k e o data hd]
  by_cases hc : data ≠ [] ∧ 0 ≤ o.toInt ∧ o.toInt + data.length * k.size ≤ s.b.buf.len
  · rw [if_pos hc, mini_write_run h.ok k e o data hd hc.1, if_pos hc.2]; exact Agrees.refl _
  · rw [if_neg hc]; exact fun v s' e => absurd e (panic_ne_ok v s')

theorem agree_read {s : St} (h : WF s) (k : Kind) (e : Endian) (o n : Int64) (x : List k.Ty) (hx : x.length = n.toInt.toNat) :
    Agrees (Buffer.Read k e o n s) (callOut (Mini.Read k e o n) x s) := by
  rw [buffer_read_run h]
  by_cases hc : 1 ≤ n.toInt ∧ 0 ≤ o.toInt ∧ o.toInt + n.toInt * k.size ≤ s.b.buf.len
  · have hl : loops n = n.toInt.toNat := by unfold loops; omega
    have hX : n.toInt * k.size = ((x.length * k.size : Nat) : Int) := by rw [Int.natCast_mul, hx]; congr 1; omega
    have h3 := h.ok.len_le; have h4 := h.ok.fits; have h5 := h.ok.small
    rw [if_pos hc, mini_read_callOut h.ok k e o n x (by omega), if_pos ⟨hc.2.1, by rw [hl, ← hx]; omega, by omega⟩, hl,
      List.drop_of_length_le (l := x) (by omega), List.append_nil]
    exact Agrees.refl _
  · rw [if_neg hc]; exact fun v s' e => absurd e (panic_ne_ok v s')

theorem agree_writeBytes {s : St} (h : WF s) (o : Int64) (src : Slice) (hs : SliceOK s.mem src) :
    Agrees (Buffer.WriteBytes o src s) (Mini.WriteBytes o src s) := by
  have hl := length_view hs
  rw [buffer_writeBytes_run h o src hs.len_le_max, mini_writeBytes_run h.ok]
  refine Agrees.ite (fun hc => by omega) (fun hc => ?_) panic_ne_ok
  rw [List.take_of_length_le (by omega)]; exact Agrees.refl _

theorem agree_readBytes {s : St} (h : WF s) (o n : Int64) (x : Slice) :
    Agrees (Buffer.ReadBytes o n s) (callOut (Mini.ReadBytes o n) x s) := by
  have := h.ok.len_le
  rw [buffer_readBytes_run h, mini_readBytes_run h.ok]
  exact Agrees.ite (fun hc => by omega) (fun hc => Agrees.refl _) panic_ne_ok

theorem agree_readBit {s : St} (h : WF s) (o : Int64) (x : UInt8) :
    Agrees (Buffer.ReadBit o s) (callOut (Mini.ReadBit o) x s) := by
  rw [buffer_readBit_run h]
  by_cases hc : 0 ≤ o.toInt ∧ o.toInt < 8 * s.b.buf.len
  · rw [if_pos hc, callOut_run, mini_readBit_run h.ok hc.1, if_pos hc.2]; exact Agrees.refl _
  · rw [if_neg hc]; exact fun v s' e => absurd e (panic_ne_ok v s')

theorem agree_readBits {s : St} (h : WF s) (o n : Int64) :
    Agrees (Buffer.ReadBits o n s) (callOut (Mini.ReadBits o n) 0 s) := by
  rw [buffer_readBits_run h]
  by_cases hc : 0 ≤ o.toInt ∧ o.toInt + loops n ≤ 8 * s.b.buf.len
  · rw [if_pos hc, callOut_run, mini_readBits_run h.ok o hc.1 n 0 hc.2]
    simp only [outRes]
    rw [show (0 : UInt64).toNat = 0 from rfl, Nat.zero_mul, Nat.zero_add]
    exact Agrees.refl _
  · rw [if_neg hc]; exact fun v s' e => absurd e (panic_ne_ok v s')

theorem agree_bit {s : St} {o : Int64} {l : List UInt8} {p : Panic} {m b : GoM St Unit}
    (hb : b s = if 0 ≤ o.toInt ∧ o.toInt < 8 * s.b.buf.len then (.ok (), s.put l) else (.panic p, s))
    (hm : 0 ≤ o.toInt → m s = if o.toInt < 8 * s.b.buf.len then (.ok (), s.put l) else (.panic .index, s)) :
    Agrees (b s) (m s) := by
  rw [hb]
  by_cases hc : 0 ≤ o.toInt ∧ o.toInt < 8 * s.b.buf.len
  · rw [if_pos hc, hm hc.1, if_pos hc.2]; exact Agrees.refl _
  · rw [if_neg hc]; exact fun v s' e => absurd e (panic_ne_ok v s')

theorem agree_setBits {s : St} (h : WF s) (o : Int64) (d : UInt64) (n : Int64) :
    Agrees (Buffer.SetBits o d n s) (Mini.SetBits o d n s) := by
  rw [buffer_setBits_run h]
  by_cases hc : 0 ≤ o.toInt ∧ o.toInt + loops n ≤ 8 * s.b.buf.len
  · rw [if_pos hc, mini_setBits_run h.ok o hc.1, if_pos hc.2]; exact Agrees.refl _
  · rw [if_neg hc]; exact fun v s' e => absurd e (panic_ne_ok v s')

theorem agree_checked {c : Prop} [Decidable c] {p : Panic} {m : GoM St Unit} {s : St} :
    Agrees ((panicIf c p >>= fun _ => m) s) (m s) := by
  rw [panicIf_bind]
  split
  · exact fun v s' e => absurd e (panic_ne_ok v s')
  · exact Agrees.refl _

/-- C43: whenever a `Buffer` call succeeds, the `MiniBuffer` call from the same state with prepared result variables
succeeds with the same result and leaves exactly the same state (memory, slice header, offsets and capacities).
What is missing from the full statement: it fails for `ReadBits` into a variable that is not zero (`C43_mini_agrees_false`),
and a typed read stores into the caller's slice, which must be long enough. -/
theorem C43_mini_agrees_partial {s s' : St} (h : WF s) (op : Op) (hv : op.Valid s.mem) (o : Outs) (ho : o.Ready op)
    (m : GoM St Val) (hm : miniCall o op = some m) (v : Val) (he : exec op s = (.ok v, s')) : m s = (.ok v, s') := by
  have hu : ∀ (p : Int64), Agrees (Buffer.SetBit p s) (Mini.SetBit p s) := fun p =>
    agree_bit (buffer_setBit_run h p) fun h0 => mini_setBit_run h.ok h0
  have hc : ∀ (p : Int64), Agrees (Buffer.ClearBit p s) (Mini.ClearBit p s) := fun p =>
    agree_bit (buffer_clearBit_run h p) fun h0 => mini_clearBit_run h.ok h0
  have hf : ∀ (p : Int64), Agrees (Buffer.FlipBit p s) (Mini.FlipBit p s) := fun p =>
    agree_bit (buffer_flipBit_run h p) fun h0 => mini_flipBit_run h.ok h0
  suffices Agrees (exec op s) (m s) from this v s' he
  clear he
  match op, hv, ho with
  | .write k e (some p) data, hv, _ =>
    cases hm; simp only [exec, wrapVal_run]; exact (agree_write h k e p data hv).wrap
  | .write k e none data, hv, _ =>
    cases hm; simp only [exec, wrapVal_run, writeNext_run, mini_writeNext_run, wrap_advance]
    exact (agree_write h k e _ data hv).wrap.advance
  | .read k e (some p) n, _, ho => cases hm; simp only [exec, wrapVal_run]; exact (agree_read h k e p n _ ho).wrap
  | .read k e none n, _, ho =>
    cases hm; simp only [exec, wrapVal_run, readNext_run, mini_readNext_run, wrap_advance]
    exact (agree_read h k e _ n _ ho).wrap.advance
  | .writeBytes (some p) src, hv, _ => cases hm; simp only [exec, wrapVal_run]; exact (agree_writeBytes h p src hv).wrap
  | .writeBytes none src, hv, _ =>
    cases hm; simp only [exec, wrapVal_run, writeBytesNext_run, mini_writeBytesNext_run, wrap_advance]
    exact (agree_writeBytes h _ src hv).wrap.advance
  | .writeByte _ _, _, _ => cases hm
  | .readBytes (some p) n, _, _ => cases hm; simp only [exec, wrapVal_run]; exact (agree_readBytes h p n _).wrap
  | .readBytes none n, _, _ =>
    cases hm; simp only [exec, wrapVal_run, readBytesNext_run, mini_readBytesNext_run, wrap_advance]
    exact (agree_readBytes h _ n _).wrap.advance
  | .readByte _, _, _ => cases hm
  | .readBit (some p), _, _ => cases hm; simp only [exec, wrapVal_run]; exact (agree_readBit h p _).wrap
  | .readBit none, _, _ =>
    cases hm; simp only [exec, wrapVal_run, readBitNext_run, mini_readBitNext_run, wrap_advanceBit]
    exact (agree_readBit h _ _).wrap.advanceBit
  | .readBits (some p) n, _, ho =>
    cases hm; simp only [exec, wrapVal_run]; rw [show o.u64 = 0 from ho]; exact (agree_readBits h p n).wrap
  | .readBits none n, _, ho =>
    cases hm; simp only [exec, wrapVal_run, readBitsNext_run, mini_readBitsNext_run, wrap_advanceBit]
    rw [show o.u64 = 0 from ho]
    exact (agree_readBits h _ n).wrap.advanceBit
  | .setBit (some p), _, _ => cases hm; simp only [exec, wrapVal_run]; exact (hu p).wrap
  | .setBit none, _, _ =>
    cases hm; simp only [exec, wrapVal_run, setBitNext_run, mini_setBitNext_run, wrap_advanceBit]; exact (hu _).wrap.advanceBit
  | .clearBit (some p), _, _ => cases hm; simp only [exec, wrapVal_run]; exact (hc p).wrap
  | .clearBit none, _, _ =>
    cases hm; simp only [exec, wrapVal_run, clearBitNext_run, mini_clearBitNext_run, wrap_advanceBit]; exact (hc _).wrap.advanceBit
  | .flipBit (some p), _, _ => cases hm; simp only [exec, wrapVal_run]; exact (hf p).wrap
  | .flipBit none, _, _ =>
    cases hm; simp only [exec, wrapVal_run, flipBitNext_run, mini_flipBitNext_run, wrap_advanceBit]; exact (hf _).wrap.advanceBit
  | .setBits (some p) d n, _, _ => cases hm; simp only [exec, wrapVal_run]; exact (agree_setBits h p d n).wrap
  | .setBits none d n, _, _ =>
    cases hm; simp only [exec, wrapVal_run, setBitsNext_run, mini_setBitsNext_run, wrap_advanceBit]
    exact (agree_setBits h _ d n).wrap.advanceBit
  | .clearAll, _, _ => cases hm; exact Agrees.refl _
  | .setAll, _, _ => cases hm; exact Agrees.refl _
  | .flipAll, _, _ => cases hm; exact Agrees.refl _
  | .seekByte p r, _, _ => cases hm; exact Agrees.refl _
  | .seekBit p r, _, _ => cases hm; exact Agrees.refl _
  | .afterByte p, _, _ => cases hm; cases p <;> exact Agrees.refl _
  | .afterBit p, _, _ => cases hm; cases p <;> exact Agrees.refl _
  | .alignByte, _, _ => cases hm; exact Agrees.refl _
  | .alignBit, _, _ => cases hm; exact Agrees.refl _
  | .truncateLeft n, _, _ =>
    cases hm; simp only [exec, wrapVal_run, buffer_truncateLeft_mini]; exact agree_checked.wrap
  | .truncateRight n, _, _ =>
    cases hm; simp only [exec, wrapVal_run, buffer_truncateRight_mini]; exact agree_checked.wrap
  | .grow n, _, _ => cases hm; simp only [exec, wrapVal_run, buffer_grow_mini]; exact agree_checked.wrap
  | .refresh, _, _ => cases hm; exact Agrees.refl _
  | .reset, _, _ => cases hm; exact Agrees.refl _
  | .bytes, _, _ => cases hm; exact Agrees.refl _
  | .byteCapacity, _, _ => cases hm; exact Agrees.refl _
  | .bitCapacity, _, _ => cases hm; exact Agrees.refl _
  | .byteOffset, _, _ => cases hm; exact Agrees.refl _
  | .bitOffset, _, _ => cases hm; exact Agrees.refl _

/-- Result variables that hold nothing in particular. -/
def demoOuts (x : UInt64) (n : Nat) : Outs := ⟨7, x, 7, demoSrc, fun k => List.replicate n (k.ofPat 1)⟩

example : ∃ m, miniCall (demoOuts 0 2) (.read .u32 .be (some 3) 2) = some m ∧
    m demo = (.ok (.typed .u32 [0x06070809, 0x0A0B0C0D]), demo) :=
  ⟨_, rfl, C43_mini_agrees_partial demo_wf (.read .u32 .be (some 3) 2) trivial (demoOuts 0 2) (show (demoOuts 0 2 |>.typed .u32).length = _ by decide) _ rfl _ (by
    simp only [exec, wrapVal_run, buffer_read_run demo_wf]
    rw [if_pos (by decide)]; rfl)⟩

/-- C43 does not hold for every result variable: `ReadBits` into a variable that is not zero gives something else. -/
theorem C43_mini_agrees_false :
    ¬ ∀ (s s' : St), WF s → ∀ (op : Op), op.Valid s.mem → ∀ (o : Outs) (m : GoM St Val), miniCall o op = some m →
      ∀ v, exec op s = (.ok v, s') → m s = (.ok v, s') := by
  intro hh
  have h1 := buffer_readBits_run demo_wf 0 8
  rw [if_pos (by decide)] at h1
  have h2 := hh demo demo demo_wf (.readBits (some 0) 8) trivial (demoOuts 1 0) _ rfl
    (.u64 (UInt64.ofNat (binary (fun i => bit demo.bytes ((0 : Int64).toInt.toNat + i)) (loops 8))))
    (by simp only [exec, wrapVal_run, h1]; rfl)
  rw [wrapVal_run, mini_readBits_full demo_wf.ok, if_pos (by decide)] at h2
  simp only [wrapRes] at h2
  injection h2 with h2 _
  injection h2 with h2
  injection h2 with h2
  revert h2; decide

/-- The two constructors are the same program. -/
theorem C43_constructors : Mini.NewMiniBuffer = Buffer.NewBuffer := rfl

/-! ## C44 -/

/-- C44 is false: what the variable held before is kept in front of the bits read. -/
theorem C44_mini_readBits_false :
    ¬ ∀ (s : St), WF s → ∀ (off n : Int64) (x : UInt64), 0 ≤ off.toInt → 1 ≤ n.toInt → n.toInt ≤ 64 →
      off.toInt + n.toInt ≤ 8 * s.bytes.length →
      callOut (Mini.ReadBits off n) x s =
        (.ok (UInt64.ofNat (binary (fun i => bit s.bytes (off.toInt.toNat + i)) n.toInt.toNat)), s) := by
  intro hh
  have h2 := hh demo demo_wf 0 8 1 (by decide) (by decide) (by decide) (by decide)
  rw [mini_readBits_full demo_wf.ok, if_pos (by decide)] at h2
  injection h2 with h2 _
  injection h2 with h2
  revert h2; decide

/-- C44, what holds: the variable is shifted left by `n` and the bits are put in its low end, for every previous
value; so the result is the number formed by the bits exactly if the previous value is zero or is shifted out. -/
theorem C44_mini_readBits_partial {s : St} (h : WF s) (off n : Int64) (x : UInt64) (h0 : 0 ≤ off.toInt) (h1 : 1 ≤ n.toInt)
    (h2 : off.toInt + n.toInt ≤ 8 * s.bytes.length) :
    callOut (Mini.ReadBits off n) x s =
      (.ok (UInt64.ofNat (x.toNat * 2 ^ n.toInt.toNat + binary (fun i => bit s.bytes (off.toInt.toNat + i)) n.toInt.toNat)), s) ∧
    (callOut (Mini.ReadBits off n) x s =
        (.ok (UInt64.ofNat (binary (fun i => bit s.bytes (off.toInt.toNat + i)) n.toInt.toNat)), s) ↔
      2 ^ 64 ∣ x.toNat * 2 ^ n.toInt.toNat) ∧
    callOut (Mini.ReadBits off n) 0 s =
      (.ok (UInt64.ofNat (binary (fun i => bit s.bytes (off.toInt.toNat + i)) n.toInt.toNat)), s) := by
  have hb := length_bytes h.ok
  have hl : loops n = n.toInt.toNat := by unfold loops; omega
  have key : ∀ y : UInt64, callOut (Mini.ReadBits off n) y s =
      (.ok (UInt64.ofNat (y.toNat * 2 ^ n.toInt.toNat + binary (fun i => bit s.bytes (off.toInt.toNat + i)) n.toInt.toNat)), s) := by
    intro y
    rw [callOut_run, mini_readBits_run h.ok off h0 n y (by rw [hl]; omega), hl]; rfl
  refine ⟨key x, ?_, ?_⟩
  · rw [key x, Prod.mk.injEq, Res.ok.injEq, ← UInt64.toNat_inj, UInt64.toNat_ofNat', UInt64.toNat_ofNat']
    simp only [and_true]
    generalize x.toNat * 2 ^ n.toInt.toNat = a
    generalize binary (fun i => bit s.bytes (off.toInt.toNat + i)) n.toInt.toNat = b
    omega
  · rw [key 0, show (0 : UInt64).toNat = 0 from rfl, Nat.zero_mul, Nat.zero_add]

example : callOut (Mini.ReadBits 4 8) 0xAB demo = (.ok 0xAB30, demo) :=
  (C44_mini_readBits_partial demo_wf 4 8 0xAB (by decide) (by decide) (by decide)).1

/-! ## C45 -/

/-- C45 is false for `ReadBytes`: it returns bytes behind the end of the buffer. -/
theorem C45_readBytes_false :
    ¬ ∀ (s s' : St), WF s → ∀ (off n : Int64) (x t : Slice), callOut (Mini.ReadBytes off n) x s = (.ok t, s') →
      off.toInt + n.toInt ≤ s.bytes.length := by
  intro hh
  have h1 := mini_readBytes_run demo_wf.ok 10 5 demoSrc
  rw [if_pos (by decide)] at h1
  exact absurd (hh demo demo demo_wf 10 5 demoSrc _ h1) (by decide)

/-- C45 is false for `WriteBytes`: bytes that do not fit are dropped without a panic. -/
theorem C45_writeBytes_false :
    ¬ ∀ (s s' : St), WF s → ∀ (off : Int64) (src : Slice), SliceOK s.mem src → Mini.WriteBytes off src s = (.ok (), s') →
      off.toInt + src.len ≤ s.bytes.length := by
  intro hh
  have h1 := mini_writeBytes_run demo_wf.ok 10 demoSrc
  rw [if_pos (by decide)] at h1
  exact absurd (hh demo _ demo_wf 10 demoSrc demoSrc_ok h1) (by decide)

/-- C45 is false for the bit operations: negative positions down to -7 are accepted. -/
theorem C45_bits_false :
    ¬ ∀ (s s' : St), WF s → ∀ (off : Int64),
      ((∃ x v, callOut (Mini.ReadBit off) x s = (.ok v, s')) ∨ Mini.SetBit off s = (.ok (), s') ∨
        Mini.ClearBit off s = (.ok (), s') ∨ Mini.FlipBit off s = (.ok (), s')) → 0 ≤ off.toInt := by
  intro hh
  have h1 := mini_setBit_neg (off := -3) demo_wf.ok (by decide)
  rw [if_pos (by decide)] at h1
  exact absurd (hh demo demo demo_wf (-3) (.inr (.inl h1))) (by decide)

/-- C45, what holds: a typed read or write that succeeds lies inside the buffer. -/
theorem C45_mini_typed_partial {s s' : St} (h : WF s) (k : Kind) (e : Endian) (off : Int64) :
    (∀ data : List k.Ty, data.length * k.size ≤ maxAlloc → Mini.Write k e off data s = (.ok (), s') →
      0 ≤ off.toInt ∧ off.toInt + data.length * k.size ≤ s.bytes.length) ∧
    (∀ (n : Int64) (x v : List k.Ty), x.length * k.size ≤ maxAlloc → 1 ≤ n.toInt → callOut (Mini.Read k e off n) x s = (.ok v, s') →
      0 ≤ off.toInt ∧ off.toInt + n.toInt * k.size ≤ s.bytes.length) := by
  have hb := length_bytes h.ok
  rw [hb]
  refine ⟨fun data hd he => ?_, fun n x v hx hn he => ?_⟩
  · by_cases hne : data = []
    · subst hne; rw [mini_write_nil] at he; cases he
    · rw [mini_write_run h.ok k e off data hd hne] at he
      by_cases hc : 0 ≤ off.toInt ∧ off.toInt + data.length * k.size ≤ s.b.buf.len
      · exact hc
      · rw [if_neg hc] at he
        split at he <;> cases he
  · rw [mini_read_callOut h.ok k e off n x hx] at he
    split at he
    · rename_i hc
      have : (loops n : Int) = n.toInt := by unfold loops; omega
      rw [this] at hc
      exact ⟨hc.1, hc.2.1⟩
    · cases he

/-- C45, what holds for the raw accessors: a successful `ReadBytes` stays inside the window (content and spare capacity)
of the buffer; a successful `WriteBytes` begins inside the content and leaves everything but the content from there on alone. -/
theorem C45_mini_raw_partial {s s' : St} (h : WF s) (off : Int64) :
    (∀ (n : Int64) (x t : Slice), callOut (Mini.ReadBytes off n) x s = (.ok t, s') →
      0 ≤ off.toInt ∧ 0 ≤ n.toInt ∧ off.toInt + n.toInt ≤ (s.mem.window s.b.buf).length ∧ s' = s ∧
      s.mem.view t = slice (s.mem.window s.b.buf) off.toInt.toNat n.toInt.toNat) ∧
    (∀ src : Slice, Mini.WriteBytes off src s = (.ok (), s') →
      0 ≤ off.toInt ∧ off.toInt ≤ s.bytes.length ∧ s'.b = s.b ∧
      s'.bytes = patch s.bytes off.toInt.toNat ((s.mem.view src).take (s.bytes.length - off.toInt.toNat))) := by
  have hb := length_bytes h.ok
  have hw : (s.mem.window s.b.buf).length = s.b.buf.cap := by
    have := h.ok.fits
    unfold Heap.window; rw [List.length_take, List.length_drop]; omega
  refine ⟨fun n x t he => ?_, fun src he => ?_⟩
  · rw [mini_readBytes_run h.ok] at he
    split at he
    · rename_i hc
      cases he
      refine ⟨hc.1, hc.2.1, by omega, rfl, ?_⟩
      unfold slice Heap.window Heap.view
      simp only [List.drop_take, List.take_take, List.drop_drop]
      rw [Nat.min_eq_left (by omega)]
    · cases he
  · rw [mini_writeBytes_run h.ok] at he
    split at he
    · rename_i hc
      have hp : off.toInt.toNat + ((s.mem.view src).take (s.b.buf.len - off.toInt.toNat)).length ≤ s.b.buf.len := by
        rw [List.length_take]; omega
      rw [write_eq_put h.ok hp] at he
      cases he
      refine ⟨hc.1, by omega, rfl, ?_⟩
      rw [bytes_put h.ok (by rw [length_patch (by omega), hb]), hb]
    · cases he

/-- C45, what holds for single bits: from a position -8 or below, or at or behind the end, they always panic and change
nothing; at positions -7 … -1 of a non-empty buffer they do nothing, and the bit read there is 0. -/
theorem C45_mini_bits_partial {s : St} (h : WF s) (off : Int64) (m : GoM St Unit)
    (hm : m = Mini.SetBit off ∨ m = Mini.ClearBit off ∨ m = Mini.FlipBit off) :
    (off.toInt ≤ -8 ∨ 8 * s.bytes.length ≤ off.toInt → m s = (.panic .index, s) ∧
      ∀ x, callOut (Mini.ReadBit off) x s = (.panic .index, s)) ∧
    (-8 < off.toInt → off.toInt < 0 → s.bytes ≠ [] → m s = (.ok (), s) ∧ ∀ x, callOut (Mini.ReadBit off) x s = (.ok 0, s)) := by
  have hb := length_bytes h.ok
  rw [hb, ne_nil_iff, hb]
  refine ⟨fun hc => ⟨?_, fun x => ?_⟩, fun h1 h2 h3 => ⟨?_, fun x => ?_⟩⟩
  · by_cases h0 : 0 ≤ off.toInt
    · rcases hm with rfl | rfl | rfl
      · rw [mini_setBit_run h.ok h0, if_neg (by omega)]
      · rw [mini_clearBit_run h.ok h0, if_neg (by omega)]
      · rw [mini_flipBit_run h.ok h0, if_neg (by omega)]
    · rcases hm with rfl | rfl | rfl
      · rw [mini_setBit_neg h.ok (by omega), if_neg (by omega)]
      · rw [mini_clearBit_neg h.ok (by omega), if_neg (by omega)]
      · rw [mini_flipBit_neg h.ok (by omega), if_neg (by omega)]
  · rw [callOut_run]
    by_cases h0 : 0 ≤ off.toInt
    · rw [mini_readBit_run h.ok h0, if_neg (by omega)]; rfl
    · rw [mini_readBit_neg h.ok (by omega), if_neg (by omega)]; rfl
  · rcases hm with rfl | rfl | rfl
    · rw [mini_setBit_neg h.ok h2, if_pos ⟨h1, h3⟩]
    · rw [mini_clearBit_neg h.ok h2, if_pos ⟨h1, h3⟩]
    · rw [mini_flipBit_neg h.ok h2, if_pos ⟨h1, h3⟩]
  · rw [callOut_run, mini_readBit_neg h.ok h2, if_pos ⟨h1, h3⟩]; rfl

example : Mini.FlipBit (-8) demo = (.panic .index, demo) ∧ Mini.FlipBit (-7) demo = (.ok (), demo) :=
  ⟨((C45_mini_bits_partial demo_wf (-8) _ (.inr (.inr rfl))).1 (.inl (by decide))).1,
   ((C45_mini_bits_partial demo_wf (-7) _ (.inr (.inr rfl))).2 (by decide) (by decide) (by decide)).1⟩

/-! ## C46 -/

/-- C46 is false: the elements that fit have been stored when the panic comes. -/
theorem C46_failed_mini_write_false :
    ¬ ∀ (s s' : St), WF s → ∀ (k : Kind) (e : Endian) (off : Int64) (data : List k.Ty) (p : Panic),
      data.length * k.size ≤ maxAlloc → Mini.Write k e off data s = (.panic p, s') → s'.bytes = s.bytes := by
  intro hh
  have h1 := mini_write_run demo_wf.ok .u16 .le 10 [(0 : UInt16), (0 : UInt16)] (by decide) (by decide)
  rw [if_neg (by decide), if_pos (by decide)] at h1
  exact absurd (hh demo _ demo_wf .u16 .le 10 _ _ (by decide) h1) (by decide)

/-- C46, what holds: a failing typed write is a run-time error that leaves offsets and capacities alone; the content
changes only if the offset lies inside the buffer, and then exactly the part from there to the end is overwritten by
the beginning of the encoding. -/
theorem C46_failed_mini_write_partial {s s' : St} (h : WF s) (k : Kind) (e : Endian) (off : Int64) (data : List k.Ty) (p : Panic)
    (hd : data.length * k.size ≤ maxAlloc) (hf : Mini.Write k e off data s = (.panic p, s')) :
    p = .index ∧ s'.b = s.b ∧
    (data = [] ∨ off.toInt < 0 ∨ s.bytes.length ≤ off.toInt → s' = s) ∧
    (0 ≤ off.toInt → off.toInt ≤ s.bytes.length → data ≠ [] →
      s'.bytes = s.bytes.take off.toInt.toNat ++
        ((data.map k.pat).flatMap (encode e k.size)).take (s.bytes.length - off.toInt.toNat)) := by
  have hb := length_bytes h.ok
  rw [enc_eq, hb]
  by_cases hne : data = []
  · subst hne
    rw [mini_write_nil] at hf
    cases hf
    exact ⟨rfl, rfl, fun _ => rfl, fun _ _ hx => absurd rfl hx⟩
  · rw [mini_write_run h.ok k e off data hd hne] at hf
    by_cases hc : 0 ≤ off.toInt ∧ off.toInt + data.length * k.size ≤ s.b.buf.len
    · rw [if_pos hc] at hf; cases hf
    · rw [if_neg hc] at hf
      have hX : (data.length : Int) * k.size = ((data.length * k.size : Nat) : Int) := (Int.natCast_mul ..).symm
      have hl := length_enc k e data
      by_cases h2 : 0 ≤ off.toInt ∧ off.toInt < s.b.buf.len
      · rw [if_pos h2] at hf
        have hp : off.toInt.toNat + ((enc k e data).take (s.b.buf.len - off.toInt.toNat)).length = s.b.buf.len := by
          rw [List.length_take]; omega
        rw [write_eq_put h.ok (by omega)] at hf
        cases hf
        refine ⟨rfl, rfl, fun hh => ?_, fun _ _ _ => ?_⟩
        · rcases hh with hh | hh
          · exact absurd hh hne
          · omega
        · rw [bytes_put h.ok (by rw [length_patch (by omega), hb]), patch, hp, List.drop_of_length_le (by omega), List.append_nil]
      · rw [if_neg h2] at hf
        cases hf
        refine ⟨rfl, rfl, fun _ => rfl, fun _ _ _ => ?_⟩
        rw [show s.b.buf.len - off.toInt.toNat = 0 by omega, List.take_zero, List.append_nil, List.take_of_length_le (by omega)]

example : ∃ s', Mini.Write .u16 .be 10 [0xABCD, 0x1234] demo = (.panic .index, s') ∧
    s'.bytes = [3, 4, 5, 6, 7, 8, 9, 10, 11, 12, 0xAB, 0xCD] := by
  have h1 := mini_write_run demo_wf.ok .u16 .be 10 [(0xABCD : UInt16), (0x1234 : UInt16)] (by decide) (by decide)
  rw [if_neg (by decide), if_pos (by decide)] at h1
  exact ⟨_, h1, ((C46_failed_mini_write_partial demo_wf .u16 .be 10 _ _ (by decide) h1).2.2.2 (by decide) (by decide) (by decide)).trans
    (by decide)⟩

/-! ## histories of calls on `MiniBuffer`: C48, C64, C65 -/

/-- Argument and result slices exist at the time of their call. -/
def MiniValid : List (Outs × Op) → St → Prop
  | [], _ => True
  | (o, op) :: ops, s => match miniCall o op with
    | none => MiniValid ops s
    | some m => o.Valid ∧ op.Valid s.mem ∧ MiniValid ops (m s).2

/-- The outcomes of the calls, each as the caller sees it when the call returns. -/
def miniObserved : List (Outs × Op) → St → List (Res Ref.Val)
  | [], _ => []
  | (o, op) :: ops, s => match miniCall o op with
    | none => miniObserved ops s
    | some m => obsRes (m s).2.mem (m s).1 :: miniObserved ops (m s).2

/-- The calls for the reference machine. -/
def miniLower : List (Outs × Op) → St → List (Nat × List Nat × Ref.Op)
  | [], _ => []
  | (o, op) :: ops, s => match miniCall o op with
    | none => miniLower ops s
    | some m => (o.u64.toNat, o.nums op, op.lower s.mem) :: miniLower ops (m s).2

theorem mini_history_ok {s : St} (h : WF s) (ops : List (Outs × Op)) (hv : MiniValid ops s) :
    WF (miniAll ops s).2 ∧ Iso s (miniAll ops s).2 := by
  induction ops generalizing s with
  | nil => exact ⟨h, Iso.refl s⟩
  | cons x ops ih =>
    obtain ⟨o, op⟩ := x
    unfold miniAll
    unfold MiniValid at hv
    cases hc : miniCall o op with
    | none => rw [hc] at hv; exact ih h hv
    | some m =>
      rw [hc] at hv
      have h1 := mini_step_ok h o hv.1 op hv.2.1 m hc
      obtain ⟨h2, h3⟩ := ih h1.wf hv.2.2
      exact ⟨h2, h1.iso.trans h3⟩

/-- C64: every history of `MiniBuffer` calls, with arbitrary arguments and arbitrary previous contents of the result
variables, gives the results and the final state of the reference machine. -/
theorem C64_mini_history {s : St} (h : WF s) (ops : List (Outs × Op)) (hv : MiniValid ops s) :
    Ref.miniRun (miniLower ops s) (abs s) = (miniObserved ops s, abs (miniAll ops s).2) := by
  induction ops generalizing s with
  | nil => rfl
  | cons x ops ih =>
    obtain ⟨o, op⟩ := x
    unfold miniAll miniLower miniObserved
    unfold MiniValid at hv
    cases hc : miniCall o op with
    | none => rw [hc] at hv; exact ih h hv
    | some m =>
      rw [hc] at hv
      have h1 := mini_step_ok h o hv.1 op hv.2.1 m hc
      have h2 := ih h1.wf hv.2.2
      simp only [Ref.miniRun]
      rw [← h1.state, ← h1.result, h2]

/-- C64: what the reference state says about the buffer. -/
theorem C64_final_state {s : St} (h : WF s) (ops : List (Outs × Op)) (hv : MiniValid ops s) :
    let f := (miniAll ops s).2
    let r := (Ref.miniRun (miniLower ops s) (abs s)).2
    f.bytes = r.data ∧ f.b.cap.toInt = r.data.length ∧ f.b.bcap.toInt = 8 * r.data.length ∧
      f.b.off.toInt = r.cur ∧ f.b.boff.toInt = r.bcur := by
  intro f r
  have w := (mini_history_ok h ops hv).1
  have e : r = abs f := by show (Ref.miniRun _ _).2 = _; rw [C64_mini_history h ops hv]
  rw [e]
  refine ⟨rfl, ?_, ?_, rfl, rfl⟩
  · rw [w.cap_toInt]; exact (congrArg Nat.cast (length_bytes w.ok)).symm
  · rw [w.bcap_toInt]; congr 1; exact (congrArg Nat.cast (length_bytes w.ok)).symm

/-- C65: after any history of `MiniBuffer` calls, whether they succeeded or panicked, the cached capacities are right and
`Refresh` changes nothing. -/
theorem C65_mini_capacities {s s' : St} {slices : List Slice} (hl : slices.length ≤ maxAlloc)
    (hs : ∀ t ∈ slices, SliceOK s.mem t) (hn : Mini.NewMiniBuffer slices s = (.ok (), s')) (ops : List (Outs × Op))
    (hv : MiniValid ops s') :
    (miniAll ops s').2.b.cap.toInt = (miniAll ops s').2.bytes.length ∧
    (miniAll ops s').2.b.bcap.toInt = 8 * (miniAll ops s').2.bytes.length ∧
    Mini.Refresh (miniAll ops s').2 = (.ok (), (miniAll ops s').2) := by
  have w := (mini_history_ok (newBuffer_wf hl hs (by rw [← C43_constructors]; exact hn)) ops hv).1
  refine ⟨?_, ?_, ?_⟩
  · rw [w.cap_toInt, length_bytes w.ok]
  · rw [w.bcap_toInt, length_bytes w.ok]
  · rw [show Mini.Refresh = Buffer.Refresh from rfl, buffer_refresh_run, refit_self w]

/-- C48 for `MiniBuffer`: no history of calls changes memory outside the window of the buffer's own backing array. -/
theorem C48_mini_outside_unchanged {s : St} (h : WF s) (ops : List (Outs × Op)) (hv : MiniValid ops s) (a i : Nat)
    (ha : a < s.mem.arrays.length)
    (ho : a ≠ s.b.buf.arr ∨ i < s.b.buf.off ∨ s.b.buf.off + s.b.buf.cap ≤ i) :
    ((miniAll ops s).2.mem.array a)[i]? = (s.mem.array a)[i]? :=
  (mini_history_ok h ops hv).2.outside a i ha ho

/-- A history with failing calls, negative counts and a result variable that is not zero. -/
def demoMini : List (Outs × Op) :=
  [(demoOuts 5 1, .readBits (some 4) 8), (demoOuts 0 1, .read .u16 .be none 1), (demoOuts 0 0, .write .u32 .le (some 10) [(7 : UInt32)]),
   (demoOuts 0 0, .grow (-3)), (demoOuts 0 0, .truncateRight (-5)), (demoOuts 0 0, .readBytes (some 12) 3), (demoOuts 0 0, .readByte none)]

theorem demoOuts_valid (x : UInt64) (n : Nat) (hn : n ≤ 1) : (demoOuts x n).Valid := by
  intro k
  show (List.replicate n (k.ofPat 1)).length * k.size ≤ maxAlloc
  rw [List.length_replicate]
  have := size_le k; have : n * k.size ≤ 1 * k.size := Nat.mul_le_mul_right _ hn
  exact Nat.le_trans this (by rw [Nat.one_mul]; exact Nat.le_trans (size_le k) (by decide))

theorem demoMini_valid : MiniValid demoMini demo :=
  ⟨demoOuts_valid _ _ (by decide), trivial, demoOuts_valid _ _ (by decide), trivial, demoOuts_valid _ _ (by decide), (by decide : _ ≤ _),
    demoOuts_valid _ _ (by decide), trivial, demoOuts_valid _ _ (by decide), trivial, demoOuts_valid _ _ (by decide), trivial, trivial⟩

example : Ref.miniRun (miniLower demoMini demo) (abs demo) = (miniObserved demoMini demo, abs (miniAll demoMini demo).2) :=
  C64_mini_history demo_wf demoMini demoMini_valid

end Crunch.V3
