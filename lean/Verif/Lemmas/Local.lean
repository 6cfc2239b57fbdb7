import Verif.Lemmas.V2Step
import Verif.Lemmas.V2Conc
import Verif.Spans

/-! Calls that touch a known range of bits of the buffer, one after another: those that touch nothing others write. -/

namespace Crunch.V2
open Spec
open V3 (St WF Val Kind St.put)

/-- A function on contents of `N` bytes that looks at the bits of `P` only, and changes bits of `P` only (none if `wr` is false). -/
structure LocalFn {V : Type} (N : Nat) (P : Nat → Prop) (wr : Bool) (f : List UInt8 → Res V × List UInt8) : Prop where
  len : ∀ {l}, l.length = N → (f l).2.length = N
  outside : ∀ {l x}, l.length = N → (wr = false ∨ ¬ P x) → bit (f l).2 x = bit l x
  same : ∀ {l l'}, l.length = N → l'.length = N → (∀ x, P x → bit l x = bit l' x) →
    (f l).1 = (f l').1 ∧ ∀ x, P x → bit (f l).2 x = bit (f l').2 x

theorem bit_patch {l : List UInt8} {p : Nat} {bs : List UInt8} (h : p + bs.length ≤ l.length) (x : Nat) :
    bit (patch l p bs) x = if 8 * p ≤ x ∧ x < 8 * (p + bs.length) then bit bs (x - 8 * p) else bit l x := by
  unfold bit
  rw [getElem?_patch h]
  by_cases hx : 8 * p ≤ x ∧ x < 8 * (p + bs.length)
  · rw [if_pos hx, if_pos (by omega), show x / 8 - p = (x - 8 * p) / 8 by omega, show (x - 8 * p) % 8 = x % 8 by omega]
  · rw [if_neg hx, if_neg (by omega)]

theorem local_patch {N o : Nat} {bs : List UInt8} (h : o + bs.length ≤ N) :
    LocalFn N (fun x => 8 * o ≤ x ∧ x < 8 * (o + bs.length)) true fun l => (.ok Val.unit, patch l o bs) where
  len hl := by rw [length_patch (by omega), hl]
  outside hl hx := by rw [bit_patch (by omega), if_neg (hx.resolve_left (fun h => nomatch h))]
  same hl hl' _ := ⟨rfl, fun x hx => by rw [bit_patch (by omega), bit_patch (by omega), if_pos hx, if_pos hx]⟩

theorem local_putBit {N o : Nat} (h : o < 8 * N) (g : Bool → Bool) :
    LocalFn N (fun x => x = o) true fun l => (.ok Val.unit, V3.putBit l o (g (bit l o))) where
  len hl := by rw [V3.length_putBit (by omega), hl]
  outside hl hx := by rw [V3.bit_putBit (by omega), if_neg (hx.resolve_left (fun h => nomatch h))]
  same hl hl' ha := ⟨rfl, fun x hx => by rw [V3.bit_putBit (by omega), V3.bit_putBit (by omega), if_pos hx, if_pos hx, ha o rfl]⟩

theorem local_read {V : Type} {N : Nat} {P : Nat → Prop} {wr : Bool} {g : List UInt8 → Res V}
    (h : ∀ {l l'}, l.length = N → l'.length = N → (∀ x, P x → bit l x = bit l' x) → g l = g l') : LocalFn N P wr fun l => (g l, l) where
  len hl := hl
  outside _ _ := rfl
  same hl hl' ha := ⟨h hl hl' ha, ha⟩

theorem LocalFn.mono {V : Type} {N : Nat} {P Q : Nat → Prop} {wr : Bool} {f : List UInt8 → Res V × List UInt8} (h : LocalFn N P wr f) (hp : ∀ x, P x → Q x) :
    LocalFn N Q wr f where
  len := h.len
  outside hl hx := h.outside hl (hx.imp id fun hq hp' => hq (hp _ hp'))
  same hl hl' ha := by
    obtain ⟨h1, h2⟩ := h.same hl hl' fun x hx => ha x (hp x hx)
    refine ⟨h1, fun x hx => ?_⟩
    by_cases hxp : P x
    · exact h2 x hxp
    · rw [h.outside hl (.inr hxp), h.outside hl' (.inr hxp)]
      exact ha x hx

theorem slice_of_bits {l l' : List UInt8} {o c : Nat} (hl : o + c ≤ l.length) (hl' : o + c ≤ l'.length)
    (h : ∀ x, 8 * o ≤ x ∧ x < 8 * (o + c) → bit l x = bit l' x) : slice l o c = slice l' o c := by
  have len : ∀ {m : List UInt8}, o + c ≤ m.length → (slice m o c).length = c := fun hm => by
    unfold slice
    rw [List.length_take, List.length_drop]
    omega
  have key : ∀ {m : List UInt8}, ∀ i < 8 * c, bit (slice m o c) i = bit m (8 * o + i) := fun {m} i hi => by
    unfold bit slice
    rw [List.getElem?_take, if_pos (by omega), List.getElem?_drop, show o + i / 8 = (8 * o + i) / 8 by omega,
      show (8 * o + i) % 8 = i % 8 by omega]
  apply V3.bit_ext
  · rw [len hl, len hl']
  · intro i hi
    rw [len hl] at hi
    rw [key i hi, key i hi]
    exact h _ ⟨by omega, by omega⟩

/-- The same fields, and the same memory outside the array of the buffer. -/
structure Near (s0 s : St) : Prop where
  wf : WF s
  b : s.b = s0.b
  arrays : s.mem.arrays.length = s0.mem.arrays.length
  sizes : ∀ a, (s.mem.array a).length = (s0.mem.array a).length
  outer : ∀ a i, (a ≠ s0.b.buf.arr ∨ i < s0.b.buf.off ∨ s0.b.buf.off + s0.b.buf.len ≤ i) → (s.mem.array a)[i]? = (s0.mem.array a)[i]?

theorem Near.put {s0 s : St} (h : Near s0 s) {l : List UInt8} (hl : l.length = s0.b.buf.len) : Near s0 (s.put l) where
  wf := h.wf.put l
  b := h.b
  arrays := (V3.put_arrays_length s l).trans h.arrays
  sizes a := (V3.put_array_length s l a).trans (h.sizes a)
  outer a i hi := by
    rw [← h.outer a i hi]
    exact V3.put_array h.wf.ok (by rw [hl, h.b]) (by rw [h.b]; exact hi)

/-- What a call that touches the bits of `T` and, if `ch`, may change them does to a buffer near `s0`: a local function of the content. -/
def ActsLike {V : Type} (s0 : St) (p : Prog V) (ch : Bool) (T : Nat → Prop) : Prop :=
  ∃ f, LocalFn s0.b.buf.len T ch f ∧ ∀ s, Near s0 s → p.run ⟨s, false⟩ = ((f s.bytes).1, ⟨s.put (f s.bytes).2, false⟩)

/-- The same for the v2 calls. -/
abbrev Acts (s0 : St) (op : Op2) : Prop := ActsLike s0 (exec op) (changes op) (Touches op)

/-- From a run without the lock. -/
theorem acts_of {s0 : St} {op : Op2} (f : List UInt8 → Res Val × List UInt8) (hf : LocalFn s0.b.buf.len (Touches op) (changes op) f)
    (hr : ∀ l, ((f l).1).runtime = false) (h : ∀ s, Near s0 s → seq op s = ((f s.bytes).1, s.put (f s.bytes).2)) : Acts s0 op :=
  ⟨f, hf, fun s hn => by rw [exec_run, h s hn, hr, Bool.and_false]⟩

theorem acts_write {s0 : St} (h0 : WF s0) (k : UKind) (e : Endian) (o : Int64) (d : List k.kind.Ty) (w : Within s0 (.write k e (some o) d)) :
    Acts s0 (.write k e (some o) d) := by
  obtain ⟨lo, hi, hs, h1, h2⟩ := w.span
  have hM := h0.ok.len_le_max
  dsimp only [span] at hs
  by_cases hd : d = []
  · rw [if_pos hd] at hs; exact nomatch hs
  rw [if_neg hd] at hs
  cases hs
  have hle : (V3.enc k.kind e d).length = d.length * k.kind.size := V3.length_enc k.kind e d
  have hc : ((d.length * k.kind.size : Nat) : Int) = (d.length : Int) * k.kind.size := Int.natCast_mul ..
  refine acts_of (fun l => (.ok .unit, patch l o.toInt.toNat (V3.enc k.kind e d))) ?_ (fun _ => rfl) fun s hn => ?_
  · refine (local_patch (by rw [hle]; omega)).mono fun x hx => ⟨_, _, by dsimp only [span]; rw [if_neg hd], ?_, ?_⟩ <;> rw [hle] at hx <;> omega
  · have hb := hn.b
    have hr := V3.buffer_write_run hn.wf k.kind e o d (by omega)
    rw [if_pos ⟨hd, by omega, by rw [hb]; omega⟩, V3.write_eq_put hn.wf.ok (by rw [hle, hb]; omega)] at hr
    show V3.wrapVal (fun _ => Val.unit) (V3.Buffer.Write k.kind e o d) s = _
    rw [V3.wrapVal_run, hr]
    rfl

theorem acts_read {s0 : St} (h0 : WF s0) (k : UKind) (e : Endian) (o n : Int64) (w : Within s0 (.read k e (some o) n)) :
    Acts s0 (.read k e (some o) n) := by
  obtain ⟨lo, hi, hs, h1, h2⟩ := w.span
  have hM := h0.ok.len_le_max
  dsimp only [span] at hs
  by_cases hd : n.toInt < 1
  · rw [if_pos hd] at hs; exact nomatch hs
  rw [if_neg hd] at hs
  cases hs
  have hc : ((n.toInt.toNat * k.kind.size : Nat) : Int) = n.toInt * k.kind.size := by
    rw [Int.natCast_mul, Int.toNat_of_nonneg (by omega)]
  refine acts_of (fun l => (.ok (.typed k.kind (V3.dec k.kind e n.toInt.toNat (l.drop o.toInt.toNat))), l)) ?_ (fun _ => rfl) fun s hn => ?_
  · refine local_read fun {l l'} hl hl' ha => ?_
    have : slice l o.toInt.toNat (n.toInt.toNat * k.kind.size) = slice l' o.toInt.toNat (n.toInt.toNat * k.kind.size) :=
      slice_of_bits (by omega) (by omega) fun x hx => ha x ⟨_, _, by dsimp only [span]; rw [if_neg hd], by omega, by omega⟩
    exact congrArg (fun v => Res.ok (Val.typed k.kind v)) (V3.dec_congr (by unfold slice at this ⊢; exact this))
  · have hr := V3.buffer_read_run hn.wf k.kind e o n
    rw [if_pos ⟨by omega, by omega, by rw [hn.b]; omega⟩] at hr
    show V3.wrapVal (Val.typed k.kind) (V3.Buffer.Read k.kind e o n) s = _
    rw [V3.wrapVal_run, hr, V3.put_self hn.wf.ok]
    rfl

theorem Near.slice {s0 s : St} (h : Near s0 s) {t : Slice} (ht : SliceOK s0.mem t) : SliceOK s.mem t :=
  ⟨ht.len_le, by rw [h.sizes]; exact ht.fits, by rw [h.sizes]; exact ht.small⟩

theorem Near.view {s0 s : St} (h : Near s0 s) {t : Slice}
    (ht : t.arr ≠ s0.b.buf.arr ∨ t.off + t.len ≤ s0.b.buf.off ∨ s0.b.buf.off + s0.b.buf.len ≤ t.off) : s.mem.view t = s0.mem.view t := by
  apply List.ext_getElem?
  intro i
  unfold Heap.view
  rw [List.getElem?_take, List.getElem?_take, List.getElem?_drop, List.getElem?_drop]
  split
  · exact h.outer _ _ (by omega)
  · rfl

theorem acts_writeBytes {s0 : St} (o : Int64) (src : Slice) (w : Within s0 (.writeBytes (some o) src)) :
    Acts s0 (.writeBytes (some o) src) := by
  obtain ⟨lo, hi, hs, h1, h2⟩ := w.span
  obtain ⟨hok, harr⟩ := w.source _ _ rfl
  dsimp only [span] at hs
  by_cases hd : src.len = 0
  · rw [if_pos hd] at hs; exact nomatch hs
  rw [if_neg hd] at hs
  cases hs
  have hle : (s0.mem.view src).length = src.len := length_view hok
  refine acts_of (fun l => (.ok .unit, patch l o.toInt.toNat (s0.mem.view src))) ?_ (fun _ => rfl) fun s hn => ?_
  · refine (local_patch (by rw [hle]; omega)).mono fun x hx => ⟨_, _, by dsimp only [span]; rw [if_neg hd], ?_, ?_⟩ <;> rw [hle] at hx <;> omega
  · have hb := hn.b
    have hr := write_checked_run hn.wf o (hn.slice hok)
    rw [if_pos ⟨by omega, by omega, by rw [hb]; omega⟩, copied_eq_view (hn.slice hok) (by rw [hb]; omega), hn.view harr,
      V3.write_eq_put hn.wf.ok (by rw [hle, hb]; omega)] at hr
    show V3.wrapVal (fun _ => Val.unit) (writeSeq o src) s = _
    rw [V3.wrapVal_run]
    exact congrArg (V3.wrapRes _) hr

theorem acts_writeByte {s0 : St} (o : Int64) (v : UInt8) (w : Within s0 (.writeByte (some o) v)) : Acts s0 (.writeByte (some o) v) := by
  obtain ⟨lo, hi, hs, h1, h2⟩ := w.span
  cases hs
  refine acts_of (fun l => (.ok .unit, patch l o.toInt.toNat [v])) ?_ (fun _ => rfl) fun s hn => ?_
  · refine (local_patch (by rw [List.length_singleton]; omega)).mono fun x hx => ⟨_, _, rfl, ?_, ?_⟩ <;>
      rw [List.length_singleton] at hx <;> omega
  · have hb := hn.b
    have e := (writeByte_run hn.wf o v).symm.trans (write_lit_leaky o v s)
    rw [if_pos ⟨by omega, by rw [hb]; omega⟩, V3.write_eq_put hn.wf.ok (by rw [List.length_singleton, hb]; omega)] at e
    have e' : writeByteSeq o v s = (.ok (), s.put (patch s.bytes o.toInt.toNat [v])) :=
      Prod.ext (congrArg Prod.fst e).symm (congrArg (fun x => x.2.st) e).symm
    show V3.wrapVal (fun _ => Val.unit) (writeByteSeq o v) s = _
    rw [V3.wrapVal_run, e']
    rfl

theorem acts_readBit {s0 : St} (o : Int64) (w : Within s0 (.readBit (some o))) : Acts s0 (.readBit (some o)) := by
  obtain ⟨lo, hi, hs, h1, h2⟩ := w.span
  cases hs
  refine acts_of (fun l => (.ok (.u8 (V3.bitByte (bit l o.toInt.toNat))), l)) ?_ (fun _ => rfl) fun s hn => ?_
  · refine local_read fun {l l'} _ _ ha => ?_
    rw [ha o.toInt.toNat ⟨_, _, rfl, by omega, by omega⟩]
  · have hr := V3.buffer_readBit_run hn.wf o
    rw [if_pos ⟨by omega, by rw [hn.b]; omega⟩] at hr
    show V3.wrapVal Val.u8 (V3.Buffer.ReadBit o) s = _
    rw [V3.wrapVal_run, hr, V3.put_self hn.wf.ok]
    rfl

theorem acts_flipBit {s0 : St} (o : Int64) (w : Within s0 (.flipBit (some o))) : Acts s0 (.flipBit (some o)) := by
  obtain ⟨lo, hi, hs, h1, h2⟩ := w.span
  cases hs
  refine acts_of (fun l => (.ok .unit, V3.putBit l o.toInt.toNat (!bit l o.toInt.toNat))) ?_ (fun _ => rfl) fun s hn => ?_
  · exact (local_putBit (by omega) (!·)).mono fun x hx => ⟨_, _, rfl, by omega, by omega⟩
  · have hr := V3.buffer_flipBit_run hn.wf o
    rw [if_pos ⟨by omega, by rw [hn.b]; omega⟩] at hr
    show V3.wrapVal (fun _ => Val.unit) (V3.Buffer.FlipBit o) s = _
    rw [V3.wrapVal_run, hr]
    rfl

theorem acts_setBit {s0 : St} (o : Int64) (v : UInt8) (w : Within s0 (.setBit (some o) v)) : Acts s0 (.setBit (some o) v) := by
  obtain ⟨lo, hi, hs, h1, h2⟩ := w.span
  cases hs
  have put : ∀ b : Bool, LocalFn s0.b.buf.len (Touches (.setBit (some o) v)) true fun l => (.ok Val.unit, V3.putBit l o.toInt.toNat b) := fun b =>
    (local_putBit (by omega) fun _ => b).mono fun x hx => ⟨_, _, rfl, by omega, by omega⟩
  by_cases hv0 : v = 0
  · refine acts_of _ (put false) (fun _ => rfl) fun s hn => ?_
    have hr := V3.buffer_clearBit_run hn.wf o
    rw [if_pos ⟨by omega, by rw [hn.b]; omega⟩] at hr
    show V3.wrapVal (fun _ => Val.unit) (setBitSeq o v) s = _
    rw [V3.wrapVal_run, setBitSeq, if_pos hv0, hr]
    rfl
  · by_cases hv1 : v = 1
    · refine acts_of _ (put true) (fun _ => rfl) fun s hn => ?_
      have hr := V3.buffer_setBit_run hn.wf o
      rw [if_pos ⟨by omega, by rw [hn.b]; omega⟩] at hr
      show V3.wrapVal (fun _ => Val.unit) (setBitSeq o v) s = _
      rw [V3.wrapVal_run, setBitSeq, if_neg hv0, if_pos hv1, hr]
      rfl
    · refine acts_of (fun l => (.panic (.err BufferInvalidBitError), l)) (local_read fun _ _ _ => rfl) (fun _ => rfl) fun s hn => ?_
      have hr := step2_badBit hn.wf o
      rw [if_pos ⟨by omega, by rw [V3.abs_len hn.wf.ok, hn.b]; omega⟩] at hr
      show V3.wrapVal (fun _ => Val.unit) (setBitSeq o v) s = _
      rw [V3.wrapVal_run, setBitSeq, if_neg hv0, if_neg hv1, hr, V3.put_self hn.wf.ok]
      rfl

theorem acts {s0 : St} (h0 : WF s0) {op : Op2} (w : Within s0 op) (ha : Atomic op) : Acts s0 op := by
  cases op with
  | write k e p d => cases p with
    | none => exact nomatch ha
    | some o => exact acts_write h0 k e o d w
  | read k e p n => cases p with
    | none => exact nomatch ha
    | some o => exact acts_read h0 k e o n w
  | writeBytes p src => cases p with
    | none => exact nomatch ha
    | some o => exact acts_writeBytes o src w
  | writeByte p v => cases p with
    | none => exact nomatch ha
    | some o => exact acts_writeByte o v w
  | readBit p => cases p with
    | none => exact nomatch ha
    | some o => exact acts_readBit o w
  | setBit p v => cases p with
    | none => exact nomatch ha
    | some o => exact acts_setBit o v w
  | flipBit p => cases p with
    | none => exact nomatch ha
    | some o => exact acts_flipBit o w
  | readBits => exact nomatch ha
  | setBits => exact nomatch ha
  | _ => obtain ⟨_, _, hs, _⟩ := w.span; exact nomatch hs

end Crunch.V2
