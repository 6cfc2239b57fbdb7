import Verif.Lemmas.V1Foot

/-! Every call of v1 `Buffer` keeps to its footprint. -/

namespace Crunch.V1
open V3 (Buf Val St WF)
open Spec (Endian)

theorem base_mayRead (b : Buf) (op : Op1) : Base (mayRead1 b op) := ⟨trivial, trivial, trivial⟩

/-- Nothing is asked of the end. -/
abbrev AnyEnd : Buf → Bool → α → Prop := fun _ _ _ => True
/-- Panics are allowed. -/
abbrev AnyPanic : Bool → Prop := fun _ => True

theorem foot_wrapVal {R W : Loc → Prop} {f : α → Val} {p : Prog α} {b : Buf} {l : Bool} (h : Foot R W AnyPanic AnyEnd b l p) :
    Foot R W AnyPanic AnyEnd b l (wrap1 f p) := foot_bind (h.mono (fun _ h => h) fun _ _ _ _ => trivial)

theorem foot_any {R W : Loc → Prop} {f : α → Val1} {p : Prog α} {b : Buf} {l : Bool} (h : Foot R W AnyPanic AnyEnd b l p) :
    Foot R W AnyPanic AnyEnd b l (p.bind fun a => .ret (f a)) := foot_bind (h.mono (fun _ h => h) fun _ _ _ _ => trivial)

theorem in_content {b : Buf} {op : Op1} {lo hi : Int} (e : bytesOf1 b op = (lo, hi)) {x : Nat} (h1 : lo ≤ x) (h2 : x < hi) (h3 : x < b.buf.len) :
    mayRead1 b op (.byte b.buf.arr (b.buf.off + x)) :=
  .inl ⟨x, by rw [e]; exact h1, by rw [e]; exact h2, h3, rfl⟩

theorem in_changed {b : Buf} {op : Op1} {lo hi : Int} (c : changesBytes1 op = true) (e : bytesOf1 b op = (lo, hi)) {x : Nat} (h1 : lo ≤ x) (h2 : x < hi)
    (h3 : x < b.buf.len) : mayWrite1 b op (.byte b.buf.arr (b.buf.off + x)) :=
  ⟨c, x, by rw [e]; exact h1, by rw [e]; exact h2, h3, rfl⟩

theorem at_content {b : Buf} {op : Op1} {y : Int} (e : bytesOf1 b op = (y, y + 1)) (h0 : 0 ≤ y) (h3 : y < b.buf.len) :
    mayRead1 b op (.byte b.buf.arr (b.buf.off + y.toNat)) := in_content e (by omega) (by omega) (by omega)

theorem at_changed {b : Buf} {op : Op1} {y : Int} (c : changesBytes1 op = true) (e : bytesOf1 b op = (y, y + 1)) (h0 : 0 ≤ y) (h3 : y < b.buf.len) :
    mayWrite1 b op (.byte b.buf.arr (b.buf.off + y.toNat)) := in_changed c e (by omega) (by omega) (by omega)

theorem in_source {b : Buf} {op : Op1} {t : Slice} (e : sourceOf1 op = some t) : SrcIn (mayRead1 b op) (.mem t) :=
  fun i hi => .inr (.inr ⟨t, e, i, hi, rfl⟩)

theorem in_around {b : Buf} {p : Option Int64} {n w : Int64} {e : ByteOrder} (hw : w ≠ Unsigned8) {x : Nat} (h1 : V2.byteAt b p ≤ x)
    (h2 : x < V2.byteAt b p + n.toInt * w.toInt) : mayRead1 b (.readComplex p n w e) (.byte b.buf.arr (b.buf.off + x)) :=
  .inr (.inl ⟨x, by rw [complexOf, if_neg hw]; exact h1, by rw [complexOf, if_neg hw]; exact h2, rfl⟩)

theorem bit_nonneg {o : Int64} (h : 0 ≤ o.toInt) : 0 ≤ o.toInt / 8 := Int.ediv_nonneg h (by decide)

theorem exec1_foot {b : Buf} {l : Bool} (hs : Sized b) (hc : b.buf.cap < 2 ^ 50) (op : Op1) (hp : inPlace1 op = true) :
    Foot (mayRead1 b op) (mayWrite1 b op) AnyPanic AnyEnd b l (exec1 op) := by
  have hb := base_mayRead b op
  have hE : ∀ l, AnyPanic l := fun _ => trivial
  cases op with
  | writeComplex p d w e =>
    have hd : ∀ s, d = .bytes s → SrcIn (mayRead1 b (.writeComplex p d w e)) (.mem s) := fun s h => in_source (by subst h; rfl)
    cases p with
    | some o => exact foot_wrapVal (foot_writeComplex hb hs hE hd (fun x h1 h2 h3 => in_changed rfl rfl h1 h2 h3) fun _ => trivial)
    | none =>
      refine foot_wrapVal (foot_bind' ⟨rfl, foot_bind' (foot_writeComplex hb hs hE hd (fun x h1 h2 h3 => in_changed rfl rfl h1 h2 h3) fun _ => ?_)⟩)
      have seek : ∀ {n : Int64}, Foot (mayRead1 b (.writeComplex none d w e)) (mayWrite1 b (.writeComplex none d w e)) AnyPanic AnyEnd b false (Buffer.seek n true) :=
        foot_seekbyte trivial rfl rfl fun _ _ => trivial
      repeat' split
      all_goals first
        | trivial
        | (cases d <;> first | trivial | exact seek)
  | readComplex p n w e =>
    cases p with
    | some o => exact foot_any (foot_readComplex hb hc hE (fun hw x h1 h2 => in_around hw h1 h2) fun _ _ => trivial)
    | none =>
      exact foot_any (foot_bind' ⟨rfl, foot_bind' (foot_readComplex hb hc hE (fun hw x h1 h2 => in_around hw h1 h2)
        fun _ _ => foot_bind' (foot_seekbyte trivial rfl rfl fun _ _ => trivial))⟩)
  | writeBytes p src =>
    cases p with
    | some o => exact foot_wrapVal (foot_write hb hs hE (in_source rfl) (fun x h1 h2 h3 => in_changed rfl rfl h1 h2 h3) fun _ => trivial)
    | none => exact foot_wrapVal (foot_bind' ⟨rfl, foot_bind' (foot_write hb hs hE (in_source rfl) (fun x h1 h2 h3 => in_changed rfl rfl h1 h2 h3) fun _ => foot_seekbyte trivial rfl rfl fun _ _ => trivial)⟩)
  | writeByte p v =>
    cases p with
    | some o => exact foot_wrapVal (foot_write hb hs hE trivial (fun x h1 h2 h3 => in_changed rfl rfl h1 h2 h3) fun _ => trivial)
    | none => exact foot_wrapVal (foot_bind' ⟨rfl, foot_bind' (foot_write hb hs hE trivial (fun x h1 h2 h3 => in_changed rfl rfl h1 h2 h3) fun _ => foot_seekbyte trivial rfl rfl fun _ _ => trivial)⟩)
  | readBytes p n =>
    cases p with
    | some o => exact foot_wrapVal (foot_read hb hE fun _ _ _ _ _ _ => trivial)
    | none => exact foot_wrapVal (foot_bind' ⟨rfl, foot_bind' (foot_read hb hE fun _ _ _ _ _ _ => foot_bind' (foot_seekbyte trivial rfl rfl fun _ _ => trivial))⟩)
  | readByte p =>
    cases p with
    | some o => exact foot_wrapVal (foot_ReadByte hb hs hE (fun h0 h1 => at_content rfl h0 h1) fun _ _ => trivial)
    | none => exact foot_wrapVal (foot_bind' ⟨rfl, foot_readLoad hb hs hE (fun h0 h1 => at_content rfl h0 h1) fun _ _ => foot_bind' (foot_seekbyte trivial rfl rfl fun _ _ => trivial)⟩)
  | readBit p =>
    cases p with
    | some o => exact foot_wrapVal (foot_readbit hb hs hE (fun h0 h1 => at_content rfl (bit_nonneg h0) h1) fun _ _ _ _ => trivial)
    | none =>
      exact foot_wrapVal (foot_bind' ⟨rfl, foot_bind' (foot_readbit hb hs hE (fun h0 h1 => at_content rfl (bit_nonneg h0) h1)
        fun _ _ _ _ => foot_bind' (foot_seekbit trivial rfl rfl fun _ _ => trivial))⟩)
  | readBits p n =>
    cases p with
    | some o => exact foot_wrapVal (foot_readbits hb hs hE (fun hn x h1 h2 h3 => in_content (op := .readBits (some o) n) (if_neg (Int.not_le.mpr hn)) h1 h2 h3) fun _ => trivial)
    | none => exact foot_wrapVal (foot_bind' ⟨rfl, foot_bind' (foot_readbits hb hs hE (fun hn x h1 h2 h3 => in_content (op := .readBits none n) (if_neg (Int.not_le.mpr hn)) h1 h2 h3) fun _ => foot_bind' (foot_seekbit trivial rfl rfl fun _ _ => trivial))⟩)
  | setBit p v =>
    cases p with
    | some o => exact foot_wrapVal (foot_setbit hb hs hE (fun h0 h1 => at_content rfl (bit_nonneg h0) h1)
        (fun h0 h1 => at_changed rfl rfl (bit_nonneg h0) h1) fun _ _ _ => trivial)
    | none =>
      exact foot_wrapVal (foot_bind' ⟨rfl, foot_bind' (foot_setbit hb hs hE (fun h0 h1 => at_content rfl (bit_nonneg h0) h1)
        (fun h0 h1 => at_changed rfl rfl (bit_nonneg h0) h1) fun _ _ _ => foot_seekbit trivial rfl rfl fun _ _ => trivial)⟩)
  | flipBit p =>
    cases p with
    | some o => exact foot_wrapVal (foot_flipbit hb hs hE (fun h0 h1 => at_content rfl (bit_nonneg h0) h1)
        (fun h0 h1 => at_changed rfl rfl (bit_nonneg h0) h1) fun _ => trivial)
    | none =>
      exact foot_wrapVal (foot_bind' ⟨rfl, foot_bind' (foot_flipbit hb hs hE (fun h0 h1 => at_content rfl (bit_nonneg h0) h1)
        (fun h0 h1 => at_changed rfl rfl (bit_nonneg h0) h1) fun _ => foot_seekbit trivial rfl rfl fun _ _ => trivial)⟩)
  | setBits p d n =>
    cases p with
    | some o => exact foot_wrapVal (foot_setbits hb hs hE (fun hn x h1 h2 h3 => in_content (op := .setBits (some o) d n) (if_neg (Int.not_le.mpr hn)) h1 h2 h3) (fun hn x h1 h2 h3 => in_changed (op := .setBits (some o) d n) rfl (if_neg (Int.not_le.mpr hn)) h1 h2 h3) trivial)
    | none =>
      exact foot_wrapVal (foot_bind' ⟨rfl, foot_bind' (foot_setbits hb hs hE (fun hn x h1 h2 h3 => in_content (op := .setBits none d n) (if_neg (Int.not_le.mpr hn)) h1 h2 h3)
        (fun hn x h1 h2 h3 => in_changed (op := .setBits none d n) rfl (if_neg (Int.not_le.mpr hn)) h1 h2 h3) (foot_seekbit trivial rfl rfl fun _ _ => trivial))⟩)
  | clearAll => exact foot_wrapVal (foot_fill hb hE (fun x h => in_changed rfl rfl (Int.natCast_nonneg _) (Int.ofNat_lt.mpr h) h) fun _ => trivial)
  | setAll => exact foot_wrapVal (foot_fill hb hE (fun x h => in_changed rfl rfl (Int.natCast_nonneg _) (Int.ofNat_lt.mpr h) h) fun _ => trivial)
  | flipAll =>
    exact foot_wrapVal (foot_all hb hE (fun x h => in_content rfl (Int.natCast_nonneg _) (Int.ofNat_lt.mpr h) h)
      (fun x h => in_changed rfl rfl (Int.natCast_nonneg _) (Int.ofNat_lt.mpr h) h) fun _ => trivial)
  | seek o r => exact foot_wrapVal (foot_seekbyte trivial rfl rfl fun _ _ => trivial)
  | seekBit o r => exact foot_wrapVal (foot_seekbit trivial rfl rfl fun _ _ => trivial)
  | after o =>
    cases o with
    | nil => exact foot_wrapVal ⟨trivial, rfl, trivial⟩
    | cons a o => exact foot_wrapVal ⟨trivial, trivial⟩
  | afterBit o =>
    cases o with
    | nil => exact foot_wrapVal ⟨trivial, rfl, trivial⟩
    | cons a o => exact foot_wrapVal ⟨trivial, trivial⟩
  | alignByte => exact foot_wrapVal (foot_locked fun _ => ⟨rfl, rfl, rfl, trivial⟩)
  | alignBit => exact foot_wrapVal (foot_locked fun _ => ⟨rfl, rfl, rfl, trivial⟩)
  | refresh => exact foot_wrapVal (foot_locked fun _ => ⟨trivial, rfl, trivial, rfl, rfl, trivial⟩)
  | grow n => exact nomatch hp
  | bytes => exact foot_wrapVal ⟨trivial, trivial⟩
  | capacity => exact foot_wrapVal ⟨trivial, trivial⟩
  | bitCapacity => exact foot_wrapVal ⟨trivial, trivial⟩
  | offset => exact foot_wrapVal ⟨rfl, trivial⟩
  | bitOffset => exact foot_wrapVal ⟨rfl, trivial⟩

end Crunch.V1
