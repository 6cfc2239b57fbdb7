import Verif.Lemmas.V2Foot

/-! Every call of v2 `Buffer` keeps to its footprint. -/

namespace Crunch.V2
open V3 (Buf Val St WF)
open Spec (Endian)

theorem _root_.Crunch.V3.WF.sized {s : St} (h : WF s) : Sized s.b := ⟨h.cap_toInt, h.bcap_toInt, h.len_lt⟩

theorem base_mayRead (b : Buf) (op : Op2) : Base (mayRead b op) := ⟨trivial, trivial, trivial⟩

/-- Nothing is asked of the end. -/
abbrev AnyEnd : Buf → Bool → α → Prop := fun _ _ _ => True
/-- Panics are allowed. -/
abbrev AnyPanic : Bool → Prop := fun _ => True

theorem foot_wrapVal {R W : Loc → Prop} {f : α → Val} {p : Prog α} {b : Buf} {l : Bool} (h : Foot R W AnyPanic AnyEnd b l p) :
    Foot R W AnyPanic AnyEnd b l (wrapVal f p) := foot_bind (h.mono (fun _ h => h) fun _ _ _ _ => trivial)

theorem in_content {b : Buf} {op : Op2} {lo hi : Int} (e : bytesOf b op = (lo, hi)) {x : Nat} (h1 : lo ≤ x) (h2 : x < hi) (h3 : x < b.buf.len) :
    mayRead b op (.byte b.buf.arr (b.buf.off + x)) :=
  .inl ⟨x, by rw [e]; exact h1, by rw [e]; exact h2, h3, rfl⟩

theorem in_changed {b : Buf} {op : Op2} {lo hi : Int} (c : changesBytes op = true) (e : bytesOf b op = (lo, hi)) {x : Nat} (h1 : lo ≤ x) (h2 : x < hi)
    (h3 : x < b.buf.len) : mayWrite b op (.byte b.buf.arr (b.buf.off + x)) :=
  ⟨c, x, by rw [e]; exact h1, by rw [e]; exact h2, h3, rfl⟩

theorem at_content {b : Buf} {op : Op2} {y : Int} (e : bytesOf b op = (y, y + 1)) (h0 : 0 ≤ y) (h3 : y < b.buf.len) :
    mayRead b op (.byte b.buf.arr (b.buf.off + y.toNat)) := in_content e (by omega) (by omega) (by omega)

theorem at_changed {b : Buf} {op : Op2} {y : Int} (c : changesBytes op = true) (e : bytesOf b op = (y, y + 1)) (h0 : 0 ≤ y) (h3 : y < b.buf.len) :
    mayWrite b op (.byte b.buf.arr (b.buf.off + y.toNat)) := in_changed c e (by omega) (by omega) (by omega)

theorem in_source {b : Buf} {op : Op2} {t : Slice} (e : sourceOf op = some t) : SrcIn (mayRead b op) (.mem t) :=
  fun i hi => .inr ⟨t, e, i, hi, rfl⟩

theorem bit_nonneg {o : Int64} (h : 0 ≤ o.toInt) : 0 ≤ o.toInt / 8 := Int.ediv_nonneg h (by decide)

theorem exec_foot {b : Buf} {l : Bool} (hs : Sized b) (op : Op2) (hp : inPlace op = true) :
    Foot (mayRead b op) (mayWrite b op) AnyPanic AnyEnd b l (exec op) := by
  have hb := base_mayRead b op
  have hE : ∀ l, AnyPanic l := fun _ => trivial
  cases op with
  | write k e p d =>
    cases p with
    | some o => exact foot_wrapVal (foot_Write k e hb hs hE (fun x h1 h2 h3 => in_changed rfl rfl h1 h2 h3) fun _ => trivial)
    | none =>
      have main : ∀ {n : Int64}, Foot (mayRead b (.write k e none d)) (mayWrite b (.write k e none d)) AnyPanic AnyEnd b l (do
          let off ← Prog.field .off
          Buffer.Write k e off d
          Buffer.seek n true) := fun {n} => foot_bind' ⟨rfl, foot_bind' (foot_Write k e hb hs hE
            (fun x h1 h2 h3 => in_changed rfl rfl h1 h2 h3) fun _ => foot_seekbyte trivial rfl rfl fun _ _ => trivial)⟩
      refine foot_wrapVal ?_
      cases k <;> cases e <;> exact main
  | read k e p n =>
    cases p with
    | some o => exact foot_wrapVal (foot_Read k e hb hs hE (fun x h1 h2 h3 => in_content rfl h1 h2 h3) fun _ _ => trivial)
    | none =>
      have main : ∀ {m : Int64}, Foot (mayRead b (.read k e none n)) (mayWrite b (.read k e none n)) AnyPanic AnyEnd b l (do
          let off ← Prog.field .off
          let out ← Buffer.Read k e off n
          Buffer.seek m true
          return out) := fun {n} => foot_bind' ⟨rfl, foot_bind' (foot_Read k e hb hs hE
            (fun x h1 h2 h3 => in_content rfl h1 h2 h3) fun _ _ => foot_bind' (foot_seekbyte trivial rfl rfl fun _ _ => trivial))⟩
      refine foot_wrapVal ?_
      cases k <;> cases e <;> exact main
  | writeBytes p src =>
    cases p with
    | some o => exact foot_wrapVal (foot_write hb hs hE (in_source rfl) (fun x h1 h2 h3 => in_changed rfl rfl h1 h2 h3) fun _ => trivial)
    | none => exact foot_wrapVal (foot_bind' ⟨rfl, foot_bind' (foot_write hb hs hE (in_source rfl) (fun x h1 h2 h3 => in_changed rfl rfl h1 h2 h3) fun _ => foot_seekbyte trivial rfl rfl fun _ _ => trivial)⟩)
  | writeByte p v =>
    cases p with
    | some o => exact foot_wrapVal (foot_write hb hs hE trivial (fun x h1 h2 h3 => in_changed rfl rfl h1 h2 h3) fun _ => trivial)
    | none => exact foot_wrapVal (foot_bind' ⟨rfl, foot_bind' (foot_write hb hs hE trivial (fun x h1 h2 h3 => in_changed rfl rfl h1 h2 h3) fun _ => foot_seekbyte trivial rfl rfl fun _ _ => trivial)⟩)
  | readBytes p n =>
    cases p with
    | some o => exact foot_wrapVal (foot_read hb hE fun _ _ _ _ _ _ => trivial)
    | none => exact foot_wrapVal (foot_bind' ⟨rfl, foot_bind' (foot_read hb hE fun _ _ _ _ _ _ => foot_bind' (foot_seekbyte trivial rfl rfl fun _ _ => trivial))⟩)
  | readByte p =>
    cases p with
    | some o => exact foot_wrapVal (foot_ReadByte hb hs hE (fun h0 h1 => at_content rfl h0 h1) fun _ _ => trivial)
    | none => exact foot_wrapVal (foot_bind' ⟨rfl, foot_readLoad hb hs hE (fun h0 h1 => at_content rfl h0 h1) fun _ _ => foot_bind' (foot_seekbyte trivial rfl rfl fun _ _ => trivial)⟩)
  | readBit p =>
    cases p with
    | some o => exact foot_wrapVal (foot_readbit hb hs hE (fun h0 h1 => at_content rfl (bit_nonneg h0) h1) fun _ _ _ _ => trivial)
    | none =>
      exact foot_wrapVal (foot_bind' ⟨rfl, foot_bind' (foot_readbit hb hs hE (fun h0 h1 => at_content rfl (bit_nonneg h0) h1)
        fun _ _ _ _ => foot_bind' (foot_seekbit trivial rfl rfl fun _ _ => trivial))⟩)
  | readBits p n =>
    cases p with
    | some o => exact foot_wrapVal (foot_readbits hb hs hE (fun x h1 h2 h3 => in_content rfl h1 h2 h3) fun _ _ => trivial)
    | none => exact foot_wrapVal (foot_bind' ⟨rfl, foot_bind' (foot_readbits hb hs hE (fun x h1 h2 h3 => in_content rfl h1 h2 h3) fun _ _ => foot_bind' (foot_seekbit trivial rfl rfl fun _ _ => trivial))⟩)
  | setBit p v =>
    cases p with
    | some o => exact foot_wrapVal (foot_setbit hb hs hE (fun h0 h1 => at_content rfl (bit_nonneg h0) h1)
        (fun h0 h1 => at_changed rfl rfl (bit_nonneg h0) h1) fun _ _ _ => trivial)
    | none =>
      exact foot_wrapVal (foot_bind' ⟨rfl, foot_bind' (foot_setbit hb hs hE (fun h0 h1 => at_content rfl (bit_nonneg h0) h1)
        (fun h0 h1 => at_changed rfl rfl (bit_nonneg h0) h1) fun _ _ _ => foot_seekbit trivial rfl rfl fun _ _ => trivial)⟩)
  | flipBit p =>
    cases p with
    | some o => exact foot_wrapVal (foot_flipbit hb hs hE (fun h0 h1 => at_content rfl (bit_nonneg h0) h1)
        (fun h0 h1 => at_changed rfl rfl (bit_nonneg h0) h1) fun _ => trivial)
    | none =>
      exact foot_wrapVal (foot_bind' ⟨rfl, foot_bind' (foot_flipbit hb hs hE (fun h0 h1 => at_content rfl (bit_nonneg h0) h1)
        (fun h0 h1 => at_changed rfl rfl (bit_nonneg h0) h1) fun _ => foot_seekbit trivial rfl rfl fun _ _ => trivial)⟩)
  | setBits p d n =>
    cases p with
    | some o => exact foot_wrapVal (foot_setbits hb hs hE (fun x h1 h2 h3 => in_content rfl h1 h2 h3) (fun x h1 h2 h3 => in_changed rfl rfl h1 h2 h3) fun _ => trivial)
    | none =>
      exact foot_wrapVal (foot_bind' ⟨rfl, foot_bind' (foot_setbits hb hs hE (fun x h1 h2 h3 => in_content rfl h1 h2 h3)
        (fun x h1 h2 h3 => in_changed rfl rfl h1 h2 h3) fun _ => foot_seekbit trivial rfl rfl fun _ _ => trivial)⟩)
  | clearAll => exact foot_wrapVal (foot_fill hb hE (fun x h => in_changed rfl rfl (Int.natCast_nonneg _) (Int.ofNat_lt.mpr h) h) fun _ => trivial)
  | setAll => exact foot_wrapVal (foot_fill hb hE (fun x h => in_changed rfl rfl (Int.natCast_nonneg _) (Int.ofNat_lt.mpr h) h) fun _ => trivial)
  | flipAll =>
    exact foot_wrapVal (foot_all hb hE (fun x h => in_content rfl (Int.natCast_nonneg _) (Int.ofNat_lt.mpr h) h)
      (fun x h => in_changed rfl rfl (Int.natCast_nonneg _) (Int.ofNat_lt.mpr h) h) fun _ => trivial)
  | seek o r => exact foot_wrapVal (foot_seekbyte trivial rfl rfl fun _ _ => trivial)
  | seekBit o r => exact foot_wrapVal (foot_seekbit trivial rfl rfl fun _ _ => trivial)
  | after o =>
    cases o with
    | nil => exact foot_wrapVal ⟨trivial, rfl, trivial⟩
    | cons a o => exact foot_wrapVal ⟨trivial, trivial⟩
  | afterBit o =>
    cases o with
    | nil => exact foot_wrapVal ⟨trivial, rfl, trivial⟩
    | cons a o => exact foot_wrapVal ⟨trivial, trivial⟩
  | alignByte => exact foot_wrapVal (foot_locked fun _ => ⟨rfl, rfl, rfl, trivial⟩)
  | alignBit => exact foot_wrapVal (foot_locked fun _ => ⟨rfl, rfl, rfl, trivial⟩)
  | refresh => exact foot_wrapVal (foot_locked fun _ => ⟨trivial, rfl, trivial, rfl, rfl, trivial⟩)
  | grow n => exact nomatch hp
  | bytes => exact foot_wrapVal ⟨trivial, trivial⟩
  | capacity => exact foot_wrapVal ⟨trivial, trivial⟩
  | bitCapacity => exact foot_wrapVal ⟨trivial, trivial⟩
  | offset => exact foot_wrapVal ⟨rfl, trivial⟩
  | bitOffset => exact foot_wrapVal ⟨rfl, trivial⟩
  | reset => exact nomatch hp

end Crunch.V2
