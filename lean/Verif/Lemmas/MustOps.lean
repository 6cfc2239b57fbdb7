import Verif.Lemmas.Must
import Verif.Lemmas.V2Step
import Verif.Footprints
import Verif.Guards

/-! What the calls of v2 `Buffer` that succeed must change, and what they must read without the mutex. -/

namespace Crunch

theorem Must.map {G : V3.Buf → Prop} {l : Loc} {p : Prog α} (h : Must G l p) (f : α → V3.Val) : Must G l (V2.wrapVal f p) := h.left _
theorem Peeks.map {G : V3.Buf → Prop} {l : Loc} {m : Bool} {p : Prog α} (h : Peeks G l m p) (f : α → V3.Val) : Peeks G l m (V2.wrapVal f p) := h.left _

theorem Must.write_shape {G : V3.Buf → Prop} {l : Loc} (c : Int64 → Prop) [DecidablePred c] {o : Int64} {q q' : Panic}
    {body : Int64 → Unit → Prog Unit} {n : Int64} (hs : ∀ i a, Stay G (body i a))
    (h : 0 ≤ o.toInt → ∃ j : Int64, ((0 : Int64).toInt ≤ j.toInt ∧ j.toInt < n.toInt) ∧ ∀ a, Must G l (body j a)) :
    Must G l ((Prog.field .cap).bind fun cap => (Prog.panicIf (c cap) q).bind fun _ =>
        (Prog.panicIf (o < 0) q').bind fun _ => Prog.Lock.bind fun _ => (Prog.doLoop body n 0 ()).bind fun _ => Prog.Unlock) :=
  Must.field fun _ _ => Must.panicIf fun _ => Must.panicIf fun h0 => by
    have ho : 0 ≤ o.toInt := by rw [Int64.lt_iff_toInt_lt] at h0; exact Int.not_lt.mp h0
    obtain ⟨j, hj, hb⟩ := h ho
    exact Must.right (p := Prog.Lock) trivial fun _ => (Must.doLoop hs hb (.inr hj) ()).left _

theorem toInt_at {o j : Int64} {x : Nat} (hx : x < 2 ^ 60) (h : j.toInt = x - o.toInt) : (o + j).toInt = x := by
  rw [Int64.toInt_add, h]
  unfold Int.bmod
  simp only [Nat.reducePow]
  omega

namespace V2
open Spec
open V3 (Buf Val St WF)

/-! ## fields and header -/

section
variable {l : Loc}

/-- The fields are arbitrary. -/
abbrev AnyBuf : Buf → Prop := fun _ => True

theorem must_seek (off : Int64) (r : Bool) : Must AnyBuf (.field .off) (Buffer.seek off r) := by
  cases r
  · exact .inl rfl
  · exact fun _ _ => .inl rfl
theorem must_seekbit (off : Int64) (r : Bool) : Must AnyBuf (.field .boff) (Buffer.seekbit off r) := by
  cases r
  · exact .inl rfl
  · exact fun _ _ => .inl rfl
theorem must_refresh : Must AnyBuf (.field .cap) Buffer.refresh ∧ Must AnyBuf (.field .bcap) Buffer.refresh :=
  ⟨fun _ _ => .inl rfl, fun _ _ => .inr ⟨fun _ _ => trivial, fun _ _ => .inl rfl⟩⟩
theorem must_grow (n : Int64) : Must AnyBuf (.field .cap) (Buffer.grow n) ∧ Must AnyBuf (.field .bcap) (Buffer.grow n) ∧ Must AnyBuf .header (Buffer.grow n) := by
  refine ⟨?_, ?_, ?_⟩
  · exact Must.right (Stay.any _) fun _ => Must.right (Stay.any _) fun _ => Must.right (Stay.any _) fun _ => Must.right (Stay.any _) fun _ => Must.right (Stay.any _) fun _ =>
      Must.right (Stay.any _) fun _ => must_refresh.1
  · exact Must.right (Stay.any _) fun _ => Must.right (Stay.any _) fun _ => Must.right (Stay.any _) fun _ => Must.right (Stay.any _) fun _ => Must.right (Stay.any _) fun _ =>
      Must.right (Stay.any _) fun _ => must_refresh.2
  · exact Must.right (Stay.any _) fun _ => Must.right (Stay.any _) fun _ => Must.right (Stay.any _) fun _ => Must.right (Stay.any _) fun _ => Must.left (p := Prog.assignBuf _) (.inl rfl) _

theorem must_next {f : Int64 → Prog α} {n : Int64} {g : α → Prog β} : Must AnyBuf (.field .off) ((Prog.field .off).bind fun o => (f o).bind fun a => (Buffer.seek n true).bind fun _ => g a) :=
  Must.right (Stay.any _) fun _ => Must.right (Stay.any _) fun _ => (must_seek _ _).left _
theorem must_next0 {f : Int64 → Prog α} {n : Int64} : Must AnyBuf (.field .off) ((Prog.field .off).bind fun o => (f o).bind fun _ => Buffer.seek n true) :=
  Must.right (Stay.any _) fun _ => Must.right (Stay.any _) fun _ => must_seek _ _
theorem must_bitNext {f : Int64 → Prog α} {n : Int64} {g : α → Prog β} : Must AnyBuf (.field .boff) ((Prog.field .boff).bind fun o => (f o).bind fun a => (Buffer.seekbit n true).bind fun _ => g a) :=
  Must.right (Stay.any _) fun _ => Must.right (Stay.any _) fun _ => (must_seekbit _ _).left _
theorem must_bitNext0 {f : Int64 → Prog α} {n : Int64} : Must AnyBuf (.field .boff) ((Prog.field .boff).bind fun o => (f o).bind fun _ => Buffer.seekbit n true) :=
  Must.right (Stay.any _) fun _ => Must.right (Stay.any _) fun _ => must_seekbit _ _

/-- The place of a part that is a single place. -/
def _root_.Crunch.Part.place : Part → Loc
  | .field f => .field f
  | _ => .header

theorem exec_must (op : Op2) {k : Part} (hk : k ≠ .bytes) (h : alters op k = true) : Must AnyBuf k.place (exec op) := by
  rcases k with (_ | _ | _ | _) | _ | _
  case bytes => exact absurd rfl hk
  case field.off =>
    cases op with
    | write k e p d =>
      cases p
      · refine Must.map ?_ _
        cases k <;> cases e <;> exact must_next0
      · exact nomatch h
    | read k e p n =>
      cases p
      · refine Must.map ?_ _
        cases k <;> cases e <;> exact must_next
      · exact nomatch h
    | writeBytes p s | writeByte p v => cases p <;> first | exact Must.map must_next0 _ | exact nomatch h
    | readBytes p s => cases p <;> first | exact Must.map must_next _ | exact nomatch h
    | readByte p =>
      cases p
      · exact Must.map (Must.right (Stay.any _) fun _ => Must.right (Stay.any _) fun _ => Must.right (Stay.any _) fun _ => (must_seek _ _).left _) _
      · exact nomatch h
    | seek o r => exact Must.map (must_seek o r) _
    | alignByte => exact Must.map (p := Buffer.alignbyte) (fun _ _ => .inl rfl) _
    | reset => exact Must.map (p := Buffer.reset) (fun _ => .inr ⟨fun _ _ => trivial, .inl rfl⟩) _
    | _ => exact nomatch h
  case field.boff =>
    cases op with
    | setBit p _ | flipBit p | setBits p _ _ => cases p <;> first | exact Must.map must_bitNext0 _ | exact nomatch h
    | readBit p | readBits p _ => cases p <;> first | exact Must.map must_bitNext _ | exact nomatch h
    | seekBit o r => exact Must.map (must_seekbit o r) _
    | alignBit => exact Must.map (p := Buffer.alignbit) (fun _ _ => .inl rfl) _
    | reset => exact Must.map (p := Buffer.reset) (fun _ => .inr ⟨fun _ _ => trivial, .inr ⟨fun _ _ => trivial, .inl rfl⟩⟩) _
    | _ => exact nomatch h
  case field.cap =>
    cases op with
    | grow n => exact Must.map (must_grow n).1 _
    | refresh => exact Must.map must_refresh.1 _
    | reset => exact Must.map (p := Buffer.reset) (fun _ => .inr ⟨fun _ _ => trivial, .inr ⟨fun _ _ => trivial, .inr ⟨fun _ _ => trivial, .inl rfl⟩⟩⟩) _
    | _ => exact nomatch h
  case field.bcap =>
    cases op with
    | grow n => exact Must.map (must_grow n).2.1 _
    | refresh => exact Must.map must_refresh.2 _
    | reset =>
      exact Must.map (p := Buffer.reset) (fun _ => .inr ⟨fun _ _ => trivial, .inr ⟨fun _ _ => trivial, .inr ⟨fun _ _ => trivial, .inr ⟨fun _ _ => trivial, .inl rfl⟩⟩⟩⟩) _
    | _ => exact nomatch h
  case header =>
    cases op with
    | grow n => exact Must.map (must_grow n).2.2 _
    | reset => exact Must.map (p := Buffer.reset) (fun _ => .inl rfl) _
    | _ => exact nomatch h

theorem peek_write (k : UKind) (e : Endian) (o : Int64) (d : List k.kind.Ty) : Peeks AnyBuf (.field .cap) false (Buffer.Write k e o d) := by
  cases k <;> cases e <;> exact Peeks.field
theorem peek_read (k : UKind) (e : Endian) (o n : Int64) : Peeks AnyBuf (.field .cap) false (Buffer.Read k e o n) := by
  cases k <;> cases e <;> exact Peeks.field
theorem peek_writeNext (k : UKind) (e : Endian) (d : List k.kind.Ty) :
    Peeks AnyBuf (.field .cap) false (Buffer.WriteNext k e d) ∧ Peeks AnyBuf (.field .off) false (Buffer.WriteNext k e d) := by
  cases k <;> cases e <;> exact ⟨Peeks.next fun _ _ => Peeks.field, Peeks.field⟩
theorem peek_readNext (k : UKind) (e : Endian) (n : Int64) :
    Peeks AnyBuf (.field .cap) false (Buffer.ReadNext k e n) ∧ Peeks AnyBuf (.field .off) false (Buffer.ReadNext k e n) := by
  cases k <;> cases e <;> exact ⟨Peeks.next fun _ _ => Peeks.field, Peeks.field⟩
theorem peek_readbits (o n : Int64) : Peeks AnyBuf (.field .bcap) false (Buffer.readbits o n) := Peeks.doLoop (Peeks.field)
theorem peek_setbits (o : Int64) (d : UInt64) (n : Int64) : Peeks AnyBuf (.field .bcap) false (Buffer.setbits o d n) := Peeks.doLoop Peeks.field

theorem exec_peeks (op : Op2) {k : Part} (hk : k ≠ .bytes) (h : unguarded op k = true) : Peeks AnyBuf k.place false (exec op) := by
  rcases k with (_ | _ | _ | _) | _ | _
  case bytes => exact absurd rfl hk
  case field.cap =>
    cases op with
    | write k e p d =>
      cases p
      · exact Peeks.map (peek_writeNext k e d).1 _
      · exact Peeks.map (peek_write k e _ d) _
    | read k e p n =>
      cases p
      · exact Peeks.map (peek_readNext k e n).1 _
      · exact Peeks.map (peek_read k e _ n) _
    | writeBytes p s | writeByte p v | readBytes p n =>
      cases p
      · exact Peeks.map (Peeks.next fun _ _ => Peeks.field) _
      · exact Peeks.map (Peeks.field) _
    | readByte p =>
      cases p
      · exact Peeks.map (Peeks.next fun _ _ => Peeks.field) _
      · exact Peeks.map (Peeks.field) _
    | after o => cases o <;> exact Peeks.map Peeks.field _
    | capacity => exact Peeks.map (Peeks.field (k := .ret)) _
    | _ => exact nomatch h
  case field.bcap =>
    cases op with
    | readBit p | flipBit p =>
      cases p
      · exact Peeks.map (Peeks.next fun _ _ => Peeks.field) _
      · exact Peeks.map (Peeks.field) _
    | setBit p v =>
      cases p
      · exact Peeks.map (Peeks.next fun _ _ => Peeks.field) _
      · exact Peeks.map (Peeks.field) _
    | readBits p n =>
      cases p
      · exact Peeks.map (Peeks.next fun _ _ => (peek_readbits _ _).left _) _
      · exact Peeks.map (peek_readbits _ _) _
    | setBits p d n =>
      cases p
      · exact Peeks.map (Peeks.next fun _ _ => (peek_setbits _ _ _).left _) _
      · exact Peeks.map (peek_setbits _ _ _) _
    | afterBit o => cases o <;> exact Peeks.map Peeks.field _
    | bitCapacity => exact Peeks.map (Peeks.field (k := .ret)) _
    | _ => exact nomatch h
  case field.off =>
    cases op with
    | write k e p d => cases p <;> first | exact Peeks.map (peek_writeNext k e d).2 _ | exact nomatch h
    | read k e p n => cases p <;> first | exact Peeks.map (peek_readNext k e n).2 _ | exact nomatch h
    | writeBytes p s | writeByte p v | readBytes p n => cases p <;> first | exact Peeks.map (Peeks.field) _ | exact nomatch h
    | readByte p => cases p <;> first | exact Peeks.map (Peeks.field) _ | exact nomatch h
    | after o => cases o <;> first | exact Peeks.map (Peeks.next fun _ _ => Peeks.field) _ | exact nomatch h
    | offset => exact Peeks.map (Peeks.field (k := .ret)) _
    | _ => exact nomatch h
  case field.boff =>
    cases op with
    | readBit p | flipBit p => cases p <;> first | exact Peeks.map (Peeks.field) _ | exact nomatch h
    | setBit p _ | readBits p _ => cases p <;> first | exact Peeks.map (Peeks.field) _ | exact nomatch h
    | setBits p d n => cases p <;> first | exact Peeks.map (Peeks.field) _ | exact nomatch h
    | afterBit o => cases o <;> first | exact Peeks.map (Peeks.next fun _ _ => Peeks.field) _ | exact nomatch h
    | bitOffset => exact Peeks.map (Peeks.field (k := .ret)) _
    | _ => exact nomatch h
  case header =>
    cases op with
    | bytes => exact Peeks.map (p := Prog.buf) (.inl ⟨rfl, rfl⟩) _
    | _ => exact nomatch h

end

/-! ## bytes -/

section
variable {b : Buf} {x : Nat}

theorem at_elem {o i : Int64} (r w : Int64) (hx : x < 2 ^ 60) (ho : 0 ≤ o.toInt) (hi : 0 ≤ i.toInt) (hr : 0 ≤ r.toInt) (hw : 0 ≤ w.toInt)
    (h : r.toInt + i.toInt * w.toInt = x - o.toInt) : (o + (r + i * w)).toInt = x := by
  have hm := Int.mul_nonneg hi hw
  refine toInt_at hx ?_
  have e : (i * w).toInt = i.toInt * w.toInt := by
    rw [Int64.toInt_mul]
    generalize i.toInt * w.toInt = y at h hm ⊢
    unfold Int.bmod; simp only [Nat.reducePow]; omega
  rw [Int64.toInt_add, e]
  generalize i.toInt * w.toInt = y at h hm ⊢
  unfold Int.bmod; simp only [Nat.reducePow]; omega

theorem at_elem0 {o i : Int64} (w : Int64) (hx : x < 2 ^ 60) (ho : 0 ≤ o.toInt) (hi : 0 ≤ i.toInt) (hw : 0 ≤ w.toInt)
    (h : 0 + i.toInt * w.toInt = x - o.toInt) : (o + i * w).toInt = x := by
  have := at_elem 0 w hx ho hi (by decide) hw h
  rwa [Int64.zero_add] at this

theorem index_of {n : Nat} (hn : n < 2 ^ 63) {y : Int} (h0 : 0 ≤ y) (h1 : y < n) : ∃ j : Int64, j.toInt = y ∧ ((0 : Int64).toInt ≤ j.toInt ∧ j.toInt < (Int64.ofNat n).toInt) := by
  have e : (Int64.ofInt y).toInt = y := by
    rw [Int64.toInt_ofInt]
    unfold Int.bmod; simp only [Int64.size, Nat.reducePow]; omega
  refine ⟨Int64.ofInt y, e, ?_, ?_⟩
  · rw [e]; exact h0
  · rw [e, toInt_ofNat hn]; exact h1

macro "elem_must" h:ident hx:ident ho:ident hj:ident : tactic => `(tactic| (
  intro a
  repeat (first
    | (with_reducible refine Must.left' (Must.bufStore (at_elem0 _ $hx $ho $hj ?_ ?_)) _) <;> first | exact $h | decide
    | (with_reducible refine Must.left' (Must.bufStore (at_elem _ _ $hx $ho $hj ?_ ?_ ?_)) _) <;> first | exact $h | decide
    | (with_reducible refine Must.bufStore (at_elem _ _ $hx $ho $hj ?_ ?_ ?_)) <;> first | exact $h | decide
    | with_reducible refine Must.right' (Stay.idx _ _) fun _ => ?_
    | with_reducible refine Must.right' (Stay.bufStore _ _) fun _ => ?_)))

macro "elem_stay" : tactic => `(tactic| (
  intro i a
  repeat' (first
    | with_reducible exact Stay.idx _ _
    | with_reducible exact Stay.bufStore _ _
    | with_reducible refine Stay.bind' ?_ fun _ => ?_)))

theorem must_writeU16LE {d : List UInt16} {o : Int64} (hd : d.length < 2 ^ 63) (hx : x < 2 ^ 60) (h1 : o.toInt ≤ x) (h2 : x < o.toInt + d.length * 2) :
    Must (· = b) (.byte b.buf.arr (b.buf.off + x)) (Buffer.writeU16LE o d) := by
  obtain ⟨j, hj, hb⟩ := index_of (n := d.length) (y := (x - o.toInt) / 2) hd (by omega) (by omega)
  have hj0 : 0 ≤ j.toInt := hb.1
  refine Must.write_shape (fun cap => o + len d * 2 > cap) (by elem_stay) fun ho => ⟨j, hb, ?_⟩
  rcases (by omega : 0 + j.toInt * 2 = (x : Int) - o.toInt ∨ 1 + j.toInt * 2 = (x : Int) - o.toInt) with h | h
  · elem_must h hx ho hj0
  · elem_must h hx ho hj0

theorem must_writeU16BE {d : List UInt16} {o : Int64} (hd : d.length < 2 ^ 63) (hx : x < 2 ^ 60) (h1 : o.toInt ≤ x) (h2 : x < o.toInt + d.length * 2) :
    Must (· = b) (.byte b.buf.arr (b.buf.off + x)) (Buffer.writeU16BE o d) := by
  obtain ⟨j, hj, hb⟩ := index_of (n := d.length) (y := (x - o.toInt) / 2) hd (by omega) (by omega)
  have hj0 : 0 ≤ j.toInt := hb.1
  refine Must.write_shape (fun cap => o + len d * 2 > cap) (by elem_stay) fun ho => ⟨j, hb, ?_⟩
  rcases (by omega : 0 + j.toInt * 2 = (x : Int) - o.toInt ∨ 1 + j.toInt * 2 = (x : Int) - o.toInt) with h | h
  · elem_must h hx ho hj0
  · elem_must h hx ho hj0

theorem must_writeU32LE {d : List UInt32} {o : Int64} (hd : d.length < 2 ^ 63) (hx : x < 2 ^ 60) (h1 : o.toInt ≤ x) (h2 : x < o.toInt + d.length * 4) :
    Must (· = b) (.byte b.buf.arr (b.buf.off + x)) (Buffer.writeU32LE o d) := by
  obtain ⟨j, hj, hb⟩ := index_of (n := d.length) (y := (x - o.toInt) / 4) hd (by omega) (by omega)
  have hj0 : 0 ≤ j.toInt := hb.1
  refine Must.write_shape (fun cap => o + len d * 4 > cap) (by elem_stay) fun ho => ⟨j, hb, ?_⟩
  rcases (by omega : 0 + j.toInt * 4 = (x : Int) - o.toInt ∨ 1 + j.toInt * 4 = (x : Int) - o.toInt ∨ 2 + j.toInt * 4 = (x : Int) - o.toInt ∨ 3 + j.toInt * 4 = (x : Int) - o.toInt) with h | h | h | h
  · elem_must h hx ho hj0
  · elem_must h hx ho hj0
  · elem_must h hx ho hj0
  · elem_must h hx ho hj0

theorem must_writeU32BE {d : List UInt32} {o : Int64} (hd : d.length < 2 ^ 63) (hx : x < 2 ^ 60) (h1 : o.toInt ≤ x) (h2 : x < o.toInt + d.length * 4) :
    Must (· = b) (.byte b.buf.arr (b.buf.off + x)) (Buffer.writeU32BE o d) := by
  obtain ⟨j, hj, hb⟩ := index_of (n := d.length) (y := (x - o.toInt) / 4) hd (by omega) (by omega)
  have hj0 : 0 ≤ j.toInt := hb.1
  refine Must.write_shape (fun cap => o + len d * 4 > cap) (by elem_stay) fun ho => ⟨j, hb, ?_⟩
  rcases (by omega : 0 + j.toInt * 4 = (x : Int) - o.toInt ∨ 1 + j.toInt * 4 = (x : Int) - o.toInt ∨ 2 + j.toInt * 4 = (x : Int) - o.toInt ∨ 3 + j.toInt * 4 = (x : Int) - o.toInt) with h | h | h | h
  · elem_must h hx ho hj0
  · elem_must h hx ho hj0
  · elem_must h hx ho hj0
  · elem_must h hx ho hj0

theorem must_writeU64LE {d : List UInt64} {o : Int64} (hd : d.length < 2 ^ 63) (hx : x < 2 ^ 60) (h1 : o.toInt ≤ x) (h2 : x < o.toInt + d.length * 8) :
    Must (· = b) (.byte b.buf.arr (b.buf.off + x)) (Buffer.writeU64LE o d) := by
  obtain ⟨j, hj, hb⟩ := index_of (n := d.length) (y := (x - o.toInt) / 8) hd (by omega) (by omega)
  have hj0 : 0 ≤ j.toInt := hb.1
  refine Must.write_shape (fun cap => o + len d * 8 > cap) (by elem_stay) fun ho => ⟨j, hb, ?_⟩
  rcases (by omega : 0 + j.toInt * 8 = (x : Int) - o.toInt ∨ 1 + j.toInt * 8 = (x : Int) - o.toInt ∨ 2 + j.toInt * 8 = (x : Int) - o.toInt ∨ 3 + j.toInt * 8 = (x : Int) - o.toInt ∨ 4 + j.toInt * 8 = (x : Int) - o.toInt ∨ 5 + j.toInt * 8 = (x : Int) - o.toInt ∨ 6 + j.toInt * 8 = (x : Int) - o.toInt ∨ 7 + j.toInt * 8 = (x : Int) - o.toInt) with h | h | h | h | h | h | h | h
  · elem_must h hx ho hj0
  · elem_must h hx ho hj0
  · elem_must h hx ho hj0
  · elem_must h hx ho hj0
  · elem_must h hx ho hj0
  · elem_must h hx ho hj0
  · elem_must h hx ho hj0
  · elem_must h hx ho hj0

theorem must_writeU64BE {d : List UInt64} {o : Int64} (hd : d.length < 2 ^ 63) (hx : x < 2 ^ 60) (h1 : o.toInt ≤ x) (h2 : x < o.toInt + d.length * 8) :
    Must (· = b) (.byte b.buf.arr (b.buf.off + x)) (Buffer.writeU64BE o d) := by
  obtain ⟨j, hj, hb⟩ := index_of (n := d.length) (y := (x - o.toInt) / 8) hd (by omega) (by omega)
  have hj0 : 0 ≤ j.toInt := hb.1
  refine Must.write_shape (fun cap => o + len d * 8 > cap) (by elem_stay) fun ho => ⟨j, hb, ?_⟩
  rcases (by omega : 0 + j.toInt * 8 = (x : Int) - o.toInt ∨ 1 + j.toInt * 8 = (x : Int) - o.toInt ∨ 2 + j.toInt * 8 = (x : Int) - o.toInt ∨ 3 + j.toInt * 8 = (x : Int) - o.toInt ∨ 4 + j.toInt * 8 = (x : Int) - o.toInt ∨ 5 + j.toInt * 8 = (x : Int) - o.toInt ∨ 6 + j.toInt * 8 = (x : Int) - o.toInt ∨ 7 + j.toInt * 8 = (x : Int) - o.toInt) with h | h | h | h | h | h | h | h
  · elem_must h hx ho hj0
  · elem_must h hx ho hj0
  · elem_must h hx ho hj0
  · elem_must h hx ho hj0
  · elem_must h hx ho hj0
  · elem_must h hx ho hj0
  · elem_must h hx ho hj0
  · elem_must h hx ho hj0

theorem must_Write (k : UKind) (e : Endian) {o : Int64} {d : List k.kind.Ty} (hd : d.length < 2 ^ 63) (hx : x < 2 ^ 60) (h1 : o.toInt ≤ x)
    (h2 : x < o.toInt + d.length * k.kind.size) : Must (· = b) (.byte b.buf.arr (b.buf.off + x)) (Buffer.Write k e o d) := by
  cases k <;> cases e
  · exact must_writeU16LE hd hx h1 h2
  · exact must_writeU16BE hd hx h1 h2
  · exact must_writeU32LE hd hx h1 h2
  · exact must_writeU32BE hd hx h1 h2
  · exact must_writeU64LE hd hx h1 h2
  · exact must_writeU64BE hd hx h1 h2

theorem must_write {d : Src} {o : Int64} (hd : d.len < 2 ^ 63) (hx : x < 2 ^ 60) (h1 : o.toInt ≤ x) (h2 : x < o.toInt + d.len) :
    Must (· = b) (.byte b.buf.arr (b.buf.off + x)) (Buffer.write o d) := by
  obtain ⟨j, hj, hb⟩ := index_of (n := d.len) (y := x - o.toInt) hd (by omega) (by omega)
  exact Must.write_shape (fun cap => o + Int64.ofNat d.len > cap) (fun _ _ => (Stay.srcAt _ _).bind fun _ => Stay.bufStore _ _)
    fun _ => ⟨j, hb, fun _ => Must.right' (Stay.srcAt _ _) fun _ => Must.bufStore (toInt_at hx hj)⟩

theorem toInt_div8 {o : Int64} : (o / 8).toInt = o.toInt.tdiv 8 := by
  rw [Int64.toInt_div_of_ne_right _ _ (by decide)]; rfl

theorem byte_of_bit {o : Int64} (h : 0 ≤ o.toInt) (hx : o.toInt / 8 = x) : (o / 8).toInt = x := by
  rw [toInt_div8, Int.tdiv_eq_ediv_of_nonneg h, hx]

theorem Must.bit_shape {G : V3.Buf → Prop} {l : Loc} (c : Int64 → Prop) [DecidablePred c] {o : Int64} {q q' : Panic} {body : Prog α} (h : 0 ≤ o.toInt → Must G l body) :
    Must G l ((Prog.field .bcap).bind fun bcap => (Prog.panicIf (c bcap) q).bind fun _ => (Prog.panicIf (o < 0) q').bind fun _ => Prog.locked body) :=
  Must.field fun _ _ => Must.panicIf fun _ => Must.panicIf fun h0 => Must.locked (h (by rw [Int64.lt_iff_toInt_lt] at h0; exact Int.not_lt.mp h0))

theorem must_flipbit {o : Int64} (hx : o.toInt / 8 = x) : Must (· = b) (.byte b.buf.arr (b.buf.off + x)) (Buffer.flipbit o) :=
  Must.bit_shape (fun bcap => o > bcap - 1) fun ho => Must.right' (Stay.bufLoad _) fun _ => Must.bufStore (byte_of_bit ho hx)

theorem must_setbit {o : Int64} {v : UInt8} (hx : o.toInt / 8 = x) : Must (· = b) (.byte b.buf.arr (b.buf.off + x)) (Buffer.setbit o v) :=
  Must.bit_shape (fun bcap => o > bcap - 1) fun ho => by
    split
    · exact Must.right' (Stay.bufLoad _) fun _ => Must.bufStore (byte_of_bit ho hx)
    · split
      · exact Must.right' (Stay.bufLoad _) fun _ => Must.bufStore (byte_of_bit ho hx)
      · trivial

theorem Stay.guard {G : V3.Buf → Prop} {f : Field} (c : Int64 → Prop) [DecidablePred c] (d : Prop) [Decidable d] {q q' : Panic} {body : Prog α} (h : Stay G body) :
    Stay G ((Prog.field f).bind fun v => (Prog.panicIf (c v) q).bind fun _ => (Prog.panicIf d q').bind fun _ => Prog.locked body) :=
  Stay.bind (p := Prog.field f) (fun _ => trivial) fun _ => (Stay.panicIf _ _).bind fun _ => (Stay.panicIf _ _).bind fun _ => Stay.deferUnlock h

theorem stay_setbit {G : V3.Buf → Prop} {o : Int64} {v : UInt8} : Stay G (Buffer.setbit o v) := by
  refine Stay.guard (fun bcap => o > bcap - 1) _ ?_
  split
  · exact (Stay.bufLoad _).bind fun _ => Stay.bufStore _ _
  · split
    · exact (Stay.bufLoad _).bind fun _ => Stay.bufStore _ _
    · trivial

theorem must_setbits {o n : Int64} {v : UInt64} (hx : x < 2 ^ 50) (h1 : o.toInt / 8 ≤ x) (h2 : x < (o.toInt + max 1 n.toInt - 1) / 8 + 1) :
    Must (· = b) (.byte b.buf.arr (b.buf.off + x)) (Buffer.setbits o v n) := by
  have hlo := o.le_toInt
  have hn := n.toInt_lt
  obtain ⟨y, hy1, hy2, hy3, hy4⟩ : ∃ y : Nat, o.toInt ≤ y ∧ (y : Int) / 8 = x ∧ y < 2 ^ 60 ∧ (y : Int) < o.toInt + max 1 n.toInt := by
    by_cases h : o.toInt ≤ 8 * x
    · exact ⟨8 * x, by omega, by omega, by omega, by omega⟩
    · exact ⟨o.toInt.toNat, by omega, by omega, by omega, by omega⟩
  by_cases h0 : 0 ≤ o.toInt
  · by_cases hz : (y : Int) = o.toInt
    · refine Must.doLoop (j := 0) (fun _ _ => stay_setbit) (fun _ => must_setbit ?_) (.inl rfl) ()
      rw [Int64.add_zero, ← hz]; exact hy2
    · obtain ⟨j, hj, hb⟩ := index_of (n := n.toInt.toNat) (y := y - o.toInt) (by omega) (by omega) (by omega)
      refine Must.doLoop (j := j) (fun _ _ => stay_setbit) (fun _ => must_setbit ?_) (.inr ⟨hb.1, by omega⟩) ()
      rw [toInt_at hy3 hj]; exact hy2
  · unfold Buffer.setbits
    rw [Prog.doLoop]
    refine Must.left (Must.bit_shape (fun bcap => o + 0 > bcap - 1) fun ho => ?_) _
    rw [Int64.add_zero] at ho
    exact absurd ho h0

theorem must_all {f : Int64 → Prog Unit} (hs : ∀ G i, Stay G (f i)) (hf : ∀ i : Int64, i.toInt = x → Must (· = b) (.byte b.buf.arr (b.buf.off + x)) (f i)) (hl : b.buf.len < 2 ^ 63) (h : x < b.buf.len) :
    Must (· = b) (.byte b.buf.arr (b.buf.off + x)) (Prog.locked do
      let s ← Prog.buf
      Prog.doLoop (fun i _ => f i) (Int64.ofNat s.len) 0 ()) := by
  refine Must.locked ?_
  rintro _ rfl
  obtain ⟨j, hj, hb⟩ := index_of (y := x) hl (by omega) (by omega)
  exact Must.doLoop (body := fun i _ => f i) (fun _ _ => hs _ _) (fun _ => hf j hj) (.inr hb) ()

theorem exec_must_byte (hl : b.buf.len < 2 ^ 50) {m : Heap} {op : Op2} (hv : op.Valid m) (hc : changesBytes op = true) (h1 : (bytesOf b op).1 ≤ x) (h2 : x < (bytesOf b op).2)
    (h3 : x < b.buf.len) : Must (· = b) (.byte b.buf.arr (b.buf.off + x)) (exec op) := by
  have hx : x < 2 ^ 60 := by omega
  cases op with
  | write k e p d =>
    have hd : d.length < 2 ^ 63 := by
      have := hv
      simp only [Op2.Valid] at this
      have : d.length * 1 ≤ d.length * k.kind.size := Nat.mul_le_mul_left _ (by cases k <;> decide)
      have : maxAlloc < 2 ^ 63 := by decide
      omega
    cases p with
    | some o => exact Must.map (must_Write k e hd hx h1 h2) _
    | none =>
      have main : ∀ {n : Int64}, Must (· = b) (.byte b.buf.arr (b.buf.off + x)) (do
          let off ← Prog.field .off
          Buffer.Write k e off d
          Buffer.seek n true) := fun {n} => by
        rintro _ rfl
        exact (must_Write k e hd hx h1 h2).left _
      refine Must.map ?_ _
      cases k <;> cases e <;> exact main
  | writeBytes p src =>
    have hd : src.len < 2 ^ 63 := by
      have := SliceOK.len_le_max (show SliceOK m src from hv)
      have : maxAlloc < 2 ^ 63 := by decide
      omega
    cases p with
    | some o => exact Must.map (must_write (d := .mem src) hd hx h1 h2) _
    | none => exact Must.map (Must.field (by rintro _ rfl; exact (must_write (d := .mem src) hd hx h1 h2).left _)) _
  | writeByte p v =>
    cases p with
    | some o => exact Must.map (must_write (d := .lit [v]) (show 1 < 2 ^ 63 by decide) hx h1 h2) _
    | none => exact Must.map (Must.field (by rintro _ rfl; exact (must_write (d := .lit [v]) (show 1 < 2 ^ 63 by decide) hx h1 h2).left _)) _
  | setBit p v =>
    have e : bitAt b p / 8 = x := by
      change bitAt b p / 8 ≤ x at h1; change x < bitAt b p / 8 + 1 at h2; omega
    cases p with
    | some o => exact Must.map (must_setbit e) _
    | none => exact Must.map (Must.field (by rintro _ rfl; exact (must_setbit e).left _)) _
  | flipBit p =>
    have e : bitAt b p / 8 = x := by
      change bitAt b p / 8 ≤ x at h1; change x < bitAt b p / 8 + 1 at h2; omega
    cases p with
    | some o => exact Must.map (must_flipbit e) _
    | none => exact Must.map (Must.field (by rintro _ rfl; exact (must_flipbit e).left _)) _
  | setBits p v n =>
    cases p with
    | some o => exact Must.map (must_setbits (by omega) h1 h2) _
    | none => exact Must.map (Must.field (by rintro _ rfl; exact (must_setbits (by omega) h1 h2).left _)) _
  | clearAll => exact Must.map (must_all (f := fun i => Prog.bufStore i 0) (fun _ _ => Stay.bufStore _ _) (fun _ h => Must.bufStore h) (by omega) h3) _
  | setAll => exact Must.map (must_all (f := fun i => Prog.bufStore i 0xFF) (fun _ _ => Stay.bufStore _ _) (fun _ h => Must.bufStore h) (by omega) h3) _
  | flipAll =>
    exact Must.map (must_all (f := fun i => do
      let x ← Prog.bufLoad i
      Prog.bufStore i (~~~x)) (fun _ _ => (Stay.bufLoad _).bind fun _ => Stay.bufStore _ _) (fun _ h => Must.right' (Stay.bufLoad _) fun _ => Must.bufStore h) (by omega) h3) _
  | _ => exact nomatch hc

theorem peek_byte {o : Int64} {k : UInt8 → Prog α} (hx : o.toInt = x) :
    Peeks (· = b) (.byte b.buf.arr (b.buf.off + x)) false ((Buffer.read o 1).bind fun s => (Prog.loadAt s 0).bind k) := by
  have key : Peeks (· = b) (.byte b.buf.arr (b.buf.off + x)) true (((Prog.buf >>= fun s => Prog.reslice s o (o + 1)).deferUnlock).bind fun s => (Prog.loadAt s 0).bind k) := by
    refine .inr ?_
    rintro _ rfl
    show Peeks _ _ true (Prog.bind (Prog.deferUnlock (Prog.reslice _ o (o + 1))) _)
    unfold Prog.reslice
    split
    · show Peeks _ _ false (Prog.bind (Prog.loadAt _ 0) _)
      unfold Prog.loadAt
      split
      · refine .inl ⟨rfl, ?_⟩
        rw [hx]; rfl
      · trivial
    · trivial
  unfold Buffer.read
  refine Or.inr fun c hc => ?_
  show Peeks _ _ false (((Prog.panicIf _ _).bind fun _ => (Prog.panicIf _ _).bind fun _ => Prog.locked _).bind _)
  unfold Prog.panicIf
  split
  · trivial
  · show Peeks _ _ false (((ite _ _ _ : Prog Unit).bind fun _ => Prog.locked _).bind _)
    split
    · trivial
    · exact key

theorem exec_peeks_byte {op : Op2} (hc : unguarded op .bytes = true) (h1 : (bytesOf b op).1 ≤ x) (h2 : x < (bytesOf b op).2) :
    Peeks (· = b) (.byte b.buf.arr (b.buf.off + x)) false (exec op) := by
  cases op with
  | readByte p =>
    have e : byteAt b p = x := by
      change byteAt b p ≤ x at h1; change x < byteAt b p + 1 at h2; omega
    cases p with
    | some o =>
      have := peek_byte (b := b) (k := fun v => .ret (Val.u8 v)) e
      show Peeks _ _ false (((Buffer.read o 1).bind fun s => Prog.loadAt s 0).bind fun v => .ret (Val.u8 v))
      rw [Prog.bind_assoc]
      exact this
    | none => exact Peeks.map (Peeks.next (by rintro _ rfl; exact peek_byte e)) _
  | _ => exact nomatch hc

end
end V2
end Crunch
