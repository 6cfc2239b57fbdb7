import Verif.Lemmas.FootOps
import Verif.Footprints

/-! The methods of v2 `Buffer` keep to their footprints. -/

namespace Crunch.V2
open V3 (Buf Val)
open Spec (Endian)

section
variable {α : Type} {R W : Loc → Prop} {E : Bool → Prop} {b : Buf} {l : Bool}

theorem foot_readbit {o : Int64} {Q : Buf → Bool → UInt8 → Prop} (h : Base R) (hs : Sized b) (hE : ∀ l, E l)
    (hr : 0 ≤ o.toInt → o.toInt / 8 < b.buf.len → R (.byte b.buf.arr (b.buf.off + (o.toInt / 8).toNat)))
    (hq : 0 ≤ o.toInt → o.toInt < 8 * b.buf.len → l = false → ∀ v, Q b false v) : Foot R W E Q b l (Buffer.readbit o) := by
  refine foot_checkBit h hs (hE _) fun h0 h1 => foot_locked fun hl => foot_bind' (foot_bufLoad ⟨rfl, hE _⟩ h.header fun g0 g1 => ?_)
  rw [V3.div8_toInt h0] at g1 ⊢
  exact ⟨hr h0 g1, fun v => ⟨rfl, hq h0 h1 hl _⟩⟩

theorem foot_flipbit {o : Int64} {Q : Buf → Bool → Unit → Prop} (h : Base R) (hs : Sized b) (hE : ∀ l, E l)
    (hr : 0 ≤ o.toInt → o.toInt / 8 < b.buf.len → R (.byte b.buf.arr (b.buf.off + (o.toInt / 8).toNat)))
    (hw : 0 ≤ o.toInt → o.toInt / 8 < b.buf.len → W (.byte b.buf.arr (b.buf.off + (o.toInt / 8).toNat)))
    (hq : l = false → Q b false ()) : Foot R W E Q b l (Buffer.flipbit o) := by
  refine foot_checkBit h hs (hE _) fun h0 h1 => foot_locked fun hl => foot_bind' (foot_bufLoad ⟨rfl, hE _⟩ h.header fun g0 g1 => ?_)
  rw [V3.div8_toInt h0] at g1 ⊢
  refine ⟨hr h0 g1, fun v => foot_bufStore ⟨rfl, hE _⟩ h.header fun g0 g1 => ?_⟩
  rw [V3.div8_toInt h0] at g1 ⊢
  exact ⟨hw h0 g1, rfl, hq hl⟩

theorem foot_setbit {o : Int64} {d : UInt8} {Q : Buf → Bool → Unit → Prop} (h : Base R) (hs : Sized b) (hE : ∀ l, E l)
    (hr : 0 ≤ o.toInt → o.toInt / 8 < b.buf.len → R (.byte b.buf.arr (b.buf.off + (o.toInt / 8).toNat)))
    (hw : 0 ≤ o.toInt → o.toInt / 8 < b.buf.len → W (.byte b.buf.arr (b.buf.off + (o.toInt / 8).toNat)))
    (hq : 0 ≤ o.toInt → o.toInt < 8 * b.buf.len → l = false → Q b false ()) : Foot R W E Q b l (Buffer.setbit o d) := by
  refine foot_checkBit h hs (hE _) fun h0 h1 => foot_locked fun hl => ?_
  have one : ∀ f : UInt8 → UInt8, Foot R W (fun l => l = true ∧ E false) (fun b l a => l = true ∧ Q b false a) b true (do
      let x ← Prog.bufLoad (o / 8)
      Prog.bufStore (o / 8) (f x)) := fun f => by
    refine foot_bind' (foot_bufLoad ⟨rfl, hE _⟩ h.header fun g0 g1 => ?_)
    rw [V3.div8_toInt h0] at g1 ⊢
    refine ⟨hr h0 g1, fun v => foot_bufStore ⟨rfl, hE _⟩ h.header fun g0 g1 => ?_⟩
    rw [V3.div8_toInt h0] at g1 ⊢
    exact ⟨hw h0 g1, rfl, hq h0 h1 hl⟩
  split
  · exact one _
  · split
    · exact one _
    · exact ⟨rfl, hE _⟩

theorem foot_seekbit {off : Int64} {relative : Bool} {Q : Buf → Bool → Unit → Prop} (hE : E false) (hr : R (.field .boff)) (hw : W (.field .boff))
    (hq : l = false → ∀ v, Q { b with boff := v } false ()) : Foot R W E Q b l (Buffer.seekbit off relative) :=
  foot_seek hE hr hw fun hl => hq hl _

theorem foot_seekbyte {off : Int64} {relative : Bool} {Q : Buf → Bool → Unit → Prop} (hE : E false) (hr : R (.field .off)) (hw : W (.field .off))
    (hq : l = false → ∀ v, Q { b with off := v } false ()) : Foot R W E Q b l (Buffer.seek off relative) :=
  foot_seek hE hr hw fun hl => hq hl _

theorem foot_write {o : Int64} {d : Src} {Q : Buf → Bool → Unit → Prop} (h : Base R) (hs : Sized b) (hE : ∀ l, E l) (hd : SrcIn R d)
    (hw : ∀ x : Nat, o.toInt ≤ x → x < o.toInt + d.len → x < b.buf.len → W (.byte b.buf.arr (b.buf.off + x)))
    (hq : l = false → Q b false ()) : Foot R W E Q b l (Buffer.write o d) := by
  refine foot_check h (hE _) fun h0 h1 => foot_bind' fun hl => foot_bind' ?_
  refine foot_doLoop (fun i _ => ElemAt b o 1 i) (fun i _ a => ?_) 0 () ⟨hs.small, h0, by decide, by decide, .inl rfl⟩
  refine foot_bind' (foot_srcAt (hE _) hd fun g0 g1 v => ?_)
  rw [← Int64.mul_one i] 
  refine foot_put0 a g1 (hE _) h.header (fun x x1 x2 x3 => hw x x1 ?_ x3) fun hn => ⟨rfl, rfl, fun hi => ?_, rfl, hq hl⟩
  · rw [show (1 : Int64).toInt = 1 from rfl] at x2; omega
  · rw [Int64.mul_one] at hi ⊢
    refine (a.next ?_ hi).1
    rw [show (1 : Int64).toInt = 1 from rfl] at hn ⊢; omega

theorem foot_read {o n : Int64} {Q : Buf → Bool → Slice → Prop} (h : Base R) (hE : ∀ l, E l)
    (hq : 0 ≤ o.toInt → l = false → ∀ t : Slice, t.arr = b.buf.arr → t.off = b.buf.off + o.toInt.toNat → t.cap ≤ b.buf.cap → Q b false t) :
    Foot R W E Q b l (Buffer.read o n) := by
  refine foot_check h (hE _) fun h0 h1 => foot_locked fun hl => foot_bind' ⟨h.header, ?_⟩
  exact foot_reslice ⟨rfl, hE _⟩ fun _ _ _ t t1 t2 _ t4 => ⟨rfl, hq h0 hl t t1 t2 t4⟩

theorem foot_readLoad {o : Int64} {rest : UInt8 → Prog α} {Q : Buf → Bool → α → Prop} (h : Base R) (hs : Sized b) (hE : ∀ l, E l)
    (hr : 0 ≤ o.toInt → o.toInt < b.buf.len → R (.byte b.buf.arr (b.buf.off + o.toInt.toNat)))
    (hq : l = false → ∀ v, Foot R W E Q b false (rest v)) :
    Foot R W E Q b l (Buffer.read o 1 >>= fun s => Prog.loadAt s 0 >>= rest) := by
  refine foot_bind' (foot_check h (hE _) fun h0 h1 => foot_locked fun hl => foot_bind' ⟨h.header, foot_reslice ⟨rfl, hE _⟩ ?_⟩)
  intro g0 g1 g2 t t1 t2 t3 _
  refine ⟨rfl, foot_bind' (foot_loadAt (hE _) fun _ k1 => ⟨?_, hq hl⟩)⟩
  rw [t1, t2]
  refine hr h0 ?_
  rw [gt_iff_lt, Int64.lt_iff_toInt_lt, hs.cap] at h1
  have z : (0 : Int64).toInt = 0 := rfl
  rw [z] at k1
  omega

theorem foot_ReadByte {o : Int64} {Q : Buf → Bool → UInt8 → Prop} (h : Base R) (hs : Sized b) (hE : ∀ l, E l)
    (hr : 0 ≤ o.toInt → o.toInt < b.buf.len → R (.byte b.buf.arr (b.buf.off + o.toInt.toNat)))
    (hq : l = false → ∀ v, Q b false v) : Foot R W E Q b l (Buffer.ReadByte o) := by
  have := foot_readLoad (W := W) (rest := Prog.ret) h hs hE hr hq
  have e : (Buffer.read o 1 >>= fun s => Prog.loadAt s 0 >>= Prog.ret) = Buffer.ReadByte o := by
    show _ = Buffer.read o 1 >>= fun s => Prog.loadAt s 0
    congr 1
    funext s
    show (Prog.loadAt s 0).bind Prog.ret = _
    unfold Prog.loadAt
    split <;> rfl
  rwa [e] at this

theorem Sized.bits (h : Sized b) {v : Int64} : Sized { b with boff := v } := ⟨h.cap, h.bcap, h.small⟩

/-- A loop over bits from `o`, at the `i`th. -/
theorem bits_next {o i n : Int64} (hs : Sized b) (hi : 0 ≤ i.toInt) (h0 : 0 ≤ o.toInt) (hb : o.toInt + i.toInt < 8 * b.buf.len) (hn : i + 1 < n) :
    (i + 1).toInt = i.toInt + 1 ∧ (o + (i + 1)).toInt = o.toInt + i.toInt + 1 := by
  have := hs.small
  have e : (i + 1).toInt = i.toInt + 1 := by
    rw [toInt_add]; have : (1 : Int64).toInt = 1 := rfl; omega
  refine ⟨e, ?_⟩
  rw [toInt_add, e]; omega

theorem foot_readbits {o n : Int64} {Q : Buf → Bool → UInt64 → Prop} (h : Base R) (hs : Sized b) (hE : ∀ l, E l)
    (hr : ∀ x : Nat, o.toInt / 8 ≤ x → x < (o.toInt + max 1 n.toInt - 1) / 8 + 1 → x < b.buf.len → R (.byte b.buf.arr (b.buf.off + x)))
    (hq : l = false → ∀ v, Q b false v) : Foot R W E Q b l (Buffer.readbits o n) := by
  refine foot_doLoop (fun i _ => 0 ≤ i.toInt ∧ i.toInt < max 1 n.toInt ∧ (o + i).toInt = o.toInt + i.toInt ∧ (i.toInt = 0 ∨ 0 ≤ o.toInt)) (fun i v g => ?_)
    0 0 ⟨by decide, ?_, by rw [Int64.add_zero, show (0 : Int64).toInt = 0 from rfl]; omega, .inl rfl⟩
  · obtain ⟨g0, g1, g2, g3⟩ := g
    refine foot_bind' (foot_readbit h hs hE (fun k0 k1 => hr _ ?_ ?_ ?_) fun k0 k1 hl v => ⟨rfl, hl.symm, fun hi => ?_, hl ▸ hq hl _⟩)
    · omega
    · rw [g2] at k0 k1 ⊢; omega
    · omega
    · have hb := bits_next (o := o) hs g0 (by omega) (by omega) hi
      rw [Int64.lt_iff_toInt_lt] at hi
      exact ⟨by omega, by omega, by omega, .inr (by omega)⟩
  · rw [show (0 : Int64).toInt = 0 from rfl]; omega

theorem foot_setbits {o n : Int64} {d : UInt64} {Q : Buf → Bool → Unit → Prop} (h : Base R) (hs : Sized b) (hE : ∀ l, E l)
    (hr : ∀ x : Nat, o.toInt / 8 ≤ x → x < (o.toInt + max 1 n.toInt - 1) / 8 + 1 → x < b.buf.len → R (.byte b.buf.arr (b.buf.off + x)))
    (hw : ∀ x : Nat, o.toInt / 8 ≤ x → x < (o.toInt + max 1 n.toInt - 1) / 8 + 1 → x < b.buf.len → W (.byte b.buf.arr (b.buf.off + x)))
    (hq : l = false → Q b false ()) : Foot R W E Q b l (Buffer.setbits o d n) := by
  refine foot_doLoop (fun i _ => 0 ≤ i.toInt ∧ i.toInt < max 1 n.toInt ∧ (o + i).toInt = o.toInt + i.toInt ∧ (i.toInt = 0 ∨ 0 ≤ o.toInt)) (fun i v g => ?_)
    0 () ⟨by decide, ?_, by rw [Int64.add_zero, show (0 : Int64).toInt = 0 from rfl]; omega, .inl rfl⟩
  · obtain ⟨g0, g1, g2, g3⟩ := g
    have rng : 0 ≤ (o + i).toInt → ((o + i).toInt / 8).toNat < (o.toInt + max 1 n.toInt - 1) / 8 + 1 := by
      intro k0; rw [g2] at k0 ⊢; omega
    refine foot_setbit h hs hE (fun k0 k1 => hr _ ?_ (rng k0) ?_) (fun k0 k1 => hw _ ?_ (rng k0) ?_) fun k0 k1 hl => ⟨rfl, hl.symm, fun hi => ?_, hl ▸ hq hl⟩
    · omega
    · omega
    · omega
    · omega
    · have hb := bits_next (o := o) hs g0 (by omega) (by omega) hi
      rw [Int64.lt_iff_toInt_lt] at hi
      exact ⟨by omega, by omega, by omega, .inr (by omega)⟩
  · rw [show (0 : Int64).toInt = 0 from rfl]; omega

theorem foot_all {f : UInt8 → UInt8} {Q : Buf → Bool → Unit → Prop} (h : Base R) (hE : ∀ l, E l)
    (hr : ∀ x : Nat, x < b.buf.len → R (.byte b.buf.arr (b.buf.off + x))) (hw : ∀ x : Nat, x < b.buf.len → W (.byte b.buf.arr (b.buf.off + x)))
    (hq : l = false → Q b false ()) : Foot R W E Q b l (Prog.locked do
      let s ← Prog.buf
      Prog.doLoop (fun i _ => do
        let x ← Prog.bufLoad i
        Prog.bufStore i (f x)) (Int64.ofNat s.len) 0 ()) := by
  refine foot_locked fun hl => foot_bind' ⟨h.header, foot_doLoop (fun _ _ => True) (fun i _ _ => ?_) 0 () trivial⟩
  refine foot_bind' (foot_bufLoad ⟨rfl, hE _⟩ h.header fun g0 g1 => ⟨hr _ (by omega), fun _ => ?_⟩)
  exact foot_bufStore ⟨rfl, hE _⟩ h.header fun g0 g1 => ⟨hw _ (by omega), rfl, rfl, fun _ => trivial, rfl, hq hl⟩

theorem foot_fill {c : UInt8} {Q : Buf → Bool → Unit → Prop} (h : Base R) (hE : ∀ l, E l)
    (hw : ∀ x : Nat, x < b.buf.len → W (.byte b.buf.arr (b.buf.off + x)))
    (hq : l = false → Q b false ()) : Foot R W E Q b l (Prog.locked do
      let s ← Prog.buf
      Prog.doLoop (fun i _ => Prog.bufStore i c) (Int64.ofNat s.len) 0 ()) := by
  refine foot_locked fun hl => foot_bind' ⟨h.header, foot_doLoop (fun _ _ => True) (fun i _ _ => ?_) 0 () trivial⟩
  exact foot_bufStore ⟨rfl, hE _⟩ h.header fun g0 g1 => ⟨hw _ (by omega), rfl, rfl, fun _ => trivial, rfl, hq hl⟩

macro "w_foot" a:term:max hE:term:max hh:term:max hw:term:max : tactic => `(tactic| repeat' (first
  | with_reducible refine foot_bind' (foot_idx ($hE _) fun _ hn _ => ?_)
  | with_reducible refine foot_bind' (foot_put0 $a (by assumption) ($hE _) $hh $hw fun _ => ?_)
  | with_reducible refine foot_bind' (foot_put $a (by assumption) ($hE _) $hh (by decide) $hw fun _ => ?_)
  | with_reducible refine foot_put $a (by assumption) ($hE _) $hh (by decide) $hw fun hl => ?_))

theorem foot_writeU16LE {o : Int64} {d : List UInt16} {Q : Buf → Bool → Unit → Prop} (h : Base R) (hs : Sized b) (hE : ∀ l, E l)
    (hw : ∀ x : Nat, o.toInt ≤ x → x < o.toInt + d.length * (2 : Int64).toInt → x < b.buf.len → W (.byte b.buf.arr (b.buf.off + x)))
    (hq : l = false → Q b false ()) : Foot R W E Q b l (Buffer.writeU16LE o d) := by
  refine foot_check h (hE _) fun h0 h1 => foot_bind' fun hl => foot_bind' ?_
  refine foot_doLoop (fun i _ => ElemAt b o 2 i) (fun i _ a => ?_) 0 () ⟨hs.small, h0, by decide, by decide, .inl rfl⟩
  w_foot a hE h.header hw
  exact ⟨rfl, rfl, fun hi => (a.next (by rename_i g; exact g) hi).1, rfl, hq hl⟩

theorem foot_writeU16BE {o : Int64} {d : List UInt16} {Q : Buf → Bool → Unit → Prop} (h : Base R) (hs : Sized b) (hE : ∀ l, E l)
    (hw : ∀ x : Nat, o.toInt ≤ x → x < o.toInt + d.length * (2 : Int64).toInt → x < b.buf.len → W (.byte b.buf.arr (b.buf.off + x)))
    (hq : l = false → Q b false ()) : Foot R W E Q b l (Buffer.writeU16BE o d) := by
  refine foot_check h (hE _) fun h0 h1 => foot_bind' fun hl => foot_bind' ?_
  refine foot_doLoop (fun i _ => ElemAt b o 2 i) (fun i _ a => ?_) 0 () ⟨hs.small, h0, by decide, by decide, .inl rfl⟩
  w_foot a hE h.header hw
  exact ⟨rfl, rfl, fun hi => (a.next (by rename_i g; exact g) hi).1, rfl, hq hl⟩

theorem foot_writeU32LE {o : Int64} {d : List UInt32} {Q : Buf → Bool → Unit → Prop} (h : Base R) (hs : Sized b) (hE : ∀ l, E l)
    (hw : ∀ x : Nat, o.toInt ≤ x → x < o.toInt + d.length * (4 : Int64).toInt → x < b.buf.len → W (.byte b.buf.arr (b.buf.off + x)))
    (hq : l = false → Q b false ()) : Foot R W E Q b l (Buffer.writeU32LE o d) := by
  refine foot_check h (hE _) fun h0 h1 => foot_bind' fun hl => foot_bind' ?_
  refine foot_doLoop (fun i _ => ElemAt b o 4 i) (fun i _ a => ?_) 0 () ⟨hs.small, h0, by decide, by decide, .inl rfl⟩
  w_foot a hE h.header hw
  exact ⟨rfl, rfl, fun hi => (a.next (by rename_i g; exact g) hi).1, rfl, hq hl⟩

theorem foot_writeU32BE {o : Int64} {d : List UInt32} {Q : Buf → Bool → Unit → Prop} (h : Base R) (hs : Sized b) (hE : ∀ l, E l)
    (hw : ∀ x : Nat, o.toInt ≤ x → x < o.toInt + d.length * (4 : Int64).toInt → x < b.buf.len → W (.byte b.buf.arr (b.buf.off + x)))
    (hq : l = false → Q b false ()) : Foot R W E Q b l (Buffer.writeU32BE o d) := by
  refine foot_check h (hE _) fun h0 h1 => foot_bind' fun hl => foot_bind' ?_
  refine foot_doLoop (fun i _ => ElemAt b o 4 i) (fun i _ a => ?_) 0 () ⟨hs.small, h0, by decide, by decide, .inl rfl⟩
  w_foot a hE h.header hw
  exact ⟨rfl, rfl, fun hi => (a.next (by rename_i g; exact g) hi).1, rfl, hq hl⟩

theorem foot_writeU64LE {o : Int64} {d : List UInt64} {Q : Buf → Bool → Unit → Prop} (h : Base R) (hs : Sized b) (hE : ∀ l, E l)
    (hw : ∀ x : Nat, o.toInt ≤ x → x < o.toInt + d.length * (8 : Int64).toInt → x < b.buf.len → W (.byte b.buf.arr (b.buf.off + x)))
    (hq : l = false → Q b false ()) : Foot R W E Q b l (Buffer.writeU64LE o d) := by
  refine foot_check h (hE _) fun h0 h1 => foot_bind' fun hl => foot_bind' ?_
  refine foot_doLoop (fun i _ => ElemAt b o 8 i) (fun i _ a => ?_) 0 () ⟨hs.small, h0, by decide, by decide, .inl rfl⟩
  w_foot a hE h.header hw
  exact ⟨rfl, rfl, fun hi => (a.next (by rename_i g; exact g) hi).1, rfl, hq hl⟩

theorem foot_writeU64BE {o : Int64} {d : List UInt64} {Q : Buf → Bool → Unit → Prop} (h : Base R) (hs : Sized b) (hE : ∀ l, E l)
    (hw : ∀ x : Nat, o.toInt ≤ x → x < o.toInt + d.length * (8 : Int64).toInt → x < b.buf.len → W (.byte b.buf.arr (b.buf.off + x)))
    (hq : l = false → Q b false ()) : Foot R W E Q b l (Buffer.writeU64BE o d) := by
  refine foot_check h (hE _) fun h0 h1 => foot_bind' fun hl => foot_bind' ?_
  refine foot_doLoop (fun i _ => ElemAt b o 8 i) (fun i _ a => ?_) 0 () ⟨hs.small, h0, by decide, by decide, .inl rfl⟩
  w_foot a hE h.header hw
  exact ⟨rfl, rfl, fun hi => (a.next (by rename_i g; exact g) hi).1, rfl, hq hl⟩

theorem foot_Write (k : UKind) (e : Endian) {o : Int64} {d : List k.kind.Ty} {Q : Buf → Bool → Unit → Prop} (h : Base R) (hs : Sized b) (hE : ∀ l, E l)
    (hw : ∀ x : Nat, o.toInt ≤ x → x < o.toInt + d.length * k.kind.size → x < b.buf.len → W (.byte b.buf.arr (b.buf.off + x)))
    (hq : l = false → Q b false ()) : Foot R W E Q b l (Buffer.Write k e o d) := by
  cases k <;> cases e
  · exact foot_writeU16LE h hs hE hw hq
  · exact foot_writeU16BE h hs hE hw hq
  · exact foot_writeU32LE h hs hE hw hq
  · exact foot_writeU32BE h hs hE hw hq
  · exact foot_writeU64LE h hs hE hw hq
  · exact foot_writeU64BE h hs hE hw hq

macro "r_foot" a:term:max hn:term:max hE:term:max hh:term:max hw:term:max : tactic => `(tactic| repeat' (first
  | with_reducible refine foot_bind' (foot_get0 $a $hn $hE $hh $hw fun _ _ => ?_)
  | with_reducible refine foot_bind' (foot_get $a $hn $hE $hh (by decide) $hw fun _ _ => ?_)))

theorem elem_next {o k i n : Int64} (a : ElemAt b o k i) (h : o.toInt + i.toInt * k.toInt + (k.toInt - 1) < 2 ^ 50) (hn : i + 1 < n) :
    ElemAt b o k (i + 1) ∧ (i + 1).toInt < max 1 n.toInt := by
  refine ⟨(a.next h hn).1, ?_⟩
  rw [Int64.lt_iff_toInt_lt] at hn
  omega

theorem zero_lt_max (n : Int64) : (0 : Int64).toInt < max 1 n.toInt := by rw [show (0 : Int64).toInt = 0 from rfl]; omega

theorem foot_readU16LE {o n : Int64} {Q : Buf → Bool → List UInt16 → Prop} (h : Base R) (hs : Sized b) (hE : ∀ l, E l)
    (hr : ∀ x : Nat, o.toInt ≤ x → x < o.toInt + max 1 n.toInt * (2 : Int64).toInt → x < b.buf.len → R (.byte b.buf.arr (b.buf.off + x)))
    (hq : l = false → ∀ v, Q b false v) : Foot R W E Q b l (Buffer.readU16LE o n) := by
  refine foot_check h (hE _) fun h0 h1 => foot_bind' (foot_makeTyped (hE _) fun out => foot_locked fun hl => ?_)
  refine foot_doLoop (fun i _ => ElemAt b o 2 i ∧ i.toInt < max 1 n.toInt) (fun i out a => ?_) 0 out
    ⟨⟨hs.small, h0, by decide, by decide, .inl rfl⟩, zero_lt_max n⟩
  have hE' : true = true ∧ E false := ⟨rfl, hE _⟩
  r_foot a.1 a.2 hE' h.header hr
  refine foot_setIdx hE' fun _ _ => ⟨rfl, rfl, fun hi => elem_next a.1 ?_ hi, rfl, hq hl _⟩
  assumption

theorem foot_readU16BE {o n : Int64} {Q : Buf → Bool → List UInt16 → Prop} (h : Base R) (hs : Sized b) (hE : ∀ l, E l)
    (hr : ∀ x : Nat, o.toInt ≤ x → x < o.toInt + max 1 n.toInt * (2 : Int64).toInt → x < b.buf.len → R (.byte b.buf.arr (b.buf.off + x)))
    (hq : l = false → ∀ v, Q b false v) : Foot R W E Q b l (Buffer.readU16BE o n) := by
  refine foot_check h (hE _) fun h0 h1 => foot_bind' (foot_makeTyped (hE _) fun out => foot_locked fun hl => ?_)
  refine foot_doLoop (fun i _ => ElemAt b o 2 i ∧ i.toInt < max 1 n.toInt) (fun i out a => ?_) 0 out
    ⟨⟨hs.small, h0, by decide, by decide, .inl rfl⟩, zero_lt_max n⟩
  have hE' : true = true ∧ E false := ⟨rfl, hE _⟩
  r_foot a.1 a.2 hE' h.header hr
  refine foot_setIdx hE' fun _ _ => ⟨rfl, rfl, fun hi => elem_next a.1 ?_ hi, rfl, hq hl _⟩
  assumption

theorem foot_readU32LE {o n : Int64} {Q : Buf → Bool → List UInt32 → Prop} (h : Base R) (hs : Sized b) (hE : ∀ l, E l)
    (hr : ∀ x : Nat, o.toInt ≤ x → x < o.toInt + max 1 n.toInt * (4 : Int64).toInt → x < b.buf.len → R (.byte b.buf.arr (b.buf.off + x)))
    (hq : l = false → ∀ v, Q b false v) : Foot R W E Q b l (Buffer.readU32LE o n) := by
  refine foot_check h (hE _) fun h0 h1 => foot_bind' (foot_makeTyped (hE _) fun out => foot_locked fun hl => ?_)
  refine foot_doLoop (fun i _ => ElemAt b o 4 i ∧ i.toInt < max 1 n.toInt) (fun i out a => ?_) 0 out
    ⟨⟨hs.small, h0, by decide, by decide, .inl rfl⟩, zero_lt_max n⟩
  have hE' : true = true ∧ E false := ⟨rfl, hE _⟩
  r_foot a.1 a.2 hE' h.header hr
  refine foot_setIdx hE' fun _ _ => ⟨rfl, rfl, fun hi => elem_next a.1 ?_ hi, rfl, hq hl _⟩
  assumption

theorem foot_readU32BE {o n : Int64} {Q : Buf → Bool → List UInt32 → Prop} (h : Base R) (hs : Sized b) (hE : ∀ l, E l)
    (hr : ∀ x : Nat, o.toInt ≤ x → x < o.toInt + max 1 n.toInt * (4 : Int64).toInt → x < b.buf.len → R (.byte b.buf.arr (b.buf.off + x)))
    (hq : l = false → ∀ v, Q b false v) : Foot R W E Q b l (Buffer.readU32BE o n) := by
  refine foot_check h (hE _) fun h0 h1 => foot_bind' (foot_makeTyped (hE _) fun out => foot_locked fun hl => ?_)
  refine foot_doLoop (fun i _ => ElemAt b o 4 i ∧ i.toInt < max 1 n.toInt) (fun i out a => ?_) 0 out
    ⟨⟨hs.small, h0, by decide, by decide, .inl rfl⟩, zero_lt_max n⟩
  have hE' : true = true ∧ E false := ⟨rfl, hE _⟩
  r_foot a.1 a.2 hE' h.header hr
  refine foot_setIdx hE' fun _ _ => ⟨rfl, rfl, fun hi => elem_next a.1 ?_ hi, rfl, hq hl _⟩
  assumption

theorem foot_readU64LE {o n : Int64} {Q : Buf → Bool → List UInt64 → Prop} (h : Base R) (hs : Sized b) (hE : ∀ l, E l)
    (hr : ∀ x : Nat, o.toInt ≤ x → x < o.toInt + max 1 n.toInt * (8 : Int64).toInt → x < b.buf.len → R (.byte b.buf.arr (b.buf.off + x)))
    (hq : l = false → ∀ v, Q b false v) : Foot R W E Q b l (Buffer.readU64LE o n) := by
  refine foot_check h (hE _) fun h0 h1 => foot_bind' (foot_makeTyped (hE _) fun out => foot_locked fun hl => ?_)
  refine foot_doLoop (fun i _ => ElemAt b o 8 i ∧ i.toInt < max 1 n.toInt) (fun i out a => ?_) 0 out
    ⟨⟨hs.small, h0, by decide, by decide, .inl rfl⟩, zero_lt_max n⟩
  have hE' : true = true ∧ E false := ⟨rfl, hE _⟩
  r_foot a.1 a.2 hE' h.header hr
  refine foot_setIdx hE' fun _ _ => ⟨rfl, rfl, fun hi => elem_next a.1 ?_ hi, rfl, hq hl _⟩
  assumption

theorem foot_readU64BE {o n : Int64} {Q : Buf → Bool → List UInt64 → Prop} (h : Base R) (hs : Sized b) (hE : ∀ l, E l)
    (hr : ∀ x : Nat, o.toInt ≤ x → x < o.toInt + max 1 n.toInt * (8 : Int64).toInt → x < b.buf.len → R (.byte b.buf.arr (b.buf.off + x)))
    (hq : l = false → ∀ v, Q b false v) : Foot R W E Q b l (Buffer.readU64BE o n) := by
  refine foot_check h (hE _) fun h0 h1 => foot_bind' (foot_makeTyped (hE _) fun out => foot_locked fun hl => ?_)
  refine foot_doLoop (fun i _ => ElemAt b o 8 i ∧ i.toInt < max 1 n.toInt) (fun i out a => ?_) 0 out
    ⟨⟨hs.small, h0, by decide, by decide, .inl rfl⟩, zero_lt_max n⟩
  have hE' : true = true ∧ E false := ⟨rfl, hE _⟩
  r_foot a.1 a.2 hE' h.header hr
  refine foot_setIdx hE' fun _ _ => ⟨rfl, rfl, fun hi => elem_next a.1 ?_ hi, rfl, hq hl _⟩
  assumption

theorem foot_Read (k : UKind) (e : Endian) {o n : Int64} {Q : Buf → Bool → List k.kind.Ty → Prop} (h : Base R) (hs : Sized b) (hE : ∀ l, E l)
    (hr : ∀ x : Nat, o.toInt ≤ x → x < o.toInt + max 1 n.toInt * k.kind.size → x < b.buf.len → R (.byte b.buf.arr (b.buf.off + x)))
    (hq : l = false → ∀ v, Q b false v) : Foot R W E Q b l (Buffer.Read k e o n) := by
  cases k <;> cases e
  · exact foot_readU16LE h hs hE hr hq
  · exact foot_readU16BE h hs hE hr hq
  · exact foot_readU32LE h hs hE hr hq
  · exact foot_readU32BE h hs hE hr hq
  · exact foot_readU64LE h hs hE hr hq
  · exact foot_readU64BE h hs hE hr hq

end

end Crunch.V2
