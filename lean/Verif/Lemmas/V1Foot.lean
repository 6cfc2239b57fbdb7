import Verif.Lemmas.FootOps
import Verif.Footprints

/-! The methods of v1 `Buffer` keep to their footprints. -/

namespace Crunch.V1
open V3 (Buf Val)
open Spec (Endian)

section
variable {α : Type} {R W : Loc → Prop} {E : Bool → Prop} {b : Buf} {l : Bool}

theorem foot_readbit {o : Int64} {Q : Buf → Bool → UInt8 → Prop} (h : Base R) (hs : Sized b) (hE : ∀ l, E l)
    (hr : 0 ≤ o.toInt → o.toInt / 8 < b.buf.len → R (.byte b.buf.arr (b.buf.off + (o.toInt / 8).toNat)))
    (hq : 0 ≤ o.toInt → o.toInt < 8 * b.buf.len → l = false → ∀ v, Q b false v) : Foot R W E Q b l (Buffer.readbit o) := by
  refine foot_checkBit h hs (hE _) fun h0 h1 => foot_locked fun hl => foot_bind' (foot_bufLoad ⟨rfl, hE _⟩ h.header fun g0 g1 => ?_)
  rw [V3.div8_toInt h0] at g1 ⊢
  exact ⟨hr h0 g1, fun v => ⟨rfl, hq h0 h1 hl _⟩⟩

theorem foot_flipbit {o : Int64} {Q : Buf → Bool → Unit → Prop} (h : Base R) (hs : Sized b) (hE : ∀ l, E l)
    (hr : 0 ≤ o.toInt → o.toInt / 8 < b.buf.len → R (.byte b.buf.arr (b.buf.off + (o.toInt / 8).toNat)))
    (hw : 0 ≤ o.toInt → o.toInt / 8 < b.buf.len → W (.byte b.buf.arr (b.buf.off + (o.toInt / 8).toNat)))
    (hq : l = false → Q b false ()) : Foot R W E Q b l (Buffer.flipbit o) := by
  refine foot_checkBit h hs (hE _) fun h0 h1 => foot_locked fun hl => foot_bind' (foot_bufLoad ⟨rfl, hE _⟩ h.header fun g0 g1 => ?_)
  rw [V3.div8_toInt h0] at g1 ⊢
  refine ⟨hr h0 g1, fun v => foot_bufStore ⟨rfl, hE _⟩ h.header fun g0 g1 => ?_⟩
  rw [V3.div8_toInt h0] at g1 ⊢
  exact ⟨hw h0 g1, rfl, hq hl⟩

theorem foot_setbit {o : Int64} {d : UInt8} {Q : Buf → Bool → Unit → Prop} (h : Base R) (hs : Sized b) (hE : ∀ l, E l)
    (hr : 0 ≤ o.toInt → o.toInt / 8 < b.buf.len → R (.byte b.buf.arr (b.buf.off + (o.toInt / 8).toNat)))
    (hw : 0 ≤ o.toInt → o.toInt / 8 < b.buf.len → W (.byte b.buf.arr (b.buf.off + (o.toInt / 8).toNat)))
    (hq : 0 ≤ o.toInt → o.toInt < 8 * b.buf.len → l = false → Q b false ()) : Foot R W E Q b l (Buffer.setbit o d) := by
  refine foot_checkBit h hs (hE _) fun h0 h1 => foot_locked fun hl => ?_
  have one : ∀ f : UInt8 → UInt8, Foot R W (fun l => l = true ∧ E false) (fun b l a => l = true ∧ Q b false a) b true (do
      let x ← Prog.bufLoad (o / 8)
      Prog.bufStore (o / 8) (f x)) := fun f => by
    refine foot_bind' (foot_bufLoad ⟨rfl, hE _⟩ h.header fun g0 g1 => ?_)
    rw [V3.div8_toInt h0] at g1 ⊢
    refine ⟨hr h0 g1, fun v => foot_bufStore ⟨rfl, hE _⟩ h.header fun g0 g1 => ?_⟩
    rw [V3.div8_toInt h0] at g1 ⊢
    exact ⟨hw h0 g1, rfl, hq h0 h1 hl⟩
  split
  · exact one _
  · split
    · exact one _
    · exact ⟨rfl, hE _⟩

theorem foot_seekbit {off : Int64} {relative : Bool} {Q : Buf → Bool → Unit → Prop} (hE : E false) (hr : R (.field .boff)) (hw : W (.field .boff))
    (hq : l = false → ∀ v, Q { b with boff := v } false ()) : Foot R W E Q b l (Buffer.seekbit off relative) :=
  foot_seek hE hr hw fun hl => hq hl _

theorem foot_seekbyte {off : Int64} {relative : Bool} {Q : Buf → Bool → Unit → Prop} (hE : E false) (hr : R (.field .off)) (hw : W (.field .off))
    (hq : l = false → ∀ v, Q { b with off := v } false ()) : Foot R W E Q b l (Buffer.seek off relative) :=
  foot_seek hE hr hw fun hl => hq hl _

theorem foot_write {o : Int64} {d : Src} {Q : Buf → Bool → Unit → Prop} (h : Base R) (hs : Sized b) (hE : ∀ l, E l) (hd : SrcIn R d)
    (hw : ∀ x : Nat, o.toInt ≤ x → x < o.toInt + d.len → x < b.buf.len → W (.byte b.buf.arr (b.buf.off + x)))
    (hq : l = false → Q b false ()) : Foot R W E Q b l (Buffer.write o d) := by
  refine foot_check h (hE _) fun h0 h1 => foot_bind' fun hl => foot_bind' ?_
  refine foot_doLoop (fun i _ => ElemAt b o 1 i) (fun i _ a => ?_) 0 () ⟨hs.small, h0, by decide, by decide, .inl rfl⟩
  refine foot_bind' (foot_srcAt (hE _) hd fun g0 g1 v => ?_)
  rw [← Int64.mul_one i] 
  refine foot_put0 a g1 (hE _) h.header (fun x x1 x2 x3 => hw x x1 ?_ x3) fun hn => ⟨rfl, rfl, fun hi => ?_, rfl, hq hl⟩
  · rw [show (1 : Int64).toInt = 1 from rfl] at x2; omega
  · rw [Int64.mul_one] at hi ⊢
    refine (a.next ?_ hi).1
    rw [show (1 : Int64).toInt = 1 from rfl] at hn ⊢; omega

theorem foot_read {o n : Int64} {Q : Buf → Bool → Slice → Prop} (h : Base R) (hE : ∀ l, E l)
    (hq : 0 ≤ o.toInt → l = false → ∀ t : Slice, t.arr = b.buf.arr → t.off = b.buf.off + o.toInt.toNat → t.cap ≤ b.buf.cap → Q b false t) :
    Foot R W E Q b l (Buffer.read o n) := by
  refine foot_check h (hE _) fun h0 h1 => foot_locked fun hl => foot_bind' ⟨h.header, ?_⟩
  exact foot_reslice ⟨rfl, hE _⟩ fun _ _ _ t t1 t2 _ t4 => ⟨rfl, hq h0 hl t t1 t2 t4⟩

theorem foot_readLoad {o : Int64} {rest : UInt8 → Prog α} {Q : Buf → Bool → α → Prop} (h : Base R) (hs : Sized b) (hE : ∀ l, E l)
    (hr : 0 ≤ o.toInt → o.toInt < b.buf.len → R (.byte b.buf.arr (b.buf.off + o.toInt.toNat)))
    (hq : l = false → ∀ v, Foot R W E Q b false (rest v)) :
    Foot R W E Q b l (Buffer.read o 1 >>= fun s => Prog.loadAt s 0 >>= rest) := by
  refine foot_bind' (foot_check h (hE _) fun h0 h1 => foot_locked fun hl => foot_bind' ⟨h.header, foot_reslice ⟨rfl, hE _⟩ ?_⟩)
  intro g0 g1 g2 t t1 t2 t3 _
  refine ⟨rfl, foot_bind' (foot_loadAt (hE _) fun _ k1 => ⟨?_, hq hl⟩)⟩
  rw [t1, t2]
  refine hr h0 ?_
  rw [gt_iff_lt, Int64.lt_iff_toInt_lt, hs.cap] at h1
  have z : (0 : Int64).toInt = 0 := rfl
  rw [z] at k1
  omega

theorem foot_ReadByte {o : Int64} {Q : Buf → Bool → UInt8 → Prop} (h : Base R) (hs : Sized b) (hE : ∀ l, E l)
    (hr : 0 ≤ o.toInt → o.toInt < b.buf.len → R (.byte b.buf.arr (b.buf.off + o.toInt.toNat)))
    (hq : l = false → ∀ v, Q b false v) : Foot R W E Q b l (Buffer.ReadByte o) := by
  have := foot_readLoad (W := W) (rest := Prog.ret) h hs hE hr hq
  have e : (Buffer.read o 1 >>= fun s => Prog.loadAt s 0 >>= Prog.ret) = Buffer.ReadByte o := by
    show _ = Buffer.read o 1 >>= fun s => Prog.loadAt s 0
    congr 1
    funext s
    show (Prog.loadAt s 0).bind Prog.ret = _
    unfold Prog.loadAt
    split <;> rfl
  rwa [e] at this

theorem Sized.bits (h : Sized b) {v : Int64} : Sized { b with boff := v } := ⟨h.cap, h.bcap, h.small⟩

theorem bit_next {o i n : Int64} (hi : 0 ≤ i.toInt) (h0 : 0 ≤ o.toInt) (hb : o.toInt + i.toInt < 2 ^ 60) :
    (i + 1).toInt = i.toInt + 1 ∧ (o + (i + 1)).toInt = o.toInt + i.toInt + 1 := by
  have e : (i + 1).toInt = i.toInt + 1 := by
    rw [toInt_add]; have : (1 : Int64).toInt = 1 := rfl; omega
  refine ⟨e, ?_⟩
  rw [toInt_add, e]; omega

theorem foot_readbits {o n : Int64} {Q : Buf → Bool → UInt64 → Prop} (h : Base R) (hs : Sized b) (hE : ∀ l, E l)
    (hr : 0 < n.toInt → ∀ x : Nat, o.toInt / 8 ≤ x → x < (o.toInt + n.toInt - 1) / 8 + 1 → x < b.buf.len → R (.byte b.buf.arr (b.buf.off + x)))
    (hq : ∀ v, Q b l v) : Foot R W E Q b l (Buffer.readbits o n) := by
  have hsm := hs.small
  refine foot_forLoop (fun i _ => 0 ≤ i.toInt ∧ (o + i).toInt = o.toInt + i.toInt ∧ (i.toInt = 0 ∨ 0 ≤ o.toInt)) (fun i v g hn => ?_)
    (fun i a _ => hq a) 0 0 ⟨by decide, by rw [Int64.add_zero, show (0 : Int64).toInt = 0 from rfl]; omega, .inl rfl⟩
  obtain ⟨g0, g2, g3⟩ := g
  rw [Int64.lt_iff_toInt_lt] at hn
  refine foot_bind' (foot_readbit h hs hE (fun k0 k1 => hr (by omega) _ ?_ ?_ ?_) fun k0 k1 hl v => ⟨rfl, hl.symm, ?_⟩)
  · omega
  · rw [g2] at k0 k1 ⊢; omega
  · omega
  · have hb := bit_next (o := o) (n := n) g0 (by omega) (by omega)
    exact ⟨by omega, by omega, .inr (by omega)⟩

theorem foot_setbits {o n : Int64} {d : UInt64} {Q : Buf → Bool → Unit → Prop} (h : Base R) (hs : Sized b) (hE : ∀ l, E l)
    (hr : 0 < n.toInt → ∀ x : Nat, o.toInt / 8 ≤ x → x < (o.toInt + n.toInt - 1) / 8 + 1 → x < b.buf.len → R (.byte b.buf.arr (b.buf.off + x)))
    (hw : 0 < n.toInt → ∀ x : Nat, o.toInt / 8 ≤ x → x < (o.toInt + n.toInt - 1) / 8 + 1 → x < b.buf.len → W (.byte b.buf.arr (b.buf.off + x)))
    (hq : Q b l ()) : Foot R W E Q b l (Buffer.setbits o d n) := by
  have hsm := hs.small
  refine foot_forLoop (fun i _ => 0 ≤ i.toInt ∧ (o + i).toInt = o.toInt + i.toInt ∧ (i.toInt = 0 ∨ 0 ≤ o.toInt)) (fun i v g hn => ?_)
    (fun i a _ => hq) 0 () ⟨by decide, by rw [Int64.add_zero, show (0 : Int64).toInt = 0 from rfl]; omega, .inl rfl⟩
  obtain ⟨g0, g2, g3⟩ := g
  rw [Int64.lt_iff_toInt_lt] at hn
  have rng : 0 ≤ (o + i).toInt → ((o + i).toInt / 8).toNat < (o.toInt + n.toInt - 1) / 8 + 1 := by
    intro k0; rw [g2] at k0 ⊢; omega
  refine foot_setbit h hs hE (fun k0 k1 => hr (by omega) _ ?_ (rng k0) ?_) (fun k0 k1 => hw (by omega) _ ?_ (rng k0) ?_) fun k0 k1 hl => ⟨rfl, hl.symm, ?_⟩
  · omega
  · omega
  · omega
  · omega
  · have hb := bit_next (o := o) (n := n) g0 (by omega) (by omega)
    exact ⟨by omega, by omega, .inr (by omega)⟩

theorem foot_all {f : UInt8 → UInt8} {Q : Buf → Bool → Unit → Prop} (h : Base R) (hE : ∀ l, E l)
    (hr : ∀ x : Nat, x < b.buf.len → R (.byte b.buf.arr (b.buf.off + x))) (hw : ∀ x : Nat, x < b.buf.len → W (.byte b.buf.arr (b.buf.off + x)))
    (hq : l = false → Q b false ()) : Foot R W E Q b l (Prog.locked do
      let s ← Prog.buf
      Prog.forLoop (fun i _ => do
        let x ← Prog.bufLoad i
        Prog.bufStore i (f x)) (Int64.ofNat s.len) 0 ()) := by
  refine foot_locked fun hl => foot_bind' ⟨h.header, foot_forLoop (fun _ _ => True) (fun i _ _ _ => ?_) (fun _ _ _ => ⟨rfl, hq hl⟩) 0 () trivial⟩
  refine foot_bind' (foot_bufLoad ⟨rfl, hE _⟩ h.header fun g0 g1 => ⟨hr _ (by omega), fun _ => ?_⟩)
  exact foot_bufStore ⟨rfl, hE _⟩ h.header fun g0 g1 => ⟨hw _ (by omega), rfl, rfl, trivial⟩

theorem foot_fill {c : UInt8} {Q : Buf → Bool → Unit → Prop} (h : Base R) (hE : ∀ l, E l)
    (hw : ∀ x : Nat, x < b.buf.len → W (.byte b.buf.arr (b.buf.off + x)))
    (hq : l = false → Q b false ()) : Foot R W E Q b l (Prog.locked do
      let s ← Prog.buf
      Prog.forLoop (fun i _ => Prog.bufStore i c) (Int64.ofNat s.len) 0 ()) := by
  refine foot_locked fun hl => foot_bind' ⟨h.header, foot_forLoop (fun _ _ => True) (fun i _ _ _ => ?_) (fun _ _ _ => ⟨rfl, hq hl⟩) 0 () trivial⟩
  exact foot_bufStore ⟨rfl, hE _⟩ h.header fun g0 g1 => ⟨hw _ (by omega), rfl, rfl, trivial⟩

/-! ## `WriteComplex` -/

theorem foot_order {o : ByteOrder} {Q : Buf → Bool → Endian → Prop} (hE : E l) (hq : ∀ e, Q b l e) : Foot R W E Q b l o.get := by
  cases o with
  | none => exact hE
  | some e => exact hq e

theorem length_make {n k : Nat} {w : Int64} (hw : w.toInt = k) (h0 : 0 ≤ (w * Int64.ofNat n).toInt) : (w * Int64.ofNat n).toInt.toNat ≤ n * k := by
  have e : w = Int64.ofNat k := Int64.toInt_inj.mp (by
    have := w.toInt_lt
    rw [hw, toInt_ofNat (by omega)])
  subst e
  have e2 : (Int64.ofNat k * Int64.ofNat n).toInt = ((k * n : Nat) : Int).bmod (2 ^ 64) := by
    rw [← ofNat_mul]
    exact Int64.toInt_ofNat' ..
  rw [e2] at h0 ⊢
  rw [Int.bmod_def] at h0 ⊢
  have : n * k = k * n := Nat.mul_comm ..
  omega

theorem foot_bytes16 {o : ByteOrder} {d : List UInt16} {Q : Buf → Bool → List UInt8 → Prop} (hE : ∀ l, E l)
    (hq : ∀ out : List UInt8, out.length ≤ d.length * 2 → Q b l out) : Foot R W E Q b l (bytes16 o d) := by
  refine foot_bind' (foot_makeTyped' (hE _) fun h0 out hout => ?_)
  have hl := hout ▸ length_make (k := 2) rfl h0
  refine foot_forLoop (fun _ out => out.length ≤ d.length * 2) (fun i out g _ => ?_) (fun _ out g => hq out g) 0 out hl
  refine foot_bind' (foot_idx (hE _) fun _ _ v => foot_bind' (foot_order (hE _) fun e => ?_))
  refine foot_bind' (foot_idx (hE _) fun _ _ _ => foot_bind' (foot_setIdx (hE _) fun out0 h0 => ?_))
  exact foot_bind' (foot_idx (hE _) fun _ _ _ => foot_setIdx (hE _) fun out1 h1 => ⟨rfl, rfl, by omega⟩)

theorem foot_bytes32 {o : ByteOrder} {d : List UInt32} {Q : Buf → Bool → List UInt8 → Prop} (hE : ∀ l, E l)
    (hq : ∀ out : List UInt8, out.length ≤ d.length * 4 → Q b l out) : Foot R W E Q b l (bytes32 o d) := by
  refine foot_bind' (foot_makeTyped' (hE _) fun h0 out hout => ?_)
  have hl := hout ▸ length_make (k := 4) rfl h0
  refine foot_forLoop (fun _ out => out.length ≤ d.length * 4) (fun i out g _ => ?_) (fun _ out g => hq out g) 0 out hl
  refine foot_bind' (foot_idx (hE _) fun _ _ v => foot_bind' (foot_order (hE _) fun e => ?_))
  refine foot_bind' (foot_idx (hE _) fun _ _ _ => foot_bind' (foot_setIdx (hE _) fun out0 h0 => ?_))
  refine foot_bind' (foot_idx (hE _) fun _ _ _ => foot_bind' (foot_setIdx (hE _) fun out1 h1 => ?_))
  refine foot_bind' (foot_idx (hE _) fun _ _ _ => foot_bind' (foot_setIdx (hE _) fun out2 h2 => ?_))
  exact foot_bind' (foot_idx (hE _) fun _ _ _ => foot_setIdx (hE _) fun out3 h3 => ⟨rfl, rfl, by omega⟩)

theorem foot_bytes64 {o : ByteOrder} {d : List UInt64} {Q : Buf → Bool → List UInt8 → Prop} (hE : ∀ l, E l)
    (hq : ∀ out : List UInt8, out.length ≤ d.length * 8 → Q b l out) : Foot R W E Q b l (bytes64 o d) := by
  refine foot_bind' (foot_makeTyped' (hE _) fun h0 out hout => ?_)
  have hl := hout ▸ length_make (k := 8) rfl h0
  refine foot_forLoop (fun _ out => out.length ≤ d.length * 8) (fun i out g _ => ?_) (fun _ out g => hq out g) 0 out hl
  refine foot_bind' (foot_idx (hE _) fun _ _ v => foot_bind' (foot_order (hE _) fun e => ?_))
  refine foot_bind' (foot_idx (hE _) fun _ _ _ => foot_bind' (foot_setIdx (hE _) fun out0 h0 => ?_))
  refine foot_bind' (foot_idx (hE _) fun _ _ _ => foot_bind' (foot_setIdx (hE _) fun out1 h1 => ?_))
  refine foot_bind' (foot_idx (hE _) fun _ _ _ => foot_bind' (foot_setIdx (hE _) fun out2 h2 => ?_))
  refine foot_bind' (foot_idx (hE _) fun _ _ _ => foot_bind' (foot_setIdx (hE _) fun out3 h3 => ?_))
  refine foot_bind' (foot_idx (hE _) fun _ _ _ => foot_bind' (foot_setIdx (hE _) fun out4 h4 => ?_))
  refine foot_bind' (foot_idx (hE _) fun _ _ _ => foot_bind' (foot_setIdx (hE _) fun out5 h5 => ?_))
  refine foot_bind' (foot_idx (hE _) fun _ _ _ => foot_bind' (foot_setIdx (hE _) fun out6 h6 => ?_))
  exact foot_bind' (foot_idx (hE _) fun _ _ _ => foot_setIdx (hE _) fun out7 h7 => ⟨rfl, rfl, by omega⟩)

theorem foot_writeComplex {o : Int64} {d : Any} {w : Int64} {e : ByteOrder} {Q : Buf → Bool → Unit → Prop} (h : Base R) (hs : Sized b) (hE : ∀ l, E l)
    (hd : ∀ s, d = .bytes s → SrcIn R (.mem s))
    (hw : ∀ x : Nat, o.toInt ≤ x → x < o.toInt + bytesIn d w → x < b.buf.len → W (.byte b.buf.arr (b.buf.off + x)))
    (hq : l = false → Q b false ()) : Foot R W E Q b l (Buffer.writeComplex o d w e) := by
  unfold Buffer.writeComplex
  simp only []
  split
  · rename_i w1
    cases d with
    | bytes s => exact foot_write h hs hE (hd s rfl) (fun x h1 h2 h3 => hw x h1 (by simpa [bytesIn, w1, Src.len] using h2) h3) hq
    | _ => exact hE _
  · split
    · rename_i w1
      cases d with
      | u16 d =>
        refine foot_bind' (show Foot _ _ _ _ _ _ (.ret d) from foot_bind' (foot_bytes16 hE fun out hl => ?_))
        exact foot_write h hs hE trivial (fun x h1 h2 h3 => hw x h1 (by simp [bytesIn, w1, Src.len] at h2 ⊢; omega) h3) hq
      | _ => exact hE _
    · split
      · rename_i w1
        cases d with
        | u32 d =>
          refine foot_bind' (show Foot _ _ _ _ _ _ (.ret d) from foot_bind' (foot_bytes32 hE fun out hl => ?_))
          exact foot_write h hs hE trivial (fun x h1 h2 h3 => hw x h1 (by simp [bytesIn, w1, Src.len] at h2 ⊢; omega) h3) hq
        | _ => exact hE _
      · split
        · rename_i w1
          cases d with
          | u64 d =>
            refine foot_bind' (show Foot _ _ _ _ _ _ (.ret d) from foot_bind' (foot_bytes64 hE fun out hl => ?_))
            exact foot_write h hs hE trivial (fun x h1 h2 h3 => hw x h1 (by simp [bytesIn, w1, Src.len] at h2 ⊢; omega) h3) hq
          | _ => exact hE _
        · exact hE _

/-! ## `ReadComplex` -/

/-- At the `i`th element of size `k`, in a slice that starts at byte `o` of the content. -/
theorem elem_slice {c : Nat} {i k : Int64} (hc : c < 2 ^ 50) (hi : 0 ≤ i.toInt) (hk : 0 < k.toInt ∧ k.toInt ≤ 8) (inv : i.toInt * k.toInt ≤ c) :
    (i * k).toInt = i.toInt * k.toInt ∧ ((i + 1) * k).toInt = i.toInt * k.toInt + k.toInt ∧ (i + 1).toInt = i.toInt + 1 := by
  have p : i.toInt * 1 ≤ i.toInt * k.toInt := Int.mul_le_mul_of_nonneg_left (by omega) hi
  have e : (i + 1).toInt = i.toInt + 1 := by
    rw [toInt_add]; have : (1 : Int64).toInt = 1 := rfl; omega
  refine ⟨?_, ?_, e⟩
  · rw [toInt_mul]; omega
  · rw [toInt_mul, e, Int.add_mul, Int.one_mul]; omega

theorem foot_elems {o n k : Int64} {t : Slice} {load : Slice → Prog α} {Q : Buf → Bool → List α → Prop} {out : List α} (hc : b.buf.cap < 2 ^ 50)
    (hE : ∀ l, E l) (hk : 0 < k.toInt ∧ k.toInt ≤ 8) (h0 : 0 ≤ o.toInt) (t1 : t.arr = b.buf.arr) (t2 : t.off = b.buf.off + o.toInt.toNat) (t4 : t.cap ≤ b.buf.cap)
    (hr : ∀ x : Nat, o.toInt ≤ x → x < o.toInt + n.toInt * k.toInt → R (.byte b.buf.arr (b.buf.off + x)))
    (hl : ∀ (u : Slice) (Q : Buf → Bool → α → Prop), u.len = k.toInt → (∀ j : Nat, j < k.toInt → R (.byte u.arr (u.off + j))) → (∀ v, Q b l v) →
      Foot R W E Q b l (load u))
    (hq : ∀ out, Q b l out) : Foot R W E Q b l (Prog.forLoop (fun i idata => do
      let u ← Prog.reslice t (i * k) ((i + 1) * k)
      let v ← load u
      Prog.setIdx idata i v) n 0 out) := by
  refine foot_forLoop (fun i _ => 0 ≤ i.toInt ∧ i.toInt * k.toInt ≤ t.cap) (fun i out g hn => ?_) (fun _ out _ => hq out) 0 out ⟨by decide, by
    rw [show (0 : Int64).toInt = 0 from rfl]; omega⟩
  obtain ⟨g0, g1⟩ := g
  refine foot_bind' (foot_reslice (hE _) fun k0 k1 k2 u u1 u2 u3 _ => ?_)
  have ⟨e1, e2, e3⟩ := elem_slice (by omega) g0 hk g1
  rw [Int64.lt_iff_toInt_lt] at hn
  have q : (i.toInt + 1) * k.toInt ≤ n.toInt * k.toInt := Int.mul_le_mul_of_nonneg_right (by omega) (by omega)
  rw [Int.add_mul, Int.one_mul] at q
  refine foot_bind' (hl u _ (by omega) (fun j hj => ?_) fun v => foot_setIdx (hE _) fun d' _ => ⟨rfl, rfl, by omega, ?_⟩)
  · have e : u.off + j = b.buf.off + (o.toInt.toNat + (i * k).toInt.toNat + j) := by omega
    rw [u1, t1, e]
    exact hr _ (by omega) (by omega)
  · rw [e3, Int.add_mul, Int.one_mul]; omega

macro "l_foot" hE:term:max hr:term:max : tactic => `(tactic| repeat' (with_reducible refine foot_bind' (foot_loadAt ($hE _) fun _ _ => ⟨$hr _ (by decide), fun _ => ?_⟩)))

theorem foot_loadU16 {o : ByteOrder} (hE : ∀ l, E l) (u : Slice) (Q : Buf → Bool → UInt16 → Prop)
    (hr : ∀ j : Nat, j < (2 : Int64).toInt → R (.byte u.arr (u.off + j))) (hq : ∀ v, Q b l v) : Foot R W E Q b l (loadU16 o u) := by
  refine foot_bind' (foot_order (hE _) fun e => ?_)
  l_foot hE hr
  exact hq _

theorem foot_loadU32 {o : ByteOrder} (hE : ∀ l, E l) (u : Slice) (Q : Buf → Bool → UInt32 → Prop)
    (hr : ∀ j : Nat, j < (4 : Int64).toInt → R (.byte u.arr (u.off + j))) (hq : ∀ v, Q b l v) : Foot R W E Q b l (loadU32 o u) := by
  refine foot_bind' (foot_order (hE _) fun e => ?_)
  l_foot hE hr
  exact hq _

theorem foot_loadU64 {o : ByteOrder} (hE : ∀ l, E l) (u : Slice) (Q : Buf → Bool → UInt64 → Prop)
    (hr : ∀ j : Nat, j < (8 : Int64).toInt → R (.byte u.arr (u.off + j))) (hq : ∀ v, Q b l v) : Foot R W E Q b l (loadU64 o u) := by
  refine foot_bind' (foot_order (hE _) fun e => ?_)
  l_foot hE hr
  exact hq _

theorem foot_readComplex {o n w : Int64} {e : ByteOrder} {Q : Buf → Bool → Any → Prop} (h : Base R) (hc : b.buf.cap < 2 ^ 50) (hE : ∀ l, E l)
    (hr : w ≠ Unsigned8 → ∀ x : Nat, o.toInt ≤ x → x < o.toInt + n.toInt * w.toInt → R (.byte b.buf.arr (b.buf.off + x)))
    (hq : l = false → ∀ v, Q b false v) : Foot R W E Q b l (Buffer.readComplex o n w e) := by
  refine foot_bind' (foot_read h hE fun h0 hl t t1 t2 t4 => ?_)
  split
  · exact hq hl _
  · rename_i w8
    have hr := hr w8
    split
    · rename_i w1
      subst w1
      exact foot_bind' (foot_makeTyped (hE _) fun out => foot_bind' (foot_elems hc hE (by decide) h0 t1 t2 t4 hr
        (fun u Q _ hr hq => foot_loadU16 hE u Q hr hq) fun out => hq hl _))
    · split
      · rename_i w1
        subst w1
        exact foot_bind' (foot_makeTyped (hE _) fun out => foot_bind' (foot_elems hc hE (by decide) h0 t1 t2 t4 hr
          (fun u Q _ hr hq => foot_loadU32 hE u Q hr hq) fun out => hq hl _))
      · split
        · rename_i w1
          subst w1
          exact foot_bind' (foot_makeTyped (hE _) fun out => foot_bind' (foot_elems hc hE (by decide) h0 t1 t2 t4 hr
            (fun u Q _ hr hq => foot_loadU64 hE u Q hr hq) fun out => hq hl _))
        · exact hE _

end

end Crunch.V1
