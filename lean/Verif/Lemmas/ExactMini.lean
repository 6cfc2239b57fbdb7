import Verif.Lemmas.ExactRace
import Verif.Lemmas.V1MiniStep

/-! What calls with positions on the v2 and v1 `MiniBuffer`s do to the bytes they are about, and how their results depend on them, on the reference machines. -/

namespace Crunch.V2
open Spec
open V3 (St Buf WF bits8 length_poke put_changes patch_changes)

variable {r r' : Ref.Ref} {u : Ref.Val} {x : Nat}

/-- The byte is among those. -/
def In (p : Int × Int) (x : Nat) : Prop := p.1 ≤ x ∧ (x : Int) < p.2

theorem miniCopy_changes {i : Int} {bs bs' : List UInt8} (hok : (Ref.miniCopy i bs r).1 = .ok u) (hbs : bs'.length = bs.length) (hl : r'.data.length = r.data.length)
    (h1 : i ≤ x) (h2 : (x : Int) < i + bs.length) : ∃ v, (Ref.miniCopy i bs' (r'.poke x v)).2.data[x]? ≠ some v := by
  unfold Ref.miniCopy at hok
  split at hok
  · cases hok
  · rename_i h
    simp only at hok
    split at hok
    · rename_i h3
      have ht : (bs'.take (r'.data.length - i.toNat)).length = bs.length := by rw [List.length_take, hbs]; omega
      obtain ⟨v, hv⟩ := patch_changes (l := r'.data) (x := x) (o := i.toNat) (bs := bs'.take (r'.data.length - i.toNat)) (by omega) (by omega) (by omega)
      refine ⟨v, ?_⟩
      have h' : ¬ (bs' = [] ∨ i < 0 ∨ (r.data.length : Int) ≤ i) := fun h' => h (h'.imp (fun e => by rw [e] at hbs; exact List.length_eq_zero_iff.mp hbs.symm) id)
      unfold Ref.miniCopy
      rw [length_poke hl, if_neg h', ← hl]
      exact hv
    · cases hok

/-- `ReadBits` returns the last 64 bits it reads; the bits it reads and does not return are not looked for here. -/
def readable : Op2 → Prop
  | .readBits _ n => n.toInt ≤ 64
  | _ => True

/-- The bit position is not negative. -/
def bitsFromStart : Op2 → Prop
  | .readBit (some p) | .setBit (some p) _ | .flipBit (some p) | .readBits (some p) _ | .setBits (some p) _ _ => 0 ≤ p.toInt
  | _ => True

/-- The source lies outside the buffer. -/
def Op2.Foreign (u : Slice) : Op2 → Prop
  | .writeBytes _ src => V3.Apart src u
  | _ => True

/-- A call on a `MiniBuffer` that changes bytes can change each byte it is about. -/
theorem miniStep2_changes {s t : St} {b : Buf} {op : Op2} {a : Nat} {as : List Nat} (hs : Shape s t) (hp : placedMini op = true) (hc : alters op .bytes = true) (hv : op.Valid s.mem)
    (h0 : bitsFromStart op) (hok : (Ref.miniStep2 a as (lower s op) r).1 = .ok u) (hl : r'.data.length = r.data.length) (hx : In (bytesOfMini b op) x) (hb : x < r.data.length) :
    ∃ v, (Ref.miniStep2 a as (lower t op) (r'.poke x v)).2.data[x]? ≠ some v := by
  match op with
  | .write k e (some p) d => exact V3.miniStep_changes (op := .write k.kind e (some p) d) (m := s.mem) (m' := t.mem) (a := a) (as := as) rfl rfl nofun trivial hok hl hx hb
  | .writeBytes (some p) src =>
    have h1 := length_view (h := s.mem) (s := src) hv; have h2 := length_view (hs.slice hv)
    exact miniCopy_changes hok (by rw [length_echo, length_echo, h1, h2]) hl hx.1 (by rw [length_echo, h1]; exact hx.2)
  | .writeByte _ _ =>
    have h1 := hx.1; have h2 := hx.2
    simp only [bytesOfMini] at h1 h2
    omega
  | .setBit (some p) v =>
    simp only [lower] at hok ⊢
    split
    · rename_i hv; rw [if_pos hv] at hok
      exact V3.miniStep_changes (op := .clearBit (some p)) (m := s.mem) (m' := t.mem) (a := a) (as := as) rfl rfl nofun h0 hok hl hx hb
    · rename_i hv; rw [if_neg hv] at hok
      split
      · rename_i hv; rw [if_pos hv] at hok
        exact V3.miniStep_changes (op := .setBit (some p)) (m := s.mem) (m' := t.mem) (a := a) (as := as) rfl rfl nofun h0 hok hl hx hb
      · rename_i hv; rw [if_neg hv] at hok
        exact nomatch hok
  | .flipBit (some p) => exact V3.miniStep_changes (op := .flipBit (some p)) (m := s.mem) (m' := t.mem) (a := a) (as := as) rfl rfl nofun h0 hok hl hx hb
  | .setBits (some p) d n => exact V3.miniStep_changes (op := .setBits (some p) d n) (m := s.mem) (m' := t.mem) (a := a) (as := as) rfl rfl nofun h0 hok hl hx hb
  | .clearAll => exact V3.miniStep_changes (op := .clearAll) (m := s.mem) (m' := t.mem) (a := a) (as := as) rfl rfl nofun trivial hok hl hx hb
  | .setAll => exact V3.miniStep_changes (op := .setAll) (m := s.mem) (m' := t.mem) (a := a) (as := as) rfl rfl nofun trivial hok hl hx hb
  | .flipAll => exact V3.miniStep_changes (op := .flipAll) (m := s.mem) (m' := t.mem) (a := a) (as := as) rfl rfl nofun trivial hok hl hx hb

/-- The result of a call that reads bytes depends on each byte it is about, and is not a slice of the content. -/
theorem miniStep2_decides {s t : St} {b : Buf} {op : Op2} {a : Nat} {as : List Nat} (hp : placedMini op = true) (hc : alters op .bytes = false)
    (hr : readable op) (h0 : bitsFromStart op) (hok : (Ref.miniStep2 a as (lower s op) r).1 = .ok u) (hl : r'.data.length = r.data.length) (hx : In (bytesOfMini b op) x) :
    (∃ v v', (Ref.miniStep2 a as (lower t op) (r'.poke x v)).1 ≠ (Ref.miniStep2 a as (lower t op) (r'.poke x v')).1) ∧
    ∀ t r l, (Ref.miniStep2 a as (lower t op) r).1 ≠ .ok (.bytes l) := by
  match op with
  | .read k e (some p) n =>
    exact ⟨V3.miniStep_decides (op := .read k.kind e (some p) n) (m := s.mem) (m' := t.mem) (a := a) (as := as) rfl rfl trivial trivial hok hl hx,
      fun t r l => V3.miniStep_not_bytes (op := .read k.kind e (some p) n) (m := t.mem) (a := a) (as := as) rfl rfl hx l⟩
  | .readBit (some p) =>
    exact ⟨V3.miniStep_decides (op := .readBit (some p)) (m := s.mem) (m' := t.mem) (a := a) (as := as) rfl rfl trivial h0 hok hl hx,
      fun t r l => V3.miniStep_not_bytes (op := .readBit (some p)) (m := t.mem) (a := a) (as := as) rfl rfl hx l⟩
  | .readBits (some p) n =>
    exact ⟨V3.miniStep_decides (op := .readBits (some p) n) (m := s.mem) (m' := t.mem) (a := a) (as := as) rfl rfl hr h0 hok hl hx,
      fun t r l => V3.miniStep_not_bytes (op := .readBits (some p) n) (m := t.mem) (a := a) (as := as) rfl rfl hx l⟩
  | .readByte _ | .readBytes _ _ | .seek _ _ | .seekBit _ _ | .after _ | .afterBit _ | .alignByte | .alignBit | .grow _
  | .refresh | .reset | .bytes | .capacity | .bitCapacity | .offset | .bitOffset =>
    have h1 := hx.1; have h2 := hx.2
    simp only [bytesOfMini] at h1 h2
    omega

theorem view_write {s t : St} (h : Shape s t) (w : WF s) {src : Slice} (hv : SliceOK s.mem src) (hf : V3.Apart src s.b.buf) (hx : x < s.b.buf.len) (v : UInt8) :
    (t.write x [v]).mem.view src = t.mem.view src := by
  have h1 := h.slice hv
  have h2 := w.ok.len_le
  have h3 := h1.len_le
  have h4 : t.b.buf.off + x + [v].length ≤ (t.mem.array t.b.buf.arr).length := by
    have := (h.wf w).ok.fits
    rw [h.b] at this ⊢
    rw [List.length_singleton]; omega
  refine view_blit_disj h4 ?_
  rw [h.b, List.length_singleton]
  unfold V3.Apart at hf
  omega

theorem lower_write {s t : St} (h : Shape s t) (w : WF s) {op : Op2} (hp : placedMini op = true) (hv : op.Valid s.mem) (hf : op.Foreign s.b.buf) (hx : x < s.b.buf.len)
    (v : UInt8) : lower (t.write x [v]) op = lower t op := by
  cases op with
  | writeBytes p src =>
    simp only [lower]
    rw [view_write h w hv hf hx v]
    rfl
  | grow n => exact nomatch hp
  | _ => rfl

theorem Op2.Valid.shape {s t : St} (h : Shape s t) {op : Op2} (hv : op.Valid s.mem) : op.Valid t.mem := by
  cases op with
  | writeBytes p src => exact h.slice hv
  | _ => exact hv

end Crunch.V2

namespace Crunch.V1
open Spec
open V3 (St Buf WF length_poke elements_decide)
open V2 (In miniCopy_changes length_echo view_write)

variable {r r' : Ref.Ref} {u : Ref.Val} {x : Nat}

/-- The bytes of the content a call with a position matters for: as `bytesOfMini1`, and those of `ReadComplex`. -/
def aboutMini1 (b : Buf) : Op1 → Int × Int
  | .readComplex p n w e => complexOf b (.readComplex p n w e)
  | op => bytesOfMini1 b op

def readable1 : Op1 → Prop
  | .readBits _ n => n.toInt ≤ 64
  | _ => True

def bitsFromStart1 : Op1 → Prop
  | .readBit (some p) | .setBit (some p) _ | .flipBit (some p) | .readBits (some p) _ | .setBits (some p) _ _ => 0 ≤ p.toInt
  | _ => True

def Op1.Foreign (u : Slice) : Op1 → Prop
  | .writeBytes _ src => V3.Apart src u
  | .writeComplex _ (.bytes src) _ _ => V3.Apart src u
  | _ => True

theorem bytesOf_length {s t : St} (hs : Shape s t) {d : Any} (hv : d.Valid s.mem) {o : Int} {w : Int64} {e : ByteOrder} {bs : List UInt8}
    (h : Ref.bytesOf o (argOf s d) w.toInt e = .ok bs) :
    (bs.length : Int) = bytesIn d w ∧ ∃ bs', Ref.bytesOf o (argOf t d) w.toInt e = .ok bs' ∧ bs'.length = bs.length := by
  have hw : ∀ k : Int64, w.toInt = k.toInt ↔ w = k := fun k => Int64.toInt_inj
  have h1 : w.toInt = 1 ↔ w = Unsigned8 := hw 1
  have h2 : w.toInt = 2 ↔ w = Unsigned16 := hw 2
  have h4 : w.toInt = 4 ↔ w = Unsigned32 := hw 4
  have h8 : w.toInt = 8 ↔ w = Unsigned64 := hw 8
  unfold Ref.bytesOf at h ⊢
  split at h
  · rename_i hw
    rw [if_pos hw]
    cases d with
    | bytes src =>
      simp only [argOf, Res.ok.injEq] at h ⊢
      subst h
      have := length_view (h := s.mem) (s := src) hv; have h' := length_view (hs.slice (u := src) hv)
      refine ⟨?_, _, rfl, ?_⟩
      · rw [length_echo, this]; simp only [bytesIn]; rw [if_pos (h1.mp hw)]
      · rw [length_echo, length_echo, this, h']
    | _ => exact nomatch h
  · rename_i hw
    rw [if_neg hw]
    split at h
    · rename_i hw2
      rw [if_pos hw2]
      cases d with
      | bytes src => exact nomatch h
      | other => exact nomatch h
      | u16 l | u32 l | u64 l =>
        simp only [argOf] at h ⊢
        split at h
        · exact nomatch h
        · rename_i hw3
          rw [if_neg hw3]
          refine ⟨?_, bs, h, rfl⟩
          have hk : (bs.length : Int) = l.length * w.toInt := by
            split at h
            · cases h
              rw [V3.length_enc', List.length_map, ← Decidable.not_not.mp hw3, Int.natCast_mul]
            · split at h
              · rename_i hl
                cases h
                have : l.length = 0 := by rw [← List.length_map (f := (·.toNat)), hl]; rfl
                rw [this]; simp
              · exact nomatch h
          rw [hk]
          simp only [bytesIn]
          rw [if_pos (by first | exact h2.mp (by omega) | exact h4.mp (by omega) | exact h8.mp (by omega)), ← Decidable.not_not.mp hw3]
          rfl
    · exact nomatch h

theorem miniStep1_changes {s t : St} {b : Buf} {op : Op1} {a : Nat} (hs : Shape s t) (hp : placedMini1 op = true) (hc : alters1 op .bytes = true) (hv : op.Valid s.mem)
    (h0 : bitsFromStart1 op) (hok : (Ref.miniStep1 a (lower1 s op) r).1 = .ok u) (hl : r'.data.length = r.data.length) (hx : In (aboutMini1 b op) x) (hb : x < r.data.length) :
    ∃ v, (Ref.miniStep1 a (lower1 t op) (r'.poke x v)).2.data[x]? ≠ some v := by
  have ne : ∀ v, (r'.poke x v).data ≠ [] := fun v h => by have := length_poke hl x v; rw [h, List.length_nil] at this; omega
  have ne' : r.data ≠ [] := fun h => by rw [h, List.length_nil] at hb; omega
  have base : ∀ op2, toV2 op = some op2 → placedMini1 op = V2.placedMini op2 → V2.alters op2 .bytes = true → op2.Valid s.mem → V2.bitsFromStart op2 → In (V2.bytesOfMini b op2) x →
      lower1 s op = .base (V2.lower s op2) → lower1 t op = .base (V2.lower t op2) → Ref.idle a (V2.lower s op2) r = none →
      (∀ v, Ref.idle a (V2.lower t op2) (r'.poke x v) = none) → ∃ v, (Ref.miniStep1 a (lower1 t op) (r'.poke x v)).2.data[x]? ≠ some v := by
    intro op2 _ e1 e2 e3 e4 e5 l1 l2 i1 i2
    rw [l1] at hok
    simp only [Ref.miniStep1, i1, Option.getD_none] at hok
    obtain ⟨v, k⟩ := V2.miniStep2_changes (t := t) hs (e1 ▸ hp) e2 e3 e4 hok hl e5 hb
    refine ⟨v, ?_⟩
    rw [l2]
    simp only [Ref.miniStep1, i2, Option.getD_none]
    exact k
  match op with
  | .writeComplex (some p) d w e =>
    have hok : (Ref.miniWriteComplex p.toInt (argOf s d) w.toInt e r).1 = .ok u := hok
    unfold Ref.miniWriteComplex at hok
    split at hok
    · rename_i bs hbs
      obtain ⟨k1, bs', k2, k3⟩ := bytesOf_length hs hv hbs
      obtain ⟨v, k⟩ := miniCopy_changes (bs' := bs') hok k3 hl hx.1 (by rw [k1]; exact hx.2)
      refine ⟨v, ?_⟩
      show (Ref.miniWriteComplex p.toInt (argOf t d) w.toInt e (r'.poke x v)).2.data[x]? ≠ _
      unfold Ref.miniWriteComplex
      rw [k2]
      exact k
    · exact nomatch hok
  | .writeBytes (some p) src => exact base (.writeBytes (some p) src) rfl rfl rfl hv trivial hx rfl rfl rfl fun _ => rfl
  | .writeByte _ _ =>
    have h1 := hx.1; have h2 := hx.2
    simp only [aboutMini1, bytesOfMini1] at h1 h2
    omega
  | .setBit (some p) v =>
    refine base (.setBit (some p) v) rfl rfl rfl trivial h0 hx rfl rfl ?_ fun _ => ?_
    all_goals
      simp only [V2.lower]
      split
      · rfl
      · split <;> rfl
  | .flipBit (some p) => exact base (.flipBit (some p)) rfl rfl rfl trivial h0 hx rfl rfl rfl fun _ => rfl
  | .setBits (some p) d n =>
    by_cases hn : n.toInt ≤ 0
    · have h1 := hx.1; have h2 := hx.2
      simp only [aboutMini1, bytesOfMini1, if_pos hn] at h1 h2
      omega
    · refine base (.setBits (some p) d n) rfl rfl rfl trivial h0 ?_ rfl rfl (if_neg hn) fun _ => if_neg hn
      unfold In at hx ⊢
      simp only [aboutMini1, bytesOfMini1, if_neg hn, V2.bytesOfMini] at hx ⊢
      rwa [show max 1 n.toInt = n.toInt by omega]
  | .clearAll => exact base .clearAll rfl rfl rfl trivial trivial hx rfl rfl (if_neg ne') fun v => if_neg (ne v)
  | .setAll => exact base .setAll rfl rfl rfl trivial trivial hx rfl rfl (if_neg ne') fun v => if_neg (ne v)
  | .flipAll => exact base .flipAll rfl rfl rfl trivial trivial hx rfl rfl (if_neg ne') fun v => if_neg (ne v)

theorem miniReadComplex_decides {i n : Int} {w : Int64} {e : Option Endian} (hw : w ≠ Unsigned8) (hok : (Ref.miniReadComplex i n w.toInt e r).1 = .ok u)
    (hl : r'.data.length = r.data.length) (hp : r'.spare.length = r.spare.length) (h1 : i ≤ x) (h2 : (x : Int) < i + n * w.toInt) (hb : x < r.data.length) :
    (Ref.miniReadComplex i n w.toInt e (r'.poke x 0)).1 ≠ (Ref.miniReadComplex i n w.toInt e (r'.poke x 1)).1 := by
  have hw1 : w.toInt ≠ 1 := fun h => hw (Int64.toInt_inj.mp h)
  unfold Ref.miniReadComplex Ref.miniReadBytes at hok
  split at hok
  · rename_i hi
    simp only [Ref.complexOf, if_neg hw1] at hok
    split at hok
    · rename_i hk
      unfold Ref.decodeInts at hok
      split at hok
      · exact nomatch hok
      · rename_i hm
        split at hok
        · rename_i hz
          have hz : n = 0 := by omega
          rw [hz] at h2
          omega
        · rename_i hz
          cases e with
          | none => simp only at hok; split at hok <;> exact nomatch hok
          | some e =>
            simp only at hok
            split at hok
            · rename_i hf
              have hf' : ∀ v, i.toNat + n.toNat * w.toInt.toNat ≤ (r'.poke x v).data.length + (r'.poke x v).spare.length := fun v => by
                rw [length_poke hl]; show _ ≤ _ + r'.spare.length; omega
              have hi' : ∀ v, 0 ≤ i ∧ 0 ≤ n ∧ i + n ≤ ((r'.poke x v).data.length + (r'.poke x v).spare.length : Nat) := fun v => by
                refine ⟨hi.1, hi.2.1, ?_⟩
                rw [length_poke hl]; show _ ≤ ((_ + r'.spare.length : Nat) : Int); omega
              have val : ∀ v, (Ref.miniReadComplex i n w.toInt (some e) (r'.poke x v)).1 =
                  .ok (.nums ((List.range n.toNat).map fun k => decode e (slice ((r'.data ++ r'.spare).set x v) (i.toNat + k * w.toInt.toNat) w.toInt.toNat))) := fun v => by
                unfold Ref.miniReadComplex Ref.miniReadBytes
                rw [if_pos (hi' v)]
                simp only [Ref.complexOf, if_neg hw1, if_pos hk]
                unfold Ref.decodeInts
                rw [if_neg hm, if_neg hz]
                simp only
                rw [if_pos (hf' v), List.set_append_left _ _ (by omega)]
                rfl
              rw [val, val]
              intro hn
              have hc : ((n.toNat * w.toInt.toNat : Nat) : Int) = n * w.toInt := by rw [Int.natCast_mul]; congr 1 <;> omega
              refine elements_decide e [] (l := r'.data ++ r'.spare) (x := x) (o := i.toNat) (n := n.toNat) (w := w.toInt.toNat) (by omega) (by omega) ?_ ?_
              · rw [List.length_append]; omega
              · rw [List.append_nil, List.append_nil]
                exact Ref.Val.nums.inj (Res.ok.inj hn)
            · exact nomatch hok
    · exact nomatch hok
  · exact nomatch hok

theorem miniReadComplex_not_bytes {i n : Int} {w : Int64} {e : Option Endian} (hw : w ≠ Unsigned8) (r : Ref.Ref) (l : List UInt8) :
    (Ref.miniReadComplex i n w.toInt e r).1 ≠ .ok (.bytes l) := by
  have hw1 : w.toInt ≠ 1 := fun h => hw (Int64.toInt_inj.mp h)
  unfold Ref.miniReadComplex Ref.miniReadBytes
  split
  · simp only [Ref.complexOf, if_neg hw1]
    split
    · unfold Ref.decodeInts
      split
      · nofun
      · split
        · nofun
        · split <;> split <;> nofun
    · nofun
  · nofun

theorem miniStep1_decides {s t : St} {b : Buf} {op : Op1} {a : Nat} (hp : placedMini1 op = true) (hc : alters1 op .bytes = false)
    (hr : readable1 op) (h0 : bitsFromStart1 op) (hok : (Ref.miniStep1 a (lower1 s op) r).1 = .ok u) (hl : r'.data.length = r.data.length) (hl' : r'.spare.length = r.spare.length)
    (hx : In (aboutMini1 b op) x) (hb : x < r.data.length) :
    (∃ v v', (Ref.miniStep1 a (lower1 t op) (r'.poke x v)).1 ≠ (Ref.miniStep1 a (lower1 t op) (r'.poke x v')).1) ∧
    ∀ t r l, (Ref.miniStep1 a (lower1 t op) r).1 ≠ .ok (.bytes l) := by
  have base : ∀ op2, placedMini1 op = V2.placedMini op2 → V2.alters op2 .bytes = false → V2.readable op2 → V2.bitsFromStart op2 → In (V2.bytesOfMini b op2) x →
      (∀ s, lower1 s op = .base (V2.lower s op2)) → (∀ s r, Ref.idle a (V2.lower s op2) r = none) →
      (∃ v v', (Ref.miniStep1 a (lower1 t op) (r'.poke x v)).1 ≠ (Ref.miniStep1 a (lower1 t op) (r'.poke x v')).1) ∧
      ∀ t r l, (Ref.miniStep1 a (lower1 t op) r).1 ≠ .ok (.bytes l) := by
    intro op2 e1 e2 e3 e4 e5 l1 i1
    rw [l1] at hok
    simp only [Ref.miniStep1, i1, Option.getD_none] at hok
    obtain ⟨k1, k2⟩ := V2.miniStep2_decides (t := t) (e1 ▸ hp) e2 e3 e4 hok hl e5
    simp only [l1, Ref.miniStep1, i1, Option.getD_none]
    exact ⟨k1, k2⟩
  match op with
  | .readComplex (some p) n w e =>
    have hw : w ≠ Unsigned8 := fun h => by
      have h1 := hx.1; have h2 := hx.2
      simp only [aboutMini1, complexOf, if_pos h] at h1 h2
      omega
    unfold In at hx
    simp only [aboutMini1, complexOf, if_neg hw] at hx
    exact ⟨⟨_, _, miniReadComplex_decides hw hok hl hl' hx.1 hx.2 hb⟩, fun t r l => miniReadComplex_not_bytes hw r l⟩
  | .readBit (some p) => exact base (.readBit (some p)) rfl rfl trivial h0 hx (fun _ => rfl) fun _ _ => rfl
  | .readBits (some p) n =>
    by_cases hn : n.toInt ≤ 0
    · have h1 := hx.1; have h2 := hx.2
      simp only [aboutMini1, bytesOfMini1, if_pos hn] at h1 h2
      omega
    · refine base (.readBits (some p) n) rfl rfl hr h0 ?_ (fun _ => rfl) fun _ _ => if_neg hn
      unfold In at hx ⊢
      simp only [aboutMini1, bytesOfMini1, if_neg hn, V2.bytesOfMini] at hx ⊢
      rwa [show max 1 n.toInt = n.toInt by omega]
  | .readByte _ | .readBytes _ _ | .seek _ _ | .seekBit _ _ | .after _ | .afterBit _ | .alignByte | .alignBit | .grow _
  | .refresh | .bytes | .capacity | .bitCapacity | .offset | .bitOffset =>
    have h1 := hx.1; have h2 := hx.2
    simp only [aboutMini1, bytesOfMini1] at h1 h2
    omega

theorem lower1_write {s t : St} (h : Shape s t) (w : WF s) {op : Op1} (hp : placedMini1 op = true) (hv : op.Valid s.mem) (hf : op.Foreign s.b.buf) (hx : x < s.b.buf.len)
    (v : UInt8) : lower1 (t.write x [v]) op = lower1 t op := by
  cases op with
  | writeComplex p d w' e =>
    cases d with
    | bytes src =>
      simp only [lower1, argOf]
      rw [view_write h w hv hf hx v]
      rfl
    | _ => rfl
  | writeBytes p src =>
    simp only [lower1, toV2, V2.lower]
    rw [view_write h w hv hf hx v]
    rfl
  | grow n => exact nomatch hp
  | _ => rfl

theorem Op1.Valid.shape {s t : St} (h : Shape s t) {op : Op1} (hv : op.Valid s.mem) : op.Valid t.mem := by
  cases op with
  | writeBytes p src => exact h.slice hv
  | writeComplex p d w e =>
    cases d with
    | bytes src => exact h.slice hv
    | _ => exact hv
  | _ => exact hv

end Crunch.V1
