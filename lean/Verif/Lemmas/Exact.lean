import Verif.Lemmas.MiniStep
import Verif.UnlockedFoot
import Verif.Props.Bits

/-! What calls with positions do to the bytes they are about, and how their results depend on them, on the reference machines. -/

namespace Crunch.V3
open Spec
open Ref (count digit withBits withBitsAt bitAt)

variable {l l' : List UInt8} {x o j w n : Nat} {v v' : UInt8}

theorem patch_changes {bs : List UInt8} (h : o + bs.length ≤ l.length) (h1 : o ≤ x) (h2 : x < o + bs.length) :
    ∃ v, (patch (l.set x v) o bs)[x]? ≠ some v := by
  have e : ∀ v, (patch (l.set x v) o bs)[x]? = bs[x - o]? := fun v => by
    rw [getElem?_patch (by rw [List.length_set]; exact h), if_pos ⟨h1, h2⟩]
  simp only [e]
  by_cases hb : bs[x - o]? = some 0
  · exact ⟨1, by rw [hb]; decide⟩
  · exact ⟨0, hb⟩

theorem bit_poke (hx : x < l.length) (hj : j / 8 = x) : bit (l.set x v) j = v.toNat.testBit (7 - j % 8) := by
  unfold bit
  rw [hj, List.getElem?_set_self hx]

/-- A byte all of whose bits are `b`. -/
def bits8 (b : Bool) : UInt8 := if b then 255 else 0

theorem testBit_bits8 (b : Bool) (j : Nat) : (bits8 b).toNat.testBit (7 - j % 8) = b := by
  have h : ∀ i, i < 8 → (bits8 b).toNat.testBit (7 - i) = b := by cases b <;> decide
  exact h _ (Nat.mod_lt _ (by decide))

theorem bit_bits8 (hx : x < l.length) (hj : j / 8 = x) (b : Bool) : bit (l.set x (bits8 b)) j = b := by
  rw [bit_poke hx hj, testBit_bits8]

/-- A byte one of whose bits becomes another one is changed. -/
theorem bit_changes {b : Bool} (hj : j / 8 = x) (h : bit l' j = !b) : l'[x]? ≠ some (bits8 b) := by
  intro e
  have : bit l' j = b := by
    unfold bit
    rw [hj, e]
    exact testBit_bits8 b j
  rw [this] at h
  cases b <;> exact nomatch h

theorem withBits_changes {f : List UInt8 → Nat → Bool} {b : Bool} (hx : x < l.length) (h1 : o ≤ j) (h2 : j < o + n) (hj : j / 8 = x)
    (hf : f (l.set x (bits8 b)) (j - o) = !b) : ∃ v, (withBits (l.set x v) o (f (l.set x v)) n)[x]? ≠ some v := by
  refine ⟨bits8 b, bit_changes hj ?_⟩
  unfold withBits
  rw [bit_ofBits (by rw [List.length_set]; omega), if_pos ⟨h1, h2⟩, hf]

/-- A bit of byte `x` among the bits `o … o+n-1`. -/
theorem bit_of_byte (h1 : o / 8 ≤ x) (h2 : x < (o + n - 1) / 8 + 1) (hn : 0 < n) : ∃ j, o ≤ j ∧ j < o + n ∧ j / 8 = x := by
  by_cases h : o ≤ 8 * x
  · exact ⟨8 * x, h, by omega, by omega⟩
  · exact ⟨o, Nat.le_refl _, by omega, by omega⟩

theorem map_changes (f : UInt8 → UInt8) (v : UInt8) (hf : f v ≠ v) (hx : x < l.length) : ((l.set x v).map f)[x]? ≠ some v := by
  rw [List.getElem?_map, List.getElem?_set_self hx]
  exact fun h => hf (Option.some.inj h)

theorem slice_decides (e : Endian) (h1 : o ≤ x) (h2 : x < o + w) (hw : o + w ≤ l.length) :
    decode e (slice (l.set x 0) o w) ≠ decode e (slice (l.set x 1) o w) := by
  intro h
  have len : ∀ v, (slice (l.set x v) o w).length = w := fun v => by
    unfold slice
    rw [List.length_take, List.length_drop, List.length_set]; omega
  have h3 := encode_decode e (slice (l.set x 0) o w)
  rw [h, len 0] at h3
  have h4 := encode_decode e (slice (l.set x 1) o w)
  rw [len 1, h3] at h4
  have := congrArg (·[x - o]?) h4
  simp only [getElem?_slice (show x - o < w by omega), show o + (x - o) = x by omega, List.getElem?_set_self (show x < l.length by omega)] at this
  exact nomatch this

theorem elements_decide (e : Endian) (rest : List Nat) (h1 : o ≤ x) (h2 : x < o + n * w) (hw : o + n * w ≤ l.length) :
    ((List.range n).map fun i => decode e (slice (l.set x 0) (o + i * w) w)) ++ rest ≠
      ((List.range n).map fun i => decode e (slice (l.set x 1) (o + i * w) w)) ++ rest := by
  intro h
  have w0 : 0 < w := by
    rcases Nat.eq_zero_or_pos w with h0 | h0
    · rw [h0] at h2; omega
    · exact h0
  have h := List.append_cancel_right h
  have hi : (x - o) / w < n := (Nat.div_lt_iff_lt_mul w0).2 (by omega)
  have := congrArg (·[(x - o) / w]?) h
  simp only [List.getElem?_map, List.getElem?_range hi, Option.map_some, Option.some.injEq] at this
  have d1 := Nat.div_mul_le_self (x - o) w
  have d2 := Nat.lt_div_mul_add w0 (a := x - o)
  have d3 : ((x - o) / w + 1) * w ≤ n * w := Nat.mul_le_mul_right w hi
  rw [Nat.add_mul, Nat.one_mul] at d3
  exact slice_decides e (by omega) (by omega) (by omega) this

theorem field_decides (p : Nat) {f : UInt8 → Nat → Bool} (hn : n ≤ 64) (hj : j < n) (h0 : f (bits8 false) j = false) (h1 : f (bits8 true) j = true) :
    (p * 2 ^ n + binary (f (bits8 false)) n) % 2 ^ 64 ≠ (p * 2 ^ n + binary (f (bits8 true)) n) % 2 ^ 64 := by
  intro h
  have l0 := binary_lt (f (bits8 false)) n
  have l1 := binary_lt (f (bits8 true)) n
  have hp : 2 ^ n ≤ 2 ^ 64 := Nat.pow_le_pow_right (by decide) hn
  have e : binary (f (bits8 false)) n = binary (f (bits8 true)) n := by omega
  have t0 := testBit_binary (f (bits8 false)) n j hj
  have t1 := testBit_binary (f (bits8 true)) n j hj
  rw [e, t1, h0, h1] at t0
  exact nomatch t0

/-! ## the calls -/

/-- The state with byte `x` of the content replaced. -/
def _root_.Crunch.Ref.Ref.poke (r : Ref.Ref) (x : Nat) (v : UInt8) : Ref.Ref := { r with data := r.data.set x v }

/-- The byte is among those the call is about. -/
def About (b : Buf) (op : Op) (x : Nat) : Prop := (bytesOf b op).1 ≤ x ∧ (x : Int) < (bytesOf b op).2

/-- The memories have slices of the same lengths. -/
def SameViews (m m' : Heap) (op : Op) : Prop := ∀ src, sourceOf op = some src → (m.view src).length = src.len ∧ (m'.view src).length = src.len

theorem length_enc' (e : Endian) (w : Nat) (d : List Nat) : (d.flatMap (encode e w)).length = d.length * w := by
  induction d with
  | nil => simp
  | cons a d ih => rw [List.flatMap_cons, List.length_append, length_encode, ih, List.length_cons, Nat.add_mul, Nat.one_mul, Nat.add_comm]

theorem count_toInt (n : Int) : (count n : Int) = max 1 n := by unfold count; omega

variable {r r' : Ref.Ref} {u : Ref.Val}

theorem length_poke (hl : r'.data.length = r.data.length) (x : Nat) (v : UInt8) : (r'.poke x v).data.length = r.data.length := (List.length_set ..).trans hl

theorem put_changes {i : Int} {bs bs' : List UInt8} {fit : Prop} [Decidable fit] {other : Panic} (hok : (Ref.put r i bs fit other).1 = .ok u)
    (hbs : bs'.length = bs.length) (hl : r'.data.length = r.data.length) (h1 : i ≤ x) (h2 : (x : Int) < i + bs.length) :
    ∃ v, (Ref.put (r'.poke x v) i bs' fit other).2.data[x]? ≠ some v := by
  unfold Ref.put at hok
  split at hok
  · rename_i h
    obtain ⟨v, hv⟩ := patch_changes (l := r'.data) (x := x) (o := i.toNat) (bs := bs') (by omega) (by omega) (by omega)
    refine ⟨v, ?_⟩
    unfold Ref.put
    rw [if_pos ⟨h.1, h.2.1, by rw [length_poke hl, hbs]; exact h.2.2⟩]
    exact hv
  · cases hok

theorem putBit_changes {i : Int} {f : Bool → Bool} {b : Bool} (hf : f b = !b) (hok : (Ref.putBit r i f).1 = .ok u) (hl : r'.data.length = r.data.length)
    (h1 : i.tdiv 8 ≤ x) (h2 : (x : Int) < i.tdiv 8 + 1) : ∃ v, (Ref.putBit (r'.poke x v) i f).2.data[x]? ≠ some v := by
  unfold Ref.putBit at hok
  split at hok
  · rename_i h
    rw [Int.tdiv_eq_ediv_of_nonneg h.1] at h1 h2
    obtain ⟨v, hv⟩ := withBits_changes (l := r'.data) (x := x) (o := i.toNat) (j := i.toNat) (n := 1) (b := b) (f := fun l _ => f (bit l i.toNat)) (by omega)
      (Nat.le_refl _) (by omega) (by omega) (by rw [bit_bits8 (by omega) (by omega), hf])
    refine ⟨v, ?_⟩
    unfold Ref.putBit
    rw [if_pos ⟨h.1, by rw [length_poke hl]; exact h.2⟩]
    exact hv
  · cases hok

theorem setBits_changes {i c : Int} {a : Nat} (hok : (Ref.setBits i a c r).1 = .ok u) (hl : r'.data.length = r.data.length)
    (h1 : i.tdiv 8 ≤ x) (h2 : (x : Int) < (i + max 1 c - 1).tdiv 8 + 1) : ∃ v, (Ref.setBits i a c (r'.poke x v)).2.data[x]? ≠ some v := by
  have hn := count_toInt c
  unfold Ref.setBits at hok
  split at hok
  · rename_i h
    rw [Int.tdiv_eq_ediv_of_nonneg h.1] at h1
    rw [Int.tdiv_eq_ediv_of_nonneg (by omega)] at h2
    obtain ⟨j, h3, h4, h5⟩ := bit_of_byte (x := x) (o := i.toNat) (n := count c) (by omega) (by omega) (by omega)
    obtain ⟨v, hv⟩ := withBits_changes (l := r'.data) (x := x) (o := i.toNat) (j := j) (n := count c) (b := !digit a c (j - i.toNat)) (f := fun _ => digit a c)
      (by omega) h3 h4 h5 (Bool.not_not _).symm
    refine ⟨v, ?_⟩
    unfold Ref.setBits
    rw [if_pos ⟨h.1, by rw [length_poke hl]; exact h.2⟩]
    exact hv
  · cases hok

theorem all_changes {f : UInt8 → UInt8} {v : UInt8} (hf : f v ≠ v) (hl : r'.data.length = r.data.length) (hx : x < r.data.length) :
    ∃ v, (Ref.all f (r'.poke x v)).2.data[x]? ≠ some v := by
  refine ⟨v, ?_⟩
  unfold Ref.all
  rw [if_neg fun h => ?_]
  · exact map_changes f v hf (by omega)
  · have := length_poke hl x v
    rw [h] at this
    simp only [List.length_nil] at this
    omega

/-- A call that changes bytes can change each byte it is about. -/
theorem step_changes {b : Buf} {op : Op} {m m' : Heap} (hp : placed op = true) (hc : changes op .bytes = true) (hm : SameViews m m' op)
    (hok : (Ref.step (op.lower m) r).1 = .ok u) (hl : r'.data.length = r.data.length) {x : Nat} (hx : About b op x) (hb : x < r.data.length) :
    ∃ v, (Ref.step (op.lower m') (r'.poke x v)).2.data[x]? ≠ some v := by
  match op with
  | .write k e (some p) d =>
    refine put_changes hok rfl hl hx.1 ?_
    rw [length_enc', List.length_map]
    exact_mod_cast hx.2
  | .writeBytes (some p) src =>
    obtain ⟨h1, h2⟩ := hm src rfl
    exact put_changes hok (h2.trans h1.symm) hl hx.1 (by rw [h1]; exact hx.2)
  | .setBit (some p) => exact putBit_changes (f := fun _ => true) (b := false) rfl hok hl hx.1 hx.2
  | .clearBit (some p) => exact putBit_changes (f := fun _ => false) (b := true) rfl hok hl hx.1 hx.2
  | .flipBit (some p) => exact putBit_changes (f := fun b => !b) (b := true) rfl hok hl hx.1 hx.2
  | .setBits (some p) a n => exact setBits_changes hok hl hx.1 hx.2
  | .clearAll => exact all_changes (f := fun _ => 0) (v := 1) (by decide) hl hb
  | .setAll => exact all_changes (f := fun _ => 0xFF) (v := 0) (by decide) hl hb
  | .flipAll => exact all_changes (f := fun b => ~~~b) (v := 0) (by decide) hl hb

theorem read_decides {i c : Int} {w : Nat} {e : Endian} (hok : (Ref.read w e i c r).1 = .ok u) (hl : r'.data.length = r.data.length)
    (h1 : i ≤ x) (h2 : (x : Int) < i + max 1 c * w) : (Ref.read w e i c (r'.poke x 0)).1 ≠ (Ref.read w e i c (r'.poke x 1)).1 := by
  unfold Ref.read at hok
  split at hok
  · rename_i h
    have e1 : max 1 c = c := by omega
    have e2 : c = c.toNat := by omega
    rw [e1, e2] at h2
    have h3 := h.2.2
    rw [e2] at h3
    unfold Ref.read
    rw [if_pos ⟨h.1, h.2.1, by rw [length_poke hl]; exact h.2.2⟩, if_pos ⟨h.1, h.2.1, by rw [length_poke hl]; exact h.2.2⟩]
    intro hn
    have h4 : x < i.toNat + c.toNat * w := by have : ((c.toNat * w : Nat) : Int) = c.toNat * w := Int.natCast_mul ..; omega
    have h5 : i.toNat + c.toNat * w ≤ r'.data.length := by have : ((c.toNat * w : Nat) : Int) = c.toNat * w := Int.natCast_mul ..; omega
    refine elements_decide e [] (l := r'.data) (by omega) h4 h5 ?_
    rw [List.append_nil, List.append_nil]
    exact Ref.Val.nums.inj (Res.ok.inj hn)
  · cases hok

theorem readByte_decides {i : Int} (hok : (Ref.readByte i r).1 = .ok u) (hl : r'.data.length = r.data.length) (h1 : i ≤ x) (h2 : (x : Int) < i + 1) :
    (Ref.readByte i (r'.poke x 0)).1 ≠ (Ref.readByte i (r'.poke x 1)).1 := by
  unfold Ref.readByte at hok
  split at hok
  · rename_i h
    unfold Ref.readByte
    rw [if_pos ⟨h.1, by rw [length_poke hl]; exact h.2⟩, if_pos ⟨h.1, by rw [length_poke hl]; exact h.2⟩]
    intro hn
    have hn := Ref.Val.num.inj (Res.ok.inj hn)
    simp only [Ref.Ref.poke, List.getD, show i.toNat = x by omega, List.getElem?_set_self (show x < r'.data.length by omega)] at hn
    exact nomatch hn
  · cases hok

theorem readBit_decides {i : Int} (hok : (Ref.readBit i r).1 = .ok u) (hl : r'.data.length = r.data.length) (h1 : i.tdiv 8 ≤ x) (h2 : (x : Int) < i.tdiv 8 + 1) :
    (Ref.readBit i (r'.poke x (bits8 false))).1 ≠ (Ref.readBit i (r'.poke x (bits8 true))).1 := by
  unfold Ref.readBit at hok
  split at hok
  · rename_i h
    rw [Int.tdiv_eq_ediv_of_nonneg h.1] at h1 h2
    unfold Ref.readBit
    rw [if_pos ⟨h.1, by rw [length_poke hl]; exact h.2⟩, if_pos ⟨h.1, by rw [length_poke hl]; exact h.2⟩]
    intro hn
    have hn := Ref.Val.num.inj (Res.ok.inj hn)
    simp only [Ref.Ref.poke, bit_bits8 (l := r'.data) (x := x) (j := i.toNat) (by omega) (by omega)] at hn
    exact nomatch hn
  · cases hok

theorem readBits_decides {i c : Int} (hc : c ≤ 64) (hok : (Ref.readBits i c r).1 = .ok u) (hl : r'.data.length = r.data.length) (h1 : i.tdiv 8 ≤ x)
    (h2 : (x : Int) < (i + max 1 c - 1).tdiv 8 + 1) :
    (Ref.readBits i c (r'.poke x (bits8 false))).1 ≠ (Ref.readBits i c (r'.poke x (bits8 true))).1 := by
  have hn := count_toInt c
  unfold Ref.readBits at hok
  split at hok
  · rename_i h
    rw [Int.tdiv_eq_ediv_of_nonneg h.1] at h1
    rw [Int.tdiv_eq_ediv_of_nonneg (by omega)] at h2
    obtain ⟨j, h3, h4, h5⟩ := bit_of_byte (x := x) (o := i.toNat) (n := count c) (by omega) (by omega) (by omega)
    unfold Ref.readBits
    rw [if_pos ⟨h.1, by rw [length_poke hl]; exact h.2⟩, if_pos ⟨h.1, by rw [length_poke hl]; exact h.2⟩]
    intro hn
    have hn := Int.ofNat.inj (Ref.Val.num.inj (Res.ok.inj hn))
    have eb : ∀ b, bit (r'.data.set x (bits8 b)) (i.toNat + (j - i.toNat)) = b := fun b => by rw [Nat.add_sub_cancel' h3]; exact bit_bits8 (by omega) h5 b
    refine field_decides 0 (n := count c) (j := j - i.toNat) (f := fun v k => bit (r'.data.set x v) (i.toNat + k)) (by omega) (by omega) (eb _) (eb _) ?_
    rw [Nat.zero_mul, Nat.zero_add, Nat.zero_add]
    exact hn
  · cases hok

/-- `ReadBits` returns the last 64 bits it reads; the bits it reads and does not return are not looked for here. -/
def readable : Op → Prop
  | .readBits _ n => n.toInt ≤ 64
  | _ => True

/-- The result of a call that reads bytes depends on each byte it is about. -/
theorem step_decides {b : Buf} {op : Op} {m m' : Heap} (hp : placed op = true) (hc : changes op .bytes = false) (hr : readable op)
    (hok : (Ref.step (op.lower m) r).1 = .ok u) (hl : r'.data.length = r.data.length) {x : Nat} (hx : About b op x) :
    ∃ v v', (Ref.step (op.lower m') (r'.poke x v)).1 ≠ (Ref.step (op.lower m') (r'.poke x v')).1 := by
  match op with
  | .read k e (some p) n => exact ⟨_, _, read_decides hok hl hx.1 hx.2⟩
  | .readByte (some p) => exact ⟨_, _, readByte_decides hok hl hx.1 hx.2⟩
  | .readBit (some p) => exact ⟨_, _, readBit_decides hok hl hx.1 hx.2⟩
  | .readBits (some p) n => exact ⟨_, _, readBits_decides hr hok hl hx.1 hx.2⟩
  | .readBytes _ _ | .seekByte _ _ | .seekBit _ _ | .afterByte _ | .afterBit _ | .alignByte | .alignBit | .truncateLeft _ | .truncateRight _ | .grow _
  | .refresh | .reset | .bytes | .byteCapacity | .bitCapacity | .byteOffset | .bitOffset =>
    have h1 := hx.1; have h2 := hx.2
    simp only [bytesOf] at h1 h2
    omega

/-- It is not a slice of the content. -/
theorem step_not_bytes {b : Buf} {op : Op} {m : Heap} (hp : placed op = true) (hc : changes op .bytes = false) {x : Nat} (hx : About b op x) (k : List UInt8) :
    (Ref.step (op.lower m) r).1 ≠ .ok (.bytes k) := by
  match op with
  | .read k e (some p) n => simp only [Op.lower, Option.map_some, Ref.step, Ref.read]; split <;> nofun
  | .readByte (some p) => simp only [Op.lower, Option.map_some, Ref.step, Ref.readByte]; split <;> nofun
  | .readBit (some p) => simp only [Op.lower, Option.map_some, Ref.step, Ref.readBit]; split <;> nofun
  | .readBits (some p) n => simp only [Op.lower, Option.map_some, Ref.step, Ref.readBits]; split <;> nofun
  | .readBytes _ _ | .seekByte _ _ | .seekBit _ _ | .afterByte _ | .afterBit _ | .alignByte | .alignBit | .truncateLeft _ | .truncateRight _ | .grow _
  | .refresh | .reset | .bytes | .byteCapacity | .bitCapacity | .byteOffset | .bitOffset =>
    have h1 := hx.1; have h2 := hx.2
    simp only [bytesOf] at h1 h2
    omega

/-! ## the same for `MiniBuffer` -/

/-- The bit position is not negative: a call about the bits from -7 to -1 finds zeros there and does not change them. -/
def bitsFromStart : Op → Prop
  | .readBit (some p) | .setBit (some p) | .clearBit (some p) | .flipBit (some p) | .readBits (some p) _ | .setBits (some p) _ _ => 0 ≤ p.toInt
  | _ => True

theorem miniWrite_changes {i : Int} {w : Nat} {e : Endian} {d : List Nat} (hok : (Ref.miniWrite w e i d r).1 = .ok u) (hl : r'.data.length = r.data.length)
    (h1 : i ≤ x) (h2 : (x : Int) < i + d.length * w) : ∃ v, (Ref.miniWrite w e i d (r'.poke x v)).2.data[x]? ≠ some v := by
  have hw := length_enc' e w d
  unfold Ref.miniWrite at hok
  split at hok
  · cases hok
  · rename_i h
    simp only at hok
    split at hok
    · rename_i h3
      have hc : ((d.length * w : Nat) : Int) = d.length * w := Int.natCast_mul ..
      have ht : ((d.flatMap (encode e w)).take (r'.data.length - i.toNat)).length = d.length * w := by rw [List.length_take, hw]; omega
      obtain ⟨v, hv⟩ := patch_changes (l := r'.data) (x := x) (o := i.toNat) (bs := (d.flatMap (encode e w)).take (r'.data.length - i.toNat)) (by omega) (by omega)
        (by omega)
      refine ⟨v, ?_⟩
      unfold Ref.miniWrite
      rw [length_poke hl, if_neg h, ← hl]
      exact hv
    · cases hok

theorem miniWriteBytes_changes {i : Int} {bs : List UInt8} {bs' : List UInt8} (hok : (Ref.miniWriteBytes i bs r).1 = .ok u) (hbs : bs'.length = bs.length)
    (hl : r'.data.length = r.data.length) (h1 : i ≤ x) (h2 : (x : Int) < i + bs.length) (hx : x < r.data.length) :
    ∃ v, (Ref.miniWriteBytes i bs' (r'.poke x v)).2.data[x]? ≠ some v := by
  unfold Ref.miniWriteBytes at hok
  split at hok
  · rename_i h
    have ht : (bs'.take (r'.data.length - i.toNat)).length = min (r'.data.length - i.toNat) bs.length := by rw [List.length_take, hbs]
    obtain ⟨v, hv⟩ := patch_changes (l := r'.data) (x := x) (o := i.toNat) (bs := bs'.take (r'.data.length - i.toNat)) (by omega) (by omega) (by omega)
    refine ⟨v, ?_⟩
    unfold Ref.miniWriteBytes
    rw [length_poke hl, if_pos h, ← hl]
    exact hv
  · cases hok

theorem miniSetBits_changes {i c : Int} {f : List UInt8 → Nat → Bool} {b : Nat → Bool} (h0 : 0 ≤ i) (hok : (Ref.miniSetBits i (f r.data) (count c) r).1 = .ok u)
    (hl : r'.data.length = r.data.length) (h1 : i.tdiv 8 ≤ x) (h2 : (x : Int) < (i + max 1 c - 1).tdiv 8 + 1)
    (hf : ∀ j, i.toNat ≤ j → j < i.toNat + count c → j / 8 = x → f (r'.data.set x (bits8 (b j))) (j - i.toNat) = !(b j)) :
    ∃ v, (Ref.miniSetBits i (f (r'.poke x v).data) (count c) (r'.poke x v)).2.data[x]? ≠ some v := by
  have hn := count_toInt c
  unfold Ref.miniSetBits at hok
  split at hok
  · rename_i h
    simp only at hok
    split at hok
    · rename_i h6
      rw [Int.tdiv_eq_ediv_of_nonneg h0] at h1
      rw [Int.tdiv_eq_ediv_of_nonneg (by omega)] at h2
      obtain ⟨j, h3, h4, h5⟩ := bit_of_byte (x := x) (o := i.toNat) (n := count c) (by omega) (by omega) (by omega)
      obtain ⟨v, hv⟩ := withBits_changes (l := r'.data) (x := x) (o := i.toNat) (j := j) (n := count c) (b := b j) (f := f) (by omega) h3 h4 h5 (hf j h3 h4 h5)
      refine ⟨v, ?_⟩
      unfold Ref.miniSetBits
      rw [if_pos ⟨h.1, fun hd => by have := length_poke hl x v; rw [hd, List.length_nil] at this; omega⟩]
      simp only [withBitsAt_nonneg _ h0]
      exact hv
    · cases hok
  · cases hok

/-- A call on a `MiniBuffer` that changes bytes can change each byte it is about. -/
theorem miniStep_changes {b : Buf} {op : Op} {m m' : Heap} {a : Nat} {as : List Nat} (hp : placed op = true) (hc : changes op .bytes = true)
    (hm : SameViews m m' op) (h0 : bitsFromStart op) (hok : (Ref.miniStep a as (op.lower m) r).1 = .ok u) (hl : r'.data.length = r.data.length) {x : Nat}
    (hx : About b op x) (hb : x < r.data.length) : ∃ v, (Ref.miniStep a as (op.lower m') (r'.poke x v)).2.data[x]? ≠ some v := by
  have one : count 1 = 1 := rfl
  have h1 := hx.1; have h2 := hx.2
  match op with
  | .write k e (some p) d => exact miniWrite_changes hok hl hx.1 (by rw [List.length_map]; exact hx.2)
  | .writeBytes (some p) src =>
    obtain ⟨h1, h2⟩ := hm src rfl
    exact miniWriteBytes_changes hok (h2.trans h1.symm) hl hx.1 (by rw [h1]; exact hx.2) hb
  | .setBit (some p) =>
    exact miniSetBits_changes (i := p.toInt) (c := 1) (f := fun _ _ => true) (b := fun _ => false) h0 hok hl h1 (by simpa [bytesOf, V2.bitAt] using h2)
      fun _ _ _ _ => rfl
  | .clearBit (some p) =>
    exact miniSetBits_changes (i := p.toInt) (c := 1) (f := fun _ _ => false) (b := fun _ => true) h0 hok hl h1 (by simpa [bytesOf, V2.bitAt] using h2)
      fun _ _ _ _ => rfl
  | .flipBit (some p) =>
    have h0' : 0 ≤ p.toInt := h0
    refine miniSetBits_changes (i := p.toInt) (c := 1) (f := fun l _ => !bitAt l p.toInt) (b := fun _ => true) h0 hok hl h1
      (by simpa [bytesOf, V2.bitAt] using h2) fun j h3 h4 h5 => ?_
    have : j = p.toInt.toNat := by rw [one] at h4; omega
    subst this
    simp only [bitAt, if_pos h0', bit_bits8 (l := r'.data) (by omega) h5]
  | .setBits (some p) a n =>
    exact miniSetBits_changes (i := p.toInt) (c := n.toInt) (f := fun _ => digit a.toNat n.toInt) (b := fun j => !digit a.toNat n.toInt (j - p.toInt.toNat)) h0 hok hl h1 h2
      fun j _ _ _ => (Bool.not_not _).symm
  | .clearAll => exact all_changes (f := fun _ => 0) (v := 1) (by decide) hl hb
  | .setAll => exact all_changes (f := fun _ => 0xFF) (v := 0) (by decide) hl hb
  | .flipAll => exact all_changes (f := fun b => ~~~b) (v := 0) (by decide) hl hb

theorem miniRead_decides {i c : Int} {w : Nat} {e : Endian} {prev : List Nat} (hok : (Ref.miniRead prev w e i c r).1 = .ok u) (hl : r'.data.length = r.data.length)
    (h1 : i ≤ x) (h2 : (x : Int) < i + max 1 c * w) : (Ref.miniRead prev w e i c (r'.poke x 0)).1 ≠ (Ref.miniRead prev w e i c (r'.poke x 1)).1 := by
  have hn := count_toInt c
  unfold Ref.miniRead at hok
  split at hok
  · rename_i h
    rw [← hn] at h2
    unfold Ref.miniRead
    rw [if_pos ⟨h.1, by rw [length_poke hl]; exact h.2.1, h.2.2⟩, if_pos ⟨h.1, by rw [length_poke hl]; exact h.2.1, h.2.2⟩]
    intro hn
    have hc : ((count c * w : Nat) : Int) = count c * w := Int.natCast_mul ..
    exact elements_decide e _ (l := r'.data) (by omega) (by omega) (by omega) (Ref.Val.nums.inj (Res.ok.inj hn))
  · cases hok

theorem miniReadBit_decides {i : Int} (h0 : 0 ≤ i) (hok : (Ref.miniReadBit i r).1 = .ok u) (hl : r'.data.length = r.data.length) (h1 : i.tdiv 8 ≤ x)
    (h2 : (x : Int) < i.tdiv 8 + 1) : (Ref.miniReadBit i (r'.poke x (bits8 false))).1 ≠ (Ref.miniReadBit i (r'.poke x (bits8 true))).1 := by
  unfold Ref.miniReadBit at hok
  split at hok
  · rename_i h
    rw [Int.tdiv_eq_ediv_of_nonneg h0] at h1 h2
    have hs : ∀ v, Ref.startsAt (r'.poke x v) i ∧ i < 8 * (r'.poke x v).data.length := fun v =>
      ⟨⟨h.1.1, fun hd => by have := length_poke hl x v; rw [hd, List.length_nil] at this; omega⟩, by rw [length_poke hl]; exact h.2⟩
    unfold Ref.miniReadBit
    rw [if_pos (hs _), if_pos (hs _)]
    intro hn
    have hn := Ref.Val.num.inj (Res.ok.inj hn)
    simp only [Ref.Ref.poke, bitAt, if_pos h0, bit_bits8 (l := r'.data) (x := x) (j := i.toNat) (by omega) (by omega)] at hn
    exact nomatch hn
  · cases hok

theorem miniReadBits_decides {a : Nat} {i c : Int} (hc : c ≤ 64) (h0 : 0 ≤ i) (hok : (Ref.miniReadBits a i c r).1 = .ok u) (hl : r'.data.length = r.data.length)
    (h1 : i.tdiv 8 ≤ x) (h2 : (x : Int) < (i + max 1 c - 1).tdiv 8 + 1) :
    (Ref.miniReadBits a i c (r'.poke x (bits8 false))).1 ≠ (Ref.miniReadBits a i c (r'.poke x (bits8 true))).1 := by
  have hn := count_toInt c
  unfold Ref.miniReadBits at hok
  split at hok
  · rename_i h
    rw [Int.tdiv_eq_ediv_of_nonneg h0] at h1
    rw [Int.tdiv_eq_ediv_of_nonneg (by omega)] at h2
    obtain ⟨j, h3, h4, h5⟩ := bit_of_byte (x := x) (o := i.toNat) (n := count c) (by omega) (by omega) (by omega)
    have hs : ∀ v, Ref.startsAt (r'.poke x v) i ∧ i + count c ≤ 8 * (r'.poke x v).data.length := fun v =>
      ⟨⟨h.1.1, fun hd => by have := length_poke hl x v; rw [hd, List.length_nil] at this; omega⟩, by rw [length_poke hl]; exact h.2⟩
    unfold Ref.miniReadBits
    rw [if_pos (hs _), if_pos (hs _)]
    intro hn
    have hn := Int.ofNat.inj (Ref.Val.num.inj (Res.ok.inj hn))
    have eb : ∀ b, bitAt (r'.data.set x (bits8 b)) (i + (j - i.toNat : Nat)) = b := fun b => by
      rw [bitAt, if_pos (by omega), show (i + (j - i.toNat : Nat)).toNat = j by omega]; exact bit_bits8 (by omega) h5 b
    exact field_decides a (n := count c) (j := j - i.toNat) (f := fun v k => bitAt (r'.data.set x v) (i + k)) (by omega) (by omega) (eb _) (eb _) hn
  · cases hok

/-- The result of a call on a `MiniBuffer` that reads bytes depends on each byte it is about. -/
theorem miniStep_decides {b : Buf} {op : Op} {m m' : Heap} {a : Nat} {as : List Nat} (hp : placed op = true) (hc : changes op .bytes = false) (hr : readable op)
    (h0 : bitsFromStart op) (hok : (Ref.miniStep a as (op.lower m) r).1 = .ok u) (hl : r'.data.length = r.data.length) {x : Nat}
    (hx : About b op x) : ∃ v v', (Ref.miniStep a as (op.lower m') (r'.poke x v)).1 ≠ (Ref.miniStep a as (op.lower m') (r'.poke x v')).1 := by
  match op with
  | .read k e (some p) n => exact ⟨_, _, miniRead_decides hok hl hx.1 hx.2⟩
  | .readByte (some p) => exact ⟨_, _, readByte_decides hok hl hx.1 hx.2⟩
  | .readBit (some p) => exact ⟨_, _, miniReadBit_decides h0 hok hl hx.1 hx.2⟩
  | .readBits (some p) n => exact ⟨_, _, miniReadBits_decides hr h0 hok hl hx.1 hx.2⟩
  | .readBytes _ _ | .seekByte _ _ | .seekBit _ _ | .afterByte _ | .afterBit _ | .alignByte | .alignBit | .truncateLeft _ | .truncateRight _ | .grow _
  | .refresh | .reset | .bytes | .byteCapacity | .bitCapacity | .byteOffset | .bitOffset =>
    have h1 := hx.1; have h2 := hx.2
    simp only [bytesOf] at h1 h2
    omega

theorem miniStep_not_bytes {b : Buf} {op : Op} {m : Heap} {a : Nat} {as : List Nat} (hp : placed op = true) (hc : changes op .bytes = false) {x : Nat}
    (hx : About b op x) (k : List UInt8) : (Ref.miniStep a as (op.lower m) r).1 ≠ .ok (.bytes k) := by
  match op with
  | .read k e (some p) n => simp only [Op.lower, Option.map_some, Ref.miniStep, Ref.miniRead]; split <;> nofun
  | .readByte (some p) => simp only [Op.lower, Option.map_some, Ref.miniStep, Ref.step, Ref.readByte]; split <;> nofun
  | .readBit (some p) => simp only [Op.lower, Option.map_some, Ref.miniStep, Ref.miniReadBit]; split <;> nofun
  | .readBits (some p) n => simp only [Op.lower, Option.map_some, Ref.miniStep, Ref.miniReadBits]; split <;> nofun
  | .readBytes _ _ | .seekByte _ _ | .seekBit _ _ | .afterByte _ | .afterBit _ | .alignByte | .alignBit | .truncateLeft _ | .truncateRight _ | .grow _
  | .refresh | .reset | .bytes | .byteCapacity | .bitCapacity | .byteOffset | .bitOffset =>
    have h1 := hx.1; have h2 := hx.2
    simp only [bytesOf] at h1 h2
    omega

end Crunch.V3
