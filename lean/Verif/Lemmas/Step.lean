import Verif.Lemmas.ByteOps
import Verif.V3.Api
import Verif.Ref

/-!
One call, completely: it keeps the invariant, touches only its own window of memory, and does
what the reference machine does.
-/

namespace Crunch.V3
open Spec

/-! ## abstraction -/

/-- The reference state of a buffer. -/
def abs (s : St) : Ref.Ref :=
  { data := s.bytes, spare := (s.mem.window s.b.buf).drop s.b.buf.len, cur := s.b.off.toInt, bcur := s.b.boff.toInt }

/-- The reference call of a method call (source slices replaced by their current contents). -/
def Op.lower (m : Heap) : Op → Ref.Op
  | .write k e pos data => .write k.size e (pos.map Int64.toInt) (data.map k.pat)
  | .read k e pos n => .read k.size e (pos.map Int64.toInt) n.toInt
  | .writeBytes pos src => .writeBytes (pos.map Int64.toInt) (m.view src)
  | .writeByte pos v => .writeByte (pos.map Int64.toInt) v
  | .readBytes pos n => .readBytes (pos.map Int64.toInt) n.toInt
  | .readByte pos => .readByte (pos.map Int64.toInt)
  | .readBit pos => .readBit (pos.map Int64.toInt)
  | .readBits pos n => .readBits (pos.map Int64.toInt) n.toInt
  | .setBit pos => .setBit (pos.map Int64.toInt)
  | .clearBit pos => .clearBit (pos.map Int64.toInt)
  | .flipBit pos => .flipBit (pos.map Int64.toInt)
  | .setBits pos d n => .setBits (pos.map Int64.toInt) d.toNat n.toInt
  | .clearAll => .clearAll
  | .setAll => .setAll
  | .flipAll => .flipAll
  | .seekByte o r => .seekByte o.toInt r
  | .seekBit o r => .seekBit o.toInt r
  | .afterByte os => .afterByte (os.head?.map Int64.toInt)
  | .afterBit os => .afterBit (os.head?.map Int64.toInt)
  | .alignByte => .alignByte
  | .alignBit => .alignBit
  | .truncateLeft n => .truncateLeft n.toInt
  | .truncateRight n => .truncateRight n.toInt
  | .grow n => .grow n.toInt
  | .refresh => .refresh
  | .reset => .reset
  | .bytes => .bytes
  | .byteCapacity => .byteCapacity
  | .bitCapacity => .bitCapacity
  | .byteOffset => .byteOffset
  | .bitOffset => .bitOffset

/-- What a caller can see of a result: numbers, bit patterns, the bytes behind a slice. -/
def Val.obs (m : Heap) : Val → Ref.Val
  | .unit => .unit
  | .u8 v => .num v.toNat
  | .u64 v => .num v.toNat
  | .i64 v => .num v.toInt
  | .slice t => .bytes (m.view t)
  | .typed k l => .nums (l.map k.pat)

/-- The same for an outcome. -/
def obsRes (m : Heap) : Res Val → Res Ref.Val
  | .ok v => .ok (v.obs m)
  | .panic p => .panic p

/-- The argument slice of a call is a slice of the current memory. -/
def Op.Valid (m : Heap) : Op → Prop
  | .write k _ _ data => data.length * k.size ≤ maxAlloc
  | .writeBytes _ src => SliceOK m src
  | _ => True

/-! ## isolation -/

/-- What a call on a buffer may do to memory, and to the place of the buffer in it. -/
structure Iso (s s' : St) : Prop where
  /-- arrays are only added -/
  more : s.mem.arrays.length ≤ s'.mem.arrays.length
  /-- every byte outside the window of the buffer stays the same -/
  outside : ∀ c i, c < s.mem.arrays.length →
    (c ≠ s.b.buf.arr ∨ i < s.b.buf.off ∨ s.b.buf.off + s.b.buf.cap ≤ i) → (s'.mem.array c)[i]? = (s.mem.array c)[i]?
  /-- every slice stays valid -/
  slices : ∀ t, SliceOK s.mem t → SliceOK s'.mem t
  /-- the window only shrinks, or moves to a new array -/
  place : (s'.b.buf.arr = s.b.buf.arr ∧ s.b.buf.off ≤ s'.b.buf.off ∧
      s'.b.buf.off + s'.b.buf.cap = s.b.buf.off + s.b.buf.cap) ∨ s.mem.arrays.length ≤ s'.b.buf.arr
  /-- the allocation policy is not affected -/
  slack : s'.mem.slack = s.mem.slack

theorem Iso.of_mem {s s' : St} (hm : s'.mem = s.mem) (hp : s'.b.buf.arr = s.b.buf.arr ∧ s.b.buf.off ≤ s'.b.buf.off ∧
      s'.b.buf.off + s'.b.buf.cap = s.b.buf.off + s.b.buf.cap) : Iso s s' :=
  ⟨by rw [hm]; omega, fun _ _ _ _ => by rw [hm], fun t h => by rw [hm]; exact h, .inl hp, by rw [hm]⟩

theorem Iso.refl (s : St) : Iso s s := Iso.of_mem rfl ⟨rfl, Nat.le_refl _, rfl⟩

theorem Iso.put {s : St} (h : s.OK) {l : List UInt8} (hl : l.length = s.b.buf.len) : Iso s (s.put l) := by
  have := h.len_le
  refine ⟨by rw [put_arrays_length]; exact Nat.le_refl _, fun c i _ hi => put_array h hl (by omega), fun t ht => ht.blit _ _ _,
    .inl ⟨rfl, Nat.le_refl _, rfl⟩, rfl⟩

theorem Iso.lit (s : St) (bs : List UInt8) (hb : bs.length ≤ maxAlloc) : Iso s (s.lit bs) :=
  ⟨by simp [St.lit], fun c i hc _ => by
      show ((s.mem.alloc bs).array c)[i]? = _; rw [array_alloc_lt hc], fun t ht => ht.alloc hb,
    .inl ⟨rfl, Nat.le_refl _, rfl⟩, rfl⟩

theorem Iso.trans {s t u : St} (h : Iso s t) (k : Iso t u) :
    Iso s u := by
  have h1 := h.more; have k1 := k.more
  refine ⟨by omega, fun c i hc hi => ?_, fun v hv => k.slices v (h.slices v hv), ?_, k.slack.trans h.slack⟩
  · rw [k.outside c i (by omega) ?_, h.outside c i hc hi]
    rcases h.place with ⟨p1, p2, p3⟩ | p
    · rw [p1]; omega
    · left; omega
  · rcases k.place with ⟨q1, q2, q3⟩ | q
    · rcases h.place with ⟨p1, p2, p3⟩ | p
      · exact .inl ⟨by omega, by omega, by omega⟩
      · exact .inr (by omega)
    · exact .inr (by omega)

/-! ## how the abstraction changes -/

theorem window_eq (m : Heap) (t : Slice) : m.window t = m.view (t.withLen t.cap) := rfl

theorem window_alloc {m : Heap} {t : Slice} (w : SliceOK m t) (bs : List UInt8) : (m.alloc bs).window t = m.window t := by
  rw [window_eq, window_eq]; exact view_alloc (w.withLen (Nat.le_refl _)) bs

theorem length_window {m : Heap} {t : Slice} (w : SliceOK m t) : (m.window t).length = t.cap := by
  rw [window_eq]; exact length_view (w.withLen (Nat.le_refl _))

theorem window_put {s : St} (h : s.OK) {l : List UInt8} (hl : l.length = s.b.buf.len) :
    (s.put l).mem.window s.b.buf = patch (s.mem.window s.b.buf) 0 l := by
  have hc := h.len_le
  have := view_blit_self (h.withLen (n := s.b.buf.cap) (Nat.le_refl _)) (p := 0) (bs := l)
    (by simp only [Slice.withLen]; omega)
  exact this

theorem abs_put {s : St} (h : s.OK) {l : List UInt8} (hl : l.length = s.b.buf.len) :
    abs (s.put l) = { abs s with data := l } := by
  have hc := h.len_le
  unfold abs
  rw [bytes_put h hl, put_b, window_put h hl]
  congr 1
  unfold patch
  simp only [List.take_zero, List.nil_append, Nat.zero_add, hl]
  rw [List.drop_append, hl]
  simp [hl]

theorem abs_lit {s : St} (h : s.OK) (bs : List UInt8) : abs (s.lit bs) = abs s := by
  unfold abs
  rw [lit_bytes h]
  congr 1
  show ((s.mem.alloc bs).window s.b.buf).drop _ = _
  rw [window_alloc h]; rfl

theorem abs_len {s : St} (h : s.OK) : (abs s).data.length = s.b.buf.len := length_bytes h
theorem abs_spare {s : St} (h : s.OK) : (abs s).spare.length = s.b.buf.cap - s.b.buf.len := by
  show ((s.mem.window s.b.buf).drop _).length = _
  rw [List.length_drop, length_window h]

theorem window_split {s : St} (h : s.OK) : s.mem.window s.b.buf = (abs s).data ++ (abs s).spare := by
  have hc := h.len_le
  show _ = s.bytes ++ (s.mem.window s.b.buf).drop s.b.buf.len
  have : s.bytes = (s.mem.window s.b.buf).take s.b.buf.len := by
    simp only [St.bytes, Heap.view, Heap.window, List.take_take]
    rw [Nat.min_eq_left hc]
  rw [this, List.take_append_drop]

/-! ## bits -/

theorem bit_ofBits {L : Nat} {f : Nat → Bool} {j : Nat} (hj : j < 8 * L) : bit (Ref.ofBits L f) j = f j := by
  unfold Ref.ofBits bit
  rw [List.getElem?_map, List.getElem?_range (by omega)]
  simp only [Option.map_some, UInt8.toNat_ofNat']
  have := testBit_binary (fun i => f (8 * (j / 8) + i)) 8 (i := j % 8) (by omega)
  rw [Nat.mod_eq_of_lt (binary_lt _ _), show 7 - j % 8 = 8 - 1 - j % 8 by omega, this]
  congr 1
  omega

@[simp] theorem length_ofBits (L : Nat) (f : Nat → Bool) : (Ref.ofBits L f).length = L := by simp [Ref.ofBits]
@[simp] theorem length_withBits (l : List UInt8) (o : Nat) (f : Nat → Bool) (n : Nat) : (Ref.withBits l o f n).length = l.length := by
  simp [Ref.withBits]

theorem withBits_eq {l m : List UInt8} {o : Nat} {f : Nat → Bool} {n : Nat} (hl : m.length = l.length)
    (hm : ∀ j, j < 8 * l.length → bit m j = if o ≤ j ∧ j < o + n then f (j - o) else bit l j) :
    Ref.withBits l o f n = m := by
  apply bit_ext
  · rw [length_withBits, hl]
  · intro j hj
    rw [length_withBits] at hj
    unfold Ref.withBits
    rw [bit_ofBits hj, hm j hj]

theorem withBits_putBit {l : List UInt8} {o : Nat} (ho : o < 8 * l.length) (b : Bool) :
    Ref.withBits l o (fun _ => b) 1 = putBit l o b := by
  apply withBits_eq (length_putBit (by omega) ..)
  intro j _
  rw [bit_putBit (by omega)]
  by_cases e : j = o
  · rw [if_pos e, if_pos (by omega)]
  · rw [if_neg e, if_neg (by omega)]

theorem withBits_putBits {l : List UInt8} {o n : Nat} (ho : o + n ≤ 8 * l.length) (f : Nat → Bool) :
    Ref.withBits l o f n = putBits l o f n := by
  apply withBits_eq (length_putBits _ _ (by omega))
  intro j _
  rw [bit_putBits _ _ (by omega)]

theorem withBits_cut {l : List UInt8} {o n : Nat} (h1 : o ≤ 8 * l.length) (h2 : 8 * l.length < o + n) (f : Nat → Bool) :
    Ref.withBits l o f n = putBits l o f (8 * l.length - o) := by
  apply withBits_eq (length_putBits _ _ (by omega))
  intro j hj
  rw [bit_putBits _ _ (by omega)]
  by_cases e : o ≤ j
  · rw [if_pos (by omega), if_pos (by omega)]
  · rw [if_neg (by omega), if_neg (by omega)]

theorem withBits_none {l : List UInt8} {o n : Nat} (h1 : 8 * l.length ≤ o) (f : Nat → Bool) : Ref.withBits l o f n = l := by
  apply withBits_eq rfl
  intro j hj
  rw [if_neg (by omega)]

/-! ## arithmetic -/

theorem wrap64_eq (x : Int) : Ref.wrap64 x = wrap x := by
  unfold Ref.wrap64 wrap
  simp only [Int.bmod]; omega

theorem toInt_add_wrap (a b : Int64) : (a + b).toInt = Ref.wrap64 (a.toInt + b.toInt) := Int64.toInt_add a b
theorem toInt_sub_wrap (a b c : Int64) : (a - b - c).toInt = Ref.wrap64 (a.toInt - b.toInt - c.toInt) := by
  rw [Int64.toInt_sub, Int64.toInt_sub]; unfold Ref.wrap64; rw [Int.bmod_sub_bmod]

theorem reject_write {s : St} (h : s.OK) (other : Panic) (o : Int64) (n : Nat) (hn : n ≤ maxAlloc) :
    Ref.reject (abs s) BufferOverwriteError BufferUnderwriteError other o.toInt n =
      if o.toInt + n < 2 ^ 63 ∧ o.toInt + n > s.b.buf.len then .err BufferOverwriteError
      else if o.toInt < 0 then .err BufferUnderwriteError else other := by
  have hM := maxAlloc_lt; have hL := h.len_le_max
  have o1 := toInt_lt' o; have o2 := le_toInt' o
  unfold Ref.reject
  rw [abs_len h, wrap64_eq]
  by_cases h1 : o.toInt + n < 2 ^ 63
  · rw [wrap_id (by omega) h1]
    by_cases h2 : o.toInt + n > s.b.buf.len
    · rw [if_pos h2, if_pos ⟨h1, h2⟩]
    · rw [if_neg h2, if_neg (show ¬ (o.toInt + n < 2 ^ 63 ∧ o.toInt + n > s.b.buf.len) by omega)]
  · rw [if_neg (by unfold wrap; omega), if_neg (by omega : ¬ (o.toInt + ↑n < 2 ^ 63 ∧ o.toInt + ↑n > ↑s.b.buf.len))]

/-! ## one call -/

/-- Everything about one call. -/
structure StepOK (s : St) (op : Op) (r : Res Val × St) : Prop where
  wf : WF r.2
  iso : Iso s r.2
  result : obsRes r.2.mem r.1 = (Ref.step (op.lower s.mem) (abs s)).1
  state : abs r.2 = (Ref.step (op.lower s.mem) (abs s)).2

/-- Wrap an outcome. -/
def wrapRes (f : α → Val) : Res α × St → Res Val × St
  | (.ok a, s) => (.ok (f a), s)
  | (.panic p, s) => (.panic p, s)

theorem wrapVal_run (f : α → Val) (m : GoM St α) (s : St) : wrapVal f m s = wrapRes f (m s) := by
  unfold wrapVal
  rw [bind_run]
  rcases m s with ⟨_ | _, s'⟩ <;> rfl

theorem wrap_advance (f : α → Val) (d : Int64) (r : Res α × St) : wrapRes f (advance d r) = advance d (wrapRes f r) := by
  rcases r with ⟨_ | _, s⟩ <;> rfl
theorem wrap_advanceBit (f : α → Val) (d : Int64) (r : Res α × St) : wrapRes f (advanceBit d r) = advanceBit d (wrapRes f r) := by
  rcases r with ⟨_ | _, s⟩ <;> rfl

/-- From the positioned to the Next form of a call. -/
theorem StepOK.next {s : St} {op op' : Op} {r r' : Res Val × St} (d : Int64) (h : StepOK s op r)
    (hr : r' = advance d r)
    (hs : Ref.step (op'.lower s.mem) (abs s) = Ref.stepCur d.toInt (Ref.step (op.lower s.mem) (abs s))) :
    StepOK s op' r' := by
  have h1 := h.result; have h2 := h.state; have h3 := h.wf; have h4 := h.iso
  subst hr
  generalize Ref.step (op.lower s.mem) (abs s) = q at *
  rcases r with ⟨_ | p, s'⟩
  · rcases q with ⟨_ | _, q⟩
    · refine ⟨⟨h3.ok, h3.cap, h3.bcap⟩, ⟨h4.more, h4.outside, h4.slices, h4.place, h4.slack⟩, ?_, ?_⟩
      · rw [hs]; exact h1
      · rw [hs]
        simp only at h2
        subst h2
        simp only [advance, Ref.stepCur, abs, toInt_add_wrap]; rfl
    · simp [obsRes] at h1
  · rcases q with ⟨_ | _, q⟩
    · simp [obsRes] at h1
    · refine ⟨h3, h4, ?_, ?_⟩
      · rw [hs]; exact h1
      · rw [hs]; exact h2

/-- From the positioned to the Next form of a bit call. -/
theorem StepOK.nextBit {s : St} {op op' : Op} {r r' : Res Val × St} (d : Int64) (h : StepOK s op r)
    (hr : r' = advanceBit d r)
    (hs : Ref.step (op'.lower s.mem) (abs s) = Ref.stepBcur d.toInt (Ref.step (op.lower s.mem) (abs s))) :
    StepOK s op' r' := by
  have h1 := h.result; have h2 := h.state; have h3 := h.wf; have h4 := h.iso
  subst hr
  generalize Ref.step (op.lower s.mem) (abs s) = q at *
  rcases r with ⟨_ | p, s'⟩
  · rcases q with ⟨_ | _, q⟩
    · refine ⟨⟨h3.ok, h3.cap, h3.bcap⟩, ⟨h4.more, h4.outside, h4.slices, h4.place, h4.slack⟩, ?_, ?_⟩
      · rw [hs]; exact h1
      · rw [hs]
        simp only at h2
        subst h2
        simp only [advanceBit, Ref.stepBcur, abs, toInt_add_wrap]; rfl
    · simp [obsRes] at h1
  · rcases q with ⟨_ | _, q⟩
    · simp [obsRes] at h1
    · refine ⟨h3, h4, ?_, ?_⟩
      · rw [hs]; exact h1
      · rw [hs]; exact h2

/-- A call that changes nothing. -/
theorem StepOK.same {s : St} {op : Op} {r : Res Val} {q : Res Ref.Val} (h : WF s)
    (hs : Ref.step (op.lower s.mem) (abs s) = (q, abs s)) (hr : obsRes s.mem r = q) : StepOK s op (r, s) :=
  ⟨h, Iso.refl s, by rw [hs]; exact hr, by rw [hs]⟩

/-- A call that replaces the content in place. -/
theorem StepOK.content {s : St} {op : Op} {r : Res Val} {q : Res Ref.Val} {l : List UInt8} (h : WF s)
    (hl : l.length = s.b.buf.len)
    (hs : Ref.step (op.lower s.mem) (abs s) = (q, { abs s with data := l })) (hr : obsRes (s.put l).mem r = q) :
    StepOK s op (r, s.put l) :=
  ⟨h.put l, Iso.put h.ok hl, by rw [hs]; exact hr, by rw [hs]; exact abs_put h.ok hl⟩

/-! ### typed -/

theorem enc_eq (k : Kind) (e : Endian) (data : List k.Ty) : (data.map k.pat).flatMap (encode e k.size) = enc k e data := by
  unfold enc; rw [List.flatMap_map]

theorem step_write {s : St} (h : WF s) (k : Kind) (e : Endian) (o : Int64) (data : List k.Ty)
    (hv : data.length * k.size ≤ maxAlloc) :
    StepOK s (.write k e (some o) data) (exec (.write k e (some o) data) s) := by
  have hl := length_enc k e data
  have hb := abs_len h.ok
  have hX : (data.length : Int) * k.size = ((data.length * k.size : Nat) : Int) := (Int.natCast_mul ..).symm
  simp only [exec, wrapVal_run]
  rw [buffer_write_run h k e o data hv]
  have hs : Ref.step ((Op.write k e (some o) data).lower s.mem) (abs s) =
      Ref.put (abs s) o.toInt (enc k e data) (data ≠ []) .index := by
    simp only [Op.lower, Ref.step, Option.map_some, Ref.write, enc_eq]
    unfold Ref.put; simp only [ne_eq, List.map_eq_nil_iff]
  by_cases hc : data ≠ [] ∧ 0 ≤ o.toInt ∧ o.toInt + data.length * k.size ≤ s.b.buf.len
  · rw [if_pos hc, write_eq_put h.ok (by omega)]
    refine StepOK.content (q := .ok .unit) h ?_ ?_ rfl
    · rw [length_patch (by rw [length_bytes h.ok]; omega), length_bytes h.ok]
    · rw [hs]; unfold Ref.put; rw [if_pos ⟨hc.1, hc.2.1, by omega⟩]; rfl
  · rw [if_neg hc]
    refine StepOK.same h ?_ rfl
    rw [hs]; unfold Ref.put
    rw [if_neg (by rw [hb, hl]; exact fun hh => hc ⟨hh.1, hh.2.1, by omega⟩), hl, reject_write h.ok _ _ _ hv]
    unfold writePanic
    rw [hX]; rfl

theorem pat_dec (k : Kind) (e : Endian) (n : Nat) (l : List UInt8) (h : n * k.size ≤ l.length) :
    (dec k e n l).map k.pat = (List.range n).map fun i => decode e (slice l (i * k.size) k.size) := by
  apply List.ext_getElem
  · simp
  · intro i h1 h2
    simp only [List.length_map, length_dec] at h1
    rw [List.getElem_map, getElem_dec h1, List.getElem_map, List.getElem_range]
    have hij := mul_le_of_lt (w := k.size) h1
    have hl : (slice l (i * k.size) k.size).length = k.size := length_slice (by omega)
    have := decode_lt e (slice l (i * k.size) k.size)
    rw [hl] at this
    rw [pat_ofPat _ _ this]

theorem step_read {s : St} (h : WF s) (k : Kind) (e : Endian) (o n : Int64) :
    StepOK s (.read k e (some o) n) (exec (.read k e (some o) n) s) := by
  have hb := abs_len h.ok
  have hl := length_bytes h.ok
  simp only [exec, wrapVal_run]
  rw [buffer_read_run h]
  by_cases hc : 1 ≤ n.toInt ∧ 0 ≤ o.toInt ∧ o.toInt + n.toInt * k.size ≤ s.b.buf.len
  · rw [if_pos hc]
    have e1 : ((n.toInt.toNat * k.size : Nat) : Int) = n.toInt * k.size := by
      rw [Int.natCast_mul, Int.toNat_of_nonneg (by omega)]
    refine StepOK.same h ?_ rfl
    simp only [Op.lower, Ref.step, Option.map_some, Ref.read, hb]
    rw [if_pos hc]
    simp only [obsRes, Val.obs]
    rw [pat_dec _ _ _ _ (by rw [List.length_drop]; omega)]
    simp only [slice_drop]; rfl
  · rw [if_neg hc]
    refine StepOK.same h ?_ rfl
    simp only [Op.lower, Ref.step, Option.map_some, Ref.read, hb]
    rw [if_neg hc]
    unfold Ref.reject readPanic
    rw [hb, wrap64_eq]; rfl

/-! ### raw bytes -/

theorem step_writeBytes {s : St} (h : WF s) (o : Int64) (src : Slice) (hv : SliceOK s.mem src) :
    StepOK s (.writeBytes (some o) src) (exec (.writeBytes (some o) src) s) := by
  have hl := length_view hv
  have hb := abs_len h.ok
  have hm := hv.len_le_max
  simp only [exec, wrapVal_run]
  rw [buffer_writeBytes_run h o src hm]
  by_cases hc : 0 ≤ o.toInt ∧ o.toInt + src.len ≤ s.b.buf.len
  · rw [if_pos hc, write_eq_put h.ok (by omega)]
    refine StepOK.content (q := .ok .unit) h ?_ ?_ rfl
    · rw [length_patch (by rw [length_bytes h.ok]; omega), length_bytes h.ok]
    · simp only [Op.lower, Ref.step, Option.map_some]; unfold Ref.put; rw [if_pos ⟨trivial, hc.1, by omega⟩]; rfl
  · rw [if_neg hc]
    refine StepOK.same h ?_ rfl
    simp only [Op.lower, Ref.step, Option.map_some]; unfold Ref.put
    rw [if_neg (by omega), hl, reject_write h.ok _ _ _ hm]; rfl

theorem step_writeByte {s : St} (h : WF s) (o : Int64) (v : UInt8) :
    StepOK s (.writeByte (some o) v) (exec (.writeByte (some o) v) s) := by
  have hb := abs_len h.ok
  have hlit : [v].length ≤ maxAlloc := by rw [List.length_singleton]; decide
  have w : WF (s.lit [v]) := h.lit hlit
  simp only [exec, wrapVal_run]
  rw [buffer_writeByte_run h]
  by_cases hc : 0 ≤ o.toInt ∧ o.toInt < s.b.buf.len
  · have hp : o.toInt.toNat + [v].length ≤ (s.lit [v]).b.buf.len := by
      rw [List.length_singleton]; show _ ≤ s.b.buf.len; omega
    have hll := length_bytes w.ok
    rw [if_pos hc, write_eq_put w.ok hp]
    have hlp : (patch (s.lit [v]).bytes o.toInt.toNat [v]).length = (s.lit [v]).b.buf.len := by
      rw [length_patch (by omega), hll]
    have hs : Ref.step ((Op.writeByte (some o) v).lower s.mem) (abs s) =
        (.ok .unit, { abs s with data := patch s.bytes o.toInt.toNat [v] }) := by
      simp only [Op.lower, Ref.step, Option.map_some]; unfold Ref.put
      rw [if_pos ⟨trivial, hc.1, by rw [List.length_singleton]; omega⟩]; rfl
    refine ⟨w.put _, (Iso.lit s [v] hlit).trans (Iso.put w.ok hlp), ?_, ?_⟩
    · rw [hs]; rfl
    · rw [hs]
      show abs ((s.lit [v]).put _) = _
      rw [abs_put w.ok hlp, abs_lit h.ok, lit_bytes h.ok]
  · rw [if_neg hc]
    have hs : Ref.step ((Op.writeByte (some o) v).lower s.mem) (abs s) =
        (.panic (writeBytesPanic o.toInt 1 s.b.buf.len), abs s) := by
      simp only [Op.lower, Ref.step, Option.map_some]; unfold Ref.put
      rw [if_neg (by rw [List.length_singleton]; omega), reject_write h.ok _ _ _ hlit]; rfl
    refine ⟨w, Iso.lit s [v] hlit, ?_, ?_⟩
    · rw [hs]; rfl
    · rw [hs]; exact abs_lit h.ok _

theorem step_readBytes {s : St} (h : WF s) (o n : Int64) :
    StepOK s (.readBytes (some o) n) (exec (.readBytes (some o) n) s) := by
  have hb := abs_len h.ok
  have hle := h.ok.len_le; have hf := h.ok.fits
  simp only [exec, wrapVal_run]
  rw [buffer_readBytes_run h]
  by_cases hc : 0 ≤ n.toInt ∧ 0 ≤ o.toInt ∧ o.toInt + n.toInt ≤ s.b.buf.len
  · rw [if_pos hc]
    refine StepOK.same h ?_ rfl
    simp only [Op.lower, Ref.step, Option.map_some, Ref.readBytes, hb]
    rw [if_pos hc]
    congr 1
    simp only [obsRes, Val.obs]
    congr 2
    show slice (s.mem.view s.b.buf) _ _ = _
    unfold slice Heap.view
    simp only [List.drop_take, List.take_take, List.drop_drop]
    rw [Nat.min_eq_left (by omega)]
  · rw [if_neg hc]
    refine StepOK.same h ?_ rfl
    simp only [Op.lower, Ref.step, Option.map_some, Ref.readBytes, hb]
    rw [if_neg hc]
    unfold Ref.reject readBytesPanic
    rw [hb, wrap64_eq]; rfl

theorem step_readByte {s : St} (h : WF s) (o : Int64) :
    StepOK s (.readByte (some o)) (exec (.readByte (some o)) s) := by
  have hb := abs_len h.ok
  simp only [exec, wrapVal_run]
  rw [buffer_readByte_run h]
  by_cases hc : 0 ≤ o.toInt ∧ o.toInt < s.b.buf.len
  · rw [if_pos hc]
    refine StepOK.same h ?_ rfl
    simp only [Op.lower, Ref.step, Option.map_some, Ref.readByte, hb]
    rw [if_pos hc]; rfl
  · rw [if_neg hc]
    refine StepOK.same h ?_ rfl
    simp only [Op.lower, Ref.step, Option.map_some, Ref.readByte, hb]
    rw [if_neg hc]
    unfold Ref.reject readBytesPanic
    rw [hb, wrap64_eq]; rfl

/-! ### bits -/

theorem step_readBit {s : St} (h : WF s) (o : Int64) :
    StepOK s (.readBit (some o)) (exec (.readBit (some o)) s) := by
  have hb := abs_len h.ok
  simp only [exec, wrapVal_run]
  rw [buffer_readBit_run h]
  by_cases hc : 0 ≤ o.toInt ∧ o.toInt < 8 * s.b.buf.len
  · rw [if_pos hc]
    refine StepOK.same h ?_ rfl
    simp only [Op.lower, Ref.step, Option.map_some, Ref.readBit, hb]
    rw [if_pos hc]
    simp only [obsRes, Val.obs]
    show (Res.ok (Ref.Val.num ((bit s.bytes o.toInt.toNat).toNat : Nat)), _) = _
    cases bit s.bytes o.toInt.toNat <;> rfl
  · rw [if_neg hc]
    refine StepOK.same h ?_ rfl
    simp only [Op.lower, Ref.step, Option.map_some, Ref.readBit, hb]
    rw [if_neg hc]; rfl

theorem count_loops (n : Int64) : Ref.count n.toInt = loops n := rfl

theorem step_readBits {s : St} (h : WF s) (o n : Int64) :
    StepOK s (.readBits (some o) n) (exec (.readBits (some o) n) s) := by
  have hb := abs_len h.ok
  simp only [exec, wrapVal_run]
  rw [buffer_readBits_run h]
  by_cases hc : 0 ≤ o.toInt ∧ o.toInt + loops n ≤ 8 * s.b.buf.len
  · rw [if_pos hc]
    refine StepOK.same h ?_ rfl
    simp only [Op.lower, Ref.step, Option.map_some, Ref.readBits, hb, count_loops]
    rw [if_pos hc]
    simp only [obsRes, Val.obs, UInt64.toNat_ofNat']; rfl
  · rw [if_neg hc]
    refine StepOK.same h ?_ rfl
    simp only [Op.lower, Ref.step, Option.map_some, Ref.readBits, hb, count_loops]
    rw [if_neg hc]; rfl

theorem step_putBit {s : St} (h : WF s) (op : Op) (o : Int64) (f : Bool → Bool) (m : GoM St Unit)
    (hm : m s = if 0 ≤ o.toInt ∧ o.toInt < 8 * s.b.buf.len then
        (.ok (), s.put (putBit s.bytes o.toInt.toNat (f (bit s.bytes o.toInt.toNat))))
      else (.panic (bitPanic BufferOverwriteError BufferUnderwriteError o.toInt), s))
    (hs : Ref.step (op.lower s.mem) (abs s) = Ref.putBit (abs s) o.toInt f) :
    StepOK s op (wrapRes (fun _ => .unit) (m s)) := by
  have hb := abs_len h.ok
  have hl := length_bytes h.ok
  rw [hm]
  by_cases hc : 0 ≤ o.toInt ∧ o.toInt < 8 * s.b.buf.len
  · rw [if_pos hc]
    refine StepOK.content (q := .ok .unit) h (by rw [length_putBit (by omega), hl]) ?_ rfl
    rw [hs]
    unfold Ref.putBit
    rw [hb, if_pos hc, withBits_putBit (by omega)]; rfl
  · rw [if_neg hc]
    refine StepOK.same h ?_ rfl
    rw [hs]
    unfold Ref.putBit
    rw [hb, if_neg hc]; rfl

theorem step_setBit {s : St} (h : WF s) (o : Int64) : StepOK s (.setBit (some o)) (exec (.setBit (some o)) s) := by
  simp only [exec, wrapVal_run]
  exact step_putBit h _ o (fun _ => true) _ (buffer_setBit_run h o) rfl
theorem step_clearBit {s : St} (h : WF s) (o : Int64) : StepOK s (.clearBit (some o)) (exec (.clearBit (some o)) s) := by
  simp only [exec, wrapVal_run]
  exact step_putBit h _ o (fun _ => false) _ (buffer_clearBit_run h o) rfl
theorem step_flipBit {s : St} (h : WF s) (o : Int64) : StepOK s (.flipBit (some o)) (exec (.flipBit (some o)) s) := by
  simp only [exec, wrapVal_run]
  exact step_putBit h _ o (fun b => !b) _ (buffer_flipBit_run h o) rfl

theorem digit_eq (d : UInt64) (n : Int64) : Ref.digit d.toNat n.toInt = fieldBit d n := rfl

theorem step_setBits {s : St} (h : WF s) (o : Int64) (d : UInt64) (n : Int64) :
    StepOK s (.setBits (some o) d n) (exec (.setBits (some o) d n) s) := by
  have hb := abs_len h.ok
  have hl := length_bytes h.ok
  simp only [exec, wrapVal_run]
  rw [buffer_setBits_run h]
  by_cases hc : 0 ≤ o.toInt ∧ o.toInt + loops n ≤ 8 * s.b.buf.len
  · rw [if_pos hc]
    refine StepOK.content (q := .ok .unit) h (by rw [length_putBits _ _ (by omega), hl]) ?_ rfl
    simp only [Op.lower, Ref.step, Option.map_some, Ref.setBits, hb, count_loops, digit_eq]
    rw [if_pos hc, withBits_putBits (by omega)]; rfl
  · rw [if_neg hc]
    by_cases h1 : 0 ≤ o.toInt ∧ o.toInt < 8 * s.b.buf.len
    · rw [if_pos h1]
      refine StepOK.content h (by rw [length_putBits _ _ (by omega), hl]) ?_ rfl
      simp only [Op.lower, Ref.step, Option.map_some, Ref.setBits, hb, count_loops, digit_eq]
      rw [if_neg hc, if_pos h1.1, withBits_cut (by omega) (by omega), hb]; rfl
    · rw [if_neg h1]
      refine StepOK.same h ?_ rfl
      simp only [Op.lower, Ref.step, Option.map_some, Ref.setBits, hb, count_loops, digit_eq]
      rw [if_neg hc]
      by_cases h0 : 0 ≤ o.toInt
      · rw [if_pos h0, withBits_none (by omega)]; rfl
      · rw [if_neg h0]; rfl

theorem step_all {s : St} (h : WF s) (op : Op) (f : UInt8 → UInt8) (m : GoM St Unit)
    (h1 : 0 < s.b.buf.len → m s = (.ok (), s.put (s.bytes.map f)))
    (h2 : s.b.buf.len = 0 → m s = (.panic .index, s))
    (hs : Ref.step (op.lower s.mem) (abs s) = Ref.all f (abs s)) :
    StepOK s op (wrapRes (fun _ => .unit) (m s)) := by
  have hl := length_bytes h.ok
  by_cases hc : s.b.buf.len = 0
  · rw [h2 hc]
    refine StepOK.same h ?_ rfl
    rw [hs]; unfold Ref.all
    rw [if_pos (List.length_eq_zero_iff.mp (by rw [abs_len h.ok, hc]))]; rfl
  · rw [h1 (by omega)]
    refine StepOK.content (q := .ok .unit) h (by rw [List.length_map, hl]) ?_ rfl
    rw [hs]; unfold Ref.all
    rw [if_neg (fun he => hc (by rw [← abs_len h.ok, he]; rfl))]; rfl

/-! ### resizing -/

theorem step_truncateLeft {s : St} (h : WF s) (n : Int64) : StepOK s (.truncateLeft n) (exec (.truncateLeft n) s) := by
  have hb := abs_len h.ok
  have hl := length_bytes h.ok
  have hc := h.ok.len_le
  simp only [exec, wrapVal_run]
  rw [buffer_truncateLeft_run h]
  by_cases h0 : n.toInt < 0
  · rw [if_neg (by omega), if_pos h0]
    refine StepOK.same h ?_ rfl
    simp only [Op.lower, Ref.step]; rw [if_pos h0]; rfl
  · by_cases h1 : n.toInt ≤ s.b.buf.len
    · rw [if_pos (by omega)]
      have hs : Ref.step ((Op.truncateLeft n).lower s.mem) (abs s) =
          (.ok .unit, { abs s with data := (abs s).data.drop n.toInt.toNat }) := by
        simp only [Op.lower, Ref.step]; rw [if_neg h0, if_neg (by omega)]
      have hwin : (s.mem.window (s.b.buf.skip n.toInt.toNat)).drop (s.b.buf.skip n.toInt.toNat).len =
          (s.mem.window s.b.buf).drop s.b.buf.len := by
        simp only [Heap.window, Slice.skip, List.drop_take, List.drop_drop]
        rw [show s.b.buf.off + n.toInt.toNat + (s.b.buf.len - n.toInt.toNat) = s.b.buf.off + s.b.buf.len by omega]
        congr 1; omega
      refine ⟨WF.refit (h.ok.skip (by omega)), Iso.of_mem rfl ⟨rfl, by simp [Slice.skip, wrapRes], ?_⟩, ?_, ?_⟩
      · simp only [wrapRes, refit_buf, Slice.skip]; omega
      · rw [hs]; rfl
      · rw [hs]
        simp only [wrapRes, abs, refit_bytes, refit_mem, refit_buf, refit_off, refit_boff, hwin, view_skip]; rfl
    · rw [if_neg (by omega), if_neg h0]
      refine StepOK.same h ?_ rfl
      simp only [Op.lower, Ref.step]; rw [if_neg h0, if_pos (by omega)]; rfl

theorem step_truncateRight {s : St} (h : WF s) (n : Int64) : StepOK s (.truncateRight n) (exec (.truncateRight n) s) := by
  have hb := abs_len h.ok
  have hl := length_bytes h.ok
  have hc := h.ok.len_le
  simp only [exec, wrapVal_run]
  rw [buffer_truncateRight_run h]
  by_cases h0 : n.toInt < 0
  · rw [if_neg (by omega), if_pos h0]
    refine StepOK.same h ?_ rfl
    simp only [Op.lower, Ref.step]; rw [if_pos h0]; rfl
  · by_cases h1 : n.toInt ≤ s.b.buf.len
    · rw [if_pos (by omega)]
      have hs : Ref.step ((Op.truncateRight n).lower s.mem) (abs s) =
          (.ok .unit, { abs s with data := (abs s).data.take (s.b.buf.len - n.toInt.toNat),
                                   spare := (abs s).data.drop (s.b.buf.len - n.toInt.toNat) ++ (abs s).spare }) := by
        simp only [Op.lower, Ref.step]; rw [if_neg h0, if_neg (by omega), hb]
      have hw := window_split h.ok
      refine ⟨WF.refit (h.ok.withLen (by omega)), Iso.of_mem rfl ⟨rfl, by simp [Slice.withLen, wrapRes], rfl⟩, ?_, ?_⟩
      · rw [hs]; rfl
      · rw [hs]
        simp only [wrapRes, abs, refit_bytes, refit_mem, refit_buf, refit_off, refit_boff]
        rw [view_withLen _ _ (by omega)]
        congr 1
        show (s.mem.window s.b.buf).drop (s.b.buf.len - n.toInt.toNat) = _
        have := congrArg (List.drop (s.b.buf.len - n.toInt.toNat)) hw
        rw [List.drop_append, hb, show s.b.buf.len - n.toInt.toNat - s.b.buf.len = 0 by omega, List.drop_zero] at this
        exact this
    · rw [if_neg (by omega), if_neg h0]
      refine StepOK.same h ?_ rfl
      simp only [Op.lower, Ref.step]; rw [if_neg h0, if_pos (by omega)]; rfl

theorem step_grow {s : St} (h : WF s) (n : Int64) : StepOK s (.grow n) (exec (.grow n) s) := by
  have hb := abs_len h.ok
  have hsp := abs_spare h.ok
  have hl := length_bytes h.ok
  have hc := h.ok.len_le
  simp only [exec, wrapVal_run]
  rw [buffer_grow_run h]
  by_cases h0 : n.toInt < 0
  · rw [if_pos h0]
    refine StepOK.same h ?_ rfl
    simp only [Op.lower, Ref.step]; rw [if_pos h0]; rfl
  · rw [if_neg h0]
    by_cases h1 : s.b.buf.len + n.toInt ≤ s.b.buf.cap
    · rw [if_pos h1]
      have hs : Ref.step ((Op.grow n).lower s.mem) (abs s) =
          (.ok .unit, { abs s with data := (abs s).data ++ (abs s).spare.take n.toInt.toNat,
                                   spare := (abs s).spare.drop n.toInt.toNat }) := by
        simp only [Op.lower, Ref.step]; rw [if_neg h0, if_pos (by omega)]
      have hw := window_split h.ok
      refine ⟨WF.refit (h.ok.withLen (by omega)), Iso.of_mem rfl ⟨rfl, by simp [Slice.withLen, wrapRes], rfl⟩, ?_, ?_⟩
      · rw [hs]; rfl
      · rw [hs]
        simp only [wrapRes, abs, refit_bytes, refit_mem, refit_buf, refit_off, refit_boff]
        rw [view_withLen_window _ _ (by omega)]
        congr 1
        · have := congrArg (List.take (s.b.buf.len + n.toInt.toNat)) hw
          rw [List.take_append, hb, List.take_of_length_le (l := (abs s).data) (by rw [hb]; omega),
            show s.b.buf.len + n.toInt.toNat - s.b.buf.len = n.toInt.toNat by omega] at this
          exact this
        · show (s.mem.window s.b.buf).drop (s.b.buf.len + n.toInt.toNat) = _
          rw [List.drop_drop]
    · rw [if_neg h1]
      by_cases h2 : (s.b.buf.cap + n.toInt) * 2 ≤ maxAlloc
      · rw [if_pos h2]
        have hs : Ref.step ((Op.grow n).lower s.mem) (abs s) =
            (.ok .unit, ⟨(abs s).data ++ List.replicate n.toInt.toNat 0,
              List.replicate (s.b.buf.len + 2 * (s.b.buf.cap - s.b.buf.len) + n.toInt.toNat) 0, (abs s).cur, (abs s).bcur⟩) := by
          simp only [Op.lower, Ref.step]; rw [if_neg h0, if_neg (by omega), if_pos (by omega), hb, hsp]
        have w : WF (s.refit (moved s.mem s.b.buf ((s.b.buf.cap + n.toInt.toNat) * 2))
            (fresh s.mem (s.b.buf.len + n.toInt.toNat) ((s.b.buf.cap + n.toInt.toNat) * 2))) :=
          WF.refit (moved_ok h.ok (by omega) (by omega) (by omega))
        have hmv := length_view h.ok
        refine ⟨w, ⟨?_, ?_, ?_, ?_, rfl⟩, ?_, ?_⟩
        · simp [wrapRes, moved]
        · intro c i hc' _
          show ((moved s.mem s.b.buf _).array c)[i]? = _
          unfold moved
          rw [array_alloc_lt hc']
        · intro t ht
          show SliceOK (moved s.mem s.b.buf _) t
          unfold moved
          apply ht.alloc
          rw [List.length_append, List.length_replicate, hmv]; omega
        · right; show s.mem.arrays.length ≤ s.mem.arrays.length; omega
        · rw [hs]; rfl
        · rw [hs]
          simp only [wrapRes, abs, refit_bytes, refit_mem, refit_buf, refit_off, refit_boff]
          rw [moved_view h.ok (by omega) (by omega), Nat.add_sub_cancel_left]
          congr 1
          have := moved_view h.ok (n := (s.b.buf.cap + n.toInt.toNat) * 2) (c := (s.b.buf.cap + n.toInt.toNat) * 2)
            (by omega) (by omega)
          show ((moved s.mem s.b.buf ((s.b.buf.cap + n.toInt.toNat) * 2)).view
            (fresh s.mem ((s.b.buf.cap + n.toInt.toNat) * 2) ((s.b.buf.cap + n.toInt.toNat) * 2))).drop
              (s.b.buf.len + n.toInt.toNat) = _
          rw [this, List.drop_append, List.drop_of_length_le (by omega), List.nil_append, List.drop_replicate, hmv]
          congr 1; omega
      · rw [if_neg h2]
        refine StepOK.same h ?_ rfl
        simp only [Op.lower, Ref.step]; rw [if_neg h0, if_neg (by omega), if_neg (by omega)]; rfl

theorem step_reset {s : St} (h : WF s) : StepOK s .reset (exec .reset s) := by
  have hc := h.ok.len_le
  simp only [exec, wrapVal_run]
  rw [buffer_reset_run]
  refine ⟨⟨h.ok.withLen (Nat.zero_le _), rfl, rfl⟩, Iso.of_mem rfl ⟨rfl, Nat.le_refl _, rfl⟩, rfl, ?_⟩
  simp only [Op.lower, Ref.step, wrapRes]
  unfold abs
  congr 1
  show (s.mem.window s.b.buf).drop 0 = _
  rw [List.drop_zero]; exact window_split h.ok

/-! ### everything -/

/-- Every call does what the reference machine does, and stays in its window. -/
theorem step_ok {s : St} (h : WF s) (op : Op) (hv : op.Valid s.mem) : StepOK s op (exec op s) := by
  have hcap := h.cap_toInt
  have hbcap := h.bcap_toInt
  have hb := abs_len h.ok
  match op, hv with
  | .write k e (some o) data, hv => exact step_write h k e o data hv
  | .write k e none data, hv =>
    refine StepOK.next (len data * Int64.ofNat k.size) (step_write h k e s.b.off data hv) ?_ ?_
    · simp only [exec, wrapVal_run, writeNext_run, wrap_advance]
    · rw [len_mul data k.size hv (size_pos k)]
      simp only [Op.lower, Ref.step, Option.map_none, Option.map_some, List.length_map]; rfl
  | .read k e (some o) n, _ => exact step_read h k e o n
  | .read k e none n, _ =>
    refine StepOK.next (n * Int64.ofNat k.size) (step_read h k e s.b.off n) ?_ ?_
    · simp only [exec, wrapVal_run, readNext_run, wrap_advance]
    · have h8 := size_le k
      have : ∀ q, Ref.stepCur (n * Int64.ofNat k.size).toInt q = Ref.stepCur (n.toInt * k.size) q := by
        intro q
        have : ∀ a : Int, Ref.wrap64 (a + (n * Int64.ofNat k.size).toInt) = Ref.wrap64 (a + n.toInt * k.size) := by
          intro a
          rw [Int64.toInt_mul, toInt_ofNat (show k.size < 2 ^ 63 by omega)]
          unfold Ref.wrap64
          exact Int.add_bmod_bmod
        rcases q with ⟨_ | _, q⟩
        · simp only [Ref.stepCur, this]
        · rfl
      rw [this]; rfl
  | .writeBytes (some o) src, hv => exact step_writeBytes h o src hv
  | .writeBytes none src, hv =>
    have hm := SliceOK.len_le_max hv
    have hM := maxAlloc_lt
    refine StepOK.next (Int64.ofNat src.len) (step_writeBytes h s.b.off src hv) ?_ ?_
    · simp only [exec, wrapVal_run, writeBytesNext_run, wrap_advance]
    · rw [toInt_ofNat (by omega)]
      simp only [Op.lower, Ref.step, Option.map_none, Option.map_some, length_view hv]; rfl
  | .writeByte (some o) v, _ => exact step_writeByte h o v
  | .writeByte none v, _ =>
    refine StepOK.next 1 (step_writeByte h s.b.off v) ?_ rfl
    simp only [exec, wrapVal_run, writeByteNext_run, wrap_advance]
  | .readBytes (some o) n, _ => exact step_readBytes h o n
  | .readBytes none n, _ =>
    refine StepOK.next n (step_readBytes h s.b.off n) ?_ rfl
    simp only [exec, wrapVal_run, readBytesNext_run, wrap_advance]
  | .readByte (some o), _ => exact step_readByte h o
  | .readByte none, _ =>
    refine StepOK.next 1 (step_readByte h s.b.off) ?_ rfl
    simp only [exec, wrapVal_run, readByteNext_run, wrap_advance]
  | .readBit (some o), _ => exact step_readBit h o
  | .readBit none, _ =>
    refine StepOK.nextBit 1 (step_readBit h s.b.boff) ?_ rfl
    simp only [exec, wrapVal_run, readBitNext_run, wrap_advanceBit]
  | .readBits (some o) n, _ => exact step_readBits h o n
  | .readBits none n, _ =>
    refine StepOK.nextBit n (step_readBits h s.b.boff n) ?_ rfl
    simp only [exec, wrapVal_run, readBitsNext_run, wrap_advanceBit]
  | .setBit (some o), _ => exact step_setBit h o
  | .setBit none, _ =>
    refine StepOK.nextBit 1 (step_setBit h s.b.boff) ?_ rfl
    simp only [exec, wrapVal_run, setBitNext_run, wrap_advanceBit]
  | .clearBit (some o), _ => exact step_clearBit h o
  | .clearBit none, _ =>
    refine StepOK.nextBit 1 (step_clearBit h s.b.boff) ?_ rfl
    simp only [exec, wrapVal_run, clearBitNext_run, wrap_advanceBit]
  | .flipBit (some o), _ => exact step_flipBit h o
  | .flipBit none, _ =>
    refine StepOK.nextBit 1 (step_flipBit h s.b.boff) ?_ rfl
    simp only [exec, wrapVal_run, flipBitNext_run, wrap_advanceBit]
  | .setBits (some o) d n, _ => exact step_setBits h o d n
  | .setBits none d n, _ =>
    refine StepOK.nextBit n (step_setBits h s.b.boff d n) ?_ rfl
    simp only [exec, wrapVal_run, setBitsNext_run, wrap_advanceBit]
  | .clearAll, _ =>
    simp only [exec, wrapVal_run]
    exact step_all h _ _ _ (mini_clearAll h.ok) (mini_clearAll_empty h.ok) rfl
  | .setAll, _ =>
    simp only [exec, wrapVal_run]
    exact step_all h _ _ _ (mini_setAll h.ok) (mini_setAll_empty h.ok) rfl
  | .flipAll, _ =>
    simp only [exec, wrapVal_run]
    exact step_all h _ _ _ (mini_flipAll h.ok) (mini_flipAll_empty h.ok) rfl
  | .seekByte o r, _ =>
    simp only [exec, wrapVal_run, buffer_seekByte_run]
    refine ⟨⟨h.ok, h.cap, h.bcap⟩, Iso.of_mem rfl ⟨rfl, Nat.le_refl _, rfl⟩, rfl, ?_⟩
    cases r
    · rfl
    · simp only [Op.lower, Ref.step, wrapRes, abs, if_true, toInt_add_wrap]; rfl
  | .seekBit o r, _ =>
    simp only [exec, wrapVal_run, buffer_seekBit_run]
    refine ⟨⟨h.ok, h.cap, h.bcap⟩, Iso.of_mem rfl ⟨rfl, Nat.le_refl _, rfl⟩, rfl, ?_⟩
    cases r
    · rfl
    · simp only [Op.lower, Ref.step, wrapRes, abs, if_true, toInt_add_wrap]; rfl
  | .afterByte [], _ =>
    refine StepOK.same (r := .ok (.i64 (s.b.cap - s.b.off - 1))) h rfl ?_
    simp only [obsRes, Val.obs, toInt_sub_wrap, hcap]
    rw [← hb]; rfl
  | .afterByte (o :: os), _ =>
    refine StepOK.same (r := .ok (.i64 (s.b.cap - o - 1))) h rfl ?_
    simp only [obsRes, Val.obs, toInt_sub_wrap, hcap]
    rw [← hb]; rfl
  | .afterBit [], _ =>
    refine StepOK.same (r := .ok (.i64 (s.b.bcap - s.b.boff - 1))) h rfl ?_
    simp only [obsRes, Val.obs, toInt_sub_wrap, hbcap]
    rw [← hb]; rfl
  | .afterBit (o :: os), _ =>
    refine StepOK.same (r := .ok (.i64 (s.b.bcap - o - 1))) h rfl ?_
    simp only [obsRes, Val.obs, toInt_sub_wrap, hbcap]
    rw [← hb]; rfl
  | .alignByte, _ =>
    refine ⟨⟨h.ok, h.cap, h.bcap⟩, Iso.of_mem rfl ⟨rfl, Nat.le_refl _, rfl⟩, rfl, ?_⟩
    have e : (s.b.boff / 8).toInt = s.b.boff.toInt.tdiv 8 := by
      rw [Int64.toInt_div, show (8 : Int64).toInt = 8 from rfl]
      have h1 := s.b.boff.toInt_lt; have h2 := s.b.boff.le_toInt
      have h3 : s.b.boff.toInt.tdiv 8 = if 0 ≤ s.b.boff.toInt then s.b.boff.toInt / 8 else -(-s.b.boff.toInt / 8) := by
        split
        · rename_i h; exact Int.tdiv_eq_ediv_of_nonneg h
        · rw [← Int.tdiv_eq_ediv_of_nonneg (a := -s.b.boff.toInt) (by omega), Int.neg_tdiv, Int.neg_neg]
      apply Int.bmod_eq_of_le <;> omega
    show abs { s with b := { s.b with off := s.b.boff / 8 } } = { abs s with cur := s.b.boff.toInt.tdiv 8 }
    simp only [abs, e]; rfl
  | .alignBit, _ =>
    refine ⟨⟨h.ok, h.cap, h.bcap⟩, Iso.of_mem rfl ⟨rfl, Nat.le_refl _, rfl⟩, rfl, ?_⟩
    have e : (s.b.off * 8).toInt = Ref.wrap64 (8 * s.b.off.toInt) := by
      rw [Int64.toInt_mul, show (8 : Int64).toInt = 8 from rfl, Int.mul_comm]; rfl
    show abs { s with b := { s.b with boff := s.b.off * 8 } } = { abs s with bcur := Ref.wrap64 (8 * s.b.off.toInt) }
    simp only [abs, e]; rfl
  | .truncateLeft n, _ => exact step_truncateLeft h n
  | .truncateRight n, _ => exact step_truncateRight h n
  | .grow n, _ => exact step_grow h n
  | .refresh, _ =>
    simp only [exec, wrapVal_run, buffer_refresh_run, refit_self h]
    exact StepOK.same h rfl rfl
  | .reset, _ => exact step_reset h
  | .bytes, _ => exact StepOK.same (r := .ok (.slice s.b.buf)) h rfl rfl
  | .byteCapacity, _ =>
    refine StepOK.same (r := .ok (.i64 s.b.cap)) h rfl ?_
    simp only [obsRes, Val.obs, hcap]; rw [← hb]
  | .bitCapacity, _ =>
    refine StepOK.same (r := .ok (.i64 s.b.bcap)) h rfl ?_
    simp only [obsRes, Val.obs, hbcap]; rw [← hb]
  | .byteOffset, _ => exact StepOK.same (r := .ok (.i64 s.b.off)) h rfl rfl
  | .bitOffset, _ => exact StepOK.same (r := .ok (.i64 s.b.boff)) h rfl rfl

end Crunch.V3
