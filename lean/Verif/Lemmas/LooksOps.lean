import Verif.Lemmas.Looks
import Verif.Lemmas.SafeOps

/-! Which calls of the v1 and v2 `Buffer` are of the kinds of `Lemmas/Looks.lean`. -/

namespace Crunch
open V3 (St)

/-! ## no call leaves the mutex locked -/

theorem wp_sec_run {L : Nat} {p : Prog α} (hs : Sec p) {m : Nat} {x : Bool} (h : wp L (fun _ l => l = false) Fin true m x p) (s : Sh)
    (g : Held0 L s.st) (hm : m ≤ s.st.b.buf.len) : (p.run s).2.locked = false := by
  have hc0 := g.cap0; have hc1 := g.cap; have hl := g.len_le; have hca := g.cap_le; have hb0 := g.bcap0; have hb1 := g.bcap
  induction p generalizing m x s with
  | ret a => exact hs.elim
  | panic q => exact nomatch h
  | getI f k ih =>
    cases f with
    | cap =>
      exact ih _ (hs _) (h s.st.b.cap hc0 (by omega)) s g (by omega) hc0 hc1 hl hca hb0 hb1
    | bcap => exact ih _ (hs _) (h s.st.b.bcap hb0 (by omega)) s g (by omega) hc0 hc1 hl hca hb0 hb1
    | off => exact ih _ (hs _) (h _) s g hm hc0 hc1 hl hca hb0 hb1
    | boff => exact ih _ (hs _) (h _) s g hm hc0 hc1 hl hca hb0 hb1
  | setI f v k ih =>
    cases f with
    | cap => exact nomatch hs.1
    | bcap => exact nomatch hs.1
    | off => exact ih hs.2 h { s with st := { s.st with b := Field.off.set s.st.b v } } ⟨hl, hca, hc0, hc1, hb0, hb1⟩ hm hc0 hc1 hl hca hb0 hb1
    | boff => exact ih hs.2 h { s with st := { s.st with b := Field.boff.set s.st.b v } } ⟨hl, hca, hc0, hc1, hb0, hb1⟩ hm hc0 hc1 hl hca hb0 hb1
  | getBuf k ih => exact ih _ (hs _) (h s.st.b.buf (by omega) hm hl hca) s g (Nat.le_refl _) hc0 hc1 hl hca hb0 hb1
  | load t i k ih => exact ih _ (hs _) (h _) s g hm hc0 hc1 hl hca hb0 hb1
  | store t i v k ih =>
    exact ih hs h { s with st := { s.st with mem := s.st.mem.set t.arr (t.off + i) v } } ⟨hl, hca, hc0, hc1, hb0, hb1⟩ hm hc0 hc1 hl hca hb0 hb1
  | unlock k ih =>
    change k.result.isSome = true at hs
    obtain ⟨r, hr⟩ := Option.isSome_iff_exists.mp hs
    show (k.run ⟨s.st, false⟩).2.locked = false
    rw [run_result hr]
  | _ => exact hs.elim

theorem wp_once_run {L : Nat} {p : Prog α} (hs : Once p) {m : Nat} {x : Bool} (h : wp L (fun _ l => l = false) Fin false m x p) (s : Sh)
    (g : Held0 L s.st) (hm : m ≤ s.st.b.buf.len) (hlk : s.locked = false) : (p.run s).2.locked = false := by
  have hc0 := g.cap0; have hc1 := g.cap; have hl := g.len_le; have hca := g.cap_le; have hb0 := g.bcap0; have hb1 := g.bcap
  induction p generalizing m x s with
  | ret a => exact hlk
  | panic q => exact hlk
  | getI f k ih =>
    cases f with
    | cap => exact ih _ (hs.2 _) (h s.st.b.cap hc0 (by omega)) s g (by omega) hlk hc0 hc1 hl hca hb0 hb1
    | bcap => exact ih _ (hs.2 _) (h s.st.b.bcap hb0 (by omega)) s g (by omega) hlk hc0 hc1 hl hca hb0 hb1
    | off => exact nomatch hs.1
    | boff => exact nomatch hs.1
  | getBuf k ih => exact ih _ (hs _) (h s.st.b.buf (by omega) hm hl hca) s g (Nat.le_refl _) hlk hc0 hc1 hl hca hb0 hb1
  | lock k ih =>
    show (if s.locked = true then _ else _ : Res α × Sh).2.locked = _
    rw [hlk]
    exact wp_sec_run hs h.2 ⟨s.st, true⟩ g hm
  | _ => exact hs.elim

/-! ## sections that store in increasing order -/

/-- A store at `x` would be at `n` or behind it. -/
def Ready (B : Slice) (n : Nat) (x : Int64) : Prop := 0 ≤ x.toInt → x.toInt < B.len → n ≤ B.off + x.toInt.toNat

abbrev Any' : Nat → α → Prop := fun _ _ => True

variable {B : Slice}

theorem Inc.of_silent {p : Prog α} (h : Silent p) (n : Nat) {Q : Nat → α → Prop} (hq : ∀ a, Q n a) : Inc B Q n p := by
  cases p with
  | ret a => exact hq a
  | panic q => trivial
  | _ => exact h.elim

theorem inc_idx (l : List α) (i : Int64) (n : Nat) : Inc B (fun m _ => m = n) n (Prog.idx l i) := by
  unfold Prog.idx; split
  · split <;> first | exact rfl | trivial
  · trivial
theorem inc_setIdx (l : List α) (i : Int64) (v : α) (n : Nat) : Inc B (fun m _ => m = n) n (Prog.setIdx l i v) := by
  unfold Prog.setIdx; split <;> first | exact rfl | trivial
theorem inc_loadAt (s : Slice) (i : Int64) (n : Nat) : Inc B (fun m _ => m = n) n (Prog.loadAt s i) := by
  unfold Prog.loadAt; split
  · exact fun _ => rfl
  · trivial
theorem inc_bufLoad (i : Int64) (n : Nat) : Inc B (fun m _ => m = n) n (Prog.bufLoad i) := inc_loadAt B i n
theorem inc_srcAt (x : Src) (i : Int64) (n : Nat) : Inc B (fun m _ => m = n) n (Prog.srcAt x i) := by
  unfold Prog.srcAt; split
  · exact inc_loadAt _ _ _
  · split <;> first | exact rfl | trivial

theorem inc_bufStore (hB : B.len < 2 ^ 62) {x : Int64} (v : UInt8) {n : Nat} (h : Ready B n x) :
    Inc B (fun m _ => Ready B m (x + 1)) n (Prog.bufStore x v) := by
  show Inc B _ n (Prog.storeAt B x v)
  unfold Prog.storeAt
  split
  · rename_i hx
    refine ⟨h hx.1 hx.2, fun h1 h2 => ?_⟩
    have e : (x + 1).toInt = x.toInt + 1 := by
      rw [Int64.toInt_add]
      unfold Int.bmod
      simp
      omega
    omega
  · trivial

theorem Inc.seq {Q : Nat → α → Prop} {R : Nat → β → Prop} {p : Prog α} {f : α → Prog β} {n : Nat} (h : Inc B Q n p) (hf : ∀ m a, Q m a → Inc B R m (f a)) :
    Inc B R n (p.bind f) := Inc.bind (h.mono hf)

theorem inc_doLoop {body : Int64 → α → Prog α} (I : Int64 → Nat → Prop) (h : ∀ i a n, I i n → Inc B (fun m _ => I (i + 1) m) n (body i a)) (k i : Int64)
    (a : α) (n : Nat) (hi : I i n) : Inc B Any' n (Prog.doLoop body k i a) := by
  fun_induction Prog.doLoop body k i a generalizing n with
  | case1 i a ih =>
    refine (h i a n hi).seq fun m a' hm => ?_
    split
    · rename_i hh
      exact ih a' hh m hm
    · trivial

theorem inc_forLoop {body : Int64 → α → Prog α} (I : Int64 → Nat → Prop) (h : ∀ i a n, I i n → Inc B (fun m _ => I (i + 1) m) n (body i a)) (k i : Int64)
    (a : α) (n : Nat) (hi : I i n) : Inc B Any' n (Prog.forLoop body k i a) := by
  fun_induction Prog.forLoop body k i a generalizing n with
  | case1 i a hh ih => exact (h i a n hi).seq fun m a' hm => ih a' m hm
  | case2 i a hh => trivial

theorem Inc.defer {p : Prog α} {n : Nat} (h : Inc B Any' n p) : Inc B Any' n p.deferUnlock := by
  induction p generalizing n with
  | ret a => trivial
  | panic q => trivial
  | getI g k ih => exact fun v => ih v (h v)
  | getBuf k ih => exact ih _ h
  | load t i k ih => exact fun v => ih v (h v)
  | store t i v k ih => exact ⟨h.1, ih h.2⟩
  | lock k ih => exact ih h
  | unlock k ih => exact ih h
  | _ => exact h.elim

theorem Inc.field {f : Field} {k : Int64 → Prog β} {n : Nat} (h : ∀ v, Inc B Any' n (k v)) : Inc B Any' n ((Prog.field f).bind k) := h
theorem Inc.panicIf (c : Prop) [Decidable c] (q : Panic) {k : Unit → Prog β} {n : Nat} (h : Inc B Any' n (k ())) : Inc B Any' n ((Prog.panicIf c q).bind k) := by
  unfold Prog.panicIf; split
  · trivial
  · exact h
theorem Inc.makeTyped (w : Nat) (z : α) (m : Int64) {k : List α → Prog β} {n : Nat} (h : ∀ v, Inc B Any' n (k v)) : Inc B Any' n ((Prog.makeTyped w z m).bind k) := by
  unfold Prog.makeTyped; split
  · trivial
  · exact h _
theorem Inc.locked {p : Prog α} {n : Nat} (h : Inc B Any' n p) : Inc B Any' n (Prog.locked p) := Inc.defer (p := p) h
theorem Inc.map {p : Prog α} (g : α → β) {n : Nat} (h : Inc B Any' n p) : Inc B Any' n (p.bind fun a => .ret (g a)) := h.seq fun _ _ _ => trivial

namespace V2

/-- checks, then `Lock`, a loop, `Unlock` -/
theorem write_inc (c : Int64 → Prop) [DecidablePred c] (d : Prop) [Decidable d] {body : Int64 → Unit → Prog Unit} (k : Int64) (f : Int64 → Int64)
    (hb : ∀ i a n, Ready B n (f i) → Inc B (fun m _ => Ready B m (f (i + 1))) n (body i a)) :
    Inc B Any' 0 ((Prog.field .cap).bind fun cap => (Prog.panicIf (c cap) (.err BufferOverwriteError)).bind fun _ =>
        (Prog.panicIf d (.err BufferUnderwriteError)).bind fun _ => Prog.Lock.bind fun _ =>
          (Prog.doLoop body k 0 ()).bind fun _ => Prog.Unlock) :=
  Inc.field fun _ => Inc.panicIf _ _ (Inc.panicIf _ _ (show Inc B Any' 0 ((Prog.doLoop body k 0 ()).bind fun _ => Prog.Unlock) from
    (inc_doLoop (fun i n => Ready B n (f i)) hb k 0 () 0 fun _ _ => Nat.zero_le _).seq fun _ _ _ => trivial))

theorem read_inc (c : Int64 → Prop) [DecidablePred c] (d : Prop) [Decidable d] {z : α} (w : Nat)
    {body : Int64 → List α → Prog (List α)} (k : Int64) (hb : ∀ i a n, Inc B Any' n (body i a)) :
    Inc B Any' 0 ((Prog.field .cap).bind fun cap => (Prog.panicIf (c cap) (.err BufferOverreadError)).bind fun _ =>
        (Prog.panicIf d (.err BufferUnderreadError)).bind fun _ => (Prog.makeTyped w z k).bind fun out =>
          Prog.locked (Prog.doLoop body k 0 out)) :=
  Inc.field fun _ => Inc.panicIf _ _ (Inc.panicIf _ _ (Inc.makeTyped _ _ _ fun _ => Inc.locked
    (inc_doLoop (fun _ _ => True) (fun i a n _ => (hb i a n).mono fun _ _ _ => trivial) k 0 _ 0 trivial)))

theorem guard_inc (f : Field) (c : Int64 → Prop) [DecidablePred c] (d : Prop) [Decidable d] (e e' : Panic)
    {body : Prog α} (hb : Inc B Any' 0 body) :
    Inc B Any' 0 ((Prog.field f).bind fun x => (Prog.panicIf (c x) e).bind fun _ =>
        (Prog.panicIf d e').bind fun _ => Prog.locked body) :=
  Inc.field fun _ => Inc.panicIf _ _ (Inc.panicIf _ _ (Inc.locked hb))

theorem store_first (hB : B.len < 2 ^ 62) {o x : Int64} (v : UInt8) {n : Nat} (h : Ready B n (o + x)) :
    Inc B (fun m _ => Ready B m (o + (1 + x))) n (Prog.bufStore (o + x) v) :=
  (inc_bufStore hB v h).mono fun m _ hm => by rwa [show o + x + 1 = o + (1 + x) by grind] at hm

theorem store_next (hB : B.len < 2 ^ 62) {o x c : Int64} (c' : Int64) (v : UInt8) {n : Nat} (h : Ready B n (o + (c + x))) (hc : c + 1 = c') :
    Inc B (fun m _ => Ready B m (o + (c' + x))) n (Prog.bufStore (o + (c + x)) v) :=
  (inc_bufStore hB v h).mono fun m _ hm => by rwa [show o + (c + x) + 1 = o + (c' + x) by grind] at hm

theorem store_last (hB : B.len < 2 ^ 62) {o i c w : Int64} (v : UInt8) {n : Nat} (h : Ready B n (o + (c + i * w))) (hw : c + 1 = w) :
    Inc B (fun m _ => Ready B m (o + (i + 1) * w)) n (Prog.bufStore (o + (c + i * w)) v) :=
  (inc_bufStore hB v h).mono fun m _ hm => by rwa [show o + (c + i * w) + 1 = o + (i + 1) * w by grind] at hm

theorem idx_then {l : List α} {i : Int64} {n : Nat} {f : α → Prog β} {R : Nat → β → Prop} (h : ∀ d, Inc B R n (f d)) :
    Inc B R n (Prog.idx l i >>= f) := Inc.seq (inc_idx _ _ _) fun m d hm => by subst hm; exact h d

theorem load_then {x : Int64} {n : Nat} {f : UInt8 → Prog β} {R : Nat → β → Prop} (h : ∀ d, Inc B R n (f d)) :
    Inc B R n (Prog.bufLoad x >>= f) := Inc.seq (inc_bufLoad _ _) fun m d hm => by subst hm; exact h d

theorem first_then (hB : B.len < 2 ^ 62) {o x : Int64} {v : UInt8} {n : Nat} {f : Unit → Prog β} {R : Nat → β → Prop} (h : Ready B n (o + x))
    (hf : ∀ m, Ready B m (o + (1 + x)) → Inc B R m (f ())) : Inc B R n (Prog.bufStore (o + x) v >>= f) := Inc.seq (store_first hB v h) fun m _ hm => hf m hm

theorem next_then (hB : B.len < 2 ^ 62) {o x c : Int64} (c' : Int64) {v : UInt8} {n : Nat} {f : Unit → Prog β} {R : Nat → β → Prop} (h : Ready B n (o + (c + x)))
    (hc : c + 1 = c') (hf : ∀ m, Ready B m (o + (c' + x)) → Inc B R m (f ())) : Inc B R n (Prog.bufStore (o + (c + x)) v >>= f) :=
  Inc.seq (store_next hB c' v h hc) fun m _ hm => hf m hm

theorem writeTyped_inc (hB : B.len < 2 ^ 62) (k : UKind) (e : Spec.Endian) (off : Int64) (data : List k.kind.Ty) : Inc B Any' 0 (Buffer.Write k e off data) := by
  cases k <;> cases e
  · exact write_inc (fun cap => off + len data * 2 > cap) _ _ (fun i => off + i * 2) (fun i a n h => idx_then fun _ => first_then hB h fun _ h =>
          idx_then fun _ => store_last hB _ h rfl)
  · exact write_inc (fun cap => off + len data * 2 > cap) _ _ (fun i => off + i * 2) (fun i a n h => idx_then fun _ => first_then hB h fun _ h =>
          idx_then fun _ => store_last hB _ h rfl)
  · exact write_inc (fun cap => off + len data * 4 > cap) _ _ (fun i => off + i * 4) (fun i a n h => idx_then fun _ => first_then hB h fun _ h =>
          idx_then fun _ => next_then hB 2 h rfl fun _ h =>
          idx_then fun _ => next_then hB 3 h rfl fun _ h =>
          idx_then fun _ => store_last hB _ h rfl)
  · exact write_inc (fun cap => off + len data * 4 > cap) _ _ (fun i => off + i * 4) (fun i a n h => idx_then fun _ => first_then hB h fun _ h =>
          idx_then fun _ => next_then hB 2 h rfl fun _ h =>
          idx_then fun _ => next_then hB 3 h rfl fun _ h =>
          idx_then fun _ => store_last hB _ h rfl)
  · exact write_inc (fun cap => off + len data * 8 > cap) _ _ (fun i => off + i * 8) (fun i a n h => idx_then fun _ => first_then hB h fun _ h =>
          idx_then fun _ => next_then hB 2 h rfl fun _ h =>
          idx_then fun _ => next_then hB 3 h rfl fun _ h =>
          idx_then fun _ => next_then hB 4 h rfl fun _ h =>
          idx_then fun _ => next_then hB 5 h rfl fun _ h =>
          idx_then fun _ => next_then hB 6 h rfl fun _ h =>
          idx_then fun _ => next_then hB 7 h rfl fun _ h =>
          idx_then fun _ => store_last hB _ h rfl)
  · exact write_inc (fun cap => off + len data * 8 > cap) _ _ (fun i => off + i * 8) (fun i a n h => idx_then fun _ => first_then hB h fun _ h =>
          idx_then fun _ => next_then hB 2 h rfl fun _ h =>
          idx_then fun _ => next_then hB 3 h rfl fun _ h =>
          idx_then fun _ => next_then hB 4 h rfl fun _ h =>
          idx_then fun _ => next_then hB 5 h rfl fun _ h =>
          idx_then fun _ => next_then hB 6 h rfl fun _ h =>
          idx_then fun _ => next_then hB 7 h rfl fun _ h =>
          idx_then fun _ => store_last hB _ h rfl)

theorem readTyped_inc (k : UKind) (e : Spec.Endian) (off n : Int64) : Inc B Any' 0 (Buffer.Read k e off n) := by
  cases k <;> cases e
  · exact read_inc (fun cap => off + n * 2 > cap) _ _ _ (fun i a n => load_then fun _ => load_then fun _ => (inc_setIdx _ _ _ _).mono fun _ _ _ => trivial)
  · exact read_inc (fun cap => off + n * 2 > cap) _ _ _ (fun i a n => load_then fun _ => load_then fun _ => (inc_setIdx _ _ _ _).mono fun _ _ _ => trivial)
  · exact read_inc (fun cap => off + n * 4 > cap) _ _ _ (fun i a n => load_then fun _ => load_then fun _ => load_then fun _ => load_then fun _ => (inc_setIdx _ _ _ _).mono fun _ _ _ => trivial)
  · exact read_inc (fun cap => off + n * 4 > cap) _ _ _ (fun i a n => load_then fun _ => load_then fun _ => load_then fun _ => load_then fun _ => (inc_setIdx _ _ _ _).mono fun _ _ _ => trivial)
  · exact read_inc (fun cap => off + n * 8 > cap) _ _ _ (fun i a n => load_then fun _ => load_then fun _ => load_then fun _ => load_then fun _ => load_then fun _ => load_then fun _ => load_then fun _ => load_then fun _ => (inc_setIdx _ _ _ _).mono fun _ _ _ => trivial)
  · exact read_inc (fun cap => off + n * 8 > cap) _ _ _ (fun i a n => load_then fun _ => load_then fun _ => load_then fun _ => load_then fun _ => load_then fun _ => load_then fun _ => load_then fun _ => load_then fun _ => (inc_setIdx _ _ _ _).mono fun _ _ _ => trivial)

theorem writeSrc_inc (hB : B.len < 2 ^ 62) (off : Int64) (data : Src) : Inc B Any' 0 (Buffer.write off data) :=
  write_inc (fun cap => off + Int64.ofNat data.len > cap) _ _ (fun i => off + i) fun i a n h =>
    Inc.seq (inc_srcAt _ _ _) fun m _ hm => by
      subst hm
      exact (inc_bufStore hB _ h).mono fun m _ hm => by rwa [show off + i + 1 = off + (i + 1) by grind] at hm

theorem readRaw_inc (off n : Int64) : Inc B Any' 0 (Buffer.read off n) :=
  guard_inc .cap (fun cap => off + n > cap) _ _ _ (show Inc B Any' 0 (Prog.reslice B off (off + n)) from
    Inc.of_silent (silent_reslice _ _ _) _ fun _ => trivial)

theorem loadStore_inc (hB : B.len < 2 ^ 62) {x : Int64} {g : UInt8 → UInt8} {n : Nat} (h : Ready B n x) :
    Inc B (fun m _ => Ready B m (x + 1)) n (Prog.bufLoad x >>= fun v => Prog.bufStore x (g v)) :=
  Inc.seq (inc_bufLoad _ _) fun m v hm => by subst hm; exact inc_bufStore hB _ h

theorem ready0 (x : Int64) : Ready B 0 x := fun _ _ => Nat.zero_le _

theorem readbit_inc (off : Int64) : Inc B Any' 0 (Buffer.readbit off) :=
  guard_inc .bcap (fun bcap => off > bcap - 1) _ _ _ (Inc.seq (inc_bufLoad _ _) fun _ _ _ => trivial)

theorem setbit_inc (hB : B.len < 2 ^ 62) (off : Int64) (v : UInt8) : Inc B Any' 0 (Buffer.setbit off v) := by
  refine guard_inc .bcap (fun bcap => off > bcap - 1) _ _ _ ?_
  split
  · exact (loadStore_inc hB (ready0 _)).mono fun _ _ _ => trivial
  · split
    · exact (loadStore_inc hB (ready0 _)).mono fun _ _ _ => trivial
    · trivial

theorem flipbit_inc (hB : B.len < 2 ^ 62) (off : Int64) : Inc B Any' 0 (Buffer.flipbit off) :=
  guard_inc .bcap (fun bcap => off > bcap - 1) _ _ _ ((loadStore_inc hB (ready0 _)).mono fun _ _ _ => trivial)

theorem clear_inc (hB : B.len < 2 ^ 62) : Inc B Any' 0 Buffer.clearallbits :=
  Inc.locked (inc_doLoop (fun i n => Ready B n i) (fun _ _ _ h => inc_bufStore hB _ h) _ _ _ _ (ready0 _))
theorem setall_inc (hB : B.len < 2 ^ 62) : Inc B Any' 0 Buffer.setallbits :=
  Inc.locked (inc_doLoop (fun i n => Ready B n i) (fun _ _ _ h => inc_bufStore hB _ h) _ _ _ _ (ready0 _))
theorem flipall_inc (hB : B.len < 2 ^ 62) : Inc B Any' 0 Buffer.flipallbits :=
  Inc.locked (inc_doLoop (fun i n => Ready B n i) (fun _ _ _ h => loadStore_inc hB h) _ _ _ _ (ready0 _))

theorem readByte_look (b : V3.Buf) (off : Int64) : LookB b (Buffer.ReadByte off) := by
  show LookB b ((Buffer.read off 1).bind fun s => Prog.loadAt s 0)
  show LookB b (((Prog.field .cap).bind fun cap => (Prog.panicIf (off + 1 > cap) (.err BufferOverreadError)).bind fun _ =>
    (Prog.panicIf (off < 0) (.err BufferUnderreadError)).bind fun _ => Prog.locked (Prog.buf.bind fun s => Prog.reslice s off (off + 1))).bind fun s => Prog.loadAt s 0)
  show LookB b (((Prog.panicIf (off + 1 > b.cap) (.err BufferOverreadError)).bind fun _ =>
    (Prog.panicIf (off < 0) (.err BufferUnderreadError)).bind fun _ => Prog.locked (Prog.buf.bind fun s => Prog.reslice s off (off + 1))).bind fun s => Prog.loadAt s 0)
  unfold Prog.panicIf
  split
  · trivial
  · split
    · trivial
    · show LookS b ((Prog.reslice b.buf off (off + 1)).deferUnlock.bind fun s => Prog.loadAt s 0)
      unfold Prog.reslice
      split
      · show LookA (Prog.loadAt _ 0)
        unfold Prog.loadAt
        split
        · exact fun _ => rfl
        · trivial
      · trivial

theorem refresh_look {b : V3.Buf} (h1 : b.cap = Int64.ofNat b.buf.len) (h2 : b.bcap = b.cap * 8) : LookB b Buffer.refresh :=
  ⟨rfl, h1.symm, rfl, rfl, h2.symm, trivial⟩

theorem seek_onceO (off : Int64) (r : Bool) : OnceO (Buffer.seek off r) := by
  cases r
  · exact ⟨rfl, rfl⟩
  · exact fun _ => ⟨rfl, rfl⟩
theorem seekbit_onceO (off : Int64) (r : Bool) : OnceO (Buffer.seekbit off r) := by
  cases r
  · exact ⟨rfl, rfl⟩
  · exact fun _ => ⟨rfl, rfl⟩
theorem alignbit_onceO : OnceO Buffer.alignbit := fun _ => ⟨rfl, rfl⟩
theorem alignbyte_onceO : OnceO Buffer.alignbyte := fun _ => ⟨rfl, rfl⟩

theorem after_look (b : V3.Buf) (o : List Int64) : LookB b (Buffer.After o) := by
  cases o with
  | nil => exact fun _ => rfl
  | cons => trivial
theorem afterBit_look (b : V3.Buf) (o : List Int64) : LookB b (Buffer.AfterBit o) := by
  cases o with
  | nil => exact fun _ => rfl
  | cons => trivial

end V2
end Crunch
