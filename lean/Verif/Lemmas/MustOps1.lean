import Verif.Lemmas.MustOps
import Verif.Lemmas.Guards
import Verif.Lemmas.V1Foot
import Verif.Lemmas.V1Step

/-! What the calls of v1 `Buffer` that succeed must change, and what they must read without the mutex. -/

namespace Crunch.V1
open Spec
open V3 (Buf WF)
open V2 (AnyBuf must_seek must_seekbit must_write index_of)

variable {G : Buf → Prop} {l : Loc}

theorem wrap_must {p : Prog α} (h : Must G l p) (f : α → V3.Val) : Must G l (wrap1 f p) := h.left _
theorem wrap_peeks {p : Prog α} {m : Bool} (h : Peeks G l m p) (f : α → V3.Val) : Peeks G l m (wrap1 f p) := h.left _

/-- A part that reads bytes only comes before the read. -/
theorem _root_.Crunch.Peeks.skip {p : Prog α} (hp : Bytes p) {m : Bool} {f : α → Prog β} (h : ∀ a, Peeks G l m (f a)) : Peeks G l m (p.bind f) := by
  induction p with
  | ret a => exact h a
  | panic q => trivial
  | load t i k ih => exact .inr fun v => ih _ (hp v)
  | _ => exact hp.elim

theorem _root_.Crunch.Peeks.forLoop {body : Int64 → α → Prog α} {n i j : Int64} {m : Bool} (hs : ∀ i a, Bytes (body i a)) (hb : ∀ a, Peeks G l m (body j a))
    (h : i.toInt ≤ j.toInt ∧ j.toInt < n.toInt) (a : α) : Peeks G l m (Prog.forLoop body n i a) := by
  fun_induction Prog.forLoop body n i a with
  | case1 i a hi ih =>
    by_cases e : i = j
    · subst e
      exact (hb a).left _
    · refine Peeks.skip (hs i a) fun a' => ih a' ⟨?_, h.2⟩
      have hij : i.toInt < j.toInt := by
        rcases Int.lt_or_eq_of_le h.1 with h | h
        · exact h
        · exact absurd (Int64.toInt_inj.mp h) e
      have := j.toInt_lt; have := i.le_toInt; have := n.toInt_lt
      have hi : (i + 1).toInt = i.toInt + 1 := by
        rw [Int64.toInt_add]; show (i.toInt + 1).bmod _ = _; unfold Int.bmod; simp; omega
      omega
  | case2 i a hi => rw [Int64.lt_iff_toInt_lt] at hi; omega

macro "none_left" hs:ident h:ident : tactic => `(tactic| first
  | exact Bool.noConfusion (show true = false from $hs)
  | exact Bool.noConfusion (show false = true from $h))

/-! ## fields and header -/

theorem shared_v2 {op : Op1} (hs : Shared op = true) : ∃ op2, toV2 op = some op2 := by
  cases op <;> first | exact ⟨_, rfl⟩ | exact nomatch hs

theorem exec1_must (op : Op1) {k : Part} (hk : k ≠ .bytes) (h : alters1 op k = true) : Must AnyBuf k.place (exec1 op) := by
  cases hs : Shared op with
  | true =>
    obtain ⟨op2, e⟩ := shared_v2 hs
    rw [(tables_v2 op op2 e hs).2] at h
    rw [exec1_v2 op op2 e hs]
    exact (V2.exec_must op2 hk h).left _
  | false =>
    rcases k with (_ | _ | _ | _) | _ | _
    case bytes => exact absurd rfl hk
    case field.off =>
      cases op with
      | writeComplex p d w e =>
        cases p with
        | some o => exact nomatch h
        | none =>
          refine wrap_must (p := Buffer.WriteComplexNext d w e) (Must.right (Stay.any _) fun off => ?_) _
          by_cases h1 : w = Unsigned8
          · exact Must.right' (Stay.any _) fun _ => by
              rw [if_pos h1]
              exact Must.right (Stay.any _) fun _ => must_seek _ _
          by_cases h2 : w = Unsigned16
          · exact Must.right' (Stay.any _) fun _ => by
              rw [if_neg h1, if_pos h2]
              exact Must.right (Stay.any _) fun _ => must_seek _ _
          by_cases h4 : w = Unsigned32
          · exact Must.right' (Stay.any _) fun _ => by
              rw [if_neg h1, if_neg h2, if_pos h4]
              exact Must.right (Stay.any _) fun _ => must_seek _ _
          by_cases h8 : w = Unsigned64
          · exact Must.right' (Stay.any _) fun _ => by
              rw [if_neg h1, if_neg h2, if_neg h4, if_pos h8]
              exact Must.right (Stay.any _) fun _ => must_seek _ _
          rw [writeComplex_other off d w e h1 h2 h4 h8]
          trivial
      | readComplex p n w e =>
        cases p with
        | some o => exact nomatch h
        | none => exact Must.left (p := Buffer.ReadComplexNext n w e) (Must.right (Stay.any _) fun _ => Must.right (Stay.any _) fun _ => (must_seek _ _).left _) _
      | _ => none_left hs h
    case field.boff =>
      cases op with
      | readBits p n =>
        cases p with
        | some o => exact nomatch h
        | none => exact wrap_must (p := Buffer.ReadBitsNext n) (Must.right (Stay.any _) fun _ => Must.right (Stay.any _) fun _ => (must_seekbit _ _).left _) _
      | setBits p d n =>
        cases p with
        | some o => exact nomatch h
        | none => exact wrap_must (p := Buffer.SetBitsNext d n) (Must.right (Stay.any _) fun _ => Must.right (Stay.any _) fun _ => must_seekbit _ _) _
      | _ => none_left hs h
    all_goals cases op <;> none_left hs h

theorem peek_writeComplex (o : Int64) (d : Any) (w : Int64) (e : ByteOrder) : Peeks AnyBuf (.field .cap) false (Buffer.writeComplex o d w e) := by
  obtain ⟨conv, hc, e⟩ := writeComplex_split o d w e
  rw [e]
  exact Peeks.skip (Bytes.of_silent hc) fun a => Peeks.field

theorem exec1_peeks (op : Op1) {k : Part} (hk : k ≠ .bytes) (h : unguarded1 op k = true) : Peeks AnyBuf k.place false (exec1 op) := by
  cases hs : Shared op with
  | true =>
    obtain ⟨op2, e⟩ := shared_v2 hs
    rw [(tables_v2 op op2 e hs).1] at h
    rw [exec1_v2 op op2 e hs]
    exact (V2.exec_peeks op2 hk h).left _
  | false =>
    rcases k with (_ | _ | _ | _) | _ | _
    case bytes => exact absurd rfl hk
    case field.cap =>
      cases op with
      | writeComplex p d w e =>
        cases p with
        | some o => exact wrap_peeks (peek_writeComplex o d w e) _
        | none => exact wrap_peeks (p := Buffer.WriteComplexNext d w e) (Peeks.next fun _ _ => (peek_writeComplex _ d w e).left _) _
      | readComplex p n w e =>
        cases p with
        | some o => exact Peeks.left (p := Buffer.ReadComplex o n w e) (Peeks.left (Peeks.field) _) _
        | none => exact Peeks.left (p := Buffer.ReadComplexNext n w e) (Peeks.next fun _ _ => Peeks.left (Peeks.left Peeks.field _) _) _
      | _ => none_left hs h
    case field.off =>
      cases op with
      | writeComplex p d w e =>
        cases p with
        | some o => exact nomatch h
        | none => exact wrap_peeks (p := Buffer.WriteComplexNext d w e) Peeks.field _
      | readComplex p n w e =>
        cases p with
        | some o => exact nomatch h
        | none => exact Peeks.left (p := Buffer.ReadComplexNext n w e) Peeks.field _
      | _ => none_left hs h
    case field.boff =>
      cases op with
      | readBits p n =>
        cases p with
        | some o => exact nomatch h
        | none => exact wrap_peeks (p := Buffer.ReadBitsNext n) Peeks.field _
      | setBits p d n =>
        cases p with
        | some o => exact nomatch h
        | none => exact wrap_peeks (p := Buffer.SetBitsNext d n) Peeks.field _
      | _ => none_left hs h
    case field.bcap =>
      cases op with
      | readBits p n | setBits p d n =>
        have h1 : 0 < n.toInt := of_decide_eq_true h
        have h2 : ¬ 0 < n := of_decide_eq_false hs
        rw [Int64.lt_iff_toInt_lt] at h2
        exact absurd h1 h2
      | _ => none_left hs h
    case header => cases op <;> none_left hs h

/-! ## bytes -/

section
variable {b : Buf} {x : Nat}

theorem must_all1 {f : Int64 → Prog Unit} (hs : ∀ G i, Stay G (f i)) (hf : ∀ i : Int64, i.toInt = x → Must (· = b) (.byte b.buf.arr (b.buf.off + x)) (f i)) (hl : b.buf.len < 2 ^ 63)
    (h : x < b.buf.len) : Must (· = b) (.byte b.buf.arr (b.buf.off + x)) (Prog.locked do
      let s ← Prog.buf
      Prog.forLoop (fun i _ => f i) (Int64.ofNat s.len) 0 ()) := by
  refine Must.locked ?_
  rintro _ rfl
  obtain ⟨j, hj, hb⟩ := index_of (y := x) hl (by omega) (by omega)
  exact Must.forLoop (body := fun i _ => f i) (fun _ _ => hs _ _) (fun _ => hf j hj) hb ()

/-- Encoding numbers panics or makes as many bytes as they have. -/
theorem bytes16_len (o : ByteOrder) (d : List UInt16) (h : d.length * 2 ≤ maxAlloc) : (∃ p, bytes16 o d = .panic p) ∨ ∃ out, bytes16 o d = .ret out ∧ out.length = d.length * 2 := by
  cases o with
  | some e => exact .inr ⟨_, bytes16_eq e d h, V3.length_enc _ _ _⟩
  | none =>
    by_cases hd : d = []
    · subst hd; exact .inr ⟨_, bytes16_nil _, rfl⟩
    · exact .inl ⟨_, bytes16_none d hd h⟩
theorem bytes32_len (o : ByteOrder) (d : List UInt32) (h : d.length * 4 ≤ maxAlloc) : (∃ p, bytes32 o d = .panic p) ∨ ∃ out, bytes32 o d = .ret out ∧ out.length = d.length * 4 := by
  cases o with
  | some e => exact .inr ⟨_, bytes32_eq e d h, V3.length_enc _ _ _⟩
  | none =>
    by_cases hd : d = []
    · subst hd; exact .inr ⟨_, bytes32_nil _, rfl⟩
    · exact .inl ⟨_, bytes32_none d hd h⟩
theorem bytes64_len (o : ByteOrder) (d : List UInt64) (h : d.length * 8 ≤ maxAlloc) : (∃ p, bytes64 o d = .panic p) ∨ ∃ out, bytes64 o d = .ret out ∧ out.length = d.length * 8 := by
  cases o with
  | some e => exact .inr ⟨_, bytes64_eq e d h, V3.length_enc _ _ _⟩
  | none =>
    by_cases hd : d = []
    · subst hd; exact .inr ⟨_, bytes64_nil _, rfl⟩
    · exact .inl ⟨_, bytes64_none d hd h⟩

theorem must_writeComplex {o : Int64} {d : Any} {w : Int64} {e : ByteOrder} {m : Heap} (hv : d.Valid m) (hx : x < 2 ^ 60) (h1 : o.toInt ≤ x) (h2 : x < o.toInt + bytesIn d w) :
    Must (· = b) (.byte b.buf.arr (b.buf.off + x)) (Buffer.writeComplex o d w e) := by
  have hm : maxAlloc < 2 ^ 63 := by decide
  have lit : ∀ {n : Nat} {p : Prog (List UInt8)}, n ≤ maxAlloc → x < o.toInt + n → ((∃ q, p = .panic q) ∨ ∃ out, p = .ret out ∧ out.length = n) →
      Must (· = b) (.byte b.buf.arr (b.buf.off + x)) (p >>= fun data => Buffer.write o (.lit data)) := by
    rintro n p hn hx' (⟨q, rfl⟩ | ⟨out, rfl, hl⟩)
    · trivial
    · exact must_write (d := .lit out) (by show out.length < _; omega) hx h1 (by show _ < _ + (out.length : Int); omega)
  cases d with
  | bytes s =>
    by_cases hw : w = Unsigned8
    · subst hw
      have := SliceOK.len_le_max (show SliceOK m s from hv)
      exact must_write (d := .mem s) (show s.len < 2 ^ 63 by omega) hx h1 h2
    · simp only [bytesIn, if_neg hw] at h2; omega
  | u16 d =>
    by_cases hw : w = Unsigned16
    · subst hw
      exact lit hv (by simpa [bytesIn] using h2) (bytes16_len e d hv)
    · simp only [bytesIn, if_neg hw] at h2; omega
  | u32 d =>
    by_cases hw : w = Unsigned32
    · subst hw
      exact lit hv (by simpa [bytesIn] using h2) (bytes32_len e d hv)
    · simp only [bytesIn, if_neg hw] at h2; omega
  | u64 d =>
    by_cases hw : w = Unsigned64
    · subst hw
      exact lit hv (by simpa [bytesIn] using h2) (bytes64_len e d hv)
    · simp only [bytesIn, if_neg hw] at h2; omega
  | other => simp only [bytesIn] at h2; omega

theorem valid_v2 {op : Op1} {op2 : V2.Op2} (h : toV2 op = some op2) {m : Heap} (hv : op.Valid m) : op2.Valid m := by
  cases op <;> cases h <;> first | exact hv | trivial

theorem bytes_v2 {op : Op1} {op2 : V2.Op2} (h : toV2 op = some op2) (hs : Shared op = true) : bytesOf1 b op = V2.bytesOf b op2 := by
  cases op <;> cases h <;> first | rfl | skip
  all_goals
    have h1 : 0 < Int64.toInt _ := Int64.lt_iff_toInt_lt.mp (of_decide_eq_true hs)
    simp only [bytesOf1, V2.bytesOf]
    rw [if_neg (by omega), show ∀ n : Int, 0 < n → max 1 n = n from fun n hn => by omega]
    exact h1

theorem changes_v2 {op : Op1} {op2 : V2.Op2} (h : toV2 op = some op2) : changesBytes1 op = V2.changesBytes op2 := by
  cases op <;> cases h <;> rfl

theorem exec1_must_byte (hl : b.buf.len < 2 ^ 50) {m : Heap} {op : Op1} (hv : op.Valid m) (hc : changesBytes1 op = true) (h1 : (bytesOf1 b op).1 ≤ x) (h2 : x < (bytesOf1 b op).2)
    (h3 : x < b.buf.len) : Must (· = b) (.byte b.buf.arr (b.buf.off + x)) (exec1 op) := by
  cases hs : Shared op with
  | true =>
    obtain ⟨op2, e⟩ := shared_v2 hs
    rw [exec1_v2 op op2 e hs]
    rw [bytes_v2 e hs] at h1 h2
    rw [changes_v2 e] at hc
    exact (V2.exec_must_byte hl (valid_v2 e hv) hc h1 h2 h3).left _
  | false =>
    cases op with
    | writeComplex p d w e =>
      cases p with
      | some o => exact wrap_must (p := Buffer.WriteComplex o d w e) (must_writeComplex (m := m) hv (by omega) h1 h2) _
      | none =>
        exact wrap_must (p := Buffer.WriteComplexNext d w e) (Must.field (by rintro _ rfl; exact (must_writeComplex (m := m) hv (by omega) h1 h2).left _)) _
    | setBits p d n =>
      have h0 : ¬ 0 < n := of_decide_eq_false hs
      rw [Int64.lt_iff_toInt_lt] at h0
      have h0 : ¬ 0 < n.toInt := h0
      simp only [bytesOf1] at h2
      rw [if_pos (by omega)] at h2
      exact absurd (show (x : Int) < 0 from h2) (by omega)
    | clearAll => exact wrap_must (must_all1 (f := fun i => Prog.bufStore i 0) (fun _ _ => Stay.bufStore _ _) (fun _ h => Must.bufStore h) (by omega) h3) _
    | setAll => exact wrap_must (must_all1 (f := fun i => Prog.bufStore i 0xFF) (fun _ _ => Stay.bufStore _ _) (fun _ h => Must.bufStore h) (by omega) h3) _
    | flipAll =>
      exact wrap_must (must_all1 (f := fun i => do
        let x ← Prog.bufLoad i
        Prog.bufStore i (~~~x)) (fun _ _ => (Stay.bufLoad _).bind fun _ => Stay.bufStore _ _) (fun _ h => Must.right' (Stay.bufLoad _) fun _ => Must.bufStore h) (by omega) h3) _
    | _ => none_left hs hc

/-! ### `ReadComplex` -/

theorem peek_load {s : Slice} {i : Int64} {k : UInt8 → Prog α} {r : Nat} (h : i.toInt = r) : Peeks G (.byte s.arr (s.off + r)) false (Prog.loadAt s i >>= k) := by
  show Peeks _ _ _ (Prog.bind _ _)
  unfold Prog.loadAt
  split
  · refine .inl ⟨rfl, ?_⟩
    rw [h]; rfl
  · trivial

macro "p_load" : tactic => `(tactic| (
  refine Peeks.skip (Bytes.of_silent (silent_order _)) fun _ => ?_
  repeat (first
    | exact peek_load rfl
    | refine Peeks.skip (Bytes.loadAt _ _) fun _ => ?_)))

theorem peek_u16 {o : ByteOrder} {u : Slice} {r : Nat} (h : r < 2) : Peeks G (.byte u.arr (u.off + r)) false (loadU16 o u) := by
  obtain rfl | rfl : r = 0 ∨ r = 1 := by omega
  all_goals p_load
theorem peek_u32 {o : ByteOrder} {u : Slice} {r : Nat} (h : r < 4) : Peeks G (.byte u.arr (u.off + r)) false (loadU32 o u) := by
  obtain rfl | rfl | rfl | rfl : r = 0 ∨ r = 1 ∨ r = 2 ∨ r = 3 := by omega
  all_goals p_load
theorem peek_u64 {o : ByteOrder} {u : Slice} {r : Nat} (h : r < 8) : Peeks G (.byte u.arr (u.off + r)) false (loadU64 o u) := by
  obtain rfl | rfl | rfl | rfl | rfl | rfl | rfl | rfl : r = 0 ∨ r = 1 ∨ r = 2 ∨ r = 3 ∨ r = 4 ∨ r = 5 ∨ r = 6 ∨ r = 7 := by omega
  all_goals p_load

/-- The loop that decodes `n` elements of `k` bytes from byte `o` of the content reads each of the bytes. -/
theorem peek_elems {o n k : Int64} {t : Slice} {load : Slice → Prog α} {out : List α} (hn : n.toInt * k.toInt ≤ maxAlloc) (hk : 0 < k.toInt ∧ k.toInt ≤ 8) (h0 : 0 ≤ o.toInt)
    (t1 : t.arr = b.buf.arr) (t2 : t.off = b.buf.off + o.toInt.toNat) (h1 : o.toInt ≤ x) (h2 : x < o.toInt + n.toInt * k.toInt) (hb : ∀ u, Bytes (load u))
    (hl : ∀ (u : Slice) (r : Nat), r < k.toInt → Peeks G (.byte u.arr (u.off + r)) false (load u)) :
    Peeks G (.byte b.buf.arr (b.buf.off + x)) false (Prog.forLoop (fun i idata => do
      let u ← Prog.reslice t (i * k) ((i + 1) * k)
      let v ← load u
      Prog.setIdx idata i v) n 0 out) := by
  have hM : maxAlloc < 2 ^ 50 := by decide
  have hq0 : 0 ≤ (x - o.toInt) / k.toInt := Int.ediv_nonneg (by omega) (by omega)
  have hq1 : (x - o.toInt) / k.toInt < n.toInt := by
    refine Int.ediv_lt_of_lt_mul hk.1 (by omega)
  obtain ⟨j, hj, hj0, hj1⟩ := index_of (n := n.toInt.toNat) (y := (x - o.toInt) / k.toInt) (by have := n.toInt_lt; omega) hq0 (by omega)
  have hr0 := Int.emod_nonneg ((x : Int) - o.toInt) (b := k.toInt) (by omega)
  have hr1 := Int.emod_lt_of_pos ((x : Int) - o.toInt) hk.1
  have hd := Int.mul_ediv_add_emod ((x : Int) - o.toInt) k.toInt
  rw [← hj, Int.mul_comm] at hd
  have hj0' := hj0
  have hj0 : 0 ≤ j.toInt := hj0
  obtain ⟨e1, _, _⟩ := elem_slice (c := maxAlloc) hM hj0 hk (by omega)
  refine Peeks.forLoop (j := j) (fun i a => (Bytes.of_silent (silent_reslice _ _ _)).bind' fun _ => (hb _).bind' fun _ => Bytes.of_silent (silent_setIdx _ _ _)) (fun a => ?_)
    ⟨hj0', by have := n.toInt_lt; omega⟩ out
  show Peeks _ _ _ (Prog.bind (Prog.reslice _ _ _) _)
  unfold Prog.reslice
  split
  · rename_i hs
    have := Int.mul_nonneg hj0 (Int.le_of_lt hk.1)
    have e : b.buf.off + x = (t.off + (j * k).toInt.toNat) + (((x : Int) - o.toInt) % k.toInt).toNat := by omega
    rw [e, ← t1]
    exact Peeks.left (hl ⟨t.arr, t.off + (j * k).toInt.toNat, ((j + 1) * k).toInt.toNat - (j * k).toInt.toNat, t.cap - (j * k).toInt.toNat⟩ _ (show ((((x : Int) - o.toInt) % k.toInt).toNat : Int) < k.toInt by omega)) _
  · trivial

theorem peek_slice {o n : Int64} {k : Slice → Prog α} (h : 0 ≤ o.toInt → ∀ t : Slice, t.arr = b.buf.arr → t.off = b.buf.off + o.toInt.toNat → Peeks (· = b) l false (k t)) :
    Peeks (· = b) l false ((Buffer.read o n).bind k) := by
  unfold Buffer.read
  refine Or.inr fun c hc => ?_
  show Peeks _ _ false (((Prog.panicIf _ _).bind fun _ => (Prog.panicIf _ _).bind fun _ => Prog.locked _).bind _)
  unfold Prog.panicIf
  split
  · trivial
  · show Peeks _ _ false (((ite _ _ _ : Prog Unit).bind fun _ => Prog.locked _).bind _)
    split
    · trivial
    · rename_i h0
      have ho : 0 ≤ o.toInt := by rw [Int64.lt_iff_toInt_lt] at h0; exact Int.not_lt.mp h0
      refine Or.inr ?_
      rintro _ rfl
      show Peeks _ _ true (Prog.bind (Prog.deferUnlock (Prog.reslice _ o (o + n))) _)
      unfold Prog.reslice
      split
      · exact h ho _ rfl rfl
      · trivial

theorem peek_typed {w : Nat} {z : α} {n : Int64} {k : List α → Prog β} {m : Bool} (h : n.toInt * w ≤ maxAlloc → ∀ d, Peeks G l m (k d)) : Peeks G l m (Prog.makeTyped w z n >>= k) := by
  show Peeks _ _ _ (Prog.bind _ _)
  unfold Prog.makeTyped
  split
  · trivial
  · exact h (by omega) _

theorem peek_readComplex {o n w : Int64} {e : ByteOrder} (hw : w ≠ Unsigned8) (h1 : o.toInt ≤ x) (h2 : x < o.toInt + n.toInt * w.toInt) :
    Peeks (· = b) (.byte b.buf.arr (b.buf.off + x)) false (Buffer.readComplex o n w e) := by
  refine peek_slice fun h0 t t1 t2 => ?_
  rw [if_neg hw]
  by_cases w2 : w = Unsigned16
  · subst w2
    rw [if_pos rfl]
    exact peek_typed fun hn _ => Peeks.left' (peek_elems (k := 2) hn (by decide) h0 t1 t2 h1 h2 (bytes_u16 e) fun u r hr => peek_u16 (by change (r : Int) < 2 at hr; omega)) _
  by_cases w4 : w = Unsigned32
  · subst w4
    rw [if_neg w2, if_pos rfl]
    exact peek_typed fun hn _ => Peeks.left' (peek_elems (k := 4) hn (by decide) h0 t1 t2 h1 h2 (bytes_u32 e) fun u r hr => peek_u32 (by change (r : Int) < 4 at hr; omega)) _
  by_cases w8 : w = Unsigned64
  · subst w8
    rw [if_neg w2, if_neg w4, if_pos rfl]
    exact peek_typed fun hn _ => Peeks.left' (peek_elems (k := 8) hn (by decide) h0 t1 t2 h1 h2 (bytes_u64 e) fun u r hr => peek_u64 (by change (r : Int) < 8 at hr; omega)) _
  rw [if_neg w2, if_neg w4, if_neg w8]
  trivial

theorem exec1_peeks_byte {op : Op1} (hc : unguarded1 op .bytes = true)
    (h : (bytesOf1 b op).1 ≤ x ∧ x < (bytesOf1 b op).2 ∨ (complexOf b op).1 ≤ x ∧ x < (complexOf b op).2) :
    Peeks (· = b) (.byte b.buf.arr (b.buf.off + x)) false (exec1 op) := by
  cases op with
  | readByte p =>
    rcases h with h | h
    · rw [exec1_v2 (.readByte p) (.readByte p) rfl rfl]
      exact (V2.exec_peeks_byte rfl h.1 h.2).left _
    · exact absurd (show (0 : Int) ≤ x ∧ (x : Int) < 0 from h) (by omega)
  | readComplex p n w e =>
    have hw : w ≠ Unsigned8 := bne_iff_ne.mp hc
    rcases h with h | h
    · exact absurd (show (0 : Int) ≤ x ∧ (x : Int) < 0 from h) (by omega)
    · simp only [complexOf, if_neg hw] at h
      cases p with
      | some o => exact (peek_readComplex hw h.1 h.2).left _
      | none =>
        exact Peeks.left (p := Buffer.ReadComplexNext n w e) (Peeks.next (by rintro _ rfl; exact (peek_readComplex hw h.1 h.2).left _)) _
  | _ => exact nomatch hc

end
end Crunch.V1
