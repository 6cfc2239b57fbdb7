import Verif.Lemmas.V1Seq

/-! The locking discipline of the v1 `Buffer` methods. -/

namespace Crunch

/-- Touches nothing shared. -/
def Silent : Prog α → Prop
  | .ret _ => True
  | .panic _ => True
  | _ => False

/-- Reads the fields and memory only. -/
def Looks : Prog α → Prop
  | .ret _ => True
  | .panic _ => True
  | .getI _ k => ∀ v, Looks (k v)
  | .getBuf k => ∀ s, Looks (k s)
  | .load _ _ k => ∀ v, Looks (k v)
  | _ => False

theorem Silent.bind {p : Prog α} {f : α → Prog β} (hp : Silent p) (hf : ∀ a, Silent (f a)) : Silent (p.bind f) := by
  cases p with
  | ret a => exact hf a
  | panic q => trivial
  | _ => exact hp.elim
theorem Silent.bind' {p : Prog α} {f : α → Prog β} (hp : Silent p) (hf : ∀ a, Silent (f a)) : Silent (p >>= f) := Silent.bind hp hf

theorem Silent.looks {p : Prog α} (hp : Silent p) : Looks p := by
  cases p with
  | ret a => trivial
  | panic q => trivial
  | _ => exact hp.elim

/-- What follows something that touches nothing shared. -/
theorem Silent.cont {p : Prog α} {f : α → Prog β} {P : Prog β → Prop} (hp : Silent p) (h0 : ∀ q, P (.panic q)) (hf : ∀ a, P (f a)) :
    P (p.bind f) := by
  cases p with
  | ret a => exact hf a
  | panic q => exact h0 q
  | _ => exact hp.elim

theorem silent_idx (l : List α) (i : Int64) : Silent (Prog.idx l i) := by
  unfold Prog.idx; split
  · split <;> trivial
  · trivial
theorem silent_setIdx (l : List α) (i : Int64) (v : α) : Silent (Prog.setIdx l i v) := by
  unfold Prog.setIdx; split <;> trivial
theorem silent_makeTyped (w : Nat) (z : α) (n : Int64) : Silent (Prog.makeTyped w z n) := by
  unfold Prog.makeTyped; split <;> trivial
theorem silent_reslice (s : Slice) (lo hi : Int64) : Silent (Prog.reslice s lo hi) := by
  unfold Prog.reslice; split <;> trivial
theorem silent_forLoop {body : Int64 → α → Prog α} (h : ∀ i a, Silent (body i a)) (n i : Int64) (a : α) :
    Silent (Prog.forLoop body n i a) := by
  fun_induction Prog.forLoop body n i a with
  | case1 i a hi ih => exact (h i a).bind ih
  | case2 i a hi => trivial

theorem Looks.bind {p : Prog α} {f : α → Prog β} (hp : Looks p) (hf : ∀ a, Looks (f a)) : Looks (p.bind f) := by
  induction p with
  | ret a => exact hf a
  | panic q => trivial
  | getI x k ih => exact fun v => ih v (hp v)
  | getBuf k ih => exact fun v => ih v (hp v)
  | load t i k ih => exact fun v => ih v (hp v)
  | _ => exact hp.elim
theorem Looks.bind' {p : Prog α} {f : α → Prog β} (hp : Looks p) (hf : ∀ a, Looks (f a)) : Looks (p >>= f) := Looks.bind hp hf

theorem looks_forLoop {body : Int64 → α → Prog α} (h : ∀ i a, Looks (body i a)) (n i : Int64) (a : α) :
    Looks (Prog.forLoop body n i a) := by
  fun_induction Prog.forLoop body n i a with
  | case1 i a hi ih => exact (h i a).bind ih
  | case2 i a hi => trivial

theorem looks_loadAt (s : Slice) (i : Int64) : Looks (Prog.loadAt s i) := by
  unfold Prog.loadAt; split
  · exact fun _ => trivial
  · trivial

theorem Looks.brk {p : Prog α} (hp : Looks p) (b : Bool) : Brk b b p := by
  induction p with
  | ret a => rfl
  | panic q => trivial
  | getI x k ih => exact fun v => ih v (hp v)
  | getBuf k ih => exact fun v => ih v (hp v)
  | load t i k ih => exact fun v => ih v (hp v)
  | _ => exact hp.elim

theorem still_forLoop {body : Int64 → α → Prog α} (h : ∀ i a, Still (body i a)) (n i : Int64) (a : α) : Still (Prog.forLoop body n i a) := by
  fun_induction Prog.forLoop body n i a with
  | case1 i a hi ih => exact (h i a).bind ih
  | case2 i a hi => trivial

theorem Brk.forLoop {body : Int64 → α → Prog α} {b : Bool} (h : ∀ i a, Brk b b (body i a)) (n i : Int64) (a : α) :
    Brk b b (Prog.forLoop body n i a) := by
  fun_induction Prog.forLoop body n i a with
  | case1 i a hi ih => exact (h i a).bind ih
  | case2 i a hi => rfl

namespace V1
open V2 (Good)
open V3 (Val)

/-! ## the conversions of `WriteComplex` and `ReadComplex` -/

theorem silent_toBytes (d : Any) : Silent d.toBytes := by cases d <;> trivial
theorem silent_toU16 (d : Any) : Silent d.toU16 := by cases d <;> trivial
theorem silent_toU32 (d : Any) : Silent d.toU32 := by cases d <;> trivial
theorem silent_toU64 (d : Any) : Silent d.toU64 := by cases d <;> trivial
theorem silent_order (o : ByteOrder) : Silent o.get := by cases o <;> trivial

macro "s_conv" : tactic => `(tactic| (
  repeat' (first
    | with_reducible exact silent_idx _ _
    | with_reducible exact silent_setIdx _ _ _
    | with_reducible exact silent_order _
    | with_reducible refine Silent.bind' ?_ fun _ => ?_)))

theorem silent_bytes16 (o : ByteOrder) (l : List UInt16) : Silent (bytes16 o l) :=
  (silent_makeTyped _ _ _).bind' fun _ => silent_forLoop (fun _ _ => by s_conv) _ _ _
theorem silent_bytes32 (o : ByteOrder) (l : List UInt32) : Silent (bytes32 o l) :=
  (silent_makeTyped _ _ _).bind' fun _ => silent_forLoop (fun _ _ => by s_conv) _ _ _
theorem silent_bytes64 (o : ByteOrder) (l : List UInt64) : Silent (bytes64 o l) :=
  (silent_makeTyped _ _ _).bind' fun _ => silent_forLoop (fun _ _ => by s_conv) _ _ _

macro "l_load" : tactic => `(tactic| (
  repeat' (first
    | with_reducible exact (silent_order _).looks
    | with_reducible exact (silent_reslice _ _ _).looks
    | with_reducible exact (silent_setIdx _ _ _).looks
    | with_reducible exact looks_loadAt _ _
    | exact trivial
    | with_reducible refine Looks.bind' ?_ fun _ => ?_)))

theorem looks_u16 (o : ByteOrder) (s : Slice) : Looks (loadU16 o s) := by unfold loadU16; l_load
theorem looks_u32 (o : ByteOrder) (s : Slice) : Looks (loadU32 o s) := by unfold loadU32; l_load
theorem looks_u64 (o : ByteOrder) (s : Slice) : Looks (loadU64 o s) := by unfold loadU64; l_load

/-- The conversion followed by `write`. -/
theorem writeComplex_split (off : Int64) (d : Any) (size : Int64) (o : ByteOrder) :
    ∃ conv : Prog Src, Silent conv ∧ Buffer.writeComplex off d size o = conv.bind (Buffer.write off) := by
  unfold Buffer.writeComplex
  simp only []
  split
  · exact ⟨d.toBytes.bind fun s => .ret (.mem s), (silent_toBytes d).bind fun _ => trivial, (Prog.bind_assoc _ _ _).symm⟩
  · split
    · refine ⟨d.toU16.bind fun l => (bytes16 o l).bind fun s => .ret (.lit s),
        (silent_toU16 d).bind fun l => (silent_bytes16 o l).bind fun _ => trivial, ?_⟩
      simp only [Prog.bind_assoc]; rfl
    · split
      · refine ⟨d.toU32.bind fun l => (bytes32 o l).bind fun s => .ret (.lit s),
          (silent_toU32 d).bind fun l => (silent_bytes32 o l).bind fun _ => trivial, ?_⟩
        simp only [Prog.bind_assoc]; rfl
      · split
        · refine ⟨d.toU64.bind fun l => (bytes64 o l).bind fun s => .ret (.lit s),
            (silent_toU64 d).bind fun l => (silent_bytes64 o l).bind fun _ => trivial, ?_⟩
          simp only [Prog.bind_assoc]; rfl
        · exact ⟨.panic (.err BufferInvalidIntegerSizeError), trivial, rfl⟩

theorem writeComplex_good (off : Int64) (d : Any) (size : Int64) (o : ByteOrder) : Good (Buffer.writeComplex off d size o) := by
  obtain ⟨conv, hc, e⟩ := writeComplex_split off d size o
  rw [e]
  exact hc.cont (fun q => ⟨trivial, trivial, fun _ => trivial, fun _ => trivial⟩) fun a => V2.writeSrc_good off a

/-- What `readComplex` does with the slice it got. -/
theorem readComplex_split (off n size : Int64) (o : ByteOrder) :
    ∃ conv : Slice → Prog Any, (∀ s, Looks (conv s)) ∧ Buffer.readComplex off n size o = (Buffer.read off n).bind conv := by
  refine ⟨_, fun s => ?_, rfl⟩
  split
  · trivial
  · split
    · exact (silent_makeTyped _ _ _).looks.bind' fun _ => (looks_forLoop (fun _ _ => (silent_reslice _ _ _).looks.bind' fun _ =>
        (looks_u16 _ _).bind' fun _ => (silent_setIdx _ _ _).looks) _ _ _).bind' fun _ => trivial
    · split
      · exact (silent_makeTyped _ _ _).looks.bind' fun _ => (looks_forLoop (fun _ _ => (silent_reslice _ _ _).looks.bind' fun _ =>
          (looks_u32 _ _).bind' fun _ => (silent_setIdx _ _ _).looks) _ _ _).bind' fun _ => trivial
      · split
        · exact (silent_makeTyped _ _ _).looks.bind' fun _ => (looks_forLoop (fun _ _ => (silent_reslice _ _ _).looks.bind' fun _ =>
            (looks_u64 _ _).bind' fun _ => (silent_setIdx _ _ _).looks) _ _ _).bind' fun _ => trivial
        · trivial

theorem readComplex_brk (off n size : Int64) (o : ByteOrder) : Brk false false (Buffer.readComplex off n size o) := by
  obtain ⟨conv, hc, e⟩ := readComplex_split off n size o
  rw [e]
  exact (V2.readRaw_good off n).1.bind fun s => (hc s).brk false

/-! ## all methods -/

theorem brk_wrap {p : Prog α} (h : Brk false false p) (f : α → Val) : Brk false false (wrap1 f p) := h.bind fun _ => rfl

theorem clear_good : Good Buffer.clearallbits := V2.locked_good fun _ => still_forLoop (fun _ _ => still_bufStore _ _) _ _ _
theorem setall_good : Good Buffer.setallbits := V2.locked_good fun _ => still_forLoop (fun _ _ => still_bufStore _ _) _ _ _
theorem flipall_good : Good Buffer.flipallbits :=
  V2.locked_good fun _ => still_forLoop (fun _ _ => (still_bufLoad _).bind' fun _ => still_bufStore _ _) _ _ _

theorem readbits_brk (off n : Int64) : Brk false false (Buffer.readbits off n) :=
  Brk.forLoop (fun _ _ => (V2.readbit_good _).1.bind fun _ => Brk.ret _ _) _ _ _
theorem setbits_brk (off : Int64) (d : UInt64) (n : Int64) : Brk false false (Buffer.setbits off d n) :=
  Brk.forLoop (fun _ _ => (V2.setbit_good _ _).1) _ _ _

theorem writeComplexNext_brk (d : Any) (size : Int64) (o : ByteOrder) : Brk false false (Buffer.WriteComplexNext d size o) := by
  refine (Brk.field _ _).bind fun off => (writeComplex_good off d size o).1.bind fun _ => ?_
  split
  · exact ((silent_toBytes d).looks.brk false).bind fun _ => (V2.seek_good _ _).1
  · split
    · exact ((silent_toU16 d).looks.brk false).bind fun _ => (V2.seek_good _ _).1
    · split
      · exact ((silent_toU32 d).looks.brk false).bind fun _ => (V2.seek_good _ _).1
      · split
        · exact ((silent_toU64 d).looks.brk false).bind fun _ => (V2.seek_good _ _).1
        · exact Brk.ret _ _

/-- A v1 method that is the v2 method. -/
theorem brk_v2 (op2 : V2.Op2) : Brk false false (valOf (V2.exec op2)) := (V2.exec_brk op2).bind fun _ => rfl

/-- The methods v1 and v2 share word for word. -/
def Shared : Op1 → Bool
  | .writeComplex .. => false
  | .readComplex .. => false
  | .readBits _ n => 0 < n
  | .setBits _ _ n => 0 < n
  | .clearAll => false
  | .setAll => false
  | .flipAll => false
  | _ => true

theorem exec1_v2 (op : Op1) (op2 : V2.Op2) (h : toV2 op = some op2) (hs : Shared op = true) : exec1 op = valOf (V2.exec op2) := by
  cases op with
  | writeComplex p d w e => exact nomatch hs
  | readComplex p n w e => exact nomatch hs
  | clearAll => exact nomatch hs
  | setAll => exact nomatch hs
  | flipAll => exact nomatch hs
  | readBits p n =>
    have hn : 0 < n := of_decide_eq_true hs
    cases h
    cases p with
    | some o => show wrap1 .u64 (Buffer.readbits o n) = _; rw [readbits_eq o n hn]; exact wrap1_eq _ _
    | none => show wrap1 .u64 (Buffer.ReadBitsNext n) = _; rw [readBitsNext_eq n hn]; exact wrap1_eq _ _
  | setBits p d n =>
    have hn : 0 < n := of_decide_eq_true hs
    cases h
    cases p with
    | some o => show wrap1 _ (Buffer.setbits o d n) = _; rw [setbits_eq o d n hn]; exact wrap1_eq _ _
    | none => show wrap1 _ (Buffer.SetBitsNext d n) = _; rw [setBitsNext_eq d n hn]; exact wrap1_eq _ _
  | writeBytes p => cases h; cases p <;> exact wrap1_eq _ _
  | writeByte p => cases h; cases p <;> exact wrap1_eq _ _
  | readBytes p => cases h; cases p <;> exact wrap1_eq _ _
  | readByte p => cases h; cases p <;> exact wrap1_eq _ _
  | readBit p => cases h; cases p <;> exact wrap1_eq _ _
  | setBit p => cases h; cases p <;> exact wrap1_eq _ _
  | flipBit p => cases h; cases p <;> exact wrap1_eq _ _
  | _ => cases h; exact wrap1_eq _ _

/-- Every method of v1 `Buffer` is bracketed. -/
theorem exec1_brk (op : Op1) : Brk false false (exec1 op) := by
  cases hs : Shared op with
  | true =>
    cases h : toV2 op with
    | some op2 => rw [exec1_v2 op op2 h hs]; exact brk_v2 op2
    | none => cases op <;> simp [toV2, Shared] at h hs
  | false =>
    cases op with
    | writeComplex p d w e =>
      cases p with
      | some o => exact brk_wrap (writeComplex_good o d w e).1 _
      | none => exact brk_wrap (writeComplexNext_brk d w e) _
    | readComplex p n w e =>
      cases p with
      | some o => exact (readComplex_brk o n w e).bind fun _ => rfl
      | none =>
        exact Brk.bind ((Brk.field _ _).bind fun o => (readComplex_brk o n w e).bind fun _ => (V2.seek_good _ _).1.bind fun _ =>
          Brk.ret _ _) fun _ => rfl
    | readBits p n =>
      cases p with
      | some o => exact brk_wrap (readbits_brk o n) _
      | none => exact brk_wrap ((Brk.field _ _).bind fun _ => (readbits_brk _ _).bind fun _ => (V2.seekbit_good _ _).1.bind fun _ => Brk.ret _ _) _
    | setBits p d n =>
      cases p with
      | some o => exact brk_wrap (setbits_brk o d n) _
      | none => exact brk_wrap ((Brk.field _ _).bind fun _ => (setbits_brk _ _ _).bind fun _ => (V2.seekbit_good _ _).1) _
    | clearAll => exact brk_wrap clear_good.1 _
    | setAll => exact brk_wrap setall_good.1 _
    | flipAll => exact brk_wrap flipall_good.1 _
    | _ => exact nomatch hs

/-- Calls with one locked section that look at nothing but the capacities before it. -/
def Atomic1 : Op1 → Prop
  | .writeComplex p _ _ _ => p.isSome = true
  | .readComplex p _ w _ => p.isSome = true ∧ w = Unsigned8
  | .writeBytes p _ => p.isSome = true
  | .writeByte p _ => p.isSome = true
  | .readBytes p _ => p.isSome = true
  | .readBit p => p.isSome = true
  | .setBit p _ => p.isSome = true
  | .flipBit p => p.isSome = true
  | .clearAll => True
  | .setAll => True
  | .flipAll => True
  | .seek .. => True
  | .seekBit .. => True
  | .alignByte => True
  | .alignBit => True
  | .after o => o ≠ []
  | .afterBit o => o ≠ []
  | .bytes => True
  | .capacity => True
  | .bitCapacity => True
  | _ => False

theorem once_wrap {p : Prog α} (h : Once p) (f : α → Val) : Once (wrap1 f p) := h.map _

theorem exec1_once (op : Op1) (h : Atomic1 op) : Once (exec1 op) := by
  have key : ∀ op2, toV2 op = some op2 → Shared op = true → V2.Atomic op2 → Once (exec1 op) := by
    intro op2 h1 h2 h3
    rw [exec1_v2 op op2 h1 h2]
    exact (V2.exec_once op2 h3).map _
  cases op with
  | writeComplex p d w e =>
    cases p with
    | none => exact nomatch h
    | some o => exact once_wrap (writeComplex_good o d w e).2 _
  | readComplex p n w e =>
    cases p with
    | none => exact nomatch h.1
    | some o =>
      obtain ⟨_, rfl⟩ := h
      show Once ((Buffer.read o n >>= fun data => Prog.ret (Any.bytes data)).bind fun a => Prog.ret (Val1.any a))
      exact ((V2.readRaw_good o n).2.map Any.bytes).map _
  | clearAll => exact once_wrap clear_good.2 _
  | setAll => exact once_wrap setall_good.2 _
  | flipAll => exact once_wrap flipall_good.2 _
  | readByte p => exact h.elim
  | readBits p n => exact h.elim
  | setBits p d n => exact h.elim
  | grow n => exact h.elim
  | refresh => exact h.elim
  | offset => exact h.elim
  | bitOffset => exact h.elim
  | _ => exact key _ rfl rfl h

end V1
end Crunch
