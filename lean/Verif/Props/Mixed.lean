import Verif.Lemmas.Mixed
import Verif.Props.WireBits
import Verif.Props.SourceHist

/-!
# A call that succeeds on a v3 `Buffer` succeeds on all buffer types, with the same result and the same bytes (C140)
-/

namespace Crunch.Wire
open V3 (St WF Iso abs demo demo_wf)
open Src hiding St
open Gen (Str)
open Ref (Le)

/-- A call that all versions have, given as the call of v2, with the type it is made through.  `outs` and `any` are what the result variable of a
`MiniBuffer` holds. -/
structure Use where
  lib : Lib
  op : V2.Op2
  outs : V3.Outs
  any : V1.Any

/-- The call in v3, where `SetBit` with a value is two methods. -/
def three : V2.Op2 → V3.Op
  | .setBit p v => if v = 0 then .clearBit p else .setBit p
  | op => (V2.toV3 op).getD .reset

/-- The call in v1, where integers of several sizes are written and read by `WriteComplex` and `ReadComplex`. -/
def one : V2.Op2 → V1.Op1
  | .write k e p d => .writeComplex p (V1.asAny k d) (V1.sizeOf k) (some e)
  | .read k e p n => .readComplex p n (V1.sizeOf k) (some e)
  | .writeBytes p src => .writeBytes p src
  | .writeByte p v => .writeByte p v
  | .readBytes p n => .readBytes p n
  | .readByte p => .readByte p
  | .readBit p => .readBit p
  | .readBits p n => .readBits p n
  | .setBit p v => .setBit p v
  | .flipBit p => .flipBit p
  | .setBits p d n => .setBits p d n
  | .clearAll => .clearAll
  | .setAll => .setAll
  | .flipAll => .flipAll
  | .seek o r => .seek o r
  | .seekBit o r => .seekBit o r
  | .after o => .after o
  | .afterBit o => .afterBit o
  | .alignByte => .alignByte
  | .alignBit => .alignBit
  | .grow n => .grow n
  | .refresh => .refresh
  | .reset => .refresh
  | .bytes => .bytes
  | .capacity => .capacity
  | .bitCapacity => .bitCapacity
  | .offset => .offset
  | .bitOffset => .bitOffset

/-- The call, run from the text of its type: what the caller sees of the result, and the state afterwards; `none` if it panics or leaves the mutex taken. -/
def Use.run (T : Texts) (fuel depth : Nat) (u : Use) (s : St) : Option (Ref.Val × St) :=
  (match u.lib with
  | .v1 | .v1mini => textCallOf T fuel depth u.lib (One.goName (one u.op)) (One.goArgs (one u.op)) (One.goOut u.outs u.any (one u.op)) s
  | .v2 | .v2mini => textCallOf T fuel depth u.lib (Two.goName u.op) (Two.goArgs u.op) (Two.goOut u.outs u.op) s
  | .v3 | .v3mini => textCallOf T fuel depth u.lib (goName (three u.op)) (goArgs (three u.op)) (goOut u.outs (three u.op)) s : Option (V × St)).map
    fun r => (seen r.2.mem r.1, r.2)

/-- Calls one after the other on one buffer, each through its own type; `none` if one of them fails. -/
def runAll (T : Texts) (fuel depth : Nat) : List Use → St → Option (List Ref.Val × St)
  | [], s => some ([], s)
  | u :: l, s => (u.run T fuel depth s).bind fun r => (runAll T fuel depth l r.2).map fun t => (r.1 :: t.1, t.2)

/-- The call is one on which the versions agree: bit counts are positive, a bit is set to 0 or 1, bytes to write are some bytes of another array, and a
result variable has room for the integers or holds no bits.  `Grow` and `Reset` are other calls in other versions. -/
def Sound (s : St) (o : V3.Outs) : V2.Op2 → Prop
  | .write k _ _ d => d.length * k.kind.size ≤ maxAlloc
  | .read k _ _ n => (o.typed k.kind).length = n.toInt.toNat
  | .writeBytes _ src => SliceOK s.mem src ∧ src.arr < s.mem.arrays.length ∧ src.arr ≠ s.b.buf.arr ∧ 0 < src.len
  | .readBits _ n => 0 < n.toInt ∧ o.u64 = 0
  | .setBits _ _ n => 0 < n.toInt
  | .setBit _ v => v = 0 ∨ v = 1
  | .after l => l.length < 2 ^ 63
  | .afterBit l => l.length < 2 ^ 63
  | .grow _ => False
  | .reset => False
  | _ => True

/-- `MiniBuffer`s have no `WriteByte` and no `ReadByte`. -/
def InMini : V2.Op2 → Prop
  | .writeByte .. => False
  | .readByte .. => False
  | _ => True

/-- The type has the method. -/
def Offered (lib : Lib) (op : V2.Op2) : Prop := lib = .v1mini ∨ lib = .v2mini ∨ lib = .v3mini → InMini op

/-- A call that makes sense on the buffer. -/
structure Use.Good (s : St) (u : Use) : Prop where
  sound : Sound s u.outs u.op
  offered : Offered u.lib u.op
  outs : u.outs.Valid

/-! ## the reference machines -/

theorem three_of (s : St) (o : V3.Outs) (op : V2.Op2) (h : Sound s o op) : V2.toV3 op = some (three op) := by
  cases op with
  | setBit p v => rcases h with rfl | rfl <;> rfl
  | _ => rfl

theorem ready {s : St} {o : V3.Outs} {op : V2.Op2} (h : Sound s o op) (nums : List Nat) (hn : ∀ k e p n, op = .read k e p n → nums.length = n.toInt.toNat) :
    Ref.Ready o.u64.toNat nums ((three op).lower s.mem) := by
  cases op with
  | write k e p d => exact V3.size_pos k.kind
  | read k e p n => exact hn k e p n rfl
  | readBits p n => show o.u64.toNat = 0; rw [h.2]; rfl
  | setBit p v => rcases h with rfl | rfl <;> trivial
  | grow _ => cases h
  | reset => cases h
  | _ => trivial

theorem counts {s : St} {o : V3.Outs} {op : V2.Op2} (h : Sound s o op) : Ref.Counts ((three op).lower s.mem) := by
  cases op with
  | readBits p n => exact h.1
  | setBits p d n => exact h
  | setBit p v => rcases h with rfl | rfl <;> trivial
  | _ => trivial

theorem place_none {s : St} {src : Slice} (h : src.arr ≠ s.b.buf.arr) : V2.place s src = none := if_neg h

theorem view_ne {s : St} {src : Slice} (h : SliceOK s.mem src) (hl : 0 < src.len) : s.mem.view src ≠ [] := by
  intro e
  have := length_view h
  rw [e] at this
  simp at this; omega

theorem le2 {s : St} {o : V3.Outs} {op : V2.Op2} (h : Sound s o op) (r : Ref.Ref) : Le (Ref.step ((three op).lower s.mem) r) (Ref.step2 (V2.lower s op) r) := by
  cases op with
  | writeBytes p src =>
    obtain ⟨h1, _, h3, h4⟩ := h
    simp only [V2.lower, place_none h3]
    cases p with
    | none => exact Le.cur (Ref.le_put _ _ _ _ _ _ r (view_ne h1 h4)) _
    | some q => exact Ref.le_put _ _ _ _ _ _ r (view_ne h1 h4)
  | writeByte p v =>
    cases p with
    | none => exact Le.cur (Ref.le_put _ _ _ _ _ _ r (by simp)) _
    | some q => exact Ref.le_put _ _ _ _ _ _ r (by simp)
  | setBit p v => rcases h with rfl | rfl <;> exact Le.refl _
  | grow _ => cases h
  | reset => cases h
  | _ => exact Le.refl _

theorem le2m {s : St} {o : V3.Outs} {op : V2.Op2} (h : Sound s o op) (r : Ref.Ref) (nums : List Nat)
    (hn : ∀ k e p n, op = .read k e p n → nums.length = n.toInt.toNat) (hb : ∀ p v, op ≠ .writeByte p v) :
    Le (Ref.step ((three op).lower s.mem) r) (Ref.miniStep2 o.u64.toNat nums (V2.lower s op) r) := by
  have k := Ref.le_mini _ _ _ r (ready h nums hn)
  cases op with
  | writeBytes p src =>
    obtain ⟨h1, _, h3, h4⟩ := h
    simp only [V2.lower, place_none h3]
    cases p with
    | none => exact Le.cur (Ref.le_put_copy _ _ _ _ r (view_ne h1 h4)) _
    | some q => exact Ref.le_put_copy _ _ _ _ r (view_ne h1 h4)
  | writeByte p v => exact absurd rfl (hb p v)
  | setBit p v => rcases h with rfl | rfl <;> exact k
  | grow _ => cases h
  | reset => cases h
  | _ => exact k

theorem le1 {s : St} {o : V3.Outs} {op : V2.Op2} (h : Sound s o op) (r : Ref.Ref) (hm : r.data.length ≤ maxAlloc) :
    Le (Ref.step ((three op).lower s.mem) r) (Ref.step1 (V1.lower1 s (one op)) r) := by
  have k2 := le2 h r
  have kc := counts h
  cases op with
  | write k e p d =>
    cases p with
    | none => cases k <;> exact Le.cur (Ref.le_writeComplex _ e r.cur _ r (by decide)).1 _
    | some q => cases k <;> exact (Ref.le_writeComplex _ e q.toInt _ r (by decide)).1
  | read k e p n =>
    cases p with
    | none => cases k <;> exact Le.cur (Ref.le_readComplex _ e r.cur _ r (by decide) hm).1 _
    | some q => cases k <;> exact (Ref.le_readComplex _ e q.toInt _ r (by decide) hm).1
  | writeBytes p src => cases p <;> exact k2
  | writeByte p v => cases p <;> exact k2
  | setBit p v => rcases h with rfl | rfl <;> exact Ref.le_idle 0 kc k2
  | grow _ => cases h
  | reset => cases h
  | _ => exact Ref.le_idle 0 kc k2

theorem le1m {s : St} {o : V3.Outs} {op : V2.Op2} (h : Sound s o op) (r : Ref.Ref) (hm : r.data.length ≤ maxAlloc) (hb : ∀ p v, op ≠ .writeByte p v) :
    Le (Ref.step ((three op).lower s.mem) r) (Ref.miniStep1 o.u64.toNat (V1.lower1 s (one op)) r) := by
  have kc := counts h
  cases op with
  | write k e p d =>
    cases p with
    | none => cases k <;> exact Le.cur (Ref.le_writeComplex _ e r.cur _ r (by decide)).2 _
    | some q => cases k <;> exact (Ref.le_writeComplex _ e q.toInt _ r (by decide)).2
  | read k e p n =>
    cases p with
    | none => cases k <;> exact Le.cur (Ref.le_readComplex _ e r.cur _ r (by decide) hm).2 _
    | some q => cases k <;> exact (Ref.le_readComplex _ e q.toInt _ r (by decide) hm).2
  | writeBytes p src => have k := le2m h r [] nofun hb; cases p <;> exact k
  | setBit p v => have k := le2m h r [] nofun hb; rcases h with rfl | rfl <;> exact Ref.le_idle o.u64.toNat kc k
  | grow _ => cases h
  | reset => cases h
  | _ => exact Ref.le_idle o.u64.toNat kc (le2m h r [] nofun hb)

/-! ## one call -/

/-- The call succeeds with a result and leaves a state. -/
structure Made (s : St) (v : Ref.Val) (q : Ref.Ref) (r : Option (Ref.Val × St)) : Prop where
  ok : ∃ t, r = some (v, t) ∧ WF t ∧ Iso s t ∧ abs t = q

theorem made_V {s : St} {v : Ref.Val} {q : Ref.Ref} {f : GoM (St × V) V} {g : Res V3.Val × St} {w : Res V} {t : St} (hf : f (s, .unit) = (w, (t, .unit)))
    (hw : seenRes t.mem w = V3.obsRes g.2.mem g.1) (ht : g.2 = t) (h : V3.StepIs s (.ok v, q) g) :
    Made s v q ((endedV f s).map fun r => (seen r.2.mem r.1, r.2)) := by
  subst ht
  have h1 := hw.trans h.result
  cases w with
  | panic p => cases h1
  | ok w =>
    rw [endedV_of hf]
    refine ⟨g.2, ?_, h.wf, h.iso, h.state⟩
    show some (seen g.2.mem w, g.2) = _
    rw [Res.ok.inj h1]

theorem made_P {s : St} {v : Ref.Val} {q : Ref.Ref} {f : Prog V} {g : Res V3.Val × St} {w : Res V} {t : St} (hf : f.run ⟨s, false⟩ = (w, ⟨t, false⟩))
    (hw : seenRes t.mem w = V3.obsRes g.2.mem g.1) (ht : g.2 = t) (h : V3.StepIs s (.ok v, q) g) :
    Made s v q ((endedP f s).map fun r => (seen r.2.mem r.1, r.2)) := by
  subst ht
  have h1 := hw.trans h.result
  cases w with
  | panic p => cases h1
  | ok w =>
    rw [endedP_of hf]
    refine ⟨g.2, ?_, h.wf, h.iso, h.state⟩
    show some (seen g.2.mem w, g.2) = _
    rw [Res.ok.inj h1]

/-- The arguments of the call exist. -/
def Args (s : St) (o : V3.Outs) (op : V2.Op2) : Prop := Sound s o op ∨ ∃ n, op = .grow n

theorem valid3 {s : St} {o : V3.Outs} {op : V2.Op2} (h : Args s o op) : (three op).Valid s.mem := by
  rcases h with h | ⟨n, rfl⟩
  case inr => trivial
  cases op with
  | write k e p d => exact h
  | writeBytes p src => exact h.1
  | setBit p v => rcases h with rfl | rfl <;> trivial
  | _ => trivial

theorem valid2 {s : St} {o : V3.Outs} {op : V2.Op2} (h : Args s o op) : op.Valid s.mem := by
  rcases h with h | ⟨n, rfl⟩
  case inr => trivial
  cases op with
  | write k e p d => exact h
  | writeBytes p src => exact h.1
  | _ => trivial

theorem valid1 {s : St} {o : V3.Outs} {op : V2.Op2} (h : Args s o op) : (one op).Valid s.mem := by
  rcases h with h | ⟨n, rfl⟩
  case inr => trivial
  cases op with
  | write k e p d => cases k <;> exact h
  | writeBytes p src => exact h.1
  | _ => trivial

theorem fits3 {s : St} {o : V3.Outs} {op : V2.Op2} (h : Args s o op) : Fits (three op) := by
  rcases h with h | ⟨n, rfl⟩
  case inr => trivial
  cases op with
  | after l => exact h
  | afterBit l => exact h
  | setBit p v => rcases h with rfl | rfl <;> trivial
  | _ => trivial

theorem fits2 {s : St} {o : V3.Outs} {op : V2.Op2} (h : Args s o op) : Two.Fits op := by
  rcases h with h | ⟨n, rfl⟩
  case inr => trivial
  cases op with
  | after l => exact h
  | afterBit l => exact h
  | _ => trivial

theorem fits1 {s : St} {o : V3.Outs} {op : V2.Op2} (h : Args s o op) : One.Fits (one op) := by
  have k := fits2 h
  rcases h with h | ⟨n, rfl⟩
  case inr => intro op2 e; cases e; exact k
  intro op2 e
  cases op with
  | write => cases e
  | read => cases e
  | reset => cases h
  | _ => cases e; exact k

theorem mini3 {s : St} {o : V3.Outs} {op : V2.Op2} (h : Args s o op) (hb : InMini op) : ∃ m, V3.miniCall o (three op) = some m := by
  rcases h with h | ⟨n, rfl⟩
  case inr => exact ⟨_, rfl⟩
  cases op with
  | setBit p v => rcases h with rfl | rfl <;> cases p <;> exact ⟨_, rfl⟩
  | writeByte => cases hb
  | readByte => cases hb
  | write k e p d => cases p <;> exact ⟨_, rfl⟩
  | read k e p d => cases p <;> exact ⟨_, rfl⟩
  | writeBytes p => cases p <;> exact ⟨_, rfl⟩
  | readBytes p => cases p <;> exact ⟨_, rfl⟩
  | readBit p => cases p <;> exact ⟨_, rfl⟩
  | readBits p => cases p <;> exact ⟨_, rfl⟩
  | flipBit p => cases p <;> exact ⟨_, rfl⟩
  | setBits p => cases p <;> exact ⟨_, rfl⟩
  | _ => exact ⟨_, rfl⟩

theorem mini2 {s : St} {o : V3.Outs} {op : V2.Op2} (h : Args s o op) (hb : InMini op) : ∃ m, V2.miniCall o op = some m := by
  rcases h with h | ⟨n, rfl⟩
  case inr => exact ⟨_, rfl⟩
  cases op with
  | writeByte => cases hb
  | readByte => cases hb
  | write k e p d => cases p <;> exact ⟨_, rfl⟩
  | read k e p d => cases p <;> exact ⟨_, rfl⟩
  | writeBytes p => cases p <;> exact ⟨_, rfl⟩
  | readBytes p => cases p <;> exact ⟨_, rfl⟩
  | readBit p => cases p <;> exact ⟨_, rfl⟩
  | readBits p => cases p <;> exact ⟨_, rfl⟩
  | setBit p => cases p <;> exact ⟨_, rfl⟩
  | flipBit p => cases p <;> exact ⟨_, rfl⟩
  | setBits p => cases p <;> exact ⟨_, rfl⟩
  | _ => exact ⟨_, rfl⟩

theorem mini1 {s : St} {o : V3.Outs} {any : V1.Any} {op : V2.Op2} (h : Args s o op) (hb : InMini op) : ∃ m, V1.miniCall1 o any (one op) = some m := by
  rcases h with h | ⟨n, rfl⟩
  case inr => exact ⟨_, rfl⟩
  cases op with
  | writeByte => cases hb
  | readByte => cases hb
  | write k e p d => cases p <;> exact ⟨_, rfl⟩
  | read k e p d => cases p <;> exact ⟨_, rfl⟩
  | writeBytes p => cases p <;> exact ⟨_, rfl⟩
  | readBytes p => cases p <;> exact ⟨_, rfl⟩
  | readBit p => cases p <;> exact ⟨_, rfl⟩
  | readBits p => cases p <;> exact ⟨_, rfl⟩
  | setBit p => cases p <;> exact ⟨_, rfl⟩
  | flipBit p => cases p <;> exact ⟨_, rfl⟩
  | setBits p => cases p <;> exact ⟨_, rfl⟩
  | _ => exact ⟨_, rfl⟩

theorem data_le {s : St} (h : WF s) : (abs s).data.length ≤ maxAlloc := by
  have := V3.length_bytes h.ok; have := h.ok.len_le; have := h.ok.small; have := h.ok.fits
  show s.bytes.length ≤ _
  omega

theorem sh_free {x : Sh} (h : x.locked = false) : x = ⟨x.st, false⟩ := by cases x; cases h; rfl

/-- The variable for the integers has room for them. -/
theorem nums2 {s : St} {o : V3.Outs} {op : V2.Op2} (h : Sound s o op) (k : V2.UKind) (e : Spec.Endian) (p : Option Int64) (n : Int64)
    (he : op = .read k e p n) : (V2.nums o op).length = n.toInt.toNat := by
  subst he
  show ((o.typed k.kind).map _).length = _
  rw [List.length_map]; exact h

theorem nums3 {s : St} {o : V3.Outs} {op : V2.Op2} (h : Sound s o op) : V3.Outs.nums o (three op) = V2.nums o op := by
  cases op with
  | setBit p v => rcases h with rfl | rfl <;> rfl
  | _ => rfl

/-- What the reference machine of the type does. -/
def Use.step (u : Use) (s : St) : Res Ref.Val × Ref.Ref :=
  match u.lib with
  | .v1 => Ref.step1 (V1.lower1 s (one u.op)) (abs s)
  | .v1mini => Ref.miniStep1 u.outs.u64.toNat (V1.lower1 s (one u.op)) (abs s)
  | .v2 => Ref.step2 (V2.lower s u.op) (abs s)
  | .v2mini => Ref.miniStep2 u.outs.u64.toNat (V2.nums u.outs u.op) (V2.lower s u.op) (abs s)
  | .v3 => Ref.step ((three u.op).lower s.mem) (abs s)
  | .v3mini => Ref.miniStep u.outs.u64.toNat (u.outs.nums (three u.op)) ((three u.op).lower s.mem) (abs s)

theorem made_of {T : Texts} (hT : T.Parsed) {fuel depth : Nat} (hf : 2 ^ 64 < fuel) (hd : 4 ≤ depth) {u : Use} {s : St} (h : WF s)
    (hs : Args s u.outs u.op) (hoff : Offered u.lib u.op) (ho : u.outs.Valid)
    {v : Ref.Val} {q : Ref.Ref} (hr : u.step s = (.ok v, q)) : Made s v q (u.run T fuel depth s) := by
  obtain ⟨lib, op, o, any⟩ := u
  dsimp only at hs hoff ho
  unfold Use.step at hr
  have hd3 : 3 ≤ depth := by omega
  cases lib with
  | v3 =>
    obtain ⟨funs, hc, hh⟩ := C81_buffer_text
    cases hc.symm.trans hT.v3
    have k := (V3.step_ok h (three op) (valid3 hs)).is
    rw [show Ref.step _ _ = _ from hr] at k
    exact made_V (hh fuel depth hf hd3 _ (fits3 hs) s .unit) (seenRes_goRes _ _) rfl k
  | v3mini =>
    obtain ⟨funs, hc, hh⟩ := C82_mini_text
    cases hc.symm.trans hT.v3mini
    obtain ⟨m, hm⟩ := mini3 hs (hoff (by decide))
    have k := V3.mini_step_ok h o ho (three op) (valid3 hs) m hm
    rw [show Ref.miniStep _ _ _ _ = _ from hr] at k
    exact made_V (hh fuel depth hf hd3 o _ (fits3 hs) m hm s .unit) (seenRes_goRes _ _) rfl k
  | v2 =>
    obtain ⟨funs, hc, hh⟩ := C86_alone_text
    cases hc.symm.trans hT.v2
    have k := V2.step2_ok h op (valid2 hs)
    rw [show Ref.step2 _ _ = _ from hr] at k
    have e := V2.exec_run op s
    have hok : ∃ w, (V2.seq op s).1 = .ok w := by
      have := k.result
      cases hq : (V2.seq op s).1 with
      | ok w => exact ⟨w, rfl⟩
      | panic p => rw [hq] at this; cases this
    have e' : (V2.exec op).run ⟨s, false⟩ = ((V2.seq op s).1, ⟨(V2.seq op s).2, false⟩) := by
      obtain ⟨w, hw⟩ := hok
      have c := V2.C55_returns_unlocked op s w (by rw [e]; exact hw)
      rw [e] at c ⊢
      dsimp only at c ⊢
      rw [c]
    have kk := hh fuel depth hf hd op (fits2 hs) ⟨s, false⟩
    rw [e'] at kk
    exact made_P kk (seenRes_goRes _ _) rfl k
  | v2mini =>
    obtain ⟨funs, hc, hh⟩ := C84_mini_text
    cases hc.symm.trans hT.v2mini
    obtain ⟨m, hm⟩ := mini2 hs (hoff (by decide))
    have k := V2.mini_step2_ok h o ho op (valid2 hs) m hm
    rw [show Ref.miniStep2 _ _ _ _ = _ from hr] at k
    exact made_V (hh fuel depth hf hd o _ (fits2 hs) m hm s .unit) (seenRes_goRes _ _) rfl k
  | v1 =>
    obtain ⟨funs, hc, hh⟩ := C87_alone_text
    cases hc.symm.trans hT.v1
    have k := V1.step1_ok h (one op) (valid1 hs)
    unfold V1.Step1 at k
    rw [show Ref.step1 _ _ = _ from hr] at k
    have kk := hh fuel depth hf hd (one op) (fits1 hs) ⟨s, false⟩
    have hl : ((V1.exec1 (one op)).run ⟨s, false⟩).2.locked = false := by
      have := k.locked
      rw [show (V1.outRes ((V1.exec1 (one op)).run ⟨s, false⟩)).2 = ((V1.exec1 (one op)).run ⟨s, false⟩).2 from rfl] at this
      rw [this]
      cases V1.lower1 s (one op) <;> rfl
    have e : ((V1.exec1 (one op)).run ⟨s, false⟩).2 = ⟨((V1.exec1 (one op)).run ⟨s, false⟩).2.st, false⟩ := sh_free hl
    rw [e] at kk
    exact made_P kk (seenRes_goRes1 _ _) rfl k.is
  | v1mini =>
    obtain ⟨funs, hc, hh⟩ := C85_mini_text
    cases hc.symm.trans hT.v1mini
    obtain ⟨m, hm⟩ := mini1 (any := any) hs (hoff (by decide))
    have k := V1.mini_step1_ok h o ho any (one op) (valid1 hs) m hm
    rw [show Ref.miniStep1 _ _ _ = _ from hr] at k
    exact made_V (hh fuel depth hf hd o any _ (fits1 hs) m hm s .unit) (seenRes_goRes1 _ _) rfl k

/-- C140, one call. -/
theorem made {T : Texts} (hT : T.Parsed) {fuel depth : Nat} (hf : 2 ^ 64 < fuel) (hd : 4 ≤ depth) {u : Use} {s : St} (h : WF s) (hg : u.Good s)
    {v : Ref.Val} {q : Ref.Ref} (hr : Ref.step ((three u.op).lower s.mem) (abs s) = (.ok v, q)) : Made s v q (u.run T fuel depth s) := by
  refine made_of hT hf hd h (.inl hg.sound) hg.offered hg.outs ?_
  obtain ⟨lib, op, o, any⟩ := u
  obtain ⟨hs, hoff, ho⟩ := hg
  dsimp only at hs hoff ho hr
  have hw : InMini op → ∀ p v, op ≠ .writeByte p v := by rintro hb p v rfl; exact hb
  cases lib with
  | v3 => exact hr
  | v3mini => exact Ref.le_mini _ _ _ _ (ready hs _ (by rw [nums3 hs]; exact nums2 hs)) _ _ hr
  | v2 => exact le2 hs _ _ _ hr
  | v2mini => exact le2m hs _ _ (nums2 hs) (hw (hoff (by decide))) _ _ hr
  | v1 => exact le1 hs _ (data_le h) _ _ hr
  | v1mini => exact le1m hs _ (data_le h) (hw (hoff (by decide))) _ _ hr

/-! ## calls one after the other -/

theorem Sound.later {s t : St} (h : Iso s t) {o : V3.Outs} {op : V2.Op2} (k : Sound s o op) : Sound t o op := by
  cases op with
  | writeBytes p src =>
    obtain ⟨k1, k2, k3, k4⟩ := k
    have := h.more
    refine ⟨h.slices _ k1, by omega, ?_, k4⟩
    rcases h.place with ⟨p1, _⟩ | p
    · rw [p1]; exact k3
    · omega
  | _ => exact k

theorem Use.Good.later {s t : St} (h : Iso s t) {u : Use} (k : u.Good s) : u.Good t := ⟨k.sound.later h, k.offered, k.outs⟩

theorem lower_later {s t : St} (h : Iso s t) {o : V3.Outs} {op : V2.Op2} (k : Sound s o op) : (three op).lower t.mem = (three op).lower s.mem := by
  cases op with
  | writeBytes p src =>
    obtain ⟨k1, k2, k3, k4⟩ := k
    show Ref.Op.writeBytes _ _ = Ref.Op.writeBytes _ _
    congr 1
    show ((t.mem.array src.arr).drop src.off).take src.len = ((s.mem.array src.arr).drop src.off).take src.len
    congr 2
    exact List.ext_getElem? fun i => h.outside _ i k2 (.inl k3)
  | setBit p v => rcases k with rfl | rfl <;> rfl
  | _ => rfl

/-- The reference machine of the v3 `Buffer` on calls one after the other; `none` if one of them panics. -/
def succeeds : List Ref.Op → Ref.Ref → Option (List Ref.Val × Ref.Ref)
  | [], r => some ([], r)
  | op :: l, r => match Ref.step op r with
    | (.ok v, r') => (succeeds l r').map fun t => (v :: t.1, t.2)
    | (.panic _, _) => none

theorem all_made {T : Texts} (hT : T.Parsed) {fuel depth : Nat} (hf : 2 ^ 64 < fuel) (hd : 4 ≤ depth) (l : List Use) {s : St} (h : WF s)
    (hg : ∀ u ∈ l, u.Good s) {vs : List Ref.Val} {q : Ref.Ref} (hr : succeeds (l.map fun u => (three u.op).lower s.mem) (abs s) = some (vs, q)) :
    ∃ t, runAll T fuel depth l s = some (vs, t) ∧ WF t ∧ Iso s t ∧ abs t = q := by
  induction l generalizing s vs q with
  | nil => cases hr; exact ⟨s, rfl, h, Iso.refl s, rfl⟩
  | cons u l ih =>
    unfold succeeds at hr
    rw [List.map_cons] at hr
    dsimp only at hr
    cases hq : Ref.step ((three u.op).lower s.mem) (abs s) with
    | mk a b =>
      rw [hq] at hr
      cases a with
      | panic p => cases hr
      | ok v =>
        dsimp only at hr
        obtain ⟨t, t1, t2, t3, t4⟩ := (made hT hf hd h (hg u (List.mem_cons_self ..)) hq).ok
        subst t4
        cases hx : succeeds (l.map fun u => (three u.op).lower s.mem) (abs t) with
        | none => rw [hx] at hr; cases hr
        | some x =>
          rw [hx] at hr
          cases hr
          have e : (l.map fun u => (three u.op).lower t.mem) = l.map fun u => (three u.op).lower s.mem :=
            List.map_congr_left fun u hu => lower_later t3 (hg u (List.mem_cons_of_mem _ hu)).sound
          obtain ⟨t', a1, a2, a3, a4⟩ := ih t2 (fun u hu => (hg u (List.mem_cons_of_mem _ hu)).later t3) (vs := x.1) (q := x.2) (by rw [e]; exact hx)
          refine ⟨t', ?_, a2, t3.trans a3, a4⟩
          unfold runAll
          rw [t1, Option.bind_some, a1]; rfl

/-- What the text of the v3 `Buffer` does, the reference machine does. -/
theorem v3_succeeds {T : Texts} (hT : T.Parsed) {fuel depth : Nat} (hf : 2 ^ 64 < fuel) (hd : 4 ≤ depth) (l : List Use) {s t : St} (h : WF s)
    (hg : ∀ u ∈ l, Sound s u.outs u.op) (hl : ∀ u ∈ l, u.lib = .v3) {vs : List Ref.Val} (hr : runAll T fuel depth l s = some (vs, t)) :
    succeeds (l.map fun u => (three u.op).lower s.mem) (abs s) = some (vs, abs t) := by
  induction l generalizing s vs with
  | nil => cases hr; rfl
  | cons u l ih =>
    have hs := hg u (List.mem_cons_self ..)
    obtain ⟨lib, op, o, any⟩ := u
    cases hl _ (List.mem_cons_self ..)
    obtain ⟨funs, hc, hh⟩ := C81_buffer_text
    cases hc.symm.trans hT.v3
    have k := (V3.step_ok h (three op) (valid3 (.inl hs))).is
    have hrun := hh fuel depth hf (by omega) _ (fits3 (.inl hs)) s .unit
    have e0 : Use.run T fuel depth ⟨.v3, op, o, any⟩ s =
        (endedV ((⟨T.v3, V3Buffer.errs⟩ : Pkg).callBuf fuel depth (goName (three op)) (goArgs (three op))) s).map fun r => (seen r.2.mem r.1, r.2) := rfl
    unfold runAll at hr
    rw [e0] at hr
    have k1 := k.result; have k2 := k.state; have k3 := k.iso; have k4 := k.wf
    rw [← seenRes_goRes] at k1
    cases hx : V3.exec (three op) s with
    | mk a b =>
      rw [hx] at hrun k1 k2 k3 k4
      cases a with
      | panic p =>
        have : endedV ((⟨T.v3, V3Buffer.errs⟩ : Pkg).callBuf fuel depth (goName (three op)) (goArgs (three op))) s = none := by
          unfold endedV; rw [hrun]; rfl
        rw [this] at hr; cases hr
      | ok v =>
        rw [endedV_of hrun] at hr
        dsimp only [Option.map_some, Option.bind_some] at hr
        cases hy : runAll T fuel depth l b with
        | none => rw [hy] at hr; cases hr
        | some y =>
          rw [hy] at hr
          cases hr
          have e : (l.map fun u => (three u.op).lower b.mem) = l.map fun u => (three u.op).lower s.mem :=
            List.map_congr_left fun u hu => lower_later k3 (hg u (List.mem_cons_of_mem _ hu))
          have := ih k4 (fun u hu => (hg u (List.mem_cons_of_mem _ hu)).later k3) (fun u hu => hl u (List.mem_cons_of_mem _ hu)) hy
          rw [e] at this
          unfold succeeds
          rw [List.map_cons]
          dsimp only
          rw [show Ref.step ((three op).lower s.mem) (abs s) = (.ok (seen b.mem (goVal v)), abs b) from Prod.ext k1.symm k2.symm]
          dsimp only
          rw [this]; rfl

/-- C140: the texts of the six buffer types are read as programs, and for these programs, every buffer and every list of calls that the versions share,
each made through any of the types that has it: if the reference machine of the v3 `Buffer` panics in none of them, all succeed, the caller sees the results
of the reference machine, and content, room behind it and both offsets end as there.  No call changes memory outside the buffer. -/
theorem C140_any_type : ∃ T : Texts, T.Parsed ∧ ∀ (fuel depth : Nat), 2 ^ 64 < fuel → 4 ≤ depth → ∀ (l : List Use) (s : St), WF s → (∀ u ∈ l, u.Good s) →
    ∀ (vs : List Ref.Val) (q : Ref.Ref), succeeds (l.map fun u => (three u.op).lower s.mem) (abs s) = some (vs, q) →
    ∃ t, runAll T fuel depth l s = some (vs, t) ∧ WF t ∧ Iso s t ∧ abs t = q := by
  obtain ⟨T, hT⟩ := parsed
  exact ⟨T, hT, fun fuel depth hf hd l s h hg vs q hr => all_made hT hf hd l h hg hr⟩

/-- C140: the types can be exchanged call by call.  A list of such calls that succeeds, run from the text, with v3 `Buffer`s only, succeeds whichever type
each call is made through: the results are the same, and so are the bytes, the room behind them and both offsets. -/
theorem C140_as_v3 : ∃ T : Texts, T.Parsed ∧ ∀ (fuel depth : Nat), 2 ^ 64 < fuel → 4 ≤ depth → ∀ (l : List Use) (s : St), WF s → (∀ u ∈ l, u.Good s) →
    ∀ (vs : List Ref.Val) (t : St), runAll T fuel depth (l.map fun u => { u with lib := .v3 }) s = some (vs, t) →
    ∃ t', runAll T fuel depth l s = some (vs, t') ∧ t'.bytes = t.bytes ∧ t'.b.off = t.b.off ∧ t'.b.boff = t.b.boff ∧ abs t' = abs t := by
  obtain ⟨T, hT⟩ := parsed
  refine ⟨T, hT, fun fuel depth hf hd l s h hg vs t hr => ?_⟩
  have k := v3_succeeds hT hf hd _ h (by
    intro u hu
    obtain ⟨w, hw, rfl⟩ := List.mem_map.1 hu
    exact (hg w hw).sound) (by
    intro u hu
    obtain ⟨w, hw, rfl⟩ := List.mem_map.1 hu
    rfl) hr
  rw [List.map_map] at k
  obtain ⟨t', a1, a2, a3, a4⟩ := all_made hT hf hd l h hg (vs := vs) (q := abs t) k
  refine ⟨t', a1, congrArg Ref.Ref.data a4, ?_, ?_, a4⟩
  · exact Int64.toInt_inj.mp (congrArg Ref.Ref.cur a4)
  · exact Int64.toInt_inj.mp (congrArg Ref.Ref.bcur a4)

/-- A variable of each kind; the one for 16-bit integers has room for one of them. -/
def oneVar : V3.Outs := ⟨0, 0, 0, ⟨0, 0, 0, 0⟩, fun | .u16 => ([7] : List UInt16) | _ => []⟩

theorem oneVar_valid : oneVar.Valid := by intro k; cases k <;> decide

/-- Two integers written with v1 and v2, one bit set through a v3 `MiniBuffer`, both read with v2 and v1 `MiniBuffer`s, the last byte with a v3 `Buffer`. -/
def mixedUses : List Use :=
  [⟨.v1, .write .u16 .be (some 0) ([0x0102] : List UInt16), oneVar, .other⟩, ⟨.v2, .write .u16 .le (some 2) ([0x0304] : List UInt16), oneVar, .other⟩,
   ⟨.v3mini, .setBit (some 0) 1, oneVar, .other⟩, ⟨.v2mini, .read .u16 .be (some 0) 1, oneVar, .other⟩,
   ⟨.v1mini, .read .u16 .le (some 2) 1, oneVar, .other⟩, ⟨.v3, .readByte (some 3), oneVar, .other⟩]

theorem mixedUses_good : ∀ u ∈ mixedUses, u.Good demo := by
  intro u hu
  simp only [mixedUses, List.mem_cons, List.not_mem_nil, or_false] at hu
  rcases hu with rfl | rfl | rfl | rfl | rfl | rfl
  · exact ⟨show 1 * 2 ≤ maxAlloc by decide, fun _ => trivial, oneVar_valid⟩
  · exact ⟨show 1 * 2 ≤ maxAlloc by decide, fun _ => trivial, oneVar_valid⟩
  · exact ⟨.inr rfl, fun _ => trivial, oneVar_valid⟩
  · exact ⟨rfl, fun _ => trivial, oneVar_valid⟩
  · exact ⟨rfl, fun _ => trivial, oneVar_valid⟩
  · exact ⟨trivial, fun h => absurd h (by decide), oneVar_valid⟩

example : ∃ T : Texts, T.Parsed ∧ ∃ t, runAll T (2 ^ 64 + 1) 4 mixedUses demo =
    some ([.unit, .unit, .unit, .nums [0x8102], .nums [0x0304], .num 3], t) ∧ t.bytes.take 4 = [0x81, 2, 4, 3] := by
  obtain ⟨T, hT, h⟩ := C140_any_type
  obtain ⟨t, a, _, _, b⟩ := h (2 ^ 64 + 1) 4 (by decide) (by decide) mixedUses demo demo_wf mixedUses_good
    [.unit, .unit, .unit, .nums [0x8102], .nums [0x0304], .num 3] _ rfl
  exact ⟨T, hT, t, a, by rw [show t.bytes = (abs t).data from rfl, b]; rfl⟩

end Crunch.Wire
