import Verif.Props.SourceWire
import Verif.Props.Streams

/-!
# Bit fields that the text of one version writes the text of another one reads (C139)
-/

namespace Crunch.Wire
open V3 (St WF demo demo_wf)
open Src hiding St
open Gen (Str)
open Spec (bit)

/-- One call on a buffer that nobody else uses, run from the text of the buffer type; `out` is what the result variable of a `MiniBuffer` holds.
The result is `none` if the call panics or leaves the mutex taken. -/
def textCallOf (T : Texts) (fuel depth : Nat) (lib : Lib) (name : Str) (args : List V) (out : Option V) (s : St) : Option (V × St) :=
  match lib with
  | .v1 => endedP ((⟨T.v1, V1Buffer.errs⟩ : Pkg).call fuel depth name args) s
  | .v1mini => endedV ((⟨T.v1mini, V1Mini.errs⟩ : Pkg).callMini fuel depth name args out) s
  | .v2 => endedP ((⟨T.v2, V2Buffer.errs⟩ : Pkg).call fuel depth name args) s
  | .v2mini => endedV ((⟨T.v2mini, V2Mini.errs⟩ : Pkg).callMini fuel depth name args out) s
  | .v3 => endedV ((⟨T.v3, V3Buffer.errs⟩ : Pkg).callBuf fuel depth name args) s
  | .v3mini => endedV ((⟨T.v3mini, V3Mini.errs⟩ : Pkg).callMini fuel depth name args out) s

/-- `SetBitsNext` with value and width of a field. -/
def textSet (T : Texts) (fuel depth : Nat) (lib : Lib) (f : V3.Field) (s : St) : Option St :=
  (textCallOf T fuel depth lib (str% "SetBitsNext") [.u64 f.value, .i64 f.width] none s).map (·.2)

/-- `ReadBitsNext` of a width; a `MiniBuffer` is given a variable that holds 0. -/
def textGet (T : Texts) (fuel depth : Nat) (lib : Lib) (w : Int64) (s : St) : Option (UInt64 × St) :=
  (textCallOf T fuel depth lib (str% "ReadBitsNext") [.i64 w] (some (.u64 0)) s).bind fun r =>
    match r.1 with
    | .u64 v => some (v, r.2)
    | _ => none

/-- Fields one after the other, each written through a type of its own. -/
def textSetAll (T : Texts) (fuel depth : Nat) : List (Lib × V3.Field) → St → Option St
  | [], s => some s
  | (lib, f) :: l, s => (textSet T fuel depth lib f s).bind (textSetAll T fuel depth l)

/-- Fields one after the other, each read through a type of its own. -/
def textGetAll (T : Texts) (fuel depth : Nat) : List (Lib × Int64) → St → Option (List UInt64 × St)
  | [], s => some ([], s)
  | (lib, w) :: l, s => (textGet T fuel depth lib w s).bind fun r => (textGetAll T fuel depth l r.2).map fun t => (r.1 :: t.1, t.2)

/-- The bits of fields, each with the most significant one of its width first. -/
def fieldBits (fs : List V3.Field) : List Bool :=
  fs.flatMap fun f => (List.range f.width.toInt.toNat).map fun i => f.value.toNat.testBit (f.width.toInt.toNat - 1 - i)

/-- The contents of the variable. -/
def zeroOuts : V3.Outs := ⟨0, 0, 0, ⟨0, 0, 0, 0⟩, fun _ => []⟩

theorem endedV_of {f : GoM (St × V) V} {s t : St} {v : V} (h : f (s, .unit) = (.ok v, (t, .unit))) : endedV f s = some (v, t) := by
  unfold endedV; rw [h]; rfl

theorem endedP_of {f : Prog V} {s t : St} {v : V} (h : f.run ⟨s, false⟩ = (.ok v, ⟨t, false⟩)) : endedP f s = some (v, t) := by
  unfold endedP; rw [h]; rfl

/-- A call that succeeds on a v3 `Buffer` does the same on all types, if it is one of the two kinds. -/
theorem text_same {T : Texts} (hT : T.Parsed) {fuel depth : Nat} (hf : 2 ^ 64 < fuel) (hd : 4 ≤ depth) (lib : Lib) {s t : St} (h : WF s) {op : V3.Op}
    {op2 : V2.Op2} {op1 : V1.Op1} (h2 : V2.toV3 op2 = some op) (h1 : V1.toV2 op1 = some op2) (hc : V2.Comparable op2) (hk : V2.leaks op2 = false)
    (hn : V1.Counted op1) (hw : V1.Whole op1 = false)
    (hb : ∀ p src, op2 ≠ .writeBytes p src) (hg : ∀ n, op2 ≠ .grow n) (hr : op2 ≠ .reset) (v3 : op.Valid s.mem) (ho : V3.Outs.Ready zeroOuts op)
    (f3 : Fits op) (f2 : Two.Fits op2) (f1 : One.Fits op1) {m : GoM St V3.Val} (hm : V3.miniCall zeroOuts op = some m)
    {name : Str} {args : List V} {out : Option V}
    (n3 : goName op = name) (n2 : Two.goName op2 = name) (n1 : One.goName op1 = name)
    (a3 : goArgs op = args) (a2 : Two.goArgs op2 = args) (a1 : One.goArgs op1 = args)
    (o3 : goOut zeroOuts op = out) (o2 : Two.goOut zeroOuts op2 = out) (o1 : One.goOut zeroOuts .other op1 = out)
    {v : V3.Val} (he : V3.exec op s = (.ok v, t)) : textCallOf T fuel depth lib name args out s = some (goVal v, t) := by
  have hd3 : 3 ≤ depth := by omega
  have em : m s = (.ok v, t) := V3.C43_mini_agrees_partial h op v3 zeroOuts ho m hm v he
  have m2 : V2.miniCall zeroOuts op2 = some m := (V2.C76_mini_agrees zeroOuts op2 op h2 hb hg hr).trans hm
  have m1 : V1.miniCall1 zeroOuts .other op1 = some (V1.wrapG .val m) := by rw [V1.C77_mini_same zeroOuts .other op1 op2 h1 hn hw, m2]; rfl
  have e2 : (V2.exec op2).run ⟨s, false⟩ = (.ok v, ⟨t, false⟩) := by
    obtain ⟨c1, c2⟩ := V2.C50_v2_agrees_with_v3 op2 op h2 hc s
    have := V2.exec_run op2 s
    rw [he] at c1 c2
    rw [hk] at this
    rw [this] at c1 c2 ⊢
    dsimp only at c1 c2
    rw [c1, c2]; rfl
  cases lib with
  | v1 =>
    obtain ⟨funs, hc, hh⟩ := C87_alone_text
    cases hc.symm.trans hT.v1
    have := hh fuel depth hf hd op1 f1 ⟨s, false⟩
    unfold textCall1 at this
    rw [n1, a1, V1.C69_same_steps op1 op2 h1 hn hw, show ((V2.exec op2).bind fun v => Prog.ret (V1.Val1.val v)) = (V2.exec op2).map V1.Val1.val from rfl,
      Prog.run_map, e2] at this
    exact endedP_of this
  | v1mini =>
    obtain ⟨funs, hc, hh⟩ := C85_mini_text
    cases hc.symm.trans hT.v1mini
    have := hh fuel depth hf hd zeroOuts .other op1 f1 _ m1 s .unit
    rw [n1, a1, o1] at this
    unfold V1.wrapG at this
    rw [bind_run, em] at this
    exact endedV_of this
  | v2 =>
    obtain ⟨funs, hc, hh⟩ := C86_alone_text
    cases hc.symm.trans hT.v2
    have := hh fuel depth hf hd op2 f2 ⟨s, false⟩
    unfold textCall at this
    rw [n2, a2, e2] at this
    exact endedP_of this
  | v2mini =>
    obtain ⟨funs, hc, hh⟩ := C84_mini_text
    cases hc.symm.trans hT.v2mini
    have := hh fuel depth hf hd zeroOuts op2 f2 _ m2 s .unit
    rw [n2, a2, o2, em] at this
    exact endedV_of this
  | v3 =>
    obtain ⟨funs, hc, hh⟩ := C81_buffer_text
    cases hc.symm.trans hT.v3
    have := hh fuel depth hf hd3 op f3 s .unit
    rw [n3, a3, he] at this
    exact endedV_of this
  | v3mini =>
    obtain ⟨funs, hc, hh⟩ := C82_mini_text
    cases hc.symm.trans hT.v3mini
    have := hh fuel depth hf hd3 zeroOuts op f3 _ hm s .unit
    rw [n3, a3, o3, em] at this
    exact endedV_of this

theorem width_pos {w : Int64} (h : 1 ≤ w.toInt) : (0 : Int64) < w := by
  rw [Int64.lt_iff_toInt_lt, toInt_zero']; omega

theorem textSet_of {T : Texts} (hT : T.Parsed) {fuel depth : Nat} (hf : 2 ^ 64 < fuel) (hd : 4 ≤ depth) (lib : Lib) {s t : St} (h : WF s) {f : V3.Field}
    (hw : 1 ≤ f.width.toInt) (he : V3.exec f.write s = (.ok .unit, t)) : textSet T fuel depth lib f s = some t := by
  have := text_same hT hf hd lib h (op := f.write) (op2 := .setBits none f.value f.width) (op1 := .setBits none f.value f.width) rfl rfl trivial rfl
    (width_pos hw) rfl nofun nofun nofun trivial trivial trivial trivial (by intro _ h; cases h; trivial) rfl rfl rfl rfl rfl rfl rfl rfl rfl rfl he
  unfold textSet
  rw [show textCallOf T fuel depth lib (str% "SetBitsNext") [.u64 f.value, .i64 f.width] none s = _ from this]
  rfl

theorem textGet_of {T : Texts} (hT : T.Parsed) {fuel depth : Nat} (hf : 2 ^ 64 < fuel) (hd : 4 ≤ depth) (lib : Lib) {s t : St} (h : WF s) {f : V3.Field}
    (hw : 1 ≤ f.width.toInt) {v : UInt64} (he : V3.exec f.read s = (.ok (.u64 v), t)) : textGet T fuel depth lib f.width s = some (v, t) := by
  have := text_same hT hf hd lib h (op := f.read) (op2 := .readBits none f.width) (op1 := .readBits none f.width) rfl rfl trivial rfl
    (width_pos hw) rfl nofun nofun nofun trivial rfl trivial trivial (by intro _ h; cases h; trivial) rfl rfl rfl rfl rfl rfl rfl rfl rfl rfl he
  unfold textGet
  rw [show textCallOf T fuel depth lib (str% "ReadBitsNext") [.i64 f.width] (some (.u64 0)) s = _ from this]
  rfl

/-- The bits `p`, `p + 1`, …, `p + n - 1` of bytes. -/
def bitsAt (l : List UInt8) (p n : Nat) : List Bool := (List.range n).map fun i => bit l (p + i)

theorem bitsAt_add (l : List UInt8) (p m n : Nat) : bitsAt l p (m + n) = bitsAt l p m ++ bitsAt l (p + m) n := by
  unfold bitsAt
  rw [List.range_add, List.map_append, List.map_map]
  congr 1
  exact List.map_congr_left fun i _ => by simp only [Function.comp, Nat.add_assoc]

theorem bitsAt_congr {l l' : List UInt8} {p n : Nat} (h : ∀ j, p ≤ j → j < p + n → bit l' j = bit l j) : bitsAt l' p n = bitsAt l p n :=
  List.map_congr_left fun i hi => h _ (by omega) (by have := List.mem_range.1 hi; omega)

/-- The bits of one field. -/
def oneField (f : V3.Field) : List Bool :=
  (List.range f.width.toInt.toNat).map fun i => f.value.toNat.testBit (f.width.toInt.toNat - 1 - i)

theorem fieldBits_cons (f : V3.Field) (fs : List V3.Field) : fieldBits (f :: fs) = oneField f ++ fieldBits fs := by
  simp [fieldBits, oneField]

theorem oneField_length (f : V3.Field) : (oneField f).length = f.width.toInt.toNat := by simp [oneField]

theorem setAll_ok {T : Texts} (hT : T.Parsed) {fuel depth : Nat} (hf : 2 ^ 64 < fuel) (hd : 4 ≤ depth) (l : List (Lib × V3.Field)) {s : St} (h : WF s)
    (hw : ∀ x ∈ l, 1 ≤ x.2.width.toInt) (h0 : 0 ≤ s.b.boff.toInt)
    (hfit : s.b.boff.toInt + (fieldBits (l.map (·.2))).length ≤ 8 * s.bytes.length) :
    ∃ t o, textSetAll T fuel depth l s = some t ∧ WF t ∧ t.b = { s.b with boff := o } ∧
      o.toInt = s.b.boff.toInt + (fieldBits (l.map (·.2))).length ∧ t.bytes.length = s.bytes.length ∧
      bitsAt t.bytes s.b.boff.toInt.toNat (fieldBits (l.map (·.2))).length = fieldBits (l.map (·.2)) ∧
      (∀ j, j < s.b.boff.toInt.toNat ∨ s.b.boff.toInt.toNat + (fieldBits (l.map (·.2))).length ≤ j → bit t.bytes j = bit s.bytes j) ∧
      V3.Untouched s.mem t.mem s.b.buf.arr s.b.buf.off (s.b.buf.off + s.b.buf.len) := by
  induction l generalizing s with
  | nil => exact ⟨s, s.b.boff, rfl, h, rfl, by simp [fieldBits], rfl, rfl, fun _ _ => rfl, fun _ _ _ _ => rfl⟩
  | cons x l ih =>
    obtain ⟨lib, f⟩ := x
    have hM := maxAlloc_lt
    have hlm := h.ok.len_le_max
    have hb := V3.length_bytes h.ok
    have h1 : 1 ≤ f.width.toInt := hw _ (List.mem_cons_self ..)
    have hc : fieldBits (((lib, f) :: l).map (·.2)) = oneField f ++ fieldBits (l.map (·.2)) := fieldBits_cons ..
    have hc' : (fieldBits (((lib, f) :: l).map (·.2))).length = f.width.toInt.toNat + (fieldBits (l.map (·.2))).length := by
      rw [hc, List.length_append, oneField_length]
    rw [hc'] at hfit ⊢
    rw [hc]
    obtain ⟨t, t1, t2, t3, t4, t5, t6, _⟩ := V3.C18_setBits_effect h s.b.boff f.value f.width h1 h0 (by omega)
    have hst := V3.step_ok h (.setBits (some s.b.boff) f.value f.width) trivial
    have hex0 : V3.exec (.setBits (some s.b.boff) f.value f.width) s = (.ok .unit, t) := by
      simp only [V3.exec, V3.wrapVal_run, t1, V3.wrapRes]
    rw [hex0] at hst
    have htw := hst.wf
    have hoff : (s.b.boff + f.width).toInt = s.b.boff.toInt + f.width.toInt := by
      rw [toInt_add]
      have := toInt_lt' s.b.boff
      omega
    have hex : V3.exec f.write s = (.ok .unit, { t with b := { t.b with boff := s.b.boff + f.width } }) := by
      simp only [V3.Field.write, V3.exec, V3.wrapVal_run, V3.setBitsNext_run, t1]
      simp only [V3.advanceBit, V3.wrapRes, t2]
    have hs := textSet_of hT hf hd lib h h1 hex
    have hby : ({ t with b := { t.b with boff := s.b.boff + f.width } } : St).bytes = t.bytes := rfl
    obtain ⟨u, o, e1, e2, e3, e4, e5, e6, e7, e8⟩ := ih (s := { t with b := { t.b with boff := s.b.boff + f.width } })
      ⟨htw.ok, htw.cap, htw.bcap⟩ (fun x hx => hw x (List.mem_cons_of_mem _ hx))
      (by show 0 ≤ (s.b.boff + f.width).toInt; omega)
      (by rw [hby, t3]; show (s.b.boff + f.width).toInt + _ ≤ _; omega)
    have hp : ({ t with b := { t.b with boff := s.b.boff + f.width } } : St).b.boff.toInt.toNat =
        s.b.boff.toInt.toNat + f.width.toInt.toNat := by
      show (s.b.boff + f.width).toInt.toNat = _; omega
    rw [hp, hby] at e7
    rw [hp] at e6
    rw [hby] at e5
    refine ⟨u, o, ?_, e2, ?_, ?_, e5.trans t3, ?_, ?_, ?_⟩
    · show (textSet T fuel depth lib f s).bind _ = _
      rw [hs]; exact e1
    · rw [e3, t2]
    · rw [e4]
      show (s.b.boff + f.width).toInt + _ = _
      omega
    · rw [bitsAt_add, e6]
      congr 1
      refine List.map_congr_left fun i hi => ?_
      have hi := List.mem_range.1 hi
      rw [e7 _ (.inl (by omega))]
      exact t4 i hi
    · intro j hj
      rw [e7 j (by omega)]
      exact t5 j (by omega)
    · intro c i hc hi
      have hm := hst.iso.more
      exact (e8 c i (Nat.lt_of_lt_of_le hc hm) (by show _ ≠ t.b.buf.arr ∨ _ < t.b.buf.off ∨ t.b.buf.off + t.b.buf.len ≤ _; rw [t2]; exact hi)).trans
        (t6 c i hc hi)

theorem getAll_ok {T : Texts} (hT : T.Parsed) {fuel depth : Nat} (hf : 2 ^ 64 < fuel) (hd : 4 ≤ depth) (l : List (Lib × V3.Field)) {s : St} (h : WF s)
    (hw : ∀ x ∈ l, 1 ≤ x.2.width.toInt) (h0 : 0 ≤ s.b.boff.toInt)
    (hfit : s.b.boff.toInt + (fieldBits (l.map (·.2))).length ≤ 8 * s.bytes.length)
    (hbits : bitsAt s.bytes s.b.boff.toInt.toNat (fieldBits (l.map (·.2))).length = fieldBits (l.map (·.2))) :
    ∃ o : Int64, o.toInt = s.b.boff.toInt + (fieldBits (l.map (·.2))).length ∧
      textGetAll T fuel depth (l.map fun x => (x.1, x.2.width)) s =
        some (l.map fun x => UInt64.ofNat (x.2.value.toNat % 2 ^ x.2.width.toInt.toNat), { s with b := { s.b with boff := o } }) := by
  induction l generalizing s with
  | nil => exact ⟨s.b.boff, by simp [fieldBits], rfl⟩
  | cons x l ih =>
    obtain ⟨lib, f⟩ := x
    have hM := maxAlloc_lt
    have hlm := h.ok.len_le_max
    have hb := V3.length_bytes h.ok
    have h1 : 1 ≤ f.width.toInt := hw _ (List.mem_cons_self ..)
    have hc : fieldBits (((lib, f) :: l).map (·.2)) = oneField f ++ fieldBits (l.map (·.2)) := fieldBits_cons ..
    have hc' : (fieldBits (((lib, f) :: l).map (·.2))).length = f.width.toInt.toNat + (fieldBits (l.map (·.2))).length := by
      rw [hc, List.length_append, oneField_length]
    rw [hc'] at hfit hbits ⊢
    rw [hc] at hbits
    rw [bitsAt_add] at hbits
    obtain ⟨hb1, hb2⟩ := List.append_inj hbits (by simp [bitsAt, oneField])
    have hl : V3.loops f.width = f.width.toInt.toNat := by unfold V3.loops; omega
    have hrun := V3.buffer_readBits_run h s.b.boff f.width
    rw [if_pos (by omega), hl, V3.binary_congr (g := fun i => f.value.toNat.testBit (f.width.toInt.toNat - 1 - i))
      (fun i hi => List.map_inj_left.1 hb1 i (List.mem_range.2 hi)), V3.binary_testBit] at hrun
    have hoff : (s.b.boff + f.width).toInt = s.b.boff.toInt + f.width.toInt := by
      rw [toInt_add]
      have := toInt_lt' s.b.boff
      omega
    have hex : V3.exec f.read s = (.ok (.u64 (UInt64.ofNat (f.value.toNat % 2 ^ f.width.toInt.toNat))),
        { s with b := { s.b with boff := s.b.boff + f.width } }) := by
      simp only [V3.Field.read, V3.exec, V3.wrapVal_run, V3.readBitsNext_run, hrun]; rfl
    have hg := textGet_of hT hf hd lib h h1 hex
    have hby : ({ s with b := { s.b with boff := s.b.boff + f.width } } : St).bytes = s.bytes := rfl
    obtain ⟨o, e1, e2⟩ := ih (s := { s with b := { s.b with boff := s.b.boff + f.width } })
      ⟨h.ok, h.cap, h.bcap⟩ (fun x hx => hw x (List.mem_cons_of_mem _ hx))
      (by show 0 ≤ (s.b.boff + f.width).toInt; omega)
      (by rw [hby]; show (s.b.boff + f.width).toInt + _ ≤ _; omega)
      (by show bitsAt s.bytes (s.b.boff + f.width).toInt.toNat _ = _
          rw [hoff, show (s.b.boff.toInt + f.width.toInt).toNat = s.b.boff.toInt.toNat + f.width.toInt.toNat by omega]
          exact hb2)
    refine ⟨o, ?_, ?_⟩
    · rw [e1]
      show (s.b.boff + f.width).toInt + _ = _
      omega
    · show (textGet T fuel depth lib f.width s).bind _ = _
      rw [hg]
      show (textGetAll T fuel depth _ _).map _ = _
      rw [e2]; rfl

/-- C139: the texts are read as programs, and for these programs, every buffer and every list of bit fields of width 1 or more that fit between the bit
offset and the end, each written with `SetBitsNext` through any of the six buffer types:
all calls succeed; the bits from the bit offset on are those of the fields one after the other, each with its most significant bit first; all other bits
and the length are unchanged, and so is all memory outside the bytes; and of the buffer only the bit offset has moved, by the number of bits written. -/
theorem C139_written : ∃ T : Texts, T.Parsed ∧ ∀ (fuel depth : Nat), 2 ^ 64 < fuel → 4 ≤ depth → ∀ (l : List (Lib × V3.Field)) (s : St), WF s →
    (∀ x ∈ l, 1 ≤ x.2.width.toInt) → 0 ≤ s.b.boff.toInt → s.b.boff.toInt + (fieldBits (l.map (·.2))).length ≤ 8 * s.bytes.length →
    ∃ t o, textSetAll T fuel depth l s = some t ∧ WF t ∧ t.b = { s.b with boff := o } ∧
      o.toInt = s.b.boff.toInt + (fieldBits (l.map (·.2))).length ∧ t.bytes.length = s.bytes.length ∧
      bitsAt t.bytes s.b.boff.toInt.toNat (fieldBits (l.map (·.2))).length = fieldBits (l.map (·.2)) ∧
      (∀ j, j < s.b.boff.toInt.toNat ∨ s.b.boff.toInt.toNat + (fieldBits (l.map (·.2))).length ≤ j → bit t.bytes j = bit s.bytes j) ∧
      V3.Untouched s.mem t.mem s.b.buf.arr s.b.buf.off (s.b.buf.off + s.b.buf.len) := by
  obtain ⟨T, hT⟩ := parsed
  exact ⟨T, hT, fun fuel depth hf hd l s h hw h0 hfit => setAll_ok hT hf hd l h hw h0 hfit⟩

/-- C139: every buffer with the bits of fields at its bit offset gives back, read with `ReadBitsNext` through any of the six buffer types field by field,
the value of every field modulo two to its width; reading moves the bit offset by the number of bits read and changes nothing else. -/
theorem C139_read : ∃ T : Texts, T.Parsed ∧ ∀ (fuel depth : Nat), 2 ^ 64 < fuel → 4 ≤ depth → ∀ (l : List (Lib × V3.Field)) (s : St), WF s →
    (∀ x ∈ l, 1 ≤ x.2.width.toInt) → 0 ≤ s.b.boff.toInt → s.b.boff.toInt + (fieldBits (l.map (·.2))).length ≤ 8 * s.bytes.length →
    bitsAt s.bytes s.b.boff.toInt.toNat (fieldBits (l.map (·.2))).length = fieldBits (l.map (·.2)) →
    ∃ o : Int64, o.toInt = s.b.boff.toInt + (fieldBits (l.map (·.2))).length ∧
      textGetAll T fuel depth (l.map fun x => (x.1, x.2.width)) s =
        some (l.map fun x => UInt64.ofNat (x.2.value.toNat % 2 ^ x.2.width.toInt.toNat), { s with b := { s.b with boff := o } }) := by
  obtain ⟨T, hT⟩ := parsed
  exact ⟨T, hT, fun fuel depth hf hd l s h hw h0 hfit => getAll_ok hT hf hd l h hw h0 hfit⟩

/-- C139: fields written through any of the six types are read back through any of the six after the bit offset is set to where they begin, also if
the bits are divided into other fields: the fields `l` written and the fields `m` read only have to have the same bits. -/
theorem C139_across : ∃ T : Texts, T.Parsed ∧ ∀ (fuel depth : Nat), 2 ^ 64 < fuel → 4 ≤ depth → ∀ (l m : List (Lib × V3.Field)) (s : St), WF s →
    (∀ x ∈ l, 1 ≤ x.2.width.toInt) → (∀ x ∈ m, 1 ≤ x.2.width.toInt) → fieldBits (m.map (·.2)) = fieldBits (l.map (·.2)) →
    0 ≤ s.b.boff.toInt → s.b.boff.toInt + (fieldBits (l.map (·.2))).length ≤ 8 * s.bytes.length →
    ∃ t, textSetAll T fuel depth l s = some t ∧
      textGetAll T fuel depth (m.map fun x => (x.1, x.2.width)) { t with b := { t.b with boff := s.b.boff } } =
        some (m.map fun x => UInt64.ofNat (x.2.value.toNat % 2 ^ x.2.width.toInt.toNat), t) := by
  obtain ⟨T, hT⟩ := parsed
  refine ⟨T, hT, fun fuel depth hf hd l m s h hl hm he h0 hfit => ?_⟩
  obtain ⟨t, o, a1, a2, a3, a4, a5, a6, _, _⟩ := setAll_ok hT hf hd l h hl h0 hfit
  obtain ⟨o', b1, b2⟩ := getAll_ok hT hf hd m (s := { t with b := { t.b with boff := s.b.boff } }) ⟨a2.ok, a2.cap, a2.bcap⟩ hm h0
    (by rw [he]; show _ ≤ 8 * ((t.bytes.length : Nat) : Int); rw [a5]; exact hfit) (by rw [he]; exact a6)
  have ho : o' = o := by
    apply Int64.toInt_inj.mp
    rw [b1, a4, he]
  refine ⟨t, a1, ?_⟩
  rw [b2, ho]
  show some (_, ({ t with b := { t.b with boff := o } } : St)) = _
  rw [show ({ t with b := { t.b with boff := o } } : St) = t by
    cases t; simp only at a3 ⊢; rw [a3]]

example : ∃ T : Texts, T.Parsed ∧ ∃ t, textSetAll T (2 ^ 64 + 1) 4 [(.v1, ⟨5, 3⟩), (.v3mini, ⟨0xFFF, 10⟩)] demo = some t ∧
    textGetAll T (2 ^ 64 + 1) 4 [(.v2, 2), (.v1mini, 11)] { t with b := { t.b with boff := demo.b.boff } } = some ([2, 2047], t) := by
  obtain ⟨T, hT, h⟩ := C139_across
  refine ⟨T, hT, ?_⟩
  exact h _ 4 (by decide) (by decide) _ [(.v2, ⟨2, 2⟩), (.v1mini, ⟨2047, 11⟩)] demo demo_wf
    (by intro f hf
        simp only [List.mem_cons, List.not_mem_nil, or_false] at hf
        rcases hf with rfl | rfl <;> decide)
    (by intro f hf
        simp only [List.mem_cons, List.not_mem_nil, or_false] at hf
        rcases hf with rfl | rfl <;> decide) (by decide) (by decide) (by decide)

end Crunch.Wire
