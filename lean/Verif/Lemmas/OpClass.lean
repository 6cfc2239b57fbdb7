import Verif.Lemmas.V1Conc

/-! A scheme for properties of all v1 and v2 `Buffer` methods: what holds of calls with a single section and of sequences. -/

namespace Crunch

/-- A property of programs that holds of those with a single section, and of sequences. -/
class OpClass (P : (α : Type) → Prog α → Prop) : Prop where
  ret : ∀ {α : Type} (a : α), P α (.ret a)
  bind : ∀ {α β : Type} {p : Prog α} {f : α → Prog β}, P α p → (∀ a, P β (f a)) → P β (p.bind f)
  look : ∀ {α : Type} {p : Prog α}, Looks p → P α p
  once : ∀ {α : Type} {p : Prog α}, Brk false false p → Once p → P α p

/-- `p` has the property. -/
structure Is (P : (α : Type) → Prog α → Prop) {α : Type} (p : Prog α) : Prop where
  out : P α p

namespace Is

variable {P : (α : Type) → Prog α → Prop} [OpClass P] {α β : Type}

theorem ret (a : α) : Is P (.ret a) := ⟨OpClass.ret a⟩
theorem bind {p : Prog α} {f : α → Prog β} (hp : Is P p) (hf : ∀ a, Is P (f a)) : Is P (p.bind f) := ⟨OpClass.bind hp.out fun a => (hf a).out⟩
theorem field (f : Field) : Is P (Prog.field f) := ⟨OpClass.look fun _ => trivial⟩

theorem doLoop {body : Int64 → α → Prog α} (h : ∀ i a, Is P (body i a)) (n i : Int64) (a : α) : Is P (Prog.doLoop body n i a) := by
  fun_induction Prog.doLoop body n i a with
  | case1 i a ih =>
    refine (h i a).bind fun a' => ?_
    split
    · rename_i hh
      exact ih a' hh
    · exact ret _

theorem forLoop {body : Int64 → α → Prog α} (h : ∀ i a, Is P (body i a)) (n i : Int64) (a : α) : Is P (Prog.forLoop body n i a) := by
  fun_induction Prog.forLoop body n i a with
  | case1 i a hi ih => exact (h i a).bind ih
  | case2 i a hi => exact ret _

end Is

theorem Looks.is {P : (α : Type) → Prog α → Prop} [OpClass P] {α : Type} {p : Prog α} (h : Looks p) : Is P p := ⟨OpClass.look h⟩
theorem V2.Good.is {P : (α : Type) → Prog α → Prop} [OpClass P] {α : Type} {p : Prog α} (h : V2.Good p) : Is P p := ⟨OpClass.once h.1 h.2⟩

namespace V2
open Spec
open V3 (Val)

variable {P : (α : Type) → Prog α → Prop} [OpClass P]

theorem Is.map {p : Prog α} (h : Is P p) (f : α → Val) : Is P (wrapVal f p) := h.bind fun _ => Is.ret _
theorem pair_is {α : Type} {p : Prog α} (h : Brk false false p ∧ Once p) : Is P p := ⟨OpClass.once h.1 h.2⟩

theorem seek_is (off : Int64) (r : Bool) : Is P (Buffer.seek off r) := pair_is (seek_good off r)
theorem seekbit_is (off : Int64) (r : Bool) : Is P (Buffer.seekbit off r) := pair_is (seekbit_good off r)
theorem alignbit_is : Is P Buffer.alignbit := pair_is alignbit_good
theorem alignbyte_is : Is P Buffer.alignbyte := pair_is alignbyte_good

theorem readbits_is (off n : Int64) : Is P (Buffer.readbits off n) :=
  Is.doLoop (fun _ _ => ((readbit_good _).is).bind fun _ => Is.ret _) _ _ _
theorem setbits_is (off : Int64) (d : UInt64) (n : Int64) : Is P (Buffer.setbits off d n) :=
  Is.doLoop (fun _ _ => ((setbit_good _ _).is)) _ _ _

theorem writeNext_is (k : UKind) (e : Endian) (data : List k.kind.Ty) : Is P (Buffer.WriteNext k e data) := by
  cases k <;> cases e
  · exact (Is.field _).bind fun o => ((write_good .u16 .le o data).is).bind fun _ => (seek_is _ _)
  · exact (Is.field _).bind fun o => ((write_good .u16 .be o data).is).bind fun _ => (seek_is _ _)
  · exact (Is.field _).bind fun o => ((write_good .u32 .le o data).is).bind fun _ => (seek_is _ _)
  · exact (Is.field _).bind fun o => ((write_good .u32 .be o data).is).bind fun _ => (seek_is _ _)
  · exact (Is.field _).bind fun o => ((write_good .u64 .le o data).is).bind fun _ => (seek_is _ _)
  · exact (Is.field _).bind fun o => ((write_good .u64 .be o data).is).bind fun _ => (seek_is _ _)

theorem readNext_is (k : UKind) (e : Endian) (n : Int64) : Is P (Buffer.ReadNext k e n) := by
  cases k <;> cases e
  · exact (Is.field _).bind fun o => ((read_good .u16 .le o n).is).bind fun _ => (seek_is _ _).bind fun _ => Is.ret _
  · exact (Is.field _).bind fun o => ((read_good .u16 .be o n).is).bind fun _ => (seek_is _ _).bind fun _ => Is.ret _
  · exact (Is.field _).bind fun o => ((read_good .u32 .le o n).is).bind fun _ => (seek_is _ _).bind fun _ => Is.ret _
  · exact (Is.field _).bind fun o => ((read_good .u32 .be o n).is).bind fun _ => (seek_is _ _).bind fun _ => Is.ret _
  · exact (Is.field _).bind fun o => ((read_good .u64 .le o n).is).bind fun _ => (seek_is _ _).bind fun _ => Is.ret _
  · exact (Is.field _).bind fun o => ((read_good .u64 .be o n).is).bind fun _ => (seek_is _ _).bind fun _ => Is.ret _

theorem exec_is (op : Op2) (hg : ∀ n, op = .grow n → Is P (Buffer.grow n))
    (hr : Is P Buffer.refresh) (hz : op = .reset → Is P Buffer.reset) : Is P (exec op) := by
  cases op with
  | write k e p d =>
    cases p with
    | none => exact Is.map (writeNext_is k e d) _
    | some o => exact Is.map ((write_good k e o d).is) _
  | read k e p n =>
    cases p with
    | none => exact Is.map (readNext_is k e n) _
    | some o => exact Is.map ((read_good k e o n).is) _
  | writeBytes p s =>
    cases p with
    | none => exact Is.map ((Is.field _).bind fun _ => ((writeSrc_good _ _).is).bind fun _ => (seek_is _ _)) _
    | some o => exact Is.map ((writeSrc_good o _).is) _
  | writeByte p v =>
    cases p with
    | none => exact Is.map ((Is.field _).bind fun _ => ((writeSrc_good _ _).is).bind fun _ => (seek_is _ _)) _
    | some o => exact Is.map ((writeSrc_good o _).is) _
  | readBytes p n =>
    cases p with
    | none => exact Is.map ((Is.field _).bind fun _ => ((readRaw_good _ _).is).bind fun _ => (seek_is _ _).bind fun _ => Is.ret _) _
    | some o => exact Is.map ((readRaw_good o _).is) _
  | readByte p =>
    cases p with
    | none =>
      exact Is.map ((Is.field _).bind fun _ => ((readRaw_good _ _).is).bind fun _ => (looks_loadAt _ _).is.bind fun _ =>
        (seek_is _ _).bind fun _ => Is.ret _) _
    | some o => exact Is.map (((readRaw_good o _).is).bind fun _ => (looks_loadAt _ _).is) _
  | readBit p =>
    cases p with
    | none => exact Is.map ((Is.field _).bind fun _ => ((readbit_good _).is).bind fun _ => (seekbit_is _ _).bind fun _ => Is.ret _) _
    | some o => exact Is.map ((readbit_good o).is) _
  | readBits p n =>
    cases p with
    | none => exact Is.map ((Is.field _).bind fun _ => (readbits_is _ _).bind fun _ => (seekbit_is _ _).bind fun _ => Is.ret _) _
    | some o => exact Is.map (readbits_is o n) _
  | setBit p v =>
    cases p with
    | none => exact Is.map ((Is.field _).bind fun _ => ((setbit_good _ _).is).bind fun _ => (seekbit_is _ _)) _
    | some o => exact Is.map ((setbit_good o v).is) _
  | flipBit p =>
    cases p with
    | none => exact Is.map ((Is.field _).bind fun _ => ((flipbit_good _).is).bind fun _ => (seekbit_is _ _)) _
    | some o => exact Is.map ((flipbit_good o).is) _
  | setBits p d n =>
    cases p with
    | none => exact Is.map ((Is.field _).bind fun _ => (setbits_is _ _ _).bind fun _ => (seekbit_is _ _)) _
    | some o => exact Is.map (setbits_is o d n) _
  | clearAll => exact Is.map (clear_good.is) _
  | setAll => exact Is.map (setall_good.is) _
  | flipAll => exact Is.map (flipall_good.is) _
  | seek o r => exact Is.map (seek_is o r) _
  | seekBit o r => exact Is.map (seekbit_is o r) _
  | after o => cases o <;> exact Is.map (Looks.is (by first | exact fun _ => trivial | exact fun _ _ => trivial)) _
  | afterBit o => cases o <;> exact Is.map (Looks.is (by first | exact fun _ => trivial | exact fun _ _ => trivial)) _
  | alignByte => exact Is.map (alignbyte_is) _
  | alignBit => exact Is.map (alignbit_is) _
  | grow n => exact Is.map (hg n rfl) _
  | refresh => exact Is.map hr _
  | reset => exact Is.map (hz rfl) _
  | bytes => exact Looks.is (fun _ => trivial)
  | capacity => exact Looks.is (fun _ => trivial)
  | bitCapacity => exact Looks.is (fun _ => trivial)
  | offset => exact Looks.is (fun _ => trivial)
  | bitOffset => exact Looks.is (fun _ => trivial)

end V2

namespace V1
open V3 (Val)

variable {P : (α : Type) → Prog α → Prop} [OpClass P]

theorem readComplex_is (off n size : Int64) (o : ByteOrder) : Is P (Buffer.readComplex off n size o) := by
  obtain ⟨conv, hc, e⟩ := readComplex_split off n size o
  rw [e]
  exact ((V2.readRaw_good off n).is).bind fun s => (hc s).is

theorem wrap_is {p : Prog α} (h : Is P p) (f : α → Val) : Is P (wrap1 f p) := h.bind fun _ => Is.ret _

theorem readbits_is (off n : Int64) : Is P (Buffer.readbits off n) :=
  Is.forLoop (fun _ _ => ((V2.readbit_good _).is).bind fun _ => Is.ret _) _ _ _
theorem setbits_is (off : Int64) (d : UInt64) (n : Int64) : Is P (Buffer.setbits off d n) :=
  Is.forLoop (fun _ _ => ((V2.setbit_good _ _).is)) _ _ _

theorem writeComplexNext_is (d : Any) (size : Int64) (o : ByteOrder) : Is P (Buffer.WriteComplexNext d size o) := by
  refine (Is.field _).bind fun off => ((writeComplex_good off d size o).is).bind fun _ => ?_
  split
  · exact (silent_toBytes d).looks.is.bind fun _ => V2.seek_is _ _
  · split
    · exact (silent_toU16 d).looks.is.bind fun _ => V2.seek_is _ _
    · split
      · exact (silent_toU32 d).looks.is.bind fun _ => V2.seek_is _ _
      · split
        · exact (silent_toU64 d).looks.is.bind fun _ => V2.seek_is _ _
        · exact Is.ret _

theorem exec1_is (op : Op1) (hg : ∀ n, op = .grow n → Is P (V2.Buffer.grow n))
    (hr : Is P V2.Buffer.refresh) : Is P (exec1 op) := by
  cases hs : Shared op with
  | true =>
    cases h : toV2 op with
    | some op2 =>
      rw [exec1_v2 op op2 h hs]
      exact (V2.exec_is op2 (fun n e => hg n (by subst e; cases op <;> cases h <;> rfl)) hr (fun e => by subst e; cases op <;> cases h)).bind fun _ => Is.ret _
    | none => cases op <;> simp [toV2, Shared] at h hs
  | false =>
    cases op with
    | writeComplex p d w e =>
      cases p with
      | some o => exact wrap_is ((writeComplex_good o d w e).is) _
      | none => exact wrap_is (writeComplexNext_is d w e) _
    | readComplex p n w e =>
      cases p with
      | some o => exact (readComplex_is o n w e).bind fun _ => Is.ret _
      | none =>
        exact Is.bind ((Is.field _).bind fun o => (readComplex_is o n w e).bind fun _ => (V2.seek_is _ _).bind fun _ =>
          Is.ret _) fun _ => Is.ret _
    | readBits p n =>
      cases p with
      | some o => exact wrap_is (readbits_is o n) _
      | none => exact wrap_is ((Is.field _).bind fun _ => (readbits_is _ _).bind fun _ => (V2.seekbit_is _ _).bind fun _ => Is.ret _) _
    | setBits p d n =>
      cases p with
      | some o => exact wrap_is (setbits_is o d n) _
      | none => exact wrap_is ((Is.field _).bind fun _ => (setbits_is _ _ _).bind fun _ => V2.seekbit_is _ _) _
    | clearAll => exact wrap_is (clear_good.is) _
    | setAll => exact wrap_is (setall_good.is) _
    | flipAll => exact wrap_is (flipall_good.is) _
    | _ => exact nomatch hs

end V1
end Crunch
