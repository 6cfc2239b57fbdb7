import Verif.Props.Wire
import Verif.Props.SourceV1
import Verif.Props.SourceV1Buffer
import Verif.Props.SourceV2
import Verif.Props.SourceV2Buffer
import Verif.Props.SourceV3

/-!
# What the text of one version writes the text of another one reads (C132)

`Verif/Wire.lean` with the calls run by the interpreter.
-/

namespace Crunch.Wire
open V3 (St WF demo demo_wf)
open Src hiding St
open Gen (Str)

/-- The functions of the files of each buffer type. -/
structure Texts where
  v1 : List Fun
  v1mini : List Fun
  v2 : List Fun
  v2mini : List Fun
  v3 : List Fun
  v3mini : List Fun

/-- They are those of the committed files. -/
structure Texts.Parsed (T : Texts) : Prop where
  v1 : compileAll (V1Utils.text ++ V1Buffer.text) = some T.v1
  v1mini : compileAll (V1Utils.text ++ V1Mini.text) = some T.v1mini
  v2 : compileAll (V2Utils.text ++ V2Buffer.text) = some T.v2
  v2mini : compileAll (V2Utils.text ++ V2Mini.text) = some T.v2mini
  v3 : compileAll V3Buffer.text = some T.v3
  v3mini : compileAll V3Mini.text = some T.v3mini

/-- Result and state of a call that returns, on a buffer without a mutex; there is no result variable outside the call. -/
def endedV (f : GoM (St × V) V) (s : St) : Option (V × St) := (Res.get? (f (s, .unit)).1).map fun a => (a, (f (s, .unit)).2.1)

/-- The same where there is a mutex. -/
def endedP (f : Prog V) (s : St) : Option (V × St) := endedFree (f.run ⟨s, false⟩)

/-- The integers in a value. -/
def ints : (k : V2.UKind) → V → Option (List k.kind.Ty)
  | .u16, .lu16 l => some l
  | .u32, .lu32 l => some l
  | .u64, .lu64 l => some l
  | _, _ => none

/-- The name of a typed Next method. -/
def typedName (what : Str) (k : V2.UKind) (e : Spec.Endian) : Str := what ++ kindName k.kind ++ orderName e ++ str% "Next"

/-- `write` run from the text. -/
def textWrite (T : Texts) (fuel depth : Nat) (lib : Lib) (m : Msg) (s : St) : Option St :=
  Option.map (·.2) (match lib with
  | .v1 => endedP ((⟨T.v1, V1Buffer.errs⟩ : Pkg).call fuel depth (str% "WriteComplexNext")
      [goList m.k.kind m.data, .i64 (V1.sizeOf m.k), .order (some m.e)]) s
  | .v1mini => endedV ((⟨T.v1mini, V1Mini.errs⟩ : Pkg).callMini fuel depth (str% "WriteComplexNext")
      [goList m.k.kind m.data, .i64 (V1.sizeOf m.k), .order (some m.e)] none) s
  | .v2 => endedP ((⟨T.v2, V2Buffer.errs⟩ : Pkg).call fuel depth (typedName (str% "Write") m.k m.e) [goList m.k.kind m.data]) s
  | .v2mini => endedV ((⟨T.v2mini, V2Mini.errs⟩ : Pkg).callMini fuel depth (typedName (str% "Write") m.k m.e) [goList m.k.kind m.data] none) s
  | .v3 => endedV ((⟨T.v3, V3Buffer.errs⟩ : Pkg).callBuf fuel depth (typedName (str% "Write") m.k m.e) [goList m.k.kind m.data]) s
  | .v3mini => endedV ((⟨T.v3mini, V3Mini.errs⟩ : Pkg).callMini fuel depth (typedName (str% "Write") m.k m.e) [goList m.k.kind m.data] none) s)

/-- `read` run from the text. -/
def textRead (T : Texts) (fuel depth : Nat) (lib : Lib) (h : Head) (x : Var h.k) (s : St) : Option (Msg × St) :=
  Option.bind (match lib with
  | .v1 => endedP ((⟨T.v1, V1Buffer.errs⟩ : Pkg).call fuel depth (str% "ReadComplexNext")
      [.i64 (Int64.ofNat h.n), .i64 (V1.sizeOf h.k), .order (some h.e)]) s
  | .v1mini => endedV ((⟨T.v1mini, V1Mini.errs⟩ : Pkg).callMini fuel depth (str% "ReadComplexNext")
      [.i64 (Int64.ofNat h.n), .i64 (V1.sizeOf h.k), .order (some h.e)] (some (goAny x.any))) s
  | .v2 => endedP ((⟨T.v2, V2Buffer.errs⟩ : Pkg).call fuel depth (typedName (str% "Read") h.k h.e) [.i64 (Int64.ofNat h.n)]) s
  | .v2mini => endedV ((⟨T.v2mini, V2Mini.errs⟩ : Pkg).callMini fuel depth (typedName (str% "Read") h.k h.e) [.i64 (Int64.ofNat h.n)]
      (some (goList h.k.kind x.list))) s
  | .v3 => endedV ((⟨T.v3, V3Buffer.errs⟩ : Pkg).callBuf fuel depth (typedName (str% "Read") h.k h.e) [.i64 (Int64.ofNat h.n)]) s
  | .v3mini => endedV ((⟨T.v3mini, V3Mini.errs⟩ : Pkg).callMini fuel depth (typedName (str% "Read") h.k h.e) [.i64 (Int64.ofNat h.n)]
      (some (goList h.k.kind x.list))) s)
    fun r => (ints h.k r.1).map fun l => (⟨h.k, h.e, l⟩, r.2)

/-- `writeAll` run from the text. -/
def textWriteAll (T : Texts) (fuel depth : Nat) : List (Lib × Msg) → St → Option St
  | [], s => some s
  | (lib, m) :: l, s => (textWrite T fuel depth lib m s).bind (textWriteAll T fuel depth l)

/-- `readAll` run from the text. -/
def textReadAll (T : Texts) (fuel depth : Nat) (x : (h : Head) → Var h.k) : List (Lib × Head) → St → Option (List Msg × St)
  | [], s => some ([], s)
  | (lib, h) :: l, s => (textRead T fuel depth lib h (x h) s).bind fun r => (textReadAll T fuel depth x l r.2).map fun t => (r.1 :: t.1, t.2)

/-! ## They are the model's -/

theorem goAny_asAny (k : V2.UKind) (l : List k.kind.Ty) : goAny (V1.asAny k l) = goList k.kind l := by
  cases k <;> simp only [V1.asAny] <;> unfold goAny <;> rfl
theorem ints_goList (k : V2.UKind) (l : List k.kind.Ty) : ints k (goList k.kind l) = some l := by cases k <;> rfl
theorem ints_goAny (k : V2.UKind) (a : V1.Any) : ints k (goAny a) = integers k a := by cases k <;> cases a <;> unfold goAny <;> rfl

theorem endedV_wrap {f : GoM (St × V) V} {s : St} {g : α → V3.Val} {m : GoM St α}
    (h : f (s, .unit) = (goRes (V3.wrapVal g m s).1, ((V3.wrapVal g m s).2, .unit))) :
    endedV f s = (ended (m s)).map fun r => (goVal (g r.1), r.2) := by
  unfold endedV ended
  rw [h]
  unfold V3.wrapVal
  rw [bind_run]
  rcases m s with ⟨r | p, t⟩ <;> rfl

theorem endedV_wrap1 {f : GoM (St × V) V} {s : St} {g : α → V1.Val1} {m : GoM St α}
    (h : f (s, .unit) = (goRes1 (V1.wrapG g m s).1, ((V1.wrapG g m s).2, .unit))) :
    endedV f s = (ended (m s)).map fun r => (goVal1 (g r.1), r.2) := by
  unfold endedV ended
  rw [h]
  unfold V1.wrapG
  rw [bind_run]
  rcases m s with ⟨r | p, t⟩ <;> rfl

theorem endedP_wrap {f : Prog V} {s : St} {g : α → V3.Val} {m : Prog α} (h : f.run ⟨s, false⟩ =
      (goRes ((V2.wrapVal g m).run ⟨s, false⟩).1, ((V2.wrapVal g m).run ⟨s, false⟩).2)) :
    endedP f s = (endedFree (m.run ⟨s, false⟩)).map fun r => (goVal (g r.1), r.2) := by
  unfold endedP
  rw [h, show V2.wrapVal g m = m.map g from rfl, Prog.run_map]
  unfold endedFree
  rcases m.run ⟨s, false⟩ with ⟨r | p, ⟨t, _ | _⟩⟩ <;> rfl

theorem endedP_wrap1 {f : Prog V} {s : St} {g : α → V1.Val1} {m : Prog α} (h : f.run ⟨s, false⟩ =
      (goRes1 ((m.map g).run ⟨s, false⟩).1, ((m.map g).run ⟨s, false⟩).2)) :
    endedP f s = (endedFree (m.run ⟨s, false⟩)).map fun r => (goVal1 (g r.1), r.2) := by
  unfold endedP
  rw [h, Prog.run_map]
  unfold endedFree
  rcases m.run ⟨s, false⟩ with ⟨r | p, ⟨t, _ | _⟩⟩ <;> rfl

theorem textWrite_eq {T : Texts} (hT : T.Parsed) {fuel depth : Nat} (hf : 2 ^ 64 < fuel) (hd : 4 ≤ depth) (lib : Lib) (m : Msg) (s : St) :
    textWrite T fuel depth lib m s = write lib m s := by
  have hd3 : 3 ≤ depth := by omega
  cases lib with
  | v1 =>
    obtain ⟨funs, hc, h⟩ := C87_alone_text
    cases hc.symm.trans hT.v1
    have := endedP_wrap1 (h fuel depth hf hd (.writeComplex none (V1.asAny m.k m.data) (V1.sizeOf m.k) (some m.e)) (by intro _ h; cases h) ⟨s, false⟩)
    simp only [textCall1, One.goName, One.goArgs, V1.toV2, nextName, atPos, goAny_asAny] at this
    exact (congrArg (Option.map (·.2)) this).trans (Option.map_map ..)
  | v1mini =>
    obtain ⟨funs, hc, h⟩ := C85_mini_text
    cases hc.symm.trans hT.v1mini
    have := endedV_wrap1 (h fuel depth hf hd ⟨0, 0, 0, ⟨0, 0, 0, 0⟩, fun _ => []⟩ .other
      (.writeComplex none (V1.asAny m.k m.data) (V1.sizeOf m.k) (some m.e)) (by intro _ h; cases h) _ rfl s .unit)
    simp only [One.goName, One.goArgs, One.goOut, V1.toV2, nextName, atPos, goAny_asAny] at this
    exact (congrArg (Option.map (·.2)) this).trans (Option.map_map ..)
  | v2 =>
    obtain ⟨funs, hc, h⟩ := C86_alone_text
    cases hc.symm.trans hT.v2
    have := endedP_wrap (h fuel depth hf hd (.write m.k m.e none m.data) trivial ⟨s, false⟩)
    exact (congrArg (Option.map (·.2)) this).trans (Option.map_map ..)
  | v2mini =>
    obtain ⟨funs, hc, h⟩ := C84_mini_text
    cases hc.symm.trans hT.v2mini
    have := endedV_wrap (h fuel depth hf hd ⟨0, 0, 0, ⟨0, 0, 0, 0⟩, fun _ => []⟩ (.write m.k m.e none m.data) trivial _ rfl s .unit)
    exact (congrArg (Option.map (·.2)) this).trans (Option.map_map ..)
  | v3 =>
    obtain ⟨funs, hc, h⟩ := C81_buffer_text
    cases hc.symm.trans hT.v3
    have := endedV_wrap (h fuel depth hf hd3 (.write m.k.kind m.e none m.data) trivial s .unit)
    exact (congrArg (Option.map (·.2)) this).trans (Option.map_map ..)
  | v3mini =>
    obtain ⟨funs, hc, h⟩ := C82_mini_text
    cases hc.symm.trans hT.v3mini
    have := endedV_wrap (h fuel depth hf hd3 ⟨0, 0, 0, ⟨0, 0, 0, 0⟩, fun _ => []⟩ (.write m.k.kind m.e none m.data) trivial _ rfl s .unit)
    exact (congrArg (Option.map (·.2)) this).trans (Option.map_map ..)

/-- The contents of the variable given to a typed reader. -/
def outs {k : V2.UKind} (l : List k.kind.Ty) : V3.Outs :=
  ⟨0, 0, 0, ⟨0, 0, 0, 0⟩, fun j => if h : j = k.kind then h ▸ l else []⟩

theorem outs_typed {k : V2.UKind} (l : List k.kind.Ty) : (outs l).typed k.kind = l := dif_pos rfl

theorem ints_map {h : Head} (o : Option (List h.k.kind.Ty × St)) {g : Option (V × St)} (e : g = o.map fun r => (goList h.k.kind r.1, r.2)) :
    (g.bind fun r => (ints h.k r.1).map fun l => ((⟨h.k, h.e, l⟩ : Msg), r.2)) = o.map fun r => (⟨h.k, h.e, r.1⟩, r.2) := by
  subst e
  rcases o with _ | ⟨l, t⟩
  · rfl
  · show (ints h.k (goList h.k.kind l)).map _ = _
    rw [ints_goList]; rfl

theorem ints_any {h : Head} (o : Option (V1.Any × St)) {g : Option (V × St)} (e : g = o.map fun r => (goAny r.1, r.2)) :
    (g.bind fun r => (ints h.k r.1).map fun l => ((⟨h.k, h.e, l⟩ : Msg), r.2)) =
      (o.bind fun r => (integers h.k r.1).map fun l => (l, r.2)).map fun r => (⟨h.k, h.e, r.1⟩, r.2) := by
  subst e
  rcases o with _ | ⟨a, t⟩
  · rfl
  · show (ints h.k (goAny a)).map _ = Option.map _ (Option.map _ (integers h.k a))
    rw [ints_goAny, Option.map_map]; rfl

theorem textRead_eq {T : Texts} (hT : T.Parsed) {fuel depth : Nat} (hf : 2 ^ 64 < fuel) (hd : 4 ≤ depth) (lib : Lib) (h : Head) (x : Var h.k) (s : St) :
    textRead T fuel depth lib h x s = read lib h x s := by
  have hd3 : 3 ≤ depth := by omega
  cases lib with
  | v1 =>
    obtain ⟨funs, hc, hh⟩ := C87_alone_text
    cases hc.symm.trans hT.v1
    exact ints_any _ (endedP_wrap1 (hh fuel depth hf hd (.readComplex none (Int64.ofNat h.n) (V1.sizeOf h.k) (some h.e)) (by intro _ h; cases h) ⟨s, false⟩))
  | v1mini =>
    obtain ⟨funs, hc, hh⟩ := C85_mini_text
    cases hc.symm.trans hT.v1mini
    exact ints_any _ (endedV_wrap1 (hh fuel depth hf hd (outs x.list) x.any
      (.readComplex none (Int64.ofNat h.n) (V1.sizeOf h.k) (some h.e)) (by intro _ h; cases h) _ rfl s .unit))
  | v2 =>
    obtain ⟨funs, hc, hh⟩ := C86_alone_text
    cases hc.symm.trans hT.v2
    exact ints_map _ (endedP_wrap (hh fuel depth hf hd (.read h.k h.e none (Int64.ofNat h.n)) trivial ⟨s, false⟩))
  | v2mini =>
    obtain ⟨funs, hc, hh⟩ := C84_mini_text
    cases hc.symm.trans hT.v2mini
    have := endedV_wrap (hh fuel depth hf hd (outs x.list) (.read h.k h.e none (Int64.ofNat h.n)) trivial _ rfl s .unit)
    simp only [Two.goOut, outs_typed] at this
    exact ints_map _ this
  | v3 =>
    obtain ⟨funs, hc, hh⟩ := C81_buffer_text
    cases hc.symm.trans hT.v3
    exact ints_map _ (endedV_wrap (hh fuel depth hf hd3 (.read h.k.kind h.e none (Int64.ofNat h.n)) trivial s .unit))
  | v3mini =>
    obtain ⟨funs, hc, hh⟩ := C82_mini_text
    cases hc.symm.trans hT.v3mini
    have := endedV_wrap (hh fuel depth hf hd3 (outs x.list) (.read h.k.kind h.e none (Int64.ofNat h.n)) trivial _ rfl s .unit)
    simp only [Src.goOut, outs_typed] at this
    exact ints_map _ this

theorem textWriteAll_eq {T : Texts} (hT : T.Parsed) {fuel depth : Nat} (hf : 2 ^ 64 < fuel) (hd : 4 ≤ depth) (ms : List (Lib × Msg)) (s : St) :
    textWriteAll T fuel depth ms s = writeAll ms s := by
  induction ms generalizing s with
  | nil => rfl
  | cons lm ms ih =>
    simp only [textWriteAll, writeAll, textWrite_eq hT hf hd]
    exact congrArg _ (funext ih)

theorem textReadAll_eq {T : Texts} (hT : T.Parsed) {fuel depth : Nat} (hf : 2 ^ 64 < fuel) (hd : 4 ≤ depth) (x : (h : Head) → Var h.k)
    (hs : List (Lib × Head)) (s : St) : textReadAll T fuel depth x hs s = readAll x hs s := by
  induction hs generalizing s with
  | nil => rfl
  | cons lm hs ih => simp only [textReadAll, readAll, textRead_eq hT hf hd, ih]

/-- There are such functions, and only one choice of them. -/
theorem parsed : ∃ T : Texts, T.Parsed := by
  obtain ⟨a, ha, _⟩ := C87_alone_text
  obtain ⟨b, hb, _⟩ := C85_mini_text
  obtain ⟨c, hc, _⟩ := C86_alone_text
  obtain ⟨d, hd, _⟩ := C84_mini_text
  obtain ⟨e, he, _⟩ := C81_buffer_text
  obtain ⟨f, hf, _⟩ := C82_mini_text
  exact ⟨⟨a, b, c, d, e, f⟩, ⟨ha, hb, hc, hd, he, hf⟩⟩

/-- C132: the texts of all six files parse, and a list of messages written by running them — each message through the type one likes —
leaves the bytes of the messages; whoever has these bytes at whatever place in a buffer of their own reads the messages back by
running the texts, again through the types one likes, divided in whatever way. -/
theorem C132_text :
    ∃ T : Texts, T.Parsed ∧ ∀ (fuel depth : Nat), 2 ^ 64 < fuel → 4 ≤ depth →
    ∀ (s t : St), WF s → WF t → ∀ (ms rs : List (Lib × Msg)), (∀ m ∈ ms, m.2.data ≠ []) → (∀ m ∈ rs, m.2.data ≠ []) →
    0 ≤ s.b.off.toInt → s.b.off.toInt + size (ms.map (·.2)) ≤ s.bytes.length →
    ∃ s1, textWriteAll T fuel depth ms s = some s1 ∧ s1.b.off.toInt = s.b.off.toInt + size (ms.map (·.2)) ∧
      s1.bytes = Spec.patch s.bytes s.b.off.toInt.toNat ((ms.map (·.2)).flatMap Msg.bytes) ∧
    (0 ≤ t.b.off.toInt → t.b.off.toInt + size (ms.map (·.2)) ≤ t.bytes.length →
      (rs.map (·.2)).flatMap Msg.bytes = (ms.map (·.2)).flatMap Msg.bytes →
      Spec.slice t.bytes t.b.off.toInt.toNat (size (ms.map (·.2))) = Spec.slice s1.bytes s.b.off.toInt.toNat (size (ms.map (·.2))) →
      ∀ x : (h : Head) → Var h.k, (∀ h, (x h).list.length = h.n) →
      ∃ o : Int64, o.toInt = t.b.off.toInt + size (ms.map (·.2)) ∧
        textReadAll T fuel depth x (rs.map fun m => (m.1, m.2.head)) t = some (rs.map (·.2), { t with b := { t.b with off := o } })) := by
  obtain ⟨T, hT⟩ := parsed
  refine ⟨T, hT, fun fuel depth hf hd s t h g ms rs hne hne' h0 hfit => ?_⟩
  obtain ⟨s1, e1, e2, e3⟩ := C132_written h ms hne h0 hfit
  refine ⟨s1, (textWriteAll_eq hT hf hd ms s).trans e1, e2, e3, fun g0 gfit same sent x hx => ?_⟩
  rw [textReadAll_eq hT hf hd]
  exact C132_read h g ms rs hne hne' h0 hfit g0 gfit same x hx s1 e1 sent

/-- The two messages of `letter`, written by running the texts of v1 and of the v3 `MiniBuffer`. -/
example : ∃ T : Texts, T.Parsed ∧ ∀ fuel, 2 ^ 64 < fuel →
    (textWriteAll T fuel 4 letter demo).map (fun s => s.bytes) = some (Spec.patch demo.bytes 3 [0, 1, 0, 2, 112, 17, 1, 0]) := by
  obtain ⟨T, hT, h⟩ := C132_text
  refine ⟨T, hT, fun fuel hf => ?_⟩
  obtain ⟨s1, e1, _, e3, _⟩ := h fuel 4 hf (by decide) demo demo demo_wf demo_wf letter letter' letter_ne letter_ne' (by decide) (by decide)
  rw [e1, Option.map_some, e3]; decide

end Crunch.Wire
