import Verif.Unlocked
import Verif.Lemmas.Micro
import Verif.Src.V3Buffer
import Verif.Src.V3Mini
import Verif.Src.V2Mini
import Verif.Src.V1Mini
import Verif.Src.TacticProg

/-! The steps of the calls on buffers without a mutex are of the kinds the tables of `Verif/Unlocked.lean` say. -/

namespace Crunch.Src
open Crunch.Gen (Str)

/-- The kinds of steps that access only these parts, and change only those; copies and new arrays only where `cp` says so. -/
def Action.of (acc chg : Part → Bool) (cp : Bool) : Action → Bool
  | .get f => acc (.field f)
  | .set f => chg (.field f)
  | .getBuf => acc .header
  | .setBuf => chg .header
  | .load => acc .bytes
  | .store => chg .bytes
  | .copy | .append => acc .bytes && chg .bytes && cp
  | .alloc => (chg .header || chg .bytes) && cp

instance : LawfulSem LProg := ⟨fun _ _ => rfl⟩

/-- The functions a call of `f` reaches. -/
def Pkg.from (p : Pkg) (f : Str) (g : Str) : Bool := (p.reach 3 [f]).contains g

/-- Both by computation in the kernel. -/
macro "compute" : tactic => `(tactic| kexact (rfl : true = true))

/-- What the functions after a position compute. -/
def afterOf (fc fo : Field) (l : List Int64) : LProg Int64 := do
  let c ← Sem.field fc
  let o ← (match l with | [] => Sem.field fo | a :: _ => pure a)
  return c - o - 1

theorem afterOf_only {A : Action → Bool} {fc fo : Field} {l : List Int64} (h : A (.get fc) = true) (h' : l = [] → A (.get fo) = true) (v : V) :
    (afterOf fc fo l v).Only A := by
  cases l with
  | nil => exact ⟨h, fun _ => ⟨h' rfl, fun _ => trivial⟩⟩
  | cons a t => exact ⟨h, fun _ => trivial⟩

/-- Their text in the v3 `Buffer`. -/
def afterFun (name : Str) (fc fo : Field) : Fun :=
  ⟨name, [none], some .i64, 1, (.cons (.ifs (.bin .eq (.len (.var 0)) (.lit 0)) (.cons (.ret (.bin .sub (.bin .sub (.field fc) (.field fo)) (.lit 1))) .nil) .nil)
    (.cons (.ret (.bin .sub (.bin .sub (.field fc) (.index (.var 0) (.lit 0))) (.lit 1))) .nil))⟩

/-- Their text in the `MiniBuffer`s. -/
def afterOut (name : Str) (fc fo : Field) : Fun :=
  ⟨name, [none, none], none, 2, (.cons (.ifs (.bin .eq (.len (.var 1)) (.lit 0)) (.cons (.setOut (.bin .sub (.bin .sub (.field fc) (.field fo)) (.lit 1)))
    (.cons .retNone .nil)) .nil) (.cons (.setOut (.bin .sub (.bin .sub (.field fc) (.index (.var 1) (.lit 0))) (.lit 1))) .nil))⟩

theorem after_fun {p : Pkg} {name : Str} {fc fo : Field} (h : p.funs.find? (·.name == name) = some (afterFun name fc fo)) (fuel d : Nat) {l : List Int64}
    (hl : l.length < 2 ^ 63) : p.call fuel (d + 1) name [.li64 l] = (afterOf fc fo l >>= fun x => pure (.i64 x) : LProg V) := by
  rw [call_of h (by rfl)]
  unfold afterFun
  srcp
  rcases l with _ | ⟨o, l⟩
  · rfl
  · rw [if_neg (len_cons_ne hl)]
    rfl

theorem after_out {p : Pkg} {name : Str} {fc fo : Field} (h : p.funs.find? (·.name == name) = some (afterOut name fc fo)) (fuel d : Nat) {l : List Int64}
    (hl : l.length < 2 ^ 63) :
    p.call fuel (d + 1) name [.ptr, .li64 l] = (afterOf fc fo l >>= fun x => Sem.putOut (.i64 x) >>= fun _ => pure .unit : LProg V) := by
  rw [call_of h (by rfl)]
  unfold afterOut
  srcp
  rcases l with _ | ⟨o, l⟩
  · rfl
  · rw [if_neg (len_cons_ne hl)]
    rfl

/-- The public methods of v1 and v2. -/
def afterVia (name inner : Str) : Fun := ⟨name, [none, none], none, 2, (.cons (.expr (.call inner (.cons .outPtr (.cons (.var 1) .nil)))) .nil)⟩

theorem after_via {p : Pkg} {name inner : Str} (h : p.funs.find? (·.name == name) = some (afterVia name inner)) (fuel d : Nat) (l : List Int64) :
    p.call fuel (d + 1) name [.ptr, .li64 l] = (p.call fuel d inner [.ptr, .li64 l] >>= fun _ => pure .unit : LProg V) := by
  rw [call_of h (by rfl)]
  unfold afterVia
  srcp

theorem after_fun_only {p : Pkg} {name : Str} {fc fo : Field} (h : p.funs.find? (·.name == name) = some (afterFun name fc fo)) (fuel depth : Nat) {l : List Int64}
    (hl : l.length < 2 ^ 63) {A : Action → Bool} (hA : A (.get fc) = true) (hA' : l = [] → A (.get fo) = true) :
    (p.micro fuel depth name [.li64 l] none).Only A := by
  cases depth with
  | zero => trivial
  | succ d =>
    refine Prog.Only.bind (p := (p.call fuel (d + 1) name [.li64 l] : LProg V) .unit) ?_ fun _ => trivial
    rw [after_fun h fuel d hl]
    exact (afterOf_only hA hA' _).bind fun _ => trivial

theorem after_out_only {p : Pkg} {name : Str} {fc fo : Field} (h : p.funs.find? (·.name == name) = some (afterOut name fc fo)) (fuel depth : Nat) {l : List Int64}
    (hl : l.length < 2 ^ 63) {A : Action → Bool} (hA : A (.get fc) = true) (hA' : l = [] → A (.get fo) = true) (v : V) :
    ((p.call fuel depth name [.ptr, .li64 l] : LProg V) v).Only A := by
  cases depth with
  | zero => trivial
  | succ d =>
    rw [after_out h fuel d hl]
    exact (afterOf_only hA hA' _).bind fun _ => trivial

theorem after_via_only {p : Pkg} {name inner : Str} {fc fo : Field} (h : p.funs.find? (·.name == name) = some (afterVia name inner))
    (h' : p.funs.find? (·.name == inner) = some (afterOut inner fc fo)) (fuel depth : Nat) {l : List Int64}
    (hl : l.length < 2 ^ 63) {A : Action → Bool} (hA : A (.get fc) = true) (hA' : l = [] → A (.get fo) = true) (v : V) :
    ((p.call fuel depth name [.ptr, .li64 l] : LProg V) v).Only A := by
  cases depth with
  | zero => trivial
  | succ d =>
    rw [after_via h fuel d]
    exact (after_out_only h' fuel d hl hA hA' v).bind fun _ => trivial

namespace V3Buffer

theorem only_most (fuel depth : Nat) (op : V3.Op) (out : Option V) (h : (op matches .afterByte _ | .afterBit _) = false) :
    (P.micro fuel depth (goName op) (goArgs op) out).Only (Action.of (V3.accesses op) (V3.changes op) (V3.copies op)) := by
  have key : P.within (Action.of (V3.accesses op) (V3.changes op) (V3.copies op)) (P.from (goName op)) = true ∧ P.from (goName op) (goName op) = true := by
    clear fuel depth
    cases op
    case write k e pos data => cases k <;> cases e <;> cases pos <;> constructor <;> compute
    case read k e pos n => cases k <;> cases e <;> cases pos <;> constructor <;> compute
    case writeBytes pos _ => cases pos <;> constructor <;> compute
    case writeByte pos _ => cases pos <;> constructor <;> compute
    case readBytes pos _ => cases pos <;> constructor <;> compute
    case readByte pos => cases pos <;> constructor <;> compute
    case readBit pos => cases pos <;> constructor <;> compute
    case readBits pos _ => cases pos <;> constructor <;> compute
    case setBit pos => cases pos <;> constructor <;> compute
    case clearBit pos => cases pos <;> constructor <;> compute
    case flipBit pos => cases pos <;> constructor <;> compute
    case setBits pos _ _ => cases pos <;> constructor <;> compute
    case afterByte => cases h
    case afterBit => cases h
    all_goals (constructor <;> compute)
  exact micro_only key.1 fuel depth key.2 _ _

theorem only (fuel depth : Nat) (op : V3.Op) (h : Fits op) :
    (P.micro fuel depth (goName op) (goArgs op) none).Only (Action.of (V3.accesses op) (V3.changes op) (V3.copies op)) := by
  cases op
  case afterByte l =>
    exact after_fun_only (name := str% "AfterByte") (fc := .cap) (fo := .off) (by rfl) fuel depth h rfl fun e => by subst e; rfl
  case afterBit l =>
    exact after_fun_only (name := str% "AfterBit") (fc := .bcap) (fo := .boff) (by rfl) fuel depth h rfl fun e => by subst e; rfl
  all_goals exact only_most fuel depth _ none rfl

end V3Buffer

namespace V3Mini

theorem only_most (fuel depth : Nat) (op : V3.Op) (out : Option V) (h : (op matches .afterByte _ | .afterBit _) = false) :
    (P.micro fuel depth (goName op) (goArgs op) out).Only (Action.of (V3.accessesMini op) (V3.changes op) (V3.copies op)) := by
  have key : P.within (Action.of (V3.accessesMini op) (V3.changes op) (V3.copies op)) (P.from (goName op)) = true ∧ P.from (goName op) (goName op) = true := by
    clear fuel depth
    cases op
    case write k e pos data => cases k <;> cases e <;> cases pos <;> constructor <;> compute
    case read k e pos n => cases k <;> cases e <;> cases pos <;> constructor <;> compute
    case writeBytes pos _ => cases pos <;> constructor <;> compute
    case writeByte pos _ => cases pos <;> constructor <;> compute
    case readBytes pos _ => cases pos <;> constructor <;> compute
    case readByte pos => cases pos <;> constructor <;> compute
    case readBit pos => cases pos <;> constructor <;> compute
    case readBits pos _ => cases pos <;> constructor <;> compute
    case setBit pos => cases pos <;> constructor <;> compute
    case clearBit pos => cases pos <;> constructor <;> compute
    case flipBit pos => cases pos <;> constructor <;> compute
    case setBits pos _ _ => cases pos <;> constructor <;> compute
    case afterByte => cases h
    case afterBit => cases h
    all_goals (constructor <;> compute)
  exact micro_only key.1 fuel depth key.2 _ _

theorem only (fuel depth : Nat) (o : V3.Outs) (op : V3.Op) (h : Fits op) :
    (P.micro fuel depth (goName op) (goArgs op) (goOut o op)).Only (Action.of (V3.accessesMini op) (V3.changes op) (V3.copies op)) := by
  cases op
  case afterByte l =>
    exact (after_out_only (p := P) (name := str% "AfterByte") (fc := .cap) (fo := .off) (by rfl) fuel depth h rfl (fun e => by subst e; rfl) _).bind fun _ => trivial
  case afterBit l =>
    exact (after_out_only (p := P) (name := str% "AfterBit") (fc := .bcap) (fo := .boff) (by rfl) fuel depth h rfl (fun e => by subst e; rfl) _).bind fun _ => trivial
  all_goals exact only_most fuel depth _ _ rfl

end V3Mini

namespace V2Mini

theorem only_most (fuel depth : Nat) (op : V2.Op2) (out : Option V) (h : (op matches .after _ | .afterBit _) = false) :
    (P.micro fuel depth (Two.goName op) (Two.goArgs op) out).Only (Action.of (V2.accessesMini op) (V2.alters op) (V2.copiesMini op)) := by
  have key : P.within (Action.of (V2.accessesMini op) (V2.alters op) (V2.copiesMini op)) (P.from (Two.goName op)) = true ∧ P.from (Two.goName op) (Two.goName op) = true := by
    clear fuel depth
    cases op
    case write k e pos data => cases k <;> cases e <;> cases pos <;> constructor <;> compute
    case read k e pos n => cases k <;> cases e <;> cases pos <;> constructor <;> compute
    case writeBytes pos _ => cases pos <;> constructor <;> compute
    case writeByte pos _ => cases pos <;> constructor <;> compute
    case readBytes pos _ => cases pos <;> constructor <;> compute
    case readByte pos => cases pos <;> constructor <;> compute
    case readBit pos => cases pos <;> constructor <;> compute
    case readBits pos _ => cases pos <;> constructor <;> compute
    case setBit pos _ => cases pos <;> constructor <;> compute
    case flipBit pos => cases pos <;> constructor <;> compute
    case setBits pos _ _ => cases pos <;> constructor <;> compute
    case after => cases h
    case afterBit => cases h
    all_goals (constructor <;> compute)
  exact micro_only key.1 fuel depth key.2 _ _

theorem only (fuel depth : Nat) (o : V3.Outs) (op : V2.Op2) (h : Two.Fits op) :
    (P.micro fuel depth (Two.goName op) (Two.goArgs op) (Two.goOut o op)).Only (Action.of (V2.accessesMini op) (V2.alters op) (V2.copiesMini op)) := by
  cases op
  case after l =>
    exact (after_via_only (p := P) (name := str% "After") (inner := str% "after") (fc := .cap) (fo := .off) (by rfl) (by rfl) fuel depth h rfl (fun e => by subst e; rfl) _).bind
      fun _ => trivial
  case afterBit l =>
    exact (after_via_only (p := P) (name := str% "AfterBit") (inner := str% "afterbit") (fc := .bcap) (fo := .boff) (by rfl) (by rfl) fuel depth h rfl (fun e => by subst e; rfl) _).bind
      fun _ => trivial
  all_goals exact only_most fuel depth _ _ rfl

end V2Mini

namespace V1Mini

theorem only_most (fuel depth : Nat) (op : V1.Op1) (out : Option V) (h : (op matches .after _ | .afterBit _) = false) :
    (P.micro fuel depth (One.goName op) (One.goArgs op) out).Only (Action.of (V1.accessesMini1 op) (V1.alters1 op) (V1.copiesMini1 op)) := by
  have key : P.within (Action.of (V1.accessesMini1 op) (V1.alters1 op) (V1.copiesMini1 op)) (P.from (One.goName op)) = true ∧ P.from (One.goName op) (One.goName op) = true := by
    clear fuel depth
    cases op
    case writeComplex pos _ _ _ => cases pos <;> constructor <;> compute
    case readComplex pos _ _ _ => cases pos <;> constructor <;> compute
    case writeBytes pos _ => cases pos <;> constructor <;> compute
    case writeByte pos _ => cases pos <;> constructor <;> compute
    case readBytes pos _ => cases pos <;> constructor <;> compute
    case readByte pos => cases pos <;> constructor <;> compute
    case readBit pos => cases pos <;> constructor <;> compute
    case readBits pos _ => cases pos <;> constructor <;> compute
    case setBit pos _ => cases pos <;> constructor <;> compute
    case flipBit pos => cases pos <;> constructor <;> compute
    case setBits pos _ _ => cases pos <;> constructor <;> compute
    case after => cases h
    case afterBit => cases h
    all_goals (constructor <;> compute)
  exact micro_only key.1 fuel depth key.2 _ _

theorem only (fuel depth : Nat) (o : V3.Outs) (any : V1.Any) (op : V1.Op1) (h : One.Fits op) :
    (P.micro fuel depth (One.goName op) (One.goArgs op) (One.goOut o any op)).Only (Action.of (V1.accessesMini1 op) (V1.alters1 op) (V1.copiesMini1 op)) := by
  cases op
  case after l =>
    exact (after_via_only (p := P) (name := str% "After") (inner := str% "after") (fc := .cap) (fo := .off) (by rfl) (by rfl) fuel depth (h _ rfl) rfl (fun e => by subst e; rfl) _).bind
      fun _ => trivial
  case afterBit l =>
    exact (after_via_only (p := P) (name := str% "AfterBit") (inner := str% "afterbit") (fc := .bcap) (fo := .boff) (by rfl) (by rfl) fuel depth (h _ rfl) rfl (fun e => by subst e; rfl) _).bind
      fun _ => trivial
  all_goals exact only_most fuel depth _ _ rfl

end V1Mini

end Crunch.Src
