import Verif.Lemmas.Look
import Verif.Lemmas.Advance

/-! The v2 `Buffer` methods with one section or one look at an offset. -/

namespace Crunch

theorem Sec.toP {p : Prog α} (h : Sec p) (n1 : Neutral .off p) (n2 : Neutral .boff p) : SecP p := by
  induction p with
  | ret a => exact h.elim
  | panic q => trivial
  | getI x k ih => exact fun v => ih v (h v) (n1 v) (n2 v)
  | setI x v k ih =>
    cases x with
    | off => exact absurd rfl n1.1
    | boff => exact absurd rfl n2.1
    | _ => exact nomatch h.1
  | getBuf k ih => exact fun v => ih v (h v) (n1 v) (n2 v)
  | load t i k ih => exact fun v => ih v (h v) (n1 v) (n2 v)
  | store t i v k ih => exact ih h n1 n2
  | unlock k ih => exact h
  | _ => exact h.elim

theorem Once.toP {p : Prog α} (h : Once p) (n1 : Neutral .off p) (n2 : Neutral .boff p) : OnceP p := by
  induction p with
  | ret a => trivial
  | panic q => trivial
  | getI x k ih => exact ⟨fun hx => Bool.noConfusion (h.1.symm.trans hx), fun _ v => ih v (h.2 v) (n1 v) (n2 v)⟩
  | getBuf k ih => exact fun v => ih v (h v) (n1 v) (n2 v)
  | lock k ih => exact Sec.toP (p := k) h n1 n2
  | _ => exact h.elim

theorem SecP.map {p : Prog α} (h : SecP p) (f : α → β) : SecP (p.bind fun a => .ret (f a)) := by
  induction p with
  | ret a => exact h.elim
  | panic q => trivial
  | getI x k ih => exact fun v => ih v (h v)
  | setI x v k ih =>
    obtain ⟨h1, k', rfl, hk⟩ := h
    refine ⟨h1, _, rfl, ?_⟩
    cases k' with
    | ret a => rfl
    | panic q => rfl
    | _ => exact nomatch hk
  | getBuf k ih => exact fun v => ih v (h v)
  | load t i k ih => exact fun v => ih v (h v)
  | store t i v k ih => exact ih h
  | unlock k ih =>
    cases k with
    | ret a => rfl
    | panic q => rfl
    | _ => exact nomatch h
  | _ => exact h.elim

theorem OnceP.map {p : Prog α} (h : OnceP p) (f : α → β) : OnceP (p.bind fun a => .ret (f a)) := by
  induction p with
  | ret a => trivial
  | panic q => trivial
  | getI x k ih =>
    refine ⟨fun hx v => ?_, fun hx v => ih v (h.2 hx v)⟩
    have hk := h.1 hx v
    show ((k v).bind fun a => Prog.ret (f a)).result.isSome = true
    generalize k v = p at hk
    cases p with
    | ret a => rfl
    | panic q => rfl
    | _ => exact nomatch hk
  | getBuf k ih => exact fun v => ih v (h v)
  | lock k ih => exact SecP.map (p := k) h f
  | _ => exact h.elim

namespace V2
open Spec
open V3 (Val)

/-- One locked section, or looks at fields of which only the last is an offset. -/
def Single : Op2 → Prop
  | .offset => True
  | .bitOffset => True
  | .after _ => True
  | .afterBit _ => True
  | op => Atomic op

theorem exec_onceP (op : Op2) (h : Single op) : OnceP (exec op) := by
  have key : Atomic op → NoSeek op → NoSeekBit op → advOff op = none → advBoff op = none → OnceP (exec op) := fun h1 h2 h3 h4 h5 =>
    (exec_once op h1).toP (exec_neutralOff op h2 h4) (exec_neutralBoff op h3 h5)
  have none_of : ∀ {p : Option Int64}, p.isSome = true → p ≠ none := fun h e => by rw [e] at h; exact nomatch h
  cases op with
  | offset => exact ⟨fun _ _ => rfl, fun hf => nomatch hf⟩
  | bitOffset => exact ⟨fun _ _ => rfl, fun hf => nomatch hf⟩
  | after o =>
    cases o with
    | nil => exact ⟨fun hf => (nomatch hf), fun _ _ => ⟨fun _ _ => rfl, fun hf => (nomatch hf)⟩⟩
    | cons x l => exact ⟨fun hf => (nomatch hf), fun _ _ => trivial⟩
  | afterBit o =>
    cases o with
    | nil => exact ⟨fun hf => (nomatch hf), fun _ _ => ⟨fun _ _ => rfl, fun hf => (nomatch hf)⟩⟩
    | cons x l => exact ⟨fun hf => (nomatch hf), fun _ _ => trivial⟩
  | seek o r =>
    cases r
    · exact ⟨rfl, _, rfl, rfl⟩
    · exact fun _ => ⟨rfl, _, rfl, rfl⟩
  | seekBit o r =>
    cases r
    · exact ⟨rfl, _, rfl, rfl⟩
    · exact fun _ => ⟨rfl, _, rfl, rfl⟩
  | alignByte => exact fun _ => ⟨rfl, _, rfl, rfl⟩
  | alignBit => exact fun _ => ⟨rfl, _, rfl, rfl⟩
  | write k e p d => cases p with | none => exact nomatch h | some o => exact key h trivial trivial rfl rfl
  | read k e p n => cases p with | none => exact nomatch h | some o => exact key h trivial trivial rfl rfl
  | writeBytes p s => cases p with | none => exact nomatch h | some o => exact key h trivial trivial rfl rfl
  | writeByte p v => cases p with | none => exact nomatch h | some o => exact key h trivial trivial rfl rfl
  | readBytes p n => cases p with | none => exact nomatch h | some o => exact key h trivial trivial rfl rfl
  | readBit p => cases p with | none => exact nomatch h | some o => exact key h trivial trivial rfl rfl
  | setBit p v => cases p with | none => exact nomatch h | some o => exact key h trivial trivial rfl rfl
  | flipBit p => cases p with | none => exact nomatch h | some o => exact key h trivial trivial rfl rfl
  | clearAll => exact key h trivial trivial rfl rfl
  | setAll => exact key h trivial trivial rfl rfl
  | flipAll => exact key h trivial trivial rfl rfl
  | bytes => exact key h trivial trivial rfl rfl
  | capacity => exact key h trivial trivial rfl rfl
  | bitCapacity => exact key h trivial trivial rfl rfl
  | _ => exact h.elim

end V2
end Crunch
