import Verif.Lemmas.Parts
import Verif.Lemmas.V2Conc
import Verif.Lemmas.V1Conc
import Verif.Lemmas.BitLoops
import Verif.Lemmas.Src
import Verif.Lemmas.V2Look

/-! `ReadBits` and `SetBits` as sequences of calls for one bit. -/

namespace Crunch

theorem bind_ret (p : Prog α) : p.bind .ret = p := by
  induction p with
  | ret a => rfl
  | panic e => rfl
  | getI f k ih => exact congrArg (Prog.getI f) (funext ih)
  | getBuf k ih => exact congrArg Prog.getBuf (funext ih)
  | load t i k ih => exact congrArg (Prog.load t i) (funext ih)
  | append t x k ih => exact congrArg (Prog.append t x) (funext ih)
  | alloc a n k ih => exact congrArg (Prog.alloc a n) (funext ih)
  | setI f v k ih => exact congrArg (Prog.setI f v) ih
  | setBuf t k ih => exact congrArg (Prog.setBuf t) ih
  | store t i v k ih => exact congrArg (Prog.store t i v) ih
  | lock k ih => exact congrArg Prog.lock ih
  | unlock k ih => exact congrArg Prog.unlock ih

variable {E W V α : Type}

theorem mem_all {g : List W → V} {l : List E} {ws : List W} {e : E} (h : (Script.all g l ws).Uses e) : e ∈ l := by
  induction l generalizing ws with
  | nil => exact nomatch h
  | cons a l ih =>
    unfold Script.all at h
    cases h with
    | here => exact List.mem_cons_self
    | later h => exact List.mem_cons_of_mem _ (ih h)

theorem range_map_succ (el : Int64 → E) (c : Nat) (i : Int64) :
    (List.range (c + 1)).map (fun k => el (i + Int64.ofNat k)) = el i :: (List.range c).map fun k => el (i + 1 + Int64.ofNat k) := by
  rw [List.range_succ_eq_map, List.map_cons, List.map_map]
  congr 1
  · show el (i + 0) = _
    rw [Int64.add_zero]
  · apply List.map_congr_left
    intro k _
    show el (i + Int64.ofNat (k + 1)) = _
    rw [Int64.ofNat_add, Int64.add_assoc, Int64.add_comm (Int64.ofNat k)]
    rfl

theorem doLoop_script {ex : E → Prog W} {body : Int64 → α → Prog α} {el : Int64 → E} {F : List W → α} (wr : α → V)
    (hb : ∀ i ws (k : α → Prog V), (body i (F ws)).bind k = (ex (el i)).bind fun w => k (F (ws ++ [w]))) {n : Int64} (c : Nat) (i : Int64)
    (ws : List W) (h0 : 0 ≤ i.toInt) (hc : (c = 0 ∧ i = 0 ∧ n.toInt ≤ 1) ∨ n.toInt = i.toInt + c + 1) :
    (Prog.doLoop body n i (F ws)).bind (fun a => .ret (wr a)) =
      Prog.script ex (Script.all (fun ws => wr (F ws)) ((List.range (c + 1)).map fun k => el (i + Int64.ofNat k)) ws) := by
  induction c generalizing i ws with
  | zero =>
    rw [Prog.doLoop, range_map_succ, Prog.bind_assoc', hb]
    have hn : ¬ i + 1 < n := by
      rw [Int64.lt_iff_toInt_lt, toInt_add, toInt_one']
      have := toInt_lt' n
      rcases hc with ⟨_, rfl, h⟩ | h
      · change ¬ (0 + 1 + 2 ^ 63) % 2 ^ 64 - 2 ^ 63 < n.toInt
        omega
      · omega
    show _ = (ex (el i)).bind _
    congr 1
    funext w
    rw [if_neg hn]
    rfl
  | succ c ih =>
    have hc : n.toInt = i.toInt + (c + 1 : Nat) + 1 := hc.resolve_left (fun h => nomatch h.1)
    have := toInt_lt' n
    have e : (i + 1).toInt = i.toInt + 1 := by rw [toInt_add, toInt_one']; omega
    rw [Prog.doLoop, range_map_succ, Prog.bind_assoc', hb]
    show _ = (ex (el i)).bind _
    congr 1
    funext w
    rw [if_pos (by rw [Int64.lt_iff_toInt_lt, e]; omega)]
    exact ih (i + 1) _ (by omega) (.inr (by omega))

theorem forLoop_script {ex : E → Prog W} {body : Int64 → α → Prog α} {el : Int64 → E} {F : List W → α} (wr : α → V)
    (hb : ∀ i ws (k : α → Prog V), (body i (F ws)).bind k = (ex (el i)).bind fun w => k (F (ws ++ [w]))) {n : Int64} (c : Nat) (i : Int64)
    (ws : List W) (hc : c = (n.toInt - i.toInt).toNat) :
    (Prog.forLoop body n i (F ws)).bind (fun a => .ret (wr a)) =
      Prog.script ex (Script.all (fun ws => wr (F ws)) ((List.range c).map fun k => el (i + Int64.ofNat k)) ws) := by
  induction c generalizing i ws with
  | zero =>
    rw [Prog.forLoop, if_neg (by rw [Int64.lt_iff_toInt_lt]; omega)]
    rfl
  | succ c ih =>
    have := toInt_lt' n
    have e : (i + 1).toInt = i.toInt + 1 := by have := le_toInt' i; rw [toInt_add, toInt_one']; omega
    rw [Prog.forLoop, if_pos (by rw [Int64.lt_iff_toInt_lt]; omega), range_map_succ, Prog.bind_assoc', hb]
    show _ = (ex (el i)).bind _
    congr 1
    funext w
    exact ih (i + 1) _ (by omega)

/-- A Next call: a look, the calls at the position seen, a move. -/
theorem next_script {ex : E → Prog W} {pos : W → Int64} {wr : Int64 → W} (hp : ∀ x, pos (wr x) = x) {fld : Field} {look mv : E}
    {P : Int64 → Prog α} {f : α → V} {sk : Prog Unit} {u : W} {S : Int64 → Script E W V}
    (hl : ex look = .getI fld fun x => .ret (wr x)) (hm : ex mv = sk.bind fun _ => .ret u)
    (hS : ∀ o, ((P o).bind fun a => .ret (f a)) = Prog.script ex (S o)) :
    ((Prog.field fld).bind fun o => (P o).bind fun a => sk.bind fun _ => .ret a).bind (fun a => .ret (f a)) =
      Prog.script ex (.call look fun v => (S (pos v)).andThen fun out => .call mv fun _ => .done out) := by
  show _ = (ex look).bind _
  rw [hl]
  show Prog.getI fld _ = Prog.getI fld _
  congr 1
  funext o
  show ((P o).bind _).bind _ = Prog.script ex ((S (pos (wr o))).andThen _)
  rw [hp, script_andThen, ← hS, Prog.bind_assoc', Prog.bind_assoc']
  congr 1
  funext a
  show (sk.bind _).bind _ = (ex mv).bind _
  rw [hm, Prog.bind_assoc', Prog.bind_assoc']
  rfl

theorem next_script_unit {ex : E → Prog W} {pos : W → Int64} {wr : Int64 → W} (hp : ∀ x, pos (wr x) = x) {fld : Field} {look mv : E}
    {P : Int64 → Prog Unit} {f : Unit → V} {sk : Prog Unit} {u : W} {S : Int64 → Script E W V}
    (hl : ex look = .getI fld fun x => .ret (wr x)) (hm : ex mv = sk.bind fun _ => .ret u)
    (hS : ∀ o, ((P o).bind fun a => .ret (f a)) = Prog.script ex (S o)) :
    ((Prog.field fld).bind fun o => (P o).bind fun _ => sk).bind (fun a => .ret (f a)) =
      Prog.script ex (.call look fun v => (S (pos v)).andThen fun out => .call mv fun _ => .done out) := by
  rw [← next_script hp hl hm hS]
  have : (fun (a : Unit) => sk.bind fun _ => Prog.ret a) = fun _ => sk := by
    funext a; exact bind_ret sk
  rw [this]

end Crunch
