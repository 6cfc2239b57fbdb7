import Verif.Src.Micro
import Verif.Lemmas.SemRel
import Verif.Lemmas.Src
import Verif.Lemmas.ProgRun

/-!
# Micro steps, run alone and by kind

`SemRel` for the monad of micro steps: run alone, a call does what it does in one go; and the steps it makes are of the kinds its
syntax shows.
-/

namespace Crunch.Src

open Crunch.Gen (Str)

instance : LawfulMonad LProg := LawfulMonad.mk'
  (id_map := fun m => by
    funext v
    show (m v).bind (fun r => Prog.ret (id r.1, r.2)) = m v
    exact Prog.bind_ret' _)
  (pure_bind := fun _ _ => rfl)
  (bind_assoc := fun m f g => by
    funext v
    exact Prog.bind_assoc' _ _ _)

/-! ## run alone -/

/-- Run alone, the micro steps have the outcome and the effect of `g`. -/
def Same (m : LProg α) (g : GoM (V3.St × V) α) : Prop :=
  ∀ s v l, (m v).run ⟨s, l⟩ = match g (s, v) with
    | (.ok a, t) => (.ok (a, t.2), ⟨t.1, l⟩)
    | (.panic p, t) => (.panic p, ⟨t.1, l⟩)

/-- The same for steps that leave the result variable alone. -/
theorem Same.lift {p : Prog α} {g : GoM V3.St α}
    (h : ∀ s l, p.run ⟨s, l⟩ = ((g s).1, ⟨(g s).2, l⟩)) : Same (LProg.lift p) (V3.Mini.onB g) := by
  intro s v l
  show (p.bind _).run _ = _
  rw [Prog.run_bind, Crunch.bind_run, h]
  unfold V3.Mini.onB
  rcases hg : g s with ⟨r | p, t⟩ <;> rfl

/-- The same for what touches no state. -/
theorem Same.plain {p : Prog α} {g : GoM (V3.St × V) α} (h : (∃ a, p = .ret a ∧ g = pure a) ∨ ∃ e, p = .panic e ∧ g = throwP e) :
    Same (LProg.lift p) g := by
  rcases h with ⟨a, rfl, rfl⟩ | ⟨e, rfl, rfl⟩ <;> intro _ _ _ <;> rfl

theorem same_append {s : Slice} {data : List UInt8} :
    Same (LProg.lift (Prog.appendTo s (.lit data))) (V3.Mini.onB (V3.onMem (appendBytes s data))) :=
  Same.lift fun st l => by
    unfold Prog.appendTo V3.onMem appendBytes
    simp only [Src.len]
    by_cases h : s.len + data.length ≤ s.cap
    · simp [h, Prog.run, appendMem, Src.view]
    · by_cases h2 : s.len + data.length ≤ maxAlloc
      · have : ¬ s.len + data.length > maxAlloc := by omega
        simp only [h, h2, this, or_true, if_true, if_false, Prog.run, appendMem, Src.view]
      · have : s.len + data.length > maxAlloc := by omega
        simp [h, h2, Prog.run, this]

theorem same_copy {s x : Slice} : Same (LProg.lift (copyP s x)) (V3.Mini.onB (V3.onMem (copyBytes s x))) :=
  Same.lift fun st l => by
    have e : st.mem.view { x with len := min x.len s.len } = (st.mem.view x).take s.len := by
      unfold Heap.view
      rw [List.take_take, Nat.min_comm]
    have h : ((st.mem.view x).take s.len).length ≤ s.len := List.length_take_le _ _
    unfold copyP V3.onMem copyBytes
    simp only [Prog.run, appendMem, Src.view, e]
    rw [if_pos (by omega)]
    rfl

theorem semRel_same : SemRel LProg (GoM (V3.St × V)) (fun _ => true) Same where
  pure _ _ _ _ := rfl
  bind {α β m n f g} h hk := by
    intro s v l
    show ((m v).bind _).run _ = _
    rw [Prog.run_bind, Crunch.bind_run, h, Crunch.bind_run]
    rcases n (s, v) with ⟨r | p, t⟩
    · exact hk r t.1 t.2 l
    · rfl
  fail _ _ _ _ := rfl
  field f _ := Same.lift fun _ _ => rfl
  assign f v _ := Same.lift fun _ _ => rfl
  buf _ := Same.lift fun _ _ => rfl
  assignBuf s _ := Same.lift fun _ _ => rfl
  load x i _ := by
    cases x with
    | mem s =>
      refine Same.lift fun st l => ?_
      unfold Prog.srcAt Prog.loadAt V3.onMem loadAt
      dsimp only
      split <;> rfl
    | lit l =>
      refine Same.plain (g := Crunch.idx l i) ?_
      unfold Prog.srcAt Crunch.idx
      dsimp only
      by_cases h0 : 0 ≤ i.toInt
      · by_cases h1 : i.toInt < l.length
        · have : i.toInt.toNat < l.length := by omega
          exact .inl ⟨l.getD i.toInt.toNat 0, by simp [h0, h1], by
            rw [if_pos h0, List.getD_eq_getElem?_getD, List.getElem?_eq_getElem this]; rfl⟩
        · have : l.length ≤ i.toInt.toNat := by omega
          exact .inr ⟨.index, by simp [h1], by rw [if_pos h0, List.getElem?_eq_none this]⟩
      · exact .inr ⟨.index, by simp [h0], by simp [h0]⟩
  store s i v _ := by
    refine Same.lift fun st l => ?_
    unfold Prog.storeAt V3.onMem storeAt
    dsimp only
    split <;> rfl
  idx l i := by
    refine Same.plain (g := Crunch.idx l i) ?_
    unfold Prog.idx Crunch.idx
    by_cases h0 : 0 ≤ i.toInt
    · cases h1 : l[i.toInt.toNat]? with
      | some v => exact .inl ⟨v, by simp [h0], by simp [h0]⟩
      | none => exact .inr ⟨.index, by simp [h0], by simp [h0]⟩
    · exact .inr ⟨.index, by simp [h0], by simp [h0]⟩
  setIdx l i x := by
    refine Same.plain (g := Crunch.setIdx l i x) ?_
    unfold Prog.setIdx Crunch.setIdx
    split
    · exact .inl ⟨_, rfl, rfl⟩
    · exact .inr ⟨_, rfl, rfl⟩
  reslice s lo hi := by
    refine Same.lift fun st l => ?_
    unfold Prog.reslice V3.onMem Crunch.reslice
    dsimp only
    split <;> rfl
  resliceFrom s lo := by
    refine Same.lift fun st l => ?_
    unfold resliceFromP Prog.reslice V3.onMem Crunch.resliceFrom
    rw [Crunch.bind_run]
    unfold Crunch.reslice
    dsimp only
    split <;> rfl
  lit l _ := Same.lift fun st k => rfl
  make n := by
    refine Same.lift fun st l => ?_
    rw [Crunch.bind_run]
    unfold Prog.makeZero panicIf
    split <;> rfl
  makeCap n c _ := by
    refine Same.lift fun st l => ?_
    unfold makeCapP V3.onMem
    rw [Crunch.bind_run]
    unfold makeBytes
    split
    · rfl
    · simp only [Prog.bind, Prog.run, List.length_replicate]
      rfl
  makeTyped w z n := by
    refine Same.plain (g := Crunch.makeTyped w z n) ?_
    unfold Prog.makeTyped Crunch.makeTyped
    split
    · exact .inr ⟨_, rfl, rfl⟩
    · exact .inl ⟨_, rfl, rfl⟩
  append x n _ := by
    intro s v l
    rw [Crunch.bind_run]
    show (((Sem.make n : LProg _) v).bind _).run _ = _
    by_cases h : n.toInt < 0 ∨ n.toInt > maxAlloc
    · have e1 : (Sem.make n : LProg Crunch.Src) v = .panic .makeSlice := by
        show (Prog.makeZero n).bind _ = _
        rw [Prog.makeZero, if_pos h]; rfl
      have e2 : (Sem.make n : GoM (V3.St × V) Crunch.Src) (s, v) = (.panic .makeSlice, (s, v)) := by
        show V3.Mini.onB _ _ = _
        unfold V3.Mini.onB
        rw [Crunch.bind_run, panicIf, if_pos h]; rfl
      rw [e1, e2]
      rfl
    · have e1 : (Sem.make n : LProg Crunch.Src) v = .ret (.lit (List.replicate n.toInt.toNat 0), v) := by
        show (Prog.makeZero n).bind _ = _
        rw [Prog.makeZero, if_neg h]; rfl
      have e2 : (Sem.make n : GoM (V3.St × V) Crunch.Src) (s, v) = (.ok (.lit (List.replicate n.toInt.toNat 0)), (s, v)) := by
        show V3.Mini.onB _ _ = _
        unfold V3.Mini.onB
        rw [Crunch.bind_run, panicIf, if_neg h]; rfl
      rw [e1, e2]
      cases V.slice x with
      | none => rfl
      | some t => exact same_append s v l
  copy s x _ := by
    cases x with
    | mem x => exact same_copy
    | lit l => intro _ _ _; rfl
  lock _ _ _ := rfl
  unlock _ _ _ := rfl
  deferUnlock _ _ _ _ := rfl
  getOut _ _ _ := rfl
  putOut _ _ _ _ := rfl
  withOut v m n h := by
    intro s w l
    show ((m v).bind _).run _ = _
    rw [Prog.run_bind, Crunch.bind_run, h]
    have e : (Sem.withOut v n : GoM (V3.St × V) V) (s, w) = match n (s, v) with
        | (.ok _, s') => (.ok s'.2, (s'.1, w))
        | (.panic p, s') => (.panic p, (s'.1, w)) := rfl
    rw [e]
    rcases n (s, v) with ⟨r | p, t⟩ <;> rfl

/-- Run alone, a call in micro steps has the outcome and the effect of the call in one go. -/
theorem micro_call {p : Pkg} {F : Str → Bool} (hp : p.within (fun _ => true) F = true) (fuel depth : Nat) {name : Str} (hn : F name = true) (args : List V)
    (out : Option V) (s : V3.St) (l : Bool) :
    (p.micro fuel depth name args out).run ⟨s, l⟩ =
      ((p.callMini fuel depth name args out (s, .unit)).1, ⟨(p.callMini fuel depth name args out (s, .unit)).2.1, l⟩) := by
  have key := semRel_same.call hp fuel depth name hn
  cases out with
  | none =>
    show ((_ : Prog _).bind _).run _ = _
    rw [Prog.run_bind, Crunch.bind_run, key args s .unit l]
    rw [show p.callMini fuel depth name args none = p.call fuel depth name args from rfl]
    rcases (p.call fuel depth name args : GoM (V3.St × V) V) (s, .unit) with ⟨r | p, t⟩ <;> rfl
  | some w =>
    have e : p.callMini fuel depth name args (some w) (s, .unit) = match (p.call fuel depth name (.ptr :: args) : GoM (V3.St × V) V) (s, w) with
        | (.ok _, s') => (.ok s'.2, (s'.1, .unit))
        | (.panic p, s') => (.panic p, (s'.1, .unit)) := by
      unfold Pkg.callMini
      show (match (p.call fuel depth name (.ptr :: args) >>= fun _ => pure () : GoM (V3.St × V) Unit) (s, w) with
        | (.ok _, s') => (.ok s'.2, (s'.1, .unit))
        | (.panic p, s') => (.panic p, (s'.1, .unit)) : Res V × V3.St × V) = _
      rw [Crunch.bind_run]
      rcases (p.call fuel depth name (.ptr :: args) : GoM (V3.St × V) V) (s, w) with ⟨r | p, t⟩ <;> rfl
    rw [e]
    show ((_ : Prog _).bind _).run _ = _
    rw [Prog.run_bind, Crunch.bind_run, key _ s w l]
    rcases (p.call fuel depth name (.ptr :: args) : GoM (V3.St × V) V) (s, w) with ⟨r | p, t⟩ <;> rfl

/-! ## by kind -/

theorem _root_.Crunch.Prog.Only.bind {A : Action → Bool} {p : Prog α} {f : α → Prog β} (hp : p.Only A) (hf : ∀ a, (f a).Only A) : (p.bind f).Only A := by
  induction p with
  | ret a => exact hf a
  | panic q => trivial
  | getI x k ih => exact ⟨hp.1, fun v => ih v (hp.2 v)⟩
  | setI x v k ih => exact ⟨hp.1, ih hp.2⟩
  | getBuf k ih => exact ⟨hp.1, fun v => ih v (hp.2 v)⟩
  | setBuf t k ih => exact ⟨hp.1, ih hp.2⟩
  | load t i k ih => exact ⟨hp.1, fun v => ih v (hp.2 v)⟩
  | store t i v k ih => exact ⟨hp.1, ih hp.2⟩
  | append t x k ih => exact ⟨hp.1, fun v => ih v (hp.2 v)⟩
  | alloc a n k ih => exact ⟨hp.1, fun v => ih v (hp.2 v)⟩
  | lock k ih => exact hp.elim
  | unlock k ih => exact hp.elim

theorem _root_.Crunch.Prog.Only.lift {A : Action → Bool} {p : Prog α} (hp : p.Only A) (v : V) : (LProg.lift p v).Only A := hp.bind fun _ => trivial

theorem semRel_only (A : Action → Bool) : SemRel LProg LProg A (fun m _ => ∀ v, (m v).Only A) where
  pure _ _ := trivial
  bind h hk v := (h v).bind fun r => hk r.1 r.2
  fail _ _ := trivial
  field f h := Prog.Only.lift ⟨h, fun _ => trivial⟩
  assign f v h := Prog.Only.lift ⟨h, trivial⟩
  buf h := Prog.Only.lift ⟨h, fun _ => trivial⟩
  assignBuf s h := Prog.Only.lift ⟨h, trivial⟩
  load x i h := Prog.Only.lift (by
    cases x with
    | mem s => unfold Prog.srcAt Prog.loadAt; dsimp only; split <;> first | exact ⟨h, fun _ => trivial⟩ | trivial
    | lit l => unfold Prog.srcAt; dsimp only; split <;> trivial)
  store s i v h := Prog.Only.lift (by unfold Prog.storeAt; split <;> first | exact ⟨h, trivial⟩ | trivial)
  idx l i := Prog.Only.lift (by unfold Prog.idx; split <;> first | trivial | (split <;> trivial))
  setIdx l i x := Prog.Only.lift (by unfold Prog.setIdx; split <;> trivial)
  reslice s lo hi := Prog.Only.lift (by unfold Prog.reslice; split <;> trivial)
  resliceFrom s lo := Prog.Only.lift (by unfold resliceFromP Prog.reslice; split <;> trivial)
  lit l h := Prog.Only.lift ⟨h, fun _ => trivial⟩
  make n := Prog.Only.lift (by unfold Prog.makeZero; split <;> trivial)
  makeCap n c h := Prog.Only.lift (by unfold makeCapP; split <;> first | exact ⟨h, fun _ => trivial⟩ | trivial)
  makeTyped w z n := Prog.Only.lift (by unfold Prog.makeTyped; split <;> trivial)
  append x n h v := by
    show ((LProg.lift (Prog.makeZero n) v).bind _).Only A
    unfold Prog.makeZero
    split
    · trivial
    · show ((ofOpt (V.slice x) >>= fun s => LProg.lift (Prog.appendTo s (.lit _)) : LProg Slice) v).Only A
      cases V.slice x with
      | none => trivial
      | some s =>
        show (LProg.lift (Prog.appendTo s (.lit _)) v).Only A
        refine Prog.Only.lift ?_ v
        unfold Prog.appendTo
        split <;> first | exact ⟨h, fun _ => trivial⟩ | trivial
  copy s x h := by
    cases x with
    | mem x => exact Prog.Only.lift ⟨h, fun _ => trivial⟩
    | lit l => exact fun _ => trivial
  lock _ := trivial
  unlock _ := trivial
  deferUnlock _ _ := trivial
  getOut _ := trivial
  putOut _ _ := trivial
  withOut v _ _ h w := (h v).bind fun _ => trivial

/-- The steps of a call are of the kinds its syntax shows. -/
theorem micro_only {p : Pkg} {A : Action → Bool} {F : Str → Bool} (hp : p.within A F = true) (fuel depth : Nat) {name : Str} (hn : F name = true) (args : List V)
    (out : Option V) : (p.micro fuel depth name args out).Only A := by
  cases out with
  | none => exact ((semRel_only A).call hp fuel depth name hn args _).bind fun _ => trivial
  | some v => exact ((semRel_only A).call hp fuel depth name hn _ _).bind fun _ => trivial

/-- The functions an expression calls. -/
def E.calls : E → List Str
  | .cons e r | .bin _ e r | .index e r | .sliceFrom e r | .makeCap e r | .append e r | .uint _ e r => e.calls ++ r.calls
  | .slice e lo hi => e.calls ++ lo.calls ++ hi.calls
  | .compl e | .conv _ e | .bits _ e | .len e | .cap e | .make e | .makeT _ e | .bytes e | .assert _ e | .own e => e.calls
  | .call f args => f :: args.calls
  | _ => []

/-- The functions a statement calls. -/
def S.calls : S → List Str
  | .cons s r => s.calls ++ r.calls
  | .set _ e | .setField _ e | .setBuf e | .setOut e | .expr e | .ret e => e.calls
  | .setBufAt i e | .setAt _ i e | .setOutAt i e | .setOutAs _ i e | .put _ i _ e | .copy i e => i.calls ++ e.calls
  | .callAddr f _ args => f :: args.calls
  | .ifs c thn els => c.calls ++ thn.calls ++ els.calls
  | .block _ body | .case _ body | .default body => body.calls
  | .switch e cl => e.calls ++ cl.calls
  | .rangeVal _ e body | .rangeIdx _ e body => e.calls ++ body.calls
  | .for init c post body => init.calls ++ c.calls ++ post.calls ++ body.calls
  | _ => []

/-- The functions that calls of `l` reach, in at most `n` steps. -/
def Pkg.reach (p : Pkg) : Nat → List Str → List Str
  | 0, l => l
  | n + 1, l => p.reach n (l ++ ((p.funs.filter fun g => l.contains g.name).flatMap (·.body.calls)).filter fun f => !l.contains f).eraseDups

end Crunch.Src
