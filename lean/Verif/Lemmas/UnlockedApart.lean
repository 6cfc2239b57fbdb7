import Verif.UnlockedApart
import Verif.Lemmas.Unlocked
import Verif.Lemmas.Foot

/-! Calls of known kinds without copies and new arrays, of goroutines that use different parts. -/

namespace Crunch
open Src (Action)
open V2 (soloRun)

variable {ex : O → Prog V} {allowed : O → Prop} {c0 c : Conf O V} {τ : Trace O V} {m : O → V3.St → Res V × V3.St} {accs chgs : O → Part → Bool} {cps : O → Bool}

/-- Runs of calls that do what `m` says. -/
theorem seqRun_inTurn {i : Nat} {l : List O} (h : ∀ op ∈ l, ∀ s b, (ex op).run ⟨s, b⟩ = ((m op s).1, ⟨(m op s).2, b⟩)) (s : V3.St) (b : Bool) :
    seqRun ex (l.map fun x => (i, x)) ⟨s, b⟩ = ((inTurn m l s).1.map fun x => (i, x), ⟨(inTurn m l s).2, b⟩) := by
  induction l generalizing s with
  | nil => rfl
  | cons op l ih =>
    simp only [List.map_cons, seqRun, inTurn]
    rw [h op List.mem_cons_self, ih fun o ho => h o (List.mem_cons_of_mem _ ho)]

theorem keeping_of {R W : Loc → Prop} {l : List O} (h : ∀ op ∈ l, ∀ s, (ex op).Uses R W s) (s : Sh) : Keeping ex R W l s := by
  induction l generalizing s with
  | nil => trivial
  | cons op l ih => exact ⟨h op List.mem_cons_self s, ih (fun o ho => h o (List.mem_cons_of_mem _ ho)) _⟩

theorem unnoticed (hex : ∀ op, allowed op → (ex op).Only (Action.of (accs op) (chgs op) (cps op)))
    (hm : ∀ op, allowed op → ∀ s b, (ex op).run ⟨s, b⟩ = ((m op s).1, ⟨(m op s).2, b⟩)) (hca : ∀ op k, chgs op k = true → accs op k = true)
    (q : Quiet c0) (e : Exec ex allowed c0 τ c) (hc : ∀ i, ∀ op ∈ started i τ, cps op = false)
    (ap : ∀ i j, i < j → ∀ op ∈ started i τ, ∀ op' ∈ started j τ, PartsApart accs chgs op op') : Unnoticed m chgs c0 τ c := by
  have s := separate (R := fun i l => ∃ op ∈ started i τ, accs op l.part = true) (W := fun i l => ∃ op ∈ started i τ, chgs op l.part = true) q
    (fun i j hij l ⟨op, ho, hw⟩ => by
      have ap' : ∀ op' ∈ started j τ, ¬ accs op' l.part = true := fun op' ho' hr => by
        rcases Nat.lt_or_gt_of_ne hij with h | h
        · exact (ap i j h op ho op' ho' _).1 ⟨hw, hr⟩
        · exact (ap j i h op' ho' op ho _).2 ⟨hw, hr⟩
      exact ⟨fun ⟨op', ho', hr⟩ => ap' op' ho' hr, fun ⟨op', ho', hr⟩ => ap' op' ho' (hca _ _ hr)⟩) e
    fun i => keeping_of (fun op ho s => by
      have h := hex op (e.allowed_of_started ho)
      rw [hc i op ho] at h
      exact h.uses (fun l h => ⟨op, ho, h⟩) (fun l h => ⟨op, ho, h⟩) s) _
  have solo : ∀ i, soloRun ex i τ c0.sh = ((byItself m i τ c0.sh.st).1.map fun x => (i, x), ⟨(byItself m i τ c0.sh.st).2, c0.sh.locked⟩) := fun i => by
    have := seqRun_inTurn (i := i) (l := (finished i τ).map (·.1)) (ex := ex) (m := m) (fun op ho => by
      obtain ⟨x, hx, rfl⟩ := List.mem_map.mp ho
      exact hm _ ((exec_allowed q e).2 i x hx)) c0.sh.st c0.sh.locked
    rw [List.map_map] at this
    exact this
  refine ⟨fun i => ?_, fun i hi l hl => ?_, fun l hl => s.rest l fun i ⟨op, ho, hw⟩ => nomatch (hl i op ho).symm.trans hw⟩
  · have := s.outcomes i
    rw [solo i] at this
    exact (List.map_inj_right fun a b h => (Prod.mk.inj h).2).mp this
  · have := s.places i hi l fun j hj ⟨op, ho, hw⟩ => nomatch (hl j hj op ho).symm.trans hw
    rw [solo i] at this
    exact this

end Crunch
