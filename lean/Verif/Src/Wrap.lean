import Verif.Src.Calls2
import Verif.Src.Tactic

/-! A call of the model and the value the interpreter gives for it. -/

namespace Crunch.Src
open V3.Mini (onB)

/-- `onB` leaves the result variable as it is. -/
theorem run_wrap (m : GoM V3.St V3.Val) (s : V3.St) (v : V) :
    (onB m >>= fun x => pure (goVal x) : GoM (V3.St × V) V) (s, v) = (goRes (m s).1, ((m s).2, v)) := by
  show (onB m >>= fun x => (pure (goVal x) : GoM (V3.St × V) V)) (s, v) = _
  rw [bind_run]
  unfold onB
  rcases m s with ⟨r | p, s'⟩ <;> rfl

theorem wrap_eq (f : α → V3.Val) (g : α → V) (hg : ∀ x, g x = goVal (f x)) (m : GoM V3.St α) :
    (onB m >>= fun x => pure (g x) : GoM (V3.St × V) V) = onB (V3.wrapVal f m) >>= fun x => pure (goVal x) := by
  funext s
  show (onB m >>= fun x => (pure (g x) : GoM (V3.St × V) V)) s = (onB (V3.wrapVal f m) >>= fun x => (pure (goVal x) : GoM (V3.St × V) V)) s
  rw [bind_run, bind_run]
  unfold onB V3.wrapVal
  rw [bind_run]
  rcases m s.1 with ⟨r | p, s'⟩
  · show (Res.ok (g r), _) = _
    rw [hg]; rfl
  · rfl

theorem wrap_prog (G : ρ → V) (f : α → ρ) (g : α → V) (hg : ∀ x, g x = G (f x)) (m : Prog α) :
    (m >>= fun x => pure (g x) : Prog V) = (m.bind fun a => .ret (f a)).bind fun x => .ret (G x) := by
  rw [Prog.bind_assoc']
  exact congrArg m.bind (funext fun x => congrArg Prog.ret (hg x))

end Crunch.Src
