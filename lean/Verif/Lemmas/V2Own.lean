import Verif.Lemmas.OwnLin
import Verif.Lemmas.V1Conc

/-! Which offsets the v2 and v1 `Buffer` methods use. -/

namespace Crunch

/-- Only the byte offset. -/
def onlyOff : Field → Bool
  | .off => true
  | _ => false

/-- Only the bit offset. -/
def onlyBoff : Field → Bool
  | .boff => true
  | _ => false

theorem Pre.map {w : Field → Bool} {p : Prog α} (h : Pre w p) (f : α → β) : Pre w (p.bind fun a => .ret (f a)) :=
  h.bind fun _ => by simp only [Tail]

theorem tail_seek (n : Int64) : Tail onlyOff (V2.Buffer.seek n true) := by
  show Tail onlyOff (Prog.lock (Prog.getI .off fun o => Prog.setI .off (o + n) (Prog.unlock (Prog.ret ()))))
  simp only [Tail, TailS, onlyOff, mayGet, Field.isOff]
  simp

theorem tail_seekbit (n : Int64) : Tail onlyBoff (V2.Buffer.seekbit n true) := by
  show Tail onlyBoff (Prog.lock (Prog.getI .boff fun o => Prog.setI .boff (o + n) (Prog.unlock (Prog.ret ()))))
  simp only [Tail, TailS, onlyBoff, mayGet, Field.isOff]
  simp

theorem tail_ret {w : Field → Bool} {p : Prog Unit} (h : Tail w p) (a : α) : Tail w (p.bind fun _ => .ret a) :=
  (tail_bind (fun _ => by simp only [Tail]) p).1 h

theorem Exec.allowed_of_started {ex : O → Prog V} {allowed : O → Prop} {c0 c : Conf O V} {τ : Trace O V} (e : Exec ex allowed c0 τ c)
    {i : Nat} {op : O} (h : op ∈ started i τ) : allowed op := by
  induction e with
  | nil => exact nomatch h
  | snoc e st ih =>
    rw [started_snoc] at h
    rcases List.mem_append.mp h with h | h
    · exact ih h
    · cases st with
      | start o hi ha =>
        unfold started at h
        split at h
        · rcases List.mem_cons.mp h with rfl | h
          · exact ha
          · exact nomatch h
        · exact nomatch h
      | _ => exact nomatch h

/-- A Next call. -/
theorem pre_next {w : Field → Bool} {f : Field} (hf : w f = true) {P : Int64 → Prog α} (hP : ∀ o, Pre w (P o)) {g : α → Prog β} (hg : ∀ a, Tail w (g a)) :
    Pre w ((Prog.field f).bind fun o => (P o).bind g) := ⟨fun _ => hf, fun o => (hP o).bind hg⟩

end Crunch
