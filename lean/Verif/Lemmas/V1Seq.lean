import Verif.V1.Api
import Verif.Lemmas.V1Complex
import Verif.Lemmas.V2Conc

/-! The v1 `Buffer` methods next to the v2 ones. -/

namespace Crunch

/-- A counting loop that runs at least once is the other kind of loop. -/
theorem Prog.forLoop_eq_doLoop (body : Int64 → α → Prog α) (n i : Int64) (a : α) (h : i < n) :
    Prog.forLoop body n i a = Prog.doLoop body n i a := by
  fun_induction Prog.doLoop body n i a with
  | case1 i a ih =>
    rw [Prog.forLoop.eq_def, if_pos h]
    congr 1
    funext a'
    split
    · rename_i hh
      exact ih a' hh hh
    · rename_i hh
      rw [Prog.forLoop.eq_def, if_neg hh]

theorem Prog.forLoop_stop (body : Int64 → α → Prog α) (n i : Int64) (a : α) (h : ¬ i < n) : Prog.forLoop body n i a = .ret a := by
  rw [Prog.forLoop.eq_def, if_neg h]

theorem Prog.bind_assoc (p : Prog α) (f : α → Prog β) (g : β → Prog γ) : (p.bind f).bind g = p.bind fun a => (f a).bind g := by
  induction p with
  | ret a => rfl
  | panic q => rfl
  | getI x k ih => exact congrArg (Prog.getI x) (funext ih)
  | setI x v k ih => exact congrArg (Prog.setI x v) ih
  | getBuf k ih => exact congrArg Prog.getBuf (funext ih)
  | setBuf t k ih => exact congrArg (Prog.setBuf t) ih
  | load t i k ih => exact congrArg (Prog.load t i) (funext ih)
  | store t i v k ih => exact congrArg (Prog.store t i v) ih
  | append t x k ih => exact congrArg (Prog.append t x) (funext ih)
  | alloc a n k ih => exact congrArg (Prog.alloc a n) (funext ih)
  | lock k ih => exact congrArg Prog.lock ih
  | unlock k ih => exact congrArg Prog.unlock ih

namespace V1
open V3 (Val St WF)

/-- The v2 result as a v1 result. -/
def valOf (p : Prog Val) : Prog Val1 := p.bind fun v => .ret (.val v)

theorem wrap1_eq (f : α → Val) (p : Prog α) : wrap1 f p = valOf (V2.wrapVal f p) := by
  unfold wrap1 valOf V2.wrapVal
  rw [Prog.bind_assoc]; rfl

theorem readbits_eq (off n : Int64) (h : 0 < n) : Buffer.readbits off n = V2.Buffer.readbits off n :=
  Prog.forLoop_eq_doLoop _ _ _ _ h
theorem setbits_eq (off : Int64) (d : UInt64) (n : Int64) (h : 0 < n) : Buffer.setbits off d n = V2.Buffer.setbits off d n :=
  Prog.forLoop_eq_doLoop _ _ _ _ h
theorem readbits_stop (off n : Int64) (h : ¬ 0 < n) : Buffer.readbits off n = .ret 0 := Prog.forLoop_stop _ _ _ _ h
theorem setbits_stop (off : Int64) (d : UInt64) (n : Int64) (h : ¬ 0 < n) : Buffer.setbits off d n = .ret () :=
  Prog.forLoop_stop _ _ _ _ h
theorem readBitsNext_eq (n : Int64) (h : 0 < n) : Buffer.ReadBitsNext n = V2.Buffer.ReadBitsNext n := by
  unfold Buffer.ReadBitsNext V2.Buffer.ReadBitsNext
  simp only [readbits_eq _ n h]
  rfl
theorem setBitsNext_eq (d : UInt64) (n : Int64) (h : 0 < n) : Buffer.SetBitsNext d n = V2.Buffer.SetBitsNext d n := by
  unfold Buffer.SetBitsNext V2.Buffer.SetBitsNext
  simp only [setbits_eq _ d n h]
  rfl

/-- A pass over a buffer that is not empty. -/
theorem all_run (body : Int64 → Unit → Prog Unit) (s : Sh) (h : 0 < Int64.ofNat s.st.b.buf.len) :
    (Prog.locked (Prog.buf.bind fun t => Prog.forLoop body (Int64.ofNat t.len) 0 ())).run s =
      (Prog.locked (Prog.buf.bind fun t => Prog.doLoop body (Int64.ofNat t.len) 0 ())).run s := by
  show (if s.locked then _ else (Prog.forLoop body (Int64.ofNat s.st.b.buf.len) 0 ()).deferUnlock.run _) =
    (if s.locked then _ else (Prog.doLoop body (Int64.ofNat s.st.b.buf.len) 0 ()).deferUnlock.run _)
  rw [Prog.forLoop_eq_doLoop _ _ _ _ h]

theorem all_empty (body : Int64 → Unit → Prog Unit) (s : St) (h : s.b.buf.len = 0) :
    (Prog.locked (Prog.buf.bind fun t => Prog.forLoop body (Int64.ofNat t.len) 0 ())).run ⟨s, false⟩ = (.ok (), ⟨s, false⟩) := by
  show (Prog.forLoop body (Int64.ofNat s.b.buf.len) 0 ()).deferUnlock.run ⟨s, true⟩ = _
  rw [h, Prog.forLoop_stop _ _ _ _ (by decide)]
  rfl

end V1
end Crunch
