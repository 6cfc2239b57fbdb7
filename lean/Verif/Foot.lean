import Verif.Race

/-!
# The places a call accesses

`Verif/Race.lean` names the places of the shared state.  Here: the places a program accesses when it runs alone, and what two
states have in common.
-/

namespace Crunch

/-- The two states are the same at the place. -/
def Loc.same : Loc → V3.St → V3.St → Prop
  | .field f, s, t => f.get s.b = f.get t.b
  | .header, s, t => s.b.buf = t.b.buf
  | .byte a i, s, t => (s.mem.array a)[i]? = (t.mem.array a)[i]?

/-- Run alone from `s`, the program reads only places in `R`, changes only places in `W`, makes no new array, and releases the mutex
only when it is taken. -/
def Prog.Uses (R W : Loc → Prop) : Prog α → Sh → Prop
  | .ret _, _ => True
  | .panic _, _ => True
  | .getI f k, s => R (.field f) ∧ (k (f.get s.st.b)).Uses R W s
  | .setI f v k, s => W (.field f) ∧ k.Uses R W { s with st := { s.st with b := f.set s.st.b v } }
  | .getBuf k, s => R .header ∧ (k s.st.b.buf).Uses R W s
  | .setBuf t k, s => W .header ∧ k.Uses R W { s with st := { s.st with b := { s.st.b with buf := t } } }
  | .load t i k, s => R (.byte t.arr (t.off + i)) ∧ (k ((s.st.mem.array t.arr).getD (t.off + i) 0)).Uses R W s
  | .store t i v k, s =>
    W (.byte t.arr (t.off + i)) ∧ k.Uses R W { s with st := { s.st with mem := s.st.mem.set t.arr (t.off + i) v } }
  | .append t x k, s =>
    (t.len + x.len ≤ t.cap ∧ (∀ u, x = .mem u → ∀ i, i < u.len → R (.byte u.arr (u.off + i))) ∧ ∀ i, i < x.len → W (.byte t.arr (t.off + t.len + i))) ∧
      (k (appendMem t x s.st.mem).1).Uses R W { s with st := { s.st with mem := (appendMem t x s.st.mem).2 } }
  | .alloc _ _ _, _ => False
  | .lock k, s => s.locked = false → k.Uses R W { s with locked := true }
  | .unlock k, s => s.locked = true ∧ k.Uses R W { s with locked := false }

/-- The calls `l`, made one after the other by nobody else, keep to `R` and `W`. -/
def Keeping (exe : O → Prog V) (R W : Loc → Prop) : List O → Sh → Prop
  | [], _ => True
  | op :: l, s => (exe op).Uses R W s ∧ Keeping exe R W l ((exe op).run s).2

/-- The calls `l`, made one after the other by nobody else, are calls that `ok` accepts and whose footprints, taken from the fields of the
buffer at their starts, are in `R` and `W`. -/
def Stays (exe : O → Prog V) (rd wr : V3.Buf → O → Loc → Prop) (ok : O → Bool) (R W : Loc → Prop) : List O → Sh → Prop
  | [], _ => True
  | op :: l, s => (ok op = true ∧ (∀ x, rd s.st.b op x → R x) ∧ ∀ x, wr s.st.b op x → W x) ∧ Stays exe rd wr ok R W l ((exe op).run s).2

/-- No goroutine changes a place another one accesses. -/
def Separate (R W : Nat → Loc → Prop) : Prop := ∀ i j, i ≠ j → ∀ l, W i l → ¬ R j l ∧ ¬ W j l

/-- What decides which memory is the content, and where the checks of positions say it ends. -/
def Loc.shape : Loc → Prop
  | .header | .field .cap => True
  | _ => False

/-- The trace `τ` leads from `c0` to `c` in the middle of a call of goroutine `i`, and no step of another goroutine changes a place in
`P`. -/
inductive Calm (exe : O → Prog V) (allowed : O → Prop) (i : Nat) (P : Loc → Prop) (c0 : Conf O V) : Trace O V → Conf O V → Prop
  | nil : Calm exe allowed i P c0 [] c0
  | own {τ : Trace O V} {c c' : Conf O V} {e : Event} {p : Prog V} : Calm exe allowed i P c0 τ c → Step exe allowed c i (.did e p) c' →
      Calm exe allowed i P c0 (τ ++ [(i, .did e p)]) c'
  | other {τ : Trace O V} {c c' : Conf O V} {j : Nat} {a : Act O V} : Calm exe allowed i P c0 τ c → j ≠ i → Step exe allowed c j a c' →
      (∀ l, P l → l.same c'.sh.st c.sh.st) → Calm exe allowed i P c0 (τ ++ [(j, a)]) c'

/-- A whole call of goroutine `i` with the trace `τ`, from `c` to `c'`, with the outcome `r`, during which no other goroutine changes a
place in `P`. -/
def CalmCall (exe : O → Prog V) (allowed : O → Prop) (i : Nat) (P : Loc → Prop) (c : Conf O V) (op : O) (τ : Trace O V) (r : Res V)
    (c' : Conf O V) : Prop :=
  ∃ c1 τ1 c2, Step exe allowed c i (.start op) c1 ∧ Calm exe allowed i P c1 τ1 c2 ∧ Step exe allowed c2 i (.finish op r) c' ∧
    τ = (i, .start op) :: τ1 ++ [(i, .finish op r)]

/-- The configuration `m` occurs in such a call, after its start and before its end. -/
def DuringCall (exe : O → Prog V) (allowed : O → Prop) (i : Nat) (P : Loc → Prop) (c : Conf O V) (op : O) (τ : Trace O V) (r : Res V)
    (m : Conf O V) : Prop :=
  ∃ c1 τ1 τ2, Step exe allowed c i (.start op) c1 ∧ Calm exe allowed i P c1 τ1 m ∧ τ = (i, .start op) :: τ1 ++ τ2 ++ [(i, .finish op r)]

end Crunch
