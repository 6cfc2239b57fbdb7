import Verif.Prog

/-!
# Goroutines sharing one buffer

Any number of goroutines call methods of one buffer; their atomic steps interleave arbitrarily.  A goroutine that is not
inside a call may start any call at any time: whatever the goroutines compute or tell each other between calls is covered.

Simplification: the steps are those of `Verif/Prog.lean`, executed one after another on one memory (sequential consistency);
goroutines touch the buffer and its memory only through method calls.
-/

namespace Crunch

/-- A goroutine: between calls, or inside a call with this much of it left. -/
inductive Thr (O V : Type) where
  | idle
  | busy (op : O) (rest : Prog V)

/-- All goroutines (named by numbers) and the shared state. -/
structure Conf (O V : Type) where
  thr : Nat → Thr O V
  sh : Sh

/-- Change one goroutine. -/
def Conf.set (c : Conf O V) (i : Nat) (t : Thr O V) (sh : Sh) : Conf O V :=
  { thr := fun j => if j = i then t else c.thr j, sh }

/-- What a goroutine does in one step. -/
inductive Act (O V : Type) where
  /-- begin a call -/
  | start (op : O)
  /-- one step of the call; `rest` is what is left of it -/
  | did (e : Event) (rest : Prog V)
  /-- the call returns or panics -/
  | finish (op : O) (r : Res V)

/-- The outcome of a call that has nothing left to do. -/
def Prog.result : Prog α → Option (Res α)
  | .ret a => some (.ok a)
  | .panic e => some (.panic e)
  | _ => none

/-- One step of goroutine `i`.  `ex` gives the program of a call, `allowed` the calls that may be made. -/
inductive Step (ex : O → Prog V) (allowed : O → Prop) (c : Conf O V) (i : Nat) : Act O V → Conf O V → Prop
  | start (op : O) : c.thr i = .idle → allowed op → Step ex allowed c i (.start op) (c.set i (.busy op (ex op)) c.sh)
  | did {op : O} {p p' : Prog V} {e : Event} {sh : Sh} : c.thr i = .busy op p → p.step c.sh = some (e, p', sh) →
      Step ex allowed c i (.did e p') (c.set i (.busy op p') sh)
  | finish {op : O} {p : Prog V} {r : Res V} : c.thr i = .busy op p → p.result = some r →
      Step ex allowed c i (.finish op r) (c.set i .idle c.sh)

/-- A trace: which goroutine did what, oldest first. -/
abbrev Trace (O V : Type) := List (Nat × Act O V)

/-- `Exec ex allowed c0 τ c`: a schedule with trace `τ` leads from `c0` to `c`. -/
inductive Exec (ex : O → Prog V) (allowed : O → Prop) (c0 : Conf O V) : Trace O V → Conf O V → Prop
  | nil : Exec ex allowed c0 [] c0
  | snoc {τ : Trace O V} {c c' : Conf O V} {i : Nat} {a : Act O V} : Exec ex allowed c0 τ c → Step ex allowed c i a c' →
      Exec ex allowed c0 (τ ++ [(i, a)]) c'

/-- Nobody is in a call and the mutex is free. -/
structure Quiet (c : Conf O V) : Prop where
  idle : ∀ i, c.thr i = .idle
  free : c.sh.locked = false

/-- Goroutine `i` is inside a locked section after `τ`: of its lock and unlock steps, the last is a lock. -/
def inside (τ : Trace O V) (i : Nat) : Bool :=
  τ.foldl (fun b x =>
    if x.1 = i then
      match x.2 with
      | .did .lock _ => true
      | .did .unlock _ => false
      | _ => b
    else b) false

/-- The rest of a section, executed without interruption: up to the unlock, or the end of the call if it panics inside. -/
def secRun : Prog α → V3.St → V3.St
  | .ret _, s => s
  | .panic _, s => s
  | .getI f k, s => secRun (k (f.get s.b)) s
  | .setI f v k, s => secRun k { s with b := f.set s.b v }
  | .getBuf k, s => secRun (k s.b.buf) s
  | .setBuf t k, s => secRun k { s with b := { s.b with buf := t } }
  | .load t i k, s => secRun (k ((s.mem.array t.arr).getD (t.off + i) 0)) s
  | .store t i v k, s => secRun k { s with mem := s.mem.set t.arr (t.off + i) v }
  | .append t x k, s => secRun (k (appendMem t x s.mem).1) { s with mem := (appendMem t x s.mem).2 }
  | .alloc a n k, s => secRun (k ⟨s.mem.arrays.length, 0, n, a.length⟩) { s with mem := s.mem.alloc a }
  | .lock _, s => s
  | .unlock _, s => s

/-- The sections entered in `τ`, in the order in which the lock was acquired: each as the program left to run just after
acquiring it. -/
def sections : Trace O V → List (Prog V)
  | [] => []
  | (_, .did .lock p) :: τ => p :: sections τ
  | _ :: τ => sections τ

/-- Some call ended, by a panic, while its goroutine was inside a locked section. -/
def EndedInside (τ : Trace O V) : Prop :=
  ∃ τ1 i op r τ2, τ = τ1 ++ (i, .finish op r) :: τ2 ∧ inside τ1 i = true

end Crunch

namespace Crunch

/-! ## linearization points -/

/-- Calls in progress that have not had their linearization point yet, and the calls that have had it, in order. -/
structure Track (O : Type) where
  cur : Nat → Option O
  pts : List (Nat × O)

/-- The linearization point of a call is the moment it acquires the lock; of a call that ends without doing so, the moment
it ends. -/
def Track.step (t : Track O) : Nat × Act O V → Track O
  | (i, .start op) => { t with cur := fun j => if j = i then some op else t.cur j }
  | (i, .did .lock _) =>
    match t.cur i with
    | some op => { cur := fun j => if j = i then none else t.cur j, pts := t.pts ++ [(i, op)] }
    | none => t
  | (_, .did _ _) => t
  | (i, .finish _ _) =>
    match t.cur i with
    | some op => { cur := fun j => if j = i then none else t.cur j, pts := t.pts ++ [(i, op)] }
    | none => t

/-- The bookkeeping after a trace. -/
def track (τ : Trace O V) : Track O := τ.foldl Track.step { cur := fun _ => none, pts := [] }

/-- The calls of a trace in the order of their linearization points, with the goroutine that made them. -/
def points (τ : Trace O V) : List (Nat × O) := (track τ).pts

/-- The calls executed one at a time, in the given order. -/
def seqRun (ex : O → Prog V) : List (Nat × O) → Sh → List (Nat × O × Res V) × Sh
  | [], s => ([], s)
  | (i, op) :: l, s => ((i, op, ((ex op).run s).1) :: (seqRun ex l ((ex op).run s).2).1, (seqRun ex l ((ex op).run s).2).2)

/-- The calls goroutine `i` started, in order. -/
def started (i : Nat) : Trace O V → List O
  | [] => []
  | (j, .start op) :: τ => if j = i then op :: started i τ else started i τ
  | _ :: τ => started i τ

/-- The calls goroutine `i` finished, in order, with their outcomes. -/
def finished (i : Nat) : Trace O V → List (O × Res V)
  | [] => []
  | (j, .finish op r) :: τ => if j = i then (op, r) :: finished i τ else finished i τ
  | _ :: τ => finished i τ

/-- What belongs to goroutine `i`. -/
def ofThread (i : Nat) (l : List (Nat × α)) : List α := (l.filter fun x => x.1 == i).map (·.2)

end Crunch
