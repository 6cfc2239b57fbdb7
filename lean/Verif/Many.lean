import Verif.Conc

/-!
# Goroutines sharing several buffers

Any number of buffers, named by numbers, each with its own fields and its own mutex, and one memory.  Any number of goroutines call
methods of any of them; a goroutine is in one call at a time.  The rest is as in `Verif/Conc.lean`, which is about one buffer.

Simplification: the buffers are of one version and exist from the start; goroutines touch them and their memory only through method calls.
-/

namespace Crunch

/-- The memory, and the fields and the mutex of each buffer. -/
structure Shs where
  mem : Heap
  b : Nat → V3.Buf
  locked : Nat → Bool

/-- What there is to see of it for a method of buffer `k`. -/
def Shs.at (s : Shs) (k : Nat) : Sh := ⟨⟨s.mem, s.b k⟩, s.locked k⟩

/-- What a method of buffer `k` left. -/
def Shs.put (s : Shs) (k : Nat) (t : Sh) : Shs :=
  { mem := t.st.mem, b := fun l => if l = k then t.st.b else s.b l, locked := fun l => if l = k then t.locked else s.locked l }

/-- All goroutines and what they share.  A call is a call on a buffer. -/
structure Confs (O V : Type) where
  thr : Nat → Thr (Nat × O) V
  sh : Shs

/-- Change one goroutine. -/
def Confs.set (c : Confs O V) (i : Nat) (t : Thr (Nat × O) V) (sh : Shs) : Confs O V :=
  { thr := fun j => if j = i then t else c.thr j, sh }

/-- One step of goroutine `i`.  `ex` gives the program of a call, `allowed` the calls that may be made, on which buffer. -/
inductive Steps (ex : O → Prog V) (allowed : Nat → O → Prop) (c : Confs O V) (i : Nat) : Act (Nat × O) V → Confs O V → Prop
  | start (k : Nat) (op : O) : c.thr i = .idle → allowed k op → Steps ex allowed c i (.start (k, op)) (c.set i (.busy (k, op) (ex op)) c.sh)
  | did {k : Nat} {op : O} {p p' : Prog V} {e : Event} {sh : Sh} : c.thr i = .busy (k, op) p → p.step (c.sh.at k) = some (e, p', sh) →
      Steps ex allowed c i (.did e p') (c.set i (.busy (k, op) p') (c.sh.put k sh))
  | finish {k : Nat} {op : O} {p : Prog V} {r : Res V} : c.thr i = .busy (k, op) p → p.result = some r →
      Steps ex allowed c i (.finish (k, op) r) (c.set i .idle c.sh)

/-- A schedule with trace `τ` leads from `c0` to `c`. -/
inductive Execs (ex : O → Prog V) (allowed : Nat → O → Prop) (c0 : Confs O V) : Trace (Nat × O) V → Confs O V → Prop
  | nil : Execs ex allowed c0 [] c0
  | snoc {τ : Trace (Nat × O) V} {c c' : Confs O V} {i : Nat} {a : Act (Nat × O) V} : Execs ex allowed c0 τ c → Steps ex allowed c i a c' →
      Execs ex allowed c0 (τ ++ [(i, a)]) c'

/-! ## what happens to one buffer -/

/-- The goroutines and the state as far as buffer `k` is concerned: a goroutine in a call on another buffer is between its calls. -/
def Confs.at (c : Confs O V) (k : Nat) : Conf O V where
  thr := fun i =>
    match c.thr i with
    | .busy (l, op) p => if l = k then .busy op p else .idle
    | .idle => .idle
  sh := c.sh.at k

/-- The buffer of the call each goroutine is in, and the trace of the calls on the buffer looked at. -/
structure Watch (O V : Type) where
  cur : Nat → Option Nat
  out : Trace O V

/-- Take in one more step, looking at buffer `k`. -/
def Watch.step (k : Nat) (w : Watch O V) : Nat × Act (Nat × O) V → Watch O V
  | (i, .start (l, op)) => { cur := fun j => if j = i then some l else w.cur j, out := if l = k then w.out ++ [(i, .start op)] else w.out }
  | (i, .did e p) => { w with out := if w.cur i = some k then w.out ++ [(i, .did e p)] else w.out }
  | (i, .finish (l, op) r) => { cur := fun j => if j = i then none else w.cur j, out := if l = k then w.out ++ [(i, .finish op r)] else w.out }

/-- The bookkeeping after a trace. -/
def watch (k : Nat) (τ : Trace (Nat × O) V) : Watch O V := τ.foldl (Watch.step k) { cur := fun _ => none, out := [] }

/-- The trace of the calls on buffer `k`. -/
def onBuf (k : Nat) (τ : Trace (Nat × O) V) : Trace O V := (watch k τ).out

/-! ## one call at a time -/

/-- Calls on any of the buffers, executed one at a time, in the given order. -/
def seqRuns (ex : O → Prog V) : List (Nat × (Nat × O)) → Shs → List (Nat × (Nat × O) × Res V) × Shs
  | [], s => ([], s)
  | (i, (k, op)) :: l, s =>
    ((i, (k, op), ((ex op).run (s.at k)).1) :: (seqRuns ex l (s.put k ((ex op).run (s.at k)).2)).1, (seqRuns ex l (s.put k ((ex op).run (s.at k)).2)).2)

/-- Those of the calls that are on buffer `k`. -/
def callsOn (k : Nat) : List (Nat × (Nat × O)) → List (Nat × O)
  | [] => []
  | (i, (l, op)) :: t => if l = k then (i, op) :: callsOn k t else callsOn k t

/-- Those of the calls, with outcomes, that are on buffer `k`. -/
def donesOn (k : Nat) : List ((Nat × O) × Res V) → List (O × Res V)
  | [] => []
  | ((l, op), r) :: t => if l = k then (op, r) :: donesOn k t else donesOn k t

/-! ## memory that is not shared -/

/-- The bytes of the array a slice can reach: its elements and what `s[lo:hi]` can get at. -/
def Slice.reach (c : Slice) (a i : Nat) : Prop := a = c.arr ∧ c.off ≤ i ∧ (i < c.off + c.len ∨ i < c.off + c.cap)

/-- The bytes of its elements. -/
def Slice.holds (c : Slice) (a i : Nat) : Prop := a = c.arr ∧ c.off ≤ i ∧ i < c.off + c.len

end Crunch
