import Verif.Happens

/-!
# Client code that guards a buffer with a mutex

The v3 `Buffer` and the `MiniBuffer`s have no mutex; a client that shares one between goroutines has to guard it.  Here: client code that locks its
mutex, makes any number of calls on the buffer, each chosen by what the calls before it gave, and unlocks the mutex when it returns or panics.
-/

namespace Crunch

/-- What client code does between `mu.Lock()` and `mu.Unlock()`.  A panic of a call can be recovered from, or passed on. -/
inductive Client (O V A : Type) where
  | ret (a : A)
  | panic (e : Panic)
  | call (op : O) (k : Res V → Client O V A)

/-- All calls it may make are of the kind `P`. -/
def Client.All (P : O → Prop) : Client O V A → Prop
  | .ret _ => True
  | .panic _ => True
  | .call op k => P op ∧ ∀ r, (k r).All P

/-- Its outcome when each call does what `m` says. -/
def Client.run (m : O → V3.St → Res V × V3.St) : Client O V A → V3.St → Res A × V3.St
  | .ret a, s => (.ok a, s)
  | .panic e, s => (.panic e, s)
  | .call op k, s => (k (m op s).1).run m (m op s).2

/-- `p`, and then what `k` does with its outcome. -/
def Prog.attempt (p : Prog α) (k : Res α → Prog β) : Prog β :=
  match p with
  | .ret a => k (.ok a)
  | .panic e => k (.panic e)
  | .getI x f => .getI x fun v => (f v).attempt k
  | .setI x v f => .setI x v (f.attempt k)
  | .getBuf f => .getBuf fun s => (f s).attempt k
  | .setBuf s f => .setBuf s (f.attempt k)
  | .load s i f => .load s i fun v => (f v).attempt k
  | .store s i v f => .store s i v (f.attempt k)
  | .append s x f => .append s x fun t => (f t).attempt k
  | .alloc a n f => .alloc a n fun t => (f t).attempt k
  | .lock f => .lock (f.attempt k)
  | .unlock f => .unlock (f.attempt k)

/-- The steps of client code when the steps of a call are those of `ex`. -/
def Client.prog (ex : O → Prog V) : Client O V A → Prog A
  | .ret a => .ret a
  | .panic e => .panic e
  | .call op k => (ex op).attempt fun r => (k r).prog ex

/-- `mu.Lock(); defer mu.Unlock()`, and then the calls. -/
def Client.guarded (ex : O → Prog V) (cl : Client O V A) : Prog A := Prog.locked (cl.prog ex)

/-- Clients one after another. -/
def oneByOne (m : O → V3.St → Res V × V3.St) : List (Nat × Client O V A) → V3.St → List (Nat × Client O V A × Res A) × V3.St
  | [], s => ([], s)
  | (i, cl) :: l, s => ((i, cl, (cl.run m s).1) :: (oneByOne m l (cl.run m s).2).1, (oneByOne m l (cl.run m s).2).2)

/-- What a client gets from its mutex. -/
structure Guarded (ex : O → Prog V) (m : O → V3.St → Res V × V3.St) (P : O → Prop) (c0 : Conf (Client O V A) A) (τ : Trace (Client O V A) A)
    (c : Conf (Client O V A) A) : Prop where
  /-- the outcomes are those of the clients one by one, in the order in which they got the mutex -/
  outcomes : ∀ i, ∃ pending, ofThread i (oneByOne m (points τ) c0.sh.st).1 = finished i τ ++ pending ∧ pending.length ≤ 1 ∧ (c.thr i = .idle → pending = [])
  /-- every client has its place in this order, in its own goroutine's order, unless it is still waiting -/
  order : ∀ i, ∃ waiting, started i τ = ofThread i (points τ) ++ waiting ∧ waiting.length ≤ 1 ∧ (c.thr i = .idle → waiting = [])
  /-- the buffer is left as the clients one by one leave it, with the mutex free -/
  state : (∀ i, c.thr i = .idle) → c.sh = ⟨(oneByOne m (points τ) c0.sh.st).2, false⟩
  /-- no data race -/
  races : ∀ i j cl cl' l, ¬ DataRace (Client.guarded ex) (Client.All P) c0 τ i j cl cl' l
  /-- nobody waits for ever: what is going on can be finished -/
  done : ∃ τ' c', Exec (Client.guarded ex) (fun _ => False) c τ' c' ∧ ∀ i, c'.thr i = .idle

/-- A single call. -/
def Client.once (op : O) : Client O V V := .call op fun
  | .ok v => .ret v
  | .panic e => .panic e

end Crunch
