import Verif.V3.State

/-!
# Method bodies as sequences of atomic steps

The v1 and v2 buffers hold a mutex and are meant to be called from several goroutines, so their methods are
written as programs over single accesses to the shared state: reading or assigning one field of the receiver, loading or
storing one byte, taking or releasing the lock.  One program has two meanings: `Prog.run`, executed alone, and the
interleavings of `Verif/Conc.lean`.

Simplifications: memory is sequentially consistent, and a slice header is read or assigned in one step, as are the effects of
`append`.  The struct has the same five fields as in v3 (`V3.Buf`); the mutex is kept beside it.
-/

namespace Crunch

/-- The integer fields of a buffer (v2/buffer.go:17-21, v1/buffer.go:17-22). -/
inductive Field where
  | off | cap | boff | bcap
deriving DecidableEq, Repr

/-- Read a field. -/
def Field.get : Field → V3.Buf → Int64
  | .off, b => b.off
  | .cap, b => b.cap
  | .boff, b => b.boff
  | .bcap, b => b.bcap

/-- Assign a field. -/
def Field.set : Field → V3.Buf → Int64 → V3.Buf
  | .off, b, v => { b with off := v }
  | .cap, b, v => { b with cap := v }
  | .boff, b, v => { b with boff := v }
  | .bcap, b, v => { b with bcap := v }

/-- Bytes passed to a method: a slice of shared memory, or a composite literal like `[]byte{x}` that nothing else
refers to. -/
inductive Src where
  | mem (s : Slice)
  | lit (bs : List UInt8)

/-- `len(x)` -/
def Src.len : Src → Nat
  | .mem s => s.len
  | .lit bs => bs.length

/-- What one reads in it. -/
def Src.view (h : Heap) : Src → List UInt8
  | .mem s => h.view s
  | .lit bs => bs

/-- A method body: what it does next, and how it goes on. -/
inductive Prog (α : Type) where
  | ret (a : α)
  | panic (p : Panic)
  | getI (f : Field) (k : Int64 → Prog α)
  | setI (f : Field) (v : Int64) (k : Prog α)
  | getBuf (k : Slice → Prog α)
  | setBuf (s : Slice) (k : Prog α)
  /-- load a byte; the index has been checked -/
  | load (s : Slice) (i : Nat) (k : UInt8 → Prog α)
  /-- store a byte; the index has been checked -/
  | store (s : Slice) (i : Nat) (v : UInt8) (k : Prog α)
  /-- `append(s, x...)`; the size has been checked -/
  | append (s : Slice) (x : Src) (k : Slice → Prog α)
  /-- a slice of the first `n` bytes of a new array, with these bytes -/
  | alloc (a : List UInt8) (n : Nat) (k : Slice → Prog α)
  | lock (k : Prog α)
  | unlock (k : Prog α)

namespace Prog

/-- Sequencing. -/
def bind (p : Prog α) (f : α → Prog β) : Prog β :=
  match p with
  | .ret a => f a
  | .panic e => .panic e
  | .getI x k => .getI x fun v => (k v).bind f
  | .setI x v k => .setI x v (k.bind f)
  | .getBuf k => .getBuf fun s => (k s).bind f
  | .setBuf s k => .setBuf s (k.bind f)
  | .load s i k => .load s i fun v => (k v).bind f
  | .store s i v k => .store s i v (k.bind f)
  | .append s x k => .append s x fun t => (k t).bind f
  | .alloc a n k => .alloc a n fun t => (k t).bind f
  | .lock k => .lock (k.bind f)
  | .unlock k => .unlock (k.bind f)

instance : Monad Prog where
  pure := .ret
  bind := bind

/-- The rest of a function after `defer b.Unlock()`: the lock is released when it returns and when it panics. -/
def deferUnlock : Prog α → Prog α
  | .ret a => .unlock (.ret a)
  | .panic e => .unlock (.panic e)
  | .getI x k => .getI x fun v => (k v).deferUnlock
  | .setI x v k => .setI x v k.deferUnlock
  | .getBuf k => .getBuf fun s => (k s).deferUnlock
  | .setBuf s k => .setBuf s k.deferUnlock
  | .load s i k => .load s i fun v => (k v).deferUnlock
  | .store s i v k => .store s i v k.deferUnlock
  | .append s x k => .append s x fun t => (k t).deferUnlock
  | .alloc a n k => .alloc a n fun t => (k t).deferUnlock
  | .lock k => .lock k.deferUnlock
  | .unlock k => .unlock k.deferUnlock

/-- `b.Lock(); defer b.Unlock(); body` -/
def locked (body : Prog α) : Prog α := .lock body.deferUnlock

/-! ## statements -/

/-- `b.f` -/
def field (f : Field) : Prog Int64 := .getI f .ret
/-- `b.f = v` -/
def assign (f : Field) (v : Int64) : Prog Unit := .setI f v (.ret ())
/-- `b.buf` -/
def buf : Prog Slice := .getBuf .ret
/-- `b.buf = s` -/
def assignBuf (s : Slice) : Prog Unit := .setBuf s (.ret ())
/-- `b.Lock()` -/
def Lock : Prog Unit := .lock (.ret ())
/-- `b.Unlock()` -/
def Unlock : Prog Unit := .unlock (.ret ())

/-- `if c { panic(p) }` -/
def panicIf (c : Prop) [Decidable c] (p : Panic) : Prog Unit := if c then .panic p else .ret ()

/-- `s[i]` -/
def loadAt (s : Slice) (i : Int64) : Prog UInt8 :=
  if 0 ≤ i.toInt ∧ i.toInt < s.len then .load s i.toInt.toNat .ret else .panic .index

/-- `s[i] = v` -/
def storeAt (s : Slice) (i : Int64) (v : UInt8) : Prog Unit :=
  if 0 ≤ i.toInt ∧ i.toInt < s.len then .store s i.toInt.toNat v (.ret ()) else .panic .index

/-- `b.buf[i]` -/
def bufLoad (i : Int64) : Prog UInt8 := do
  let s ← buf
  loadAt s i

/-- `b.buf[i] = v` -/
def bufStore (i : Int64) (v : UInt8) : Prog Unit := do
  let s ← buf
  storeAt s i v

/-- `data[i]` for an argument. -/
def srcAt (x : Src) (i : Int64) : Prog UInt8 :=
  match x with
  | .mem s => loadAt s i
  | .lit bs => if 0 ≤ i.toInt ∧ i.toInt < bs.length then .ret (bs.getD i.toInt.toNat 0) else .panic .index

/-- `s[lo:hi]` -/
def reslice (s : Slice) (lo hi : Int64) : Prog Slice :=
  if 0 ≤ lo.toInt ∧ lo.toInt ≤ hi.toInt ∧ hi.toInt ≤ s.cap then
    .ret { arr := s.arr, off := s.off + lo.toInt.toNat, len := hi.toInt.toNat - lo.toInt.toNat, cap := s.cap - lo.toInt.toNat }
  else .panic .sliceBounds

/-- `append(s, x...)` -/
def appendTo (s : Slice) (x : Src) : Prog Slice :=
  if s.len + x.len ≤ s.cap ∨ s.len + x.len ≤ maxAlloc then .append s x .ret else .panic .makeSlice

/-- `make([]byte, n)` for a slice that is only passed on: a literal of zeros. -/
def makeZero (n : Int64) : Prog Src :=
  if n.toInt < 0 ∨ n.toInt > maxAlloc then .panic .makeSlice else .ret (.lit (List.replicate n.toInt.toNat 0))

/-- `x[i]` for a typed slice. -/
def idx (l : List α) (i : Int64) : Prog α :=
  if 0 ≤ i.toInt then
    match l[i.toInt.toNat]? with
    | some v => .ret v
    | none => .panic .index
  else .panic .index

/-- `x[i] = v` for a typed slice. -/
def setIdx (l : List α) (i : Int64) (v : α) : Prog (List α) :=
  if 0 ≤ i.toInt ∧ i.toInt < l.length then .ret (l.set i.toInt.toNat v) else .panic .index

/-- `make([]T, n)` for element size `w` bytes and zero value `z`. -/
def makeTyped (w : Nat) (z : α) (n : Int64) : Prog (List α) :=
  if n.toInt < 0 ∨ n.toInt * w > maxAlloc then .panic .makeSlice else .ret (List.replicate n.toInt.toNat z)

/-- `{ loop: body(i); i++; if i < n { goto loop } }`, as `Crunch.doLoop`. -/
def doLoop (body : Int64 → α → Prog α) (n i : Int64) (a : α) : Prog α :=
  (body i a).bind fun a' => if i + 1 < n then doLoop body n (i + 1) a' else .ret a'
termination_by (if i.toInt = 2 ^ 63 - 1 then 2 ^ 64 + 1 else (n.toInt - i.toInt).toNat)
decreasing_by
  rename_i h
  have e : (i + 1).toInt = (i.toInt + 1 + 2 ^ 63) % 2 ^ 64 - 2 ^ 63 := by
    rw [Int64.toInt_add]; unfold Int.bmod; simp; omega
  rw [Int64.lt_iff_toInt_lt] at h
  have := i.toInt_lt; have := i.le_toInt; have := n.toInt_lt; have := n.le_toInt
  rw [e] at h ⊢
  split <;> split <;> omega

/-- `for i := i0; i < n; i++ { body(i) }`, as `Crunch.forLoop`. -/
def forLoop (body : Int64 → α → Prog α) (n i : Int64) (a : α) : Prog α :=
  if i < n then (body i a).bind fun a' => forLoop body n (i + 1) a' else .ret a
termination_by (n.toInt - i.toInt).toNat
decreasing_by
  rename_i h
  have e : (i + 1).toInt = (i.toInt + 1 + 2 ^ 63) % 2 ^ 64 - 2 ^ 63 := by
    rw [Int64.toInt_add]; unfold Int.bmod; simp; omega
  rw [Int64.lt_iff_toInt_lt] at h
  have := i.toInt_lt; have := i.le_toInt; have := n.toInt_lt; have := n.le_toInt
  rw [e]
  omega

end Prog

/-- The shared state: memory, one buffer, and its mutex. -/
structure Sh where
  st : V3.St
  locked : Bool

/-- `append` on memory, when the size has been checked. -/
def appendMem (s : Slice) (x : Src) (h : Heap) : Slice × Heap :=
  let data := x.view h
  let need := s.len + data.length
  if need ≤ s.cap then ({ s with len := need }, h.blit s.arr (s.off + s.len) data)
  else
    let c := min (need + h.slack s.cap need) maxAlloc
    ({ arr := h.arrays.length, off := 0, len := need, cap := c }, h.alloc (h.view s ++ data ++ List.replicate (c - need) 0))

/-- What a step did, as far as others can tell. -/
inductive Event where
  /-- read something of the shared state -/
  | look
  /-- changed a field of the buffer or memory -/
  | change
  | lock
  | unlock
deriving DecidableEq, Repr

/-- The first step of a program; `none` when it has ended or the lock is taken. -/
def Prog.step : Prog α → Sh → Option (Event × Prog α × Sh)
  | .ret _, _ => none
  | .panic _, _ => none
  | .getI f k, s => some (.look, k (f.get s.st.b), s)
  | .setI f v k, s => some (.change, k, { s with st := { s.st with b := f.set s.st.b v } })
  | .getBuf k, s => some (.look, k s.st.b.buf, s)
  | .setBuf t k, s => some (.change, k, { s with st := { s.st with b := { s.st.b with buf := t } } })
  | .load t i k, s => some (.look, k ((s.st.mem.array t.arr).getD (t.off + i) 0), s)
  | .store t i v k, s => some (.change, k, { s with st := { s.st with mem := s.st.mem.set t.arr (t.off + i) v } })
  | .append t x k, s =>
    some (.change, k (appendMem t x s.st.mem).1, { s with st := { s.st with mem := (appendMem t x s.st.mem).2 } })
  | .alloc a n k, s =>
    some (.change, k ⟨s.st.mem.arrays.length, 0, n, a.length⟩, { s with st := { s.st with mem := s.st.mem.alloc a } })
  | .lock k, s => if s.locked then none else some (.lock, k, { s with locked := true })
  | .unlock k, s => some (.unlock, k, { s with locked := false })

/-- Run a program alone, to its end.  A `Lock` of a mutex that is taken blocks forever. -/
def Prog.run : Prog α → GoM Sh α
  | .ret a, s => (.ok a, s)
  | .panic e, s => (.panic e, s)
  | .getI f k, s => (k (f.get s.st.b)).run s
  | .setI f v k, s => k.run { s with st := { s.st with b := f.set s.st.b v } }
  | .getBuf k, s => (k s.st.b.buf).run s
  | .setBuf t k, s => k.run { s with st := { s.st with b := { s.st.b with buf := t } } }
  | .load t i k, s => (k ((s.st.mem.array t.arr).getD (t.off + i) 0)).run s
  | .store t i v k, s => k.run { s with st := { s.st with mem := s.st.mem.set t.arr (t.off + i) v } }
  | .append t x k, s =>
    (k (appendMem t x s.st.mem).1).run { s with st := { s.st with mem := (appendMem t x s.st.mem).2 } }
  | .alloc a n k, s => (k ⟨s.st.mem.arrays.length, 0, n, a.length⟩).run { s with st := { s.st with mem := s.st.mem.alloc a } }
  | .lock k, s => if s.locked then (.panic .blocked, s) else k.run { s with locked := true }
  | .unlock k, s => k.run { s with locked := false }

end Crunch
