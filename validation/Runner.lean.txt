import Verif.Src.V3Buffer
import Verif.Src.V3Mini
import Verif.Src.V2Buffer
import Verif.Src.V2Mini
import Verif.Src.V1Buffer
import Verif.Src.V1Mini
import Verif.Src.Calls
import Verif.Props.SourceV3
import Verif.Props.SourceV2Buffer
import Verif.Props.SourceV1Buffer
import Verif.Props.SourceV1
import Verif.Props.SourceV2

/-! Runner for the tests translated by run.py: the commands of one test, executed by calling functions of the package by name. -/

open Crunch Crunch.Src Crunch.Gen

/-- Expressions of the tests. -/
inductive X where
  | v (x : V)
  | bytes (l : List UInt8)
  | make (n c : Nat)
  | var (x : String)
  | idx (x : X) (i : Nat)
  | sub (x : X) (a b : Nat)
  | field (b f : String)
  | str (s : String)
  | lit (buf : List UInt8) (off cap boff bcap : Int)

/-- What two of them are compared as. -/
inductive N where
  | int (x : Int)
  | list (l : List Int)
  | str (s : String)
  | buffer (buf : List UInt8) (off cap boff bcap : Int)
  | none
  deriving BEq, Repr

inductive C where
  | set (x : String) (e : X)
  | newBuffer (x : String) (args : List X)
  | newMini (x : String) (args : List X)
  | call (x b : String) (m : Str) (args : List X)
  | callMini (b : String) (m : Str) (out : Option String) (args : List X)
  | errText (x e : String)
  | same (a b : X)

inductive Var where
  | val (x : V)
  | str (s : String)
  | buffer (b : V3.Buf)

structure TS where
  mem : Heap := { arrays := [[]], slack := fun _ n => n }
  locked : Bool := false
  vars : List (String × Var) := []

inductive Stop where
  | panic (p : Panic)
  | bad (why : String)

abbrev T := StateT TS (Except Stop)

/-- A package and how its functions are called. -/
structure Engine where
  call : Str → List V → V3.St → Bool → Res V × V3.St × Bool
  callMini : Str → List V → Option V → V3.St → Res V × V3.St
  errs : List (Str × GoError)

def fuel := 1000000

def pkg (texts : List (List Str)) (errs : List (Str × GoError)) : Pkg := ⟨(compileAll texts).getD [], errs⟩

def stEngine (p : Pkg) : Engine where
  call m a s l := let r := p.callBuf fuel 6 m a (s, .unit); (r.1, r.2.1, l)
  callMini m a o s := let r := p.callMini fuel 6 m a o (s, .unit); (r.1, r.2.1)
  errs := p.errs

def progEngine (p : Pkg) : Engine where
  call m a s l := let r := (p.call fuel 6 m a : Prog V).run ⟨s, l⟩; (r.1, r.2.st, r.2.locked)
  callMini _ _ _ s := (.panic .blocked, s)
  errs := p.errs

def buf3 := stEngine (pkg V3Buffer.text V3Buffer.errs)
def mini3 := stEngine (pkg V3Mini.text V3Mini.errs)
def buf2 := progEngine (pkg (V2Utils.text ++ V2Buffer.text) V2Buffer.errs)
def mini2 := stEngine (pkg (V2Utils.text ++ V2Mini.text) V2Mini.errs)
def buf1 := progEngine (pkg (V1Utils.text ++ V1Buffer.text) V1Buffer.errs)
def mini1 := stEngine (pkg (V1Utils.text ++ V1Mini.text) V1Mini.errs)

def zeroBuf : V3.Buf := { buf := ⟨0, 0, 0, 0⟩, off := 0, cap := 0, boff := 0, bcap := 0 }

def bad (s : String) : T α := throw (.bad s)

def getVar (x : String) : T Var := do
  match (← get).vars.lookup x with
  | some v => return v
  | none => bad s!"no variable {x}"

def setVar (x : String) (v : Var) : T Unit := modify fun s => { s with vars := (x, v) :: s.vars }

def alloc (l : List UInt8) (n : Nat) : T Slice := do
  let s ← get
  set { s with mem := s.mem.alloc l }
  return ⟨s.mem.arrays.length, 0, n, l.length⟩

/-- The value of an expression. -/
def evalX : X → T V
  | .v x => return x
  | .bytes l => return .bytes (.mem (← alloc l l.length))
  | .make n c => return .bytes (.mem (← alloc (List.replicate c 0) n))
  | .var x => do
    match ← getVar x with
    | .val v => return v
    | _ => bad "buffer as a value"
  | _ => bad "value"

def normV (v : V) : T N := do
  match v with
  | .num n => return .int n
  | .i16 x => return .int x.toInt
  | .i32 x => return .int x.toInt
  | .i64 x => return .int x.toInt
  | .u8 x => return .int x.toNat
  | .u16 x => return .int x.toNat
  | .u32 x => return .int x.toNat
  | .u64 x => return .int x.toNat
  | .bool b => return .int b.toNat
  | .bytes (.mem s) => return .list (((← get).mem.view s).map fun x => (x.toNat : Int))
  | .bytes (.lit l) => return .list (l.map fun x => (x.toNat : Int))
  | .li16 l => return .list (l.map (·.toInt))
  | .li32 l => return .list (l.map (·.toInt))
  | .li64 l => return .list (l.map (·.toInt))
  | .lu16 l => return .list (l.map fun x => (x.toNat : Int))
  | .lu32 l => return .list (l.map fun x => (x.toNat : Int))
  | .lu64 l => return .list (l.map fun x => (x.toNat : Int))
  | .lf32 l => return .list (l.map fun x => (x.bits.toNat : Int))
  | .lf64 l => return .list (l.map fun x => (x.bits.toNat : Int))
  | _ => return .none

def normX : X → T N
  | .var x => do
    match ← getVar x with
    | .val v => normV v
    | .str s => return .str s
    | .buffer b => return .buffer ((← get).mem.view b.buf) b.off.toInt b.cap.toInt b.boff.toInt b.bcap.toInt
  | .idx x i => do
    match ← normX x with
    | .list l => match l[i]? with
      | some v => return .int v
      | none => throw (.panic .index)
    | _ => bad "index"
  | .sub x a b => do
    match ← normX x with
    | .list l => if b ≤ l.length then return .list ((l.take b).drop a) else throw (.panic .sliceBounds)
    | _ => bad "slice"
  | .field b f => do
    match ← getVar b with
    | .buffer b => match f with
      | "buf" => normV (.bytes (.mem b.buf))
      | "off" => return .int b.off.toInt
      | "cap" => return .int b.cap.toInt
      | "boff" => return .int b.boff.toInt
      | "bcap" => return .int b.bcap.toInt
      | _ => bad "field"
    | _ => bad "field of a value"
  | .str s => return .str s
  | .lit buf off cap boff bcap => return .buffer buf off cap boff bcap
  | x => do normV (← evalX x)

def slicesOf (args : List X) : T (List Slice) :=
  args.mapM fun x => do
    match ← evalX x with
    | .bytes (.mem s) => return s
    | _ => bad "argument of a constructor"

def step (g : Engine) : C → T Unit
  | .set x (.lit buf off cap boff bcap) => do
    let s ← alloc buf buf.length
    setVar x (.buffer { buf := s, off := .ofInt off, cap := .ofInt cap, boff := .ofInt boff, bcap := .ofInt bcap })
  | .set x (.str s) => setVar x (.str s)
  | .set x e => do setVar x (.val (← evalX e))
  | .newBuffer x args => do
    let l ← slicesOf args
    let s ← get
    let (r, st, k) := g.call (str% "NewBuffer") [.slices l] ⟨s.mem, zeroBuf⟩ false
    set { s with mem := st.mem, locked := k }
    match r with
    | .ok _ => setVar x (.buffer st.b)
    | .panic p => throw (.panic p)
  | .newMini x args => do
    let l ← slicesOf args
    let s ← get
    let (r, st, _) := g.call (str% "NewMiniBuffer") [.ptr, .slices l] ⟨s.mem, zeroBuf⟩ false
    set { s with mem := st.mem }
    match r with
    | .ok _ => setVar x (.buffer st.b)
    | .panic p => throw (.panic p)
  | .call x b m args => do
    let a ← args.mapM evalX
    let s ← get
    match ← getVar b with
    | .buffer bf =>
      let (r, st, k) := g.call m a ⟨s.mem, bf⟩ s.locked
      set { s with mem := st.mem, locked := k }
      setVar b (.buffer st.b)
      match r with
      | .ok v => setVar x (.val v)
      | .panic p => throw (.panic p)
    | _ => bad "not a buffer"
  | .callMini b m out args => do
    let a ← args.mapM evalX
    let o ← out.mapM fun x => evalX (.var x)
    let s ← get
    match ← getVar b with
    | .buffer bf =>
      let (r, st) := g.callMini m a o ⟨s.mem, bf⟩
      set { s with mem := st.mem }
      setVar b (.buffer st.b)
      match r with
      | .ok v => match out with
        | some x => setVar x (.val v)
        | none => return
      | .panic p => throw (.panic p)
    | _ => bad "not a buffer"
  | .errText x e => do
    match g.errs.lookup (e.toUTF8.toList) with
    | some e => setVar x (.str (Crunch.V3.errorString e))
    | none => bad "no such error"
  | .same a b => do
    let x ← normX a
    let y ← normX b
    unless x == y do bad s!"{repr x} is not {repr y}"

def check (name : String) (g : Engine) (panics : Option (List Str)) (cs : List C) : IO Unit := do
  let r := (cs.forM (step g)).run {}
  match r, panics with
  | .ok _, none => IO.println s!"pass {name}"
  | .ok _, some _ => IO.println s!"FAIL {name}: no panic"
  | .error (.bad w), _ => IO.println s!"FAIL {name}: {w}"
  | .error (.panic (.err e)), some l =>
    if l.any fun x => match g.errs.lookup x with | some y => y.scope == e.scope && y.msg == e.msg | none => false then IO.println s!"pass {name}"
    else IO.println s!"FAIL {name}: another panic {repr e.msg}"
  | .error (.panic p), _ => IO.println s!"FAIL {name}: panic {repr p}"
