import Verif.Gen.Go.Syntax
import Verif.Gen.Main

/-!
# The generator's source text: what it does

An interpreter for the syntax of `Verif/Gen/Go/Syntax.lean`.  It gives Go's meaning to declarations, scopes, assignments, control
flow, function literals, maps and slices, and takes the meaning of library functions from the models of this directory:
`strings` and `path/filepath` from `Verif/Gen/Main.lean`, `regexp` from `Verif/Gen/Regexp.lean`, the texts that jennifer's items
render to from `Verif/Gen/Jen.lean`.

jennifer's statements and groups are objects: a method of a statement appends to it and returns it, a method of a group appends
a new statement to the group and returns the statement, and an argument is a reference that is followed when the code is
rendered.

A function literal is only ever the argument of a library method, which calls it and does not keep it.  So variables live on a
stack, and a literal runs on top of the stack of the function it is written in.  The literal given to `ReplaceAllFunc` is
run on objects of its own and must not assign variables from outside or use objects from there (`none` if it does).

What the operating system does is a parameter (`World`).  A run-time panic and a text that leaves this part of Go both give `none`;
so does an `int` that leaves its 64 bits.
-/

namespace Crunch.Gen.Go

open Jen (digits)

/-- An `os.FileInfo` from a directory. -/
structure Info where
  name : Str
  isDir : Bool
deriving DecidableEq, Repr

/-- Values. -/
inductive V where
  | unit
  | nil
  | bool (b : Bool)
  | int (n : Int)
  | str (s : Str)
  | bytes (s : Str)
  | strs (l : List Str)
  | strss (l : List (List Str))
  /-- a `map[string]string` that is only read -/
  | smap (m : List (Str × Str))
  /-- a `map[string][]byte`, by reference -/
  | fmap (k : Nat)
  | regex (p : List Atom)
  /-- a `*jen.Statement`, a `*jen.Group`, a `*bytes.Buffer` -/
  | obj (k : Nat)
  | err (s : Str)
  | pair (a b : V)
  /-- a `*string` made by `flag.String` -/
  | flag (k : Nat)
  /-- an `*os.File` -/
  | file (h : Nat)
  | info (i : Info)
  | infos (l : List Info)

/-- An item of a statement: a text, or a group with what is written before, between and after its members. -/
inductive Item where
  | tok (s : Str)
  | group (pre sep post : List Str) (k : Nat)
  /-- a block: every member on its own line -/
  | block (k : Nat)

/-- Objects. -/
inductive Obj where
  | stmt (items : List Item)
  | group (members : List Nat)
  | buffer (s : Str)

/-- A scope. -/
abbrev Scope := List (Str × V)

/-- A file: its path and the offset. -/
structure Handle where
  path : Str
  off : Nat
  /-- opened for writing -/
  writable : Bool
  isOpen : Bool

/-- What the environment decides.  Numbers are the time. -/
structure World where
  /-- the order in which a map with these keys is visited -/
  order : Nat → List Str → List Str
  /-- the flags on the command line -/
  flags : Str → Option Str
  /-- `filepath.Abs`, `none` is an error -/
  abs : Nat → Str → Option Str
  openFails : Nat → Str → Bool
  /-- whether a path is a directory, `none` is an error -/
  stat : Nat → Str → Option Bool
  chdirFails : Nat → Str → Bool
  /-- the entries of a directory, and whether there was an error -/
  readdir : Nat → Str → List Info × Bool
  /-- the number of bytes after which reading fails -/
  readFault : Nat → Str → Option Nat
  createFails : Nat → Str → Bool
  /-- the number of bytes after which writing fails -/
  writeFault : Nat → Str → Option Nat
  /-- the texts of errors -/
  message : Nat → Str

/-- The state of a run. -/
structure S where
  /-- the scopes of the running function, innermost first -/
  env : List Scope
  /-- outer scopes that cannot be assigned -/
  ro : List Scope
  globals : Scope
  /-- jennifer's objects, newest first, and their number -/
  objs : List Obj
  nobj : Nat
  /-- the maps -/
  maps : List (List (Str × Str))
  /-- the flags, names and values -/
  flags : List (Str × Str)
  /-- what was printed, last first -/
  out : List Str
  time : Nat
  cwd : Str
  fs : Fs
  handles : Nat → Handle
  nhandle : Nat
  /-- deferred calls of the running function, last first -/
  defers : List (V × Str)

/-- Computations. -/
def M (α : Type) := S → Option (α × S)

def M.pure (a : α) : M α := fun s => some (a, s)
def M.bind (m : M α) (f : α → M β) : M β := fun s =>
  match m s with
  | none => none
  | some (a, s) => f a s

instance : Monad M where
  pure := M.pure
  bind := M.bind

/-- Outside of the part of Go that is interpreted, or a panic. -/
def fail : M α := fun _ => none
/-- A value, if there is one. -/
def ofOpt : Option α → M α
  | none => fail
  | some a => pure a
def get : M S := fun s => some (s, s)
def set (s : S) : M Unit := fun _ => some ((), s)
def modify (f : S → S) : M Unit := fun s => some ((), f s)

/-! ## variables -/

/-- The value of a name. -/
def find (x : Str) : List Scope → Option V
  | [] => none
  | sc :: env => match sc.lookup x with
    | some v => some v
    | none => find x env

/-- Changes the value of a name in a scope. -/
def setIn (x : Str) (v : V) : Scope → Option Scope
  | [] => none
  | (y, w) :: sc => if x = y then some ((y, v) :: sc) else (setIn x v sc).map ((y, w) :: ·)

/-- Changes the value of a name in the innermost scope that has it. -/
def setVar (x : Str) (v : V) : List Scope → Option (List Scope)
  | [] => none
  | sc :: env => match setIn x v sc with
    | some sc => some (sc :: env)
    | none => (setVar x v env).map (sc :: ·)

/-- The value of a variable. -/
def getVar (x : Str) : M V := fun s =>
  match find x s.env with
  | some v => some (v, s)
  | none => match find x s.ro with
    | some v => some (v, s)
    | none => match s.globals.lookup x with
      | some v => some (v, s)
      | none => none

/-- `x = v` -/
def assignVar (x : Str) (v : V) : M Unit := fun s =>
  match setVar x v s.env with
  | some env => some ((), { s with env := env })
  | none => match find x s.ro with
    | some _ => none
    | none => match setIn x v s.globals with
      | some g => some ((), { s with globals := g })
      | none => none

/-- Declares a variable in the innermost scope, or assigns it if that scope has it. -/
def declare (x : Str) (v : V) : M Unit := fun s =>
  match s.env with
  | [] => none
  | sc :: env => match setIn x v sc with
    | some sc => some ((), { s with env := sc :: env })
    | none => some ((), { s with env := ((x, v) :: sc) :: env })

/-- Runs in a new scope. -/
def inScope (sc : Scope) (m : M α) : M α := fun s =>
  match m { s with env := sc :: s.env } with
  | none => none
  | some (a, s) => match s.env with
    | [] => none
    | _ :: env => some (a, { s with env := env })

/-! ## operators -/

/-- An `int` in range. -/
def int (n : Int) : M V := if -2 ^ 63 ≤ n ∧ n < 2 ^ 63 then pure (.int n) else fail

/-- `==` on strings, numbers and errors. -/
def eqV : V → V → Option Bool
  | .str a, .str b => some (decide (a = b))
  | .int a, .int b => some (decide (a = b))
  | .nil, .nil => some true
  | .err _, .nil => some false
  | _, _ => none

/-- Operators other than `&&` and `||`. -/
def binop (op : Str) (a b : V) : M V :=
  if op = str% "==" then return .bool (← ofOpt (eqV a b))
  else if op = str% "!=" then return .bool !(← ofOpt (eqV a b))
  else match a, b with
    | .int a, .int b =>
      if op = str% "+" then int (a + b)
      else if op = str% "-" then int (a - b)
      else if op = str% "*" then int (a * b)
      else if op = str% "/" then if b = 0 then fail else int (a.tdiv b)
      else if op = str% "|" then if 0 ≤ a ∧ 0 ≤ b then int ((a.toNat ||| b.toNat : Nat) : Int) else fail
      else if op = str% "<" then return .bool (decide (a < b))
      else if op = str% ">" then return .bool (decide (a > b))
      else fail
    | _, _ => fail

/-- `*p` -/
def deref : V → M V
  | .flag k => do
    let s ← get
    match s.flags[k]? with
    | some (_, v) => return .str v
    | none => fail
  | _ => fail

def unop (op : Str) (a : V) : M V :=
  if op = str% "*" then deref a
  else match a with
    | .bool b => if op = str% "!" then return .bool !b else fail
    | .int n => if op = str% "-" then int (-n) else fail
    | _ => fail

/-- `a[i]` -/
def index (a i : V) : M V :=
  match a, i with
  | .strs l, .int n => if 0 ≤ n then ofOpt ((l[n.toNat]?).map .str) else fail
  | .strss l, .int n => if 0 ≤ n then ofOpt ((l[n.toNat]?).map .strs) else fail
  | .smap m, .str k => return .str (lookup m k)
  | .fmap j, .str k => do
    let s ← get
    match s.maps[j]? with
    | some m => return .bytes ((m.lookup k).getD [])
    | none => fail
  | _, _ => fail

/-- `a[lo:]` -/
def sliceFrom (a lo : V) : M V :=
  match a, lo with
  | .strs l, .int n => if 0 ≤ n ∧ n ≤ l.length then return .strs (l.drop n.toNat) else fail
  | _, _ => fail

/-- The zero value of a type. -/
def zero : Ty → Option V
  | .ptr _ => some .nil
  | .map _ _ => some .nil
  | .named s => if s = str% "error" then some .nil else none
  | .slice _ => none

/-- `t(v)` -/
def convert (t : Ty) (v : V) : M V :=
  match t, v with
  | .slice (.named e), .str s => if e = str% "byte" then return .bytes s else fail
  | _, _ => fail

/-- All strings. -/
def allStrs : List V → Option (List Str)
  | [] => some []
  | .str s :: l => (allStrs l).map (s :: ·)
  | _ => none

/-- Keys and values that are strings. -/
def allPairs : List (V × V) → Option (List (Str × Str))
  | [] => some []
  | (.str k, .str v) :: l => (allPairs l).map ((k, v) :: ·)
  | _ => none

/-- `t{l}` with elements `l` or, for maps, `kvs`. -/
def composite (t : Ty) (l : List V) (kvs : List (V × V)) : M V :=
  match t with
  | .slice (.named e) =>
    if e = str% "string" ∧ kvs.isEmpty then return .strs (← ofOpt (allStrs l))
    else if e = str% "byte" ∧ l.isEmpty ∧ kvs.isEmpty then return .bytes []
    else fail
  | .map (.named k) (.named v) =>
    if k = str% "string" ∧ v = str% "string" ∧ l.isEmpty then do
      let m ← ofOpt (allPairs kvs)
      if (m.map (·.1)).Nodup then return .smap m else fail
    else fail
  | .map (.named k) (.slice (.named v)) =>
    if k = str% "string" ∧ v = str% "byte" ∧ l.isEmpty ∧ kvs.isEmpty then do
      let s ← get
      set { s with maps := s.maps ++ [[]] }
      return .fmap s.maps.length
    else fail
  | _ => fail

/-! ## jennifer -/

/-- A new object. -/
def alloc (o : Obj) : M Nat := fun s => some (s.nobj, { s with objs := o :: s.objs, nobj := s.nobj + 1 })

/-- The object with a number. -/
def getObj (k : Nat) : M Obj := fun s =>
  if k < s.nobj then
    match s.objs[s.nobj - 1 - k]? with
    | some o => some (o, s)
    | none => none
  else none

/-- Changes an object. -/
def setObj (k : Nat) (o : Obj) : M Unit := fun s =>
  if k < s.nobj then some ((), { s with objs := s.objs.set (s.nobj - 1 - k) o }) else none

/-- References to objects. -/
def allObjs : List V → Option (List Nat)
  | [] => some []
  | .obj k :: l => (allObjs l).map (k :: ·)
  | _ => none

/-- A group of these members. -/
def groupItem (pre sep post : List Str) (vs : List V) : M (List Item) := do
  let ks ← ofOpt (allObjs vs)
  let k ← alloc (.group ks)
  return [.group pre sep post k]

/-- The group that `Call` and `CallFunc` make. -/
def callGroup (k : Nat) : Item := .group [str% "("] [str% ","] [str% ")"] k

/-- The items that jennifer's function `f` makes. -/
def jenItem (f : Str) (vs : List V) : M (List Item) :=
  match vs with
  | [.str s] =>
    if f = str% "Id" then return [.tok s]
    else if f = str% "Op" then return [.tok s]
    else if f = str% "Dot" then return [.tok (str% "."), .tok s]
    else if f = str% "Comment" then return [.tok s]
    else fail
  | [.int n] => if f = str% "Lit" ∧ 0 ≤ n then return [.tok (digits n.toNat)] else fail
  | [.bool b] => if f = str% "Lit" then return [.tok (if b then str% "true" else str% "false")] else fail
  | vs =>
    if f = str% "Call" then groupItem [str% "("] [str% ","] [str% ")"] vs
    else if f = str% "Parens" ∧ vs.length = 1 then groupItem [str% "("] [] [str% ")"] vs
    else if f = str% "Params" then groupItem [str% "("] [str% ","] [str% ")"] vs
    else if f = str% "Index" then groupItem [str% "["] [str% ":"] [str% "]"] vs
    else if f = str% "If" then groupItem [str% "if"] [str% ";"] [] vs
    else if f = str% "Len" ∧ vs.length = 1 then groupItem [str% "len", str% "("] [] [str% ")"] vs
    else if f = str% "Panic" ∧ vs.length = 1 then groupItem [str% "panic", str% "("] [] [str% ")"] vs
    else if f = str% "Block" then do
      let ks ← ofOpt (allObjs vs)
      let k ← alloc (.group ks)
      return [.block k]
    else if vs.isEmpty then
      if f = str% "Func" then return [.tok (str% "func")]
      else if f = str% "Return" then return [.tok (str% "return")]
      else if f = str% "Goto" then return [.tok (str% "goto")]
      else if f = str% "Var" then return [.tok (str% "var")]
      else if f = str% "Null" then return []
      else fail
    else fail

/-- Adds items to a statement, or a statement with these items to a group. -/
def addItems (k : Nat) (items : List Item) : M V := do
  match ← getObj k with
  | .stmt l => do
    setObj k (.stmt (l ++ items))
    return .obj k
  | .group ms => do
    let j ← alloc (.stmt items)
    setObj k (.group (ms ++ [j]))
    return .obj j
  | .buffer _ => fail

/-- Members with something between them. -/
def between (sep : List Str) : List (List Str) → List Str
  | [] => []
  | [c] => c
  | c :: d :: l => c ++ sep ++ between sep (d :: l)

mutual
/-- The texts of an object; the first number bounds the depth. -/
def texts (objs : List Obj) (nobj : Nat) : Nat → Nat → Option (List Str)
  | 0, _ => none
  | n + 1, k =>
    if k < nobj then
      match objs[nobj - 1 - k]? with
      | some (.stmt items) => itemTexts objs nobj n items
      | some (.group ms) => (memberTexts objs nobj n ms).map List.flatten
      | _ => none
    else none
/-- The texts of items. -/
def itemTexts (objs : List Obj) (nobj : Nat) : Nat → List Item → Option (List Str)
  | 0, _ => none
  | _ + 1, [] => some []
  | n + 1, .tok s :: l => do
    let r ← itemTexts objs nobj n l
    return s :: r
  | n + 1, .group pre sep post k :: l => do
    let ms ← groupTexts objs nobj n k
    let r ← itemTexts objs nobj n l
    return pre ++ between sep ms ++ post ++ r
  | n + 1, .block k :: l => do
    let ms ← groupTexts objs nobj n k
    let r ← itemTexts objs nobj n l
    return [str% "{", [nl]] ++ ms.flatMap (· ++ [[nl]]) ++ [str% "}"] ++ r
/-- The texts of the members of a group that are not empty. -/
def groupTexts (objs : List Obj) (nobj : Nat) : Nat → Nat → Option (List (List Str))
  | 0, _ => none
  | n + 1, k =>
    if k < nobj then
      match objs[nobj - 1 - k]? with
      | some (.group ms) => (memberTexts objs nobj n ms).map (List.filter (!·.isEmpty))
      | _ => none
    else none
/-- The texts of statements. -/
def memberTexts (objs : List Obj) (nobj : Nat) : Nat → List Nat → Option (List (List Str))
  | 0, _ => none
  | _ + 1, [] => some []
  | n + 1, k :: l => do
    let a ← texts objs nobj n k
    let r ← memberTexts objs nobj n l
    return a :: r
end

/-! ## other libraries -/

/-- The atoms of a regular expression, after its flags. -/
def atoms : Str → Option (List Atom)
  | [] => some []
  | 40 :: 91 :: lo :: 45 :: hi :: 93 :: 123 :: 49 :: 44 :: 125 :: 41 :: t => (atoms t).map (.run lo hi :: ·)
  | 92 :: c :: t => if c = 47 then (atoms t).map (.byte c :: ·) else none
  | c :: t =>
    if c = 94 then (atoms t).map (.bol :: ·)
    else if c = 36 then (atoms t).map (.eol :: ·)
    else if isWord c || c = 32 || c = 58 then (atoms t).map (.byte c :: ·)
    else none

/-- `regexp.MustCompile` of an expression with flag `m` that consists of `^`, `$`, `\/`, `([a-b]{1,})`, word characters, spaces
and colons. -/
def compileRegex : Str → Option (List Atom)
  | 40 :: 63 :: 109 :: 41 :: t => atoms t
  | _ => none

/-- `re.FindAllStringSubmatch(s, -1)` from a position on, with `prev` the byte before it. -/
def findAllFrom (p : List Atom) (prev : Option UInt8) (s : Str) : List (List Str) :=
  match matchSeq p prev s with
  | some (cs, rest) =>
    if rest.length < s.length then
      (s.take (s.length - rest.length) :: cs) :: findAllFrom p (s.take (s.length - rest.length)).getLast? rest
    else match s with
      | [] => []
      | c :: t => findAllFrom p (some c) t
  | none => match s with
    | [] => []
    | c :: t => findAllFrom p (some c) t
termination_by s.length

/-- `re.ReplaceAllFunc(src, f)` from a position on. -/
def replaceM (p : List Atom) (f : Str → M Str) (prev : Option UInt8) (s : Str) : M Str :=
  match matchSeq p prev s with
  | some (_, rest) =>
    if rest.length < s.length then do
      let a ← f (s.take (s.length - rest.length))
      let b ← replaceM p f (s.take (s.length - rest.length)).getLast? rest
      return a ++ b
    else match s with
      | [] => return []
      | c :: t => do
        let b ← replaceM p f (some c) t
        return c :: b
  | none => match s with
    | [] => return []
    | c :: t => do
      let b ← replaceM p f (some c) t
      return c :: b
termination_by s.length

/-- How `%v` and `Println` show a value. -/
def showV : V → Option Str
  | .str s => some s
  | .err s => some s
  | .strs l => some (str% "[" ++ join (str% " ") l ++ str% "]")
  | .int n => if 0 ≤ n then some (digits n.toNat) else none
  | _ => none

/-- `fmt.Sprint`: a space between operands when neither is a string. -/
def sprint : List V → Option Str
  | [] => some []
  | [a] => showV a
  | a :: b :: l => do
    let x ← showV a
    let r ← sprint (b :: l)
    match a, b with
    | .str _, _ => return x ++ r
    | _, .str _ => return x ++ r
    | _, _ => return x ++ str% " " ++ r

/-- `fmt.Sprintf` for formats with no verb but `%v`. -/
def sprintf : Str → List V → Option Str
  | [], [] => some []
  | [], _ :: _ => none
  | 37 :: 118 :: f, a :: as => do
    let x ← showV a
    let r ← sprintf f as
    return x ++ r
  | c :: f, as => if c = 37 then none else (sprintf f as).map (c :: ·)

/-- Prints. -/
def print (t : Str) : M V := do
  modify fun s => { s with out := t :: s.out }
  return .unit

/-- The time, which then passes. -/
def now : M Nat := fun s => some (s.time, { s with time := s.time + 1 })

/-- A value and no error. -/
def ok (v : V) : M V := return .pair v .nil
/-- No value and an error. -/
def error (w : World) (t : Nat) : M V := return .pair .nil (.err (w.message t))

/-- A path from the working directory. -/
def fullPath (cwd p : Str) : Str := if p.head? = some 47 then p else cwd ++ str% "/" ++ p

/-- A new handle. -/
def newHandle (h : Handle) : M V := fun s =>
  some (.file s.nhandle, { s with handles := fun n => if n = s.nhandle then h else s.handles n, nhandle := s.nhandle + 1 })

/-- A file that is open; the program uses no other. -/
def openFile (h : Nat) : M Handle := fun s => if (s.handles h).isOpen then some (s.handles h, s) else none

/-- Changes a file. -/
def setHandle (h : Nat) (hd : Handle) : M Unit := fun s =>
  some ((), { s with handles := fun n => if n = h then hd else s.handles n })

/-- `strconv.Atoi` of digits. -/
def atoiV (s : Str) : Option V :=
  if s ≠ [] ∧ s.all (isDigit ·.toNat) ∧ atoi s < 2 ^ 63 then some (.int (atoi s)) else none

/-- Functions of packages. -/
def lib (w : World) (pkg f : Str) (vs : List V) : M V :=
  if pkg = str% "jen" then do
    let items ← jenItem f vs
    let k ← alloc (.stmt items)
    return .obj k
  else if pkg = str% "fmt" then
    if f = str% "Println" then do
      let l ← ofOpt (vs.mapM showV)
      print (join (str% " ") l ++ [nl])
    else if f = str% "Sprint" then return .str (← ofOpt (sprint vs))
    else if f = str% "Printf" then
      match vs with
      | .str fmt :: vs => do print (← ofOpt (sprintf fmt vs))
      | _ => fail
    else fail
  else if pkg = str% "strings" then
    match vs with
    | [.strs l, .str sep] => if f = str% "Join" then return .str (join sep l) else fail
    | [.str s, .str p] =>
      if f = str% "HasPrefix" then return .bool (hasPrefix s p)
      else if f = str% "TrimPrefix" then return .str (trimPrefix s p)
      else if f = str% "TrimSuffix" then return .str (trimSuffix s p)
      else fail
    | _ => fail
  else if pkg = str% "strconv" then
    match vs with
    | [.str s] => if f = str% "Atoi" then do ok (← ofOpt (atoiV s)) else fail
    | _ => fail
  else if pkg = str% "regexp" then
    match vs with
    | [.str s] => if f = str% "MustCompile" then return .regex (← ofOpt (compileRegex s)) else fail
    | _ => fail
  else if pkg = str% "bytes" then
    match vs with
    | [.bytes s] => if f = str% "NewBuffer" then return .obj (← alloc (.buffer s)) else fail
    | _ => fail
  else if pkg = str% "filepath" then
    match vs with
    | [.str s] =>
      if f = str% "Ext" then return .str (ext s)
      else if f = str% "Abs" then do
        let t ← now
        match w.abs t s with
        | some p => ok (.str p)
        | none => return .pair (.str []) (.err (w.message t))
      else fail
    | _ => fail
  else if pkg = str% "flag" then
    match vs with
    | [.str x, .str d, .str _] =>
      if f = str% "String" then do
        let s ← get
        set { s with flags := s.flags ++ [(x, d)] }
        return .flag s.flags.length
      else fail
    | [] =>
      if f = str% "Parse" then do
        modify fun s => { s with flags := s.flags.map fun (x, d) => (x, (w.flags x).getD d) }
        return .unit
      else fail
    | _ => fail
  else if pkg = str% "os" then
    match vs with
    | [.str p] =>
      if f = str% "Open" then do
        let t ← now
        let s ← get
        if w.openFails t (fullPath s.cwd p) then error w t
        else do ok (← newHandle ⟨fullPath s.cwd p, 0, false, true⟩)
      else fail
    | [.str p, .int flags, .int _] =>
      -- on Linux O_RDWR is 2 and O_CREATE is 64; O_EXCL, O_TRUNC and O_APPEND are not among these flags
      if f = str% "OpenFile" ∧ flags = 66 then do
        let t ← now
        let s ← get
        let path := fullPath s.cwd p
        if w.createFails t path then error w t
        else do
          modify fun s => { s with fs := fun n => if n = path then some ((s.fs n).getD []) else s.fs n }
          ok (← newHandle ⟨path, 0, true, true⟩)
      else fail
    | _ => fail
  else if pkg = str% "ioutil" then
    match vs with
    | [.file h] =>
      if f = str% "ReadAll" then do
        let hd ← openFile h
        let t ← now
        let s ← get
        let rest := ((s.fs hd.path).getD []).drop hd.off
        match w.readFault t hd.path with
        | some n => return .pair (.bytes (rest.take n)) (.err (w.message t))
        | none => do
          setHandle h { hd with off := hd.off + rest.length }
          ok (.bytes rest)
      else fail
    | _ => fail
  else fail

/-- Constants of packages. -/
def constant (pkg x : Str) : Option V :=
  if pkg = str% "os" then
    if x = str% "O_RDWR" then some (.int 2) else if x = str% "O_CREATE" then some (.int 64) else none
  else none

/-- Writes at an offset, filling a gap with zeros. -/
def overwrite (old : Str) (off : Nat) (new : Str) : Str :=
  (old ++ List.replicate (off - old.length) 0).take off ++ new ++ old.drop (off + new.length)

/-- Methods of files. -/
def fileMethod (w : World) (h : Nat) (m : Str) (vs : List V) : M V := do
  let hd ← openFile h
  match vs with
  | [] =>
    if m = str% "Close" then do
      setHandle h { hd with isOpen := false }
      return .nil
    else if m = str% "Stat" then do
      let t ← now
      match w.stat t hd.path with
      | some d => ok (.info ⟨hd.path, d⟩)
      | none => error w t
    else if m = str% "Chdir" then do
      let t ← now
      if w.chdirFails t hd.path then return .err (w.message t)
      else do
        modify fun s => { s with cwd := hd.path }
        return .nil
    else fail
  | [.int n] =>
    if m = str% "Readdir" ∧ n ≤ 0 then do
      let t ← now
      match w.readdir t hd.path with
      | (l, false) => ok (.infos l)
      | (l, true) => return .pair (.infos l) (.err (w.message t))
    else fail
  | [.bytes b] =>
    if m = str% "Write" ∧ hd.writable then do
      let t ← now
      let n := match w.writeFault t hd.path with
        | some n => min n b.length
        | none => b.length
      modify fun s => { s with fs := fun p => if p = hd.path then some (overwrite ((s.fs p).getD []) hd.off (b.take n)) else s.fs p }
      setHandle h { hd with off := hd.off + n }
      match w.writeFault t hd.path with
      | some _ => return .pair (.int n) (.err (w.message t))
      | none => ok (.int n)
    else fail
  | _ => fail

/-- Methods. -/
def method (w : World) (r : V) (m : Str) (vs : List V) : M V :=
  match r with
  | .obj k =>
    if m = str% "Render" then
      match vs with
      | [.obj b] => do
        let s ← get
        match ← getObj b with
        | .buffer t => do
          let ts ← ofOpt (texts s.objs s.nobj fuel k)
          setObj b (.buffer (t ++ Jen.render ts))
          return .nil
        | _ => fail
      | _ => fail
    else if m = str% "Write" then
      match vs with
      | [.bytes t'] => do
        match ← getObj k with
        | .buffer t => do
          setObj k (.buffer (t ++ t'))
          ok (.int t'.length)
        | _ => fail
      | _ => fail
    else if m = str% "Bytes" ∧ vs.isEmpty then do
      match ← getObj k with
      | .buffer t => return .bytes t
      | _ => fail
    else do
      let items ← jenItem m vs
      addItems k items
  | .regex p =>
    match vs with
    | [.str s, .int n] => if m = str% "FindAllStringSubmatch" ∧ n < 0 then return .strss (findAllFrom p none s) else fail
    | _ => fail
  | .info i =>
    match vs with
    | [] =>
      if m = str% "Name" then return .str i.name
      else if m = str% "IsDir" then return .bool i.isDir
      else fail
    | _ => fail
  | .file h => fileMethod w h m vs
  | _ => fail

/-- References to objects, hidden. -/
def hide : V → V
  | .obj _ => .unit
  | .pair _ _ => .unit
  | v => v

/-- Runs on objects of its own; the variables of the callers can be read. -/
def isolated (sc : Scope) (m : M α) : M α := fun s =>
  match m { s with env := [sc], ro := (s.env ++ s.ro).map (·.map fun (x, v) => (x, hide v)), objs := [], nobj := 0 } with
  | none => none
  | some (a, s') => some (a, { s' with env := s.env, ro := s.ro, objs := s.objs, nobj := s.nobj })

/-- How statements end. -/
inductive Ctl where
  | next
  /-- `return v`; `unit` without a value -/
  | ret (v : V)
  | cont

/-- The value of a function that ended like this. -/
def Ctl.value : Ctl → Option V
  | .next => some .unit
  | .ret v => some v
  | .cont => none

/-- Methods that are given a function literal, `run` runs its body. -/
def methodFunc (r : V) (m : Str) (vs : List V) (params : List (Str × Ty)) (run : M Ctl) : M V :=
  match r, vs, params with
  | .obj k, [], [(x, _)] => do
    if m = str% "BlockFunc" then do
      let g ← alloc (.group [])
      match ← inScope [(x, .obj g)] run with
      | .next => addItems k [.block g]
      | _ => fail
    else if m = str% "CallFunc" then do
      let g ← alloc (.group [])
      match ← inScope [(x, .obj g)] run with
      | .next => addItems k [callGroup g]
      | _ => fail
    else fail
  | .regex p, [.bytes src], [(x, _)] =>
    if m = str% "ReplaceAllFunc" then do
      let r ← replaceM p (fun t => do
        match ← isolated [(x, .bytes t)] run with
        | .ret (.bytes a) => return a
        | _ => fail) none src
      return .bytes r
    else fail
  | _, _, _ => fail

/-- Where an assignment goes. -/
inductive Place where
  | blank
  | var (x : Str)
  | key (j : Nat) (k : Str)
  | flag (k : Nat)

/-- Sets a key of a map. -/
def setKey (k v : Str) : List (Str × Str) → List (Str × Str)
  | [] => [(k, v)]
  | (k', v') :: m => if k = k' then (k', v) :: m else (k', v') :: setKey k v m

/-- Assigns. -/
def store (p : Place) (v : V) : M Unit :=
  match p with
  | .blank => pure ()
  | .var x => assignVar x v
  | .key j k => match v with
    | .bytes b => do
      let s ← get
      match s.maps[j]? with
      | some m => set { s with maps := s.maps.set j (setKey k b m) }
      | none => fail
    | _ => fail
  | .flag j => match v with
    | .str t => do
      let s ← get
      match s.flags[j]? with
      | some (x, _) => set { s with flags := s.flags.set j (x, t) }
      | none => fail
    | _ => fail

/-- `m[k]` as a place. -/
def keyPlace : V → V → M Place
  | .fmap j, .str k => pure (.key j k)
  | _, _ => fail

/-- `*p` as a place. -/
def derefPlace : V → M Place
  | .flag k => pure (.flag k)
  | _ => fail

/-- Assigns several. -/
def stores : List Place → List V → M Unit
  | [], [] => pure ()
  | p :: ps, v :: vs => do
    store p v
    stores ps vs
  | _, _ => fail

/-- Declares several with `:=`. -/
def declares : T → List V → M Unit
  | .nil, [] => pure ()
  | .cons (.id x) r, v :: vs => do
    if x = str% "_" then pure () else declare x v
    declares r vs
  | _, _ => fail

/-- The values on the right of an assignment to `n` places. -/
def spread (n : Nat) (vs : List V) : Option (List V) :=
  match vs with
  | [.pair a b] => if n = 2 then some [a, b] else none
  | vs => if vs.length = n then some vs else none

/-- The number of elements of a chain. -/
def T.len : T → Nat
  | .cons _ r => r.len + 1
  | _ => 0

/-- No `for` with three parts takes more rounds than this. -/
def rounds : Nat := 1000

/-- `for ; c; post { body }` -/
def loop (c : M V) (post body : M Ctl) : Nat → M Ctl
  | 0 => fail
  | n + 1 => do
    match ← c with
    | .bool true => do
      match ← body with
      | .ret v => return .ret v
      | _ => do
        let _ ← post
        loop c post body n
    | .bool false => return .next
    | _ => fail

/-- Runs for each element of a list. -/
def each (run : α → M Ctl) : List α → M Ctl
  | [] => return .next
  | a :: l => do
    match ← run a with
    | .ret v => return .ret v
    | _ => each run l

/-- A scope with these names, without `_`. -/
def bindings (l : List (Str × V)) : Scope := l.filter fun x => x.1 ≠ str% "_"

/-- `for k, v := range r { body }`.  A map is visited in the order the world chooses; its keys must not change. -/
def rangeOver (w : World) (k v : Str) (r : V) (body : M Ctl) : M Ctl :=
  match r with
  | .fmap j => do
    let t ← now
    let s ← get
    match s.maps[j]? with
    | some m =>
      each (fun key => do
        let s ← get
        match s.maps[j]? with
        | some m' => do
          let c ← inScope (bindings [(k, .str key), (v, .bytes ((m'.lookup key).getD []))]) body
          let s' ← get
          match s'.maps[j]? with
          | some m'' => if m''.map (·.1) = m.map (·.1) then return c else fail
          | none => fail
        | none => fail) (w.order t (m.map (·.1)))
    | none => fail
  | .infos l =>
    each (fun (i, x) => inScope (bindings [(k, .int (i : Nat)), (v, .info x)]) body) (l.zipIdx.map fun (x, i) => (i, x))
  | _ => fail

/-- Goes on with a boolean. -/
def onBool (v : V) (a b : M α) : M α :=
  match v with
  | .bool true => a
  | .bool false => b
  | _ => fail

/-- Goes on if the statement before ended normally. -/
def onNext (c : Ctl) (m : M Ctl) : M Ctl :=
  match c with
  | .next => m
  | c => pure c

/-- `x++`, `x--` -/
def increment (op x : Str) (v : V) : M Unit :=
  match v with
  | .int n => do
    let v ← int (if op = str% "++" then n + 1 else n - 1)
    assignVar x v
  | _ => fail

/-- `&t{}` -/
def newObj (t : Ty) : M V :=
  match t with
  | .named s => if s = str% "jen.Group" then return .obj (← alloc (.group [])) else fail
  | _ => fail

/-- Calls of functions by name: a conversion to `string`, or a function of the package. -/
def callName (F : Str → List V → M V) (f : Str) (vs : List V) : M V :=
  if f = str% "string" then
    match vs with
    | [.bytes s] => return .str s
    | _ => fail
  else F f vs

mutual
/-- The value of an expression; `F` are the functions of the package. -/
def eval (F : Str → List V → M V) (w : World) : T → M V
  | .id x =>
    if x = str% "nil" then pure .nil
    else if x = str% "true" then pure (.bool true)
    else if x = str% "false" then pure (.bool false)
    else getVar x
  | .num n => int n
  | .str s => pure (.str s)
  | .index e i => do
    let a ← eval F w e
    let i ← eval F w i
    index a i
  | .sliceFrom e i => do
    let a ← eval F w e
    let i ← eval F w i
    sliceFrom a i
  | .un op e => do
    let a ← eval F w e
    unop op a
  | .bin op a b => do
    let x ← eval F w a
    if op = str% "&&" then onBool x (eval F w b) (pure (.bool false))
    else if op = str% "||" then onBool x (pure (.bool true)) (eval F w b)
    else do
      let y ← eval F w b
      binop op x y
  | .fcall f args => do
    let vs ← evals F w args
    callName F f vs
  | .pcall p f args => do
    let vs ← evals F w args
    lib w p f vs
  | .pconst p x => ofOpt (constant p x)
  | .mcall e m args => do
    let r ← eval F w e
    let vs ← evals F w args
    method w r m vs
  | .mfunc e m args ps b => do
    let r ← eval F w e
    let vs ← evals F w args
    methodFunc r m vs ps (exec F w b)
  | .conv t e => do
    let v ← eval F w e
    convert t v
  | .comp t l => do
    let vs ← elems F w l
    let kvs ← keyed F w l
    composite t vs kvs
  | .new t .nil => newObj t
  | _ => fail
/-- The values of a chain of expressions. -/
def evals (F : Str → List V → M V) (w : World) : T → M (List V)
  | .nil => pure []
  | .cons e r => do
    let v ← eval F w e
    let vs ← evals F w r
    return v :: vs
  | _ => fail
/-- The elements of a composite literal that have no key. -/
def elems (F : Str → List V → M V) (w : World) : T → M (List V)
  | .nil => pure []
  | .cons (.kv _ _) r => elems F w r
  | .cons e r => do
    let v ← eval F w e
    let vs ← elems F w r
    return v :: vs
  | _ => fail
/-- The elements of a composite literal that have a key. -/
def keyed (F : Str → List V → M V) (w : World) : T → M (List (V × V))
  | .nil => pure []
  | .cons (.kv k e) r => do
    let k ← eval F w k
    let v ← eval F w e
    let vs ← keyed F w r
    return (k, v) :: vs
  | .cons _ r => keyed F w r
  | _ => fail
/-- The places on the left of an assignment. -/
def places (F : Str → List V → M V) (w : World) : T → M (List Place)
  | .nil => pure []
  | .cons (.id x) r => do
    let ps ← places F w r
    return (if x = str% "_" then .blank else .var x) :: ps
  | .cons (.index e i) r => do
    let a ← eval F w e
    let i ← eval F w i
    let p ← keyPlace a i
    let ps ← places F w r
    return p :: ps
  | .cons (.un op e) r => do
    if op = str% "*" then do
      let a ← eval F w e
      let p ← derefPlace a
      let ps ← places F w r
      return p :: ps
    else fail
  | _ => fail
/-- Runs a statement, or a chain of statements. -/
def exec (F : Str → List V → M V) (w : World) : T → M Ctl
  | .nil => pure .next
  | .cons a r => do
    let c ← exec F w a
    onNext c (exec F w r)
  | .expr e => do
    let _ ← eval F w e
    return .next
  | .assign op l r =>
    if op = str% ":=" then do
      let vs ← evals F w r
      let vs ← ofOpt (spread l.len vs)
      declares l vs
      return .next
    else if op = str% "=" then do
      let ps ← places F w l
      let vs ← evals F w r
      let vs ← ofOpt (spread l.len vs)
      stores ps vs
      return .next
    else fail
  | .inc op (.id x) => do
    let v ← getVar x
    increment op x v
    return .next
  | .var x t => do
    let v ← ofOpt (zero t)
    declare x v
    return .next
  | .ret .nil => pure (.ret .unit)
  | .ret e => do
    let v ← eval F w e
    return .ret v
  | .ifs c a b => do
    let v ← eval F w c
    onBool v (inScope [] (exec F w a)) (inScope [] (exec F w b))
  | .for i c p b => inScope [] do
    let _ ← exec F w i
    loop (eval F w c) (exec F w p) (inScope [] (exec F w b)) rounds
  | .range k v e b => do
    let r ← eval F w e
    rangeOver w k v r (exec F w b)
  | .switch e cs => do
    let v ← eval F w e
    clauses F w v cs
  | .defer (.mcall e m .nil) => do
    let r ← eval F w e
    modify fun s => { s with defers := (r, m) :: s.defers }
    return .next
  | .cont => pure .cont
  | _ => fail
/-- Runs the first clause that has this value; `default` comes last. -/
def clauses (F : Str → List V → M V) (w : World) (v : V) : T → M Ctl
  | .nil => pure .next
  | .cons (.case e b) r => do
    let x ← eval F w e
    let q ← ofOpt (eqV v x)
    onBool (.bool q) (inScope [] (exec F w b)) (clauses F w v r)
  | .cons (.default b) .nil => inScope [] (exec F w b)
  | _ => fail
end

/-! ## functions -/

/-- Runs the deferred calls. -/
def runDefers (w : World) : List (V × Str) → M Unit
  | [] => pure ()
  | (r, m) :: l => do
    let _ ← method w r m []
    runDefers w l

/-- The value of a call: the one returned or, after `return` without one, the named results. -/
def results (rs : List (Str × Ty)) (v : V) : M V :=
  match rs, v with
  | [], v => pure v
  | [(x, _), (y, _)], .unit => do
    let a ← getVar x
    let b ← getVar y
    return .pair a b
  | _, _ => fail

/-- The named results with their zero values. -/
def resultScope : List (Str × Ty) → Option Scope
  | [] => some []
  | (x, t) :: rs => do
    let v ← zero t
    let sc ← resultScope rs
    return (x, v) :: sc

/-- The scope a function starts with: its parameters and, with zero values, its named results. -/
def frame : List (Str × Ty) → List (Str × Ty) → List V → Option Scope
  | [], rs, [] => resultScope rs
  | (x, _) :: ps, rs, v :: vs => (frame ps rs vs).map ((x, v) :: ·)
  | _, _, _ => none

/-- Calls a function: its scopes and deferred calls are its own. -/
def callTop (F : Str → List V → M V) (w : World) (ps rs : List (Str × Ty)) (body : T) (vs : List V) : M V := fun s =>
  match frame ps rs vs with
  | none => none
  | some sc =>
    match (do
      let c ← exec F w body
      let v ← ofOpt c.value
      let v ← results rs v
      let s ← get
      runDefers w s.defers
      return v : M V) { s with env := [sc], ro := [], defers := [] } with
    | none => none
    | some (v, s') => some (v, { s' with env := s.env, ro := s.ro, defers := s.defers })

/-- The function with a name. -/
def findFunc (f : Str) : List Top → Option (List (Str × Ty) × List (Str × Ty) × T)
  | [] => none
  | .func g ps rs b :: l => if f = g then some (ps, rs, b) else findFunc f l
  | _ :: l => findFunc f l

/-- Calls to the functions of a package, nested at most this deep. -/
def call (w : World) (tops : List Top) : Nat → Str → List V → M V
  | 0, _, _ => fail
  | n + 1, f, vs => match findFunc f tops with
    | some (ps, rs, b) => callTop (call w tops n) w ps rs b vs
    | none => fail

/-- The variables of a package, with zero values. -/
def globals : List Top → Option Scope
  | [] => some []
  | .var x t :: l => do
    let v ← zero t
    let sc ← globals l
    return (x, v) :: sc
  | _ :: l => globals l

/-- The program: its variables, `init`, `main`. -/
def program (w : World) (tops : List Top) : M V := fun s =>
  match globals tops with
  | none => none
  | some g => (do
    let _ ← call w tops 3 (str% "init") []
    call w tops 3 (str% "main") [] : M V) { s with globals := g }

end Crunch.Gen.Go
