import Verif.Gen.Lex

/-!
# Go source texts: concrete syntax

A parser for the part of Go the buffers are written in, from the tokens of `Verif/Gen/Lex.lean` to trees in which names are
still strings.  Anything outside that part is not parsed at all (`none`), so nothing is skipped silently.
-/

namespace Crunch.Src

open Crunch.Gen

/-- Types. -/
inductive Ty where
  /-- a named type, `int64`, `Buffer`, `sync.Mutex` -/
  | named (s : Str)
  | slice (t : Ty)
  | ptr (t : Ty)
  /-- `...T`, for the last parameter -/
  | variadic (t : Ty)
  /-- `interface{}` -/
  | any
deriving DecidableEq, Repr

/-- Expressions.  Lists of expressions are chains of `cons` ending in `none`. -/
inductive Ex where
  | none
  | cons (e rest : Ex)
  | id (s : Str)
  | num (n : Nat)
  | sel (e : Ex) (name : Str)
  | index (e i : Ex)
  /-- `e[lo:hi]`, either bound may be `none` -/
  | slice (e lo hi : Ex)
  | call (f args : Ex)
  /-- `f(args, last...)` -/
  | spread (f args : Ex)
  | un (op : Str) (e : Ex)
  | bin (op : Str) (a b : Ex)
  /-- a type that cannot be a name, in a position where an expression may stand -/
  | ty (t : Ty)
  /-- `T{e, …}` -/
  | comp (t : Ty) (elems : Ex)
  /-- `key: e` in a composite literal -/
  | kv (key : Str) (e : Ex)
  /-- `e.(T)` -/
  | assert (e : Ex) (t : Ty)
deriving Repr

/-- Statements.  Lists of statements are chains of `cons` ending in `nil`. -/
inductive St where
  | nil
  | cons (s rest : St)
  | expr (e : Ex)
  /-- `lhs op rhs` for `=`, `:=`, `+=`, … -/
  | assign (op : Str) (lhs rhs : Ex)
  /-- `lhs++`, `lhs--` -/
  | inc (op : Str) (lhs : Ex)
  /-- `var x T` -/
  | varT (x : Str) (t : Ty)
  /-- `var x = e` -/
  | varE (x : Str) (e : Ex)
  | ret (e : Ex)
  | ifs (c : Ex) (thn els : St)
  | block (body : St)
  | label (l : Str)
  | goto (l : Str)
  | brk
  | defer (e : Ex)
  /-- `switch e { clauses }` -/
  | switch (e : Ex) (clauses : St)
  /-- `case e: body` -/
  | case (e : Ex) (body : St)
  | default (body : St)
  /-- `for init; c; post { body }` -/
  | for (init : St) (c : Ex) (post body : St)
  /-- `for _, x := range e { body }` -/
  | rangeVal (x : Str) (e : Ex) (body : St)
  /-- `for x := range e { body }` -/
  | rangeIdx (x : Str) (e : Ex) (body : St)
deriving Repr

/-- A function or method declaration. -/
structure Decl where
  /-- the receiver's name and type -/
  recv : Option (Str × Ty)
  name : Str
  params : List (Str × Ty)
  /-- the result; its name may be empty -/
  result : Option (Str × Ty)
  body : St
deriving Repr

/-! ## parsing -/

/-- A parser. -/
abbrev P (α : Type) := List Tok → Option (α × List Tok)

/-- The operator or punctuation `s`. -/
def isOp (s : Str) : Tok → Bool
  | .op t => t == s
  | _ => false

/-- The identifier or keyword `s`. -/
def isId (s : Str) : Tok → Bool
  | .id t => t == s
  | _ => false

/-- Consumes one token that satisfies the test. -/
def tok (p : Tok → Bool) : P Unit
  | t :: ts => if p t then some ((), ts) else none
  | [] => none

/-- Consumes a name. -/
def name : P Str
  | .id s :: ts => if keywords.contains s then none else some (s, ts)
  | _ => none

/-- A type. -/
def pTy : Nat → P Ty
  | 0, _ => none
  | n + 1, .op o :: ts =>
    if o = str% "*" then (pTy n ts).map fun (t, ts) => (.ptr t, ts)
    else if o = str% "..." then (pTy n ts).map fun (t, ts) => (.variadic t, ts)
    else if o = str% "[" then do
      let (_, ts) ← tok (isOp (str% "]")) ts
      let (t, ts) ← pTy n ts
      return (.slice t, ts)
    else none
  | _ + 1, .id s :: ts =>
    if s = str% "interface" then do
      let (_, ts) ← tok (isOp (str% "{")) ts
      let (_, ts) ← tok (isOp (str% "}")) ts
      return (.any, ts)
    else if keywords.contains s then none
    else match ts with
      | .op o :: .id s' :: ts' => if o = str% "." then some (.named (s ++ o ++ s'), ts') else some (.named s, ts)
      | _ => some (.named s, ts)
  | _, _ => none

/-- A hexadecimal digit. -/
def hexDigit (c : UInt8) : Nat :=
  if isDigit c.toNat then c.toNat - 48 else if 97 ≤ c.toNat then c.toNat - 87 else c.toNat - 55

/-- The value of a number. -/
def numVal (s : Str) : Nat :=
  match s with
  | 48 :: 120 :: t => t.foldl (fun n c => 16 * n + hexDigit c) 0
  | s => s.foldl (fun n c => 10 * n + (c.toNat - 48)) 0

/-- The precedence of binary operators, 0 for others (Go specification, Operator precedence). -/
def prec (o : Str) : Nat :=
  if o = str% "*" || o = str% "/" || o = str% "%" || o = str% "<<" || o = str% ">>" || o = str% "&" || o = str% "&^" then 5
  else if o = str% "+" || o = str% "-" || o = str% "|" || o = str% "^" then 4
  else if o = str% "==" || o = str% "!=" || o = str% "<" || o = str% "<=" || o = str% ">" || o = str% ">=" then 3
  else if o = str% "&&" then 2
  else if o = str% "||" then 1
  else 0

/-- Whether a token is skipped between the elements of a list. -/
def comma (ts : List Tok) : Option (List Tok) :=
  match ts with
  | .op o :: ts => if o = str% "," then some ts else none
  | _ => none

mutual
/-- An expression with operators of precedence at least `p`. -/
def pBin : Nat → Nat → P Ex
  | 0, _, _ => none
  | n + 1, p, ts => do
    let (a, ts) ← pUn n ts
    pRest n p a ts
/-- What may follow a complete operand. -/
def pRest : Nat → Nat → Ex → P Ex
  | 0, _, _, _ => none
  | n + 1, p, a, .op o :: ts =>
    if p ≤ prec o && prec o ≠ 0 then do
      let (b, ts) ← pBin n (prec o + 1) ts
      pRest n p (.bin o a b) ts
    else some (a, .op o :: ts)
  | _ + 1, _, a, ts => some (a, ts)
/-- A unary expression. -/
def pUn : Nat → P Ex
  | 0, _ => none
  | n + 1, .op o :: ts =>
    if o = str% "*" || o = str% "&" || o = str% "^" || o = str% "-" then do
      let (e, ts) ← pUn n ts
      return (.un o e, ts)
    else if o = str% "(" then do
      let (e, ts) ← pBin n 1 ts
      let (_, ts) ← tok (isOp (str% ")")) ts
      pPost n e ts
    else if o = str% "[" then do
      let (t, ts) ← pTy n (.op o :: ts)
      match ts with
      | .op o' :: ts' =>
        if o' = str% "{" then do
          let (l, ts) ← pElems n (str% "}") ts'
          pPost n (.comp t l) ts
        else pPost n (.ty t) ts
      | _ => some (.ty t, ts)
    else none
  | _ + 1, .num s :: ts => some (.num (numVal s), ts)
  | n + 1, .id s :: ts => if keywords.contains s then none else pPost n (.id s) ts
  | _, _ => none
/-- Selectors, indices, slices, calls after an operand. -/
def pPost : Nat → Ex → P Ex
  | 0, _, _ => none
  | n + 1, e, .op o :: ts =>
    if o = str% "." then
      match ts with
      | .id s :: ts => pPost n (.sel e s) ts
      | .op p :: ts =>
        if p = str% "(" then do
          let (t, ts) ← pTy n ts
          let (_, ts) ← tok (isOp (str% ")")) ts
          pPost n (.assert e t) ts
        else none
      | _ => none
    else if o = str% "[" then
      match ts with
      | .op c :: ts' =>
        if c = str% ":" then pUpper n e .none ts
        else pIndex n e (.op c :: ts')
      | ts => pIndex n e ts
    else if o = str% "(" then do
      let ((l, s), ts) ← pArgs n ts
      pPost n (if s then .spread e l else .call e l) ts
    else some (e, .op o :: ts)
  | _ + 1, e, ts => some (e, ts)
/-- `[i]` or `[lo:…]`, after the bracket. -/
def pIndex : Nat → Ex → P Ex
  | 0, _, _ => none
  | n + 1, e, ts => do
    let (i, ts) ← pBin n 1 ts
    match ts with
    | .op o :: ts' =>
      if o = str% "]" then pPost n (.index e i) ts'
      else if o = str% ":" then pUpper n e i ts
      else none
    | _ => none
/-- `:hi]` or `:]`, with the lower bound given. -/
def pUpper : Nat → Ex → Ex → P Ex
  | 0, _, _, _ => none
  | n + 1, e, lo, ts => do
    let (_, ts) ← tok (isOp (str% ":")) ts
    match ts with
    | .op o :: ts' =>
      if o = str% "]" then pPost n (.slice e lo .none) ts'
      else do
        let (hi, ts) ← pBin n 1 ts
        let (_, ts) ← tok (isOp (str% "]")) ts
        pPost n (.slice e lo hi) ts
    | ts => do
      let (hi, ts) ← pBin n 1 ts
      let (_, ts) ← tok (isOp (str% "]")) ts
      pPost n (.slice e lo hi) ts
/-- Arguments up to the closing parenthesis, and whether the last is followed by `...`. -/
def pArgs : Nat → P (Ex × Bool)
  | 0, _ => none
  | n + 1, ts =>
    match tok (isOp (str% ")")) ts with
    | some (_, ts) => some ((.none, false), ts)
    | none => do
      let (e, ts) ← pBin n 1 ts
      match comma ts with
      | some ts => do
        let ((l, s), ts) ← pArgs n ts
        return ((.cons e l, s), ts)
      | none =>
        match tok (isOp (str% "...")) ts with
        | some (_, ts) => do
          let (_, ts) ← tok (isOp (str% ")")) ts
          return ((.cons e .none, true), ts)
        | none => do
          let (_, ts) ← tok (isOp (str% ")")) ts
          return ((.cons e .none, false), ts)
/-- The elements of a composite literal. -/
def pElems : Nat → Str → P Ex
  | 0, _, _ => none
  | n + 1, close, ts =>
    match tok (isOp close) ts with
    | some (_, ts) => some (.none, ts)
    | none => do
      let (e, ts) ← (match ts with
        | .id s :: .op o :: ts' =>
          if o = str% ":" then (pBin n 1 ts').map fun (e, ts) => (Ex.kv s e, ts) else pBin n 1 ts
        | ts => pBin n 1 ts)
      match comma ts with
      | some ts => do
        let (l, ts) ← pElems n close ts
        return (.cons e l, ts)
      | none => do
        let (_, ts) ← tok (isOp close) ts
        return (.cons e .none, ts)
end

/-- The size of any expression or type is below this. -/
def exFuel : Nat := 400

/-- An expression. -/
def pEx : P Ex := pBin exFuel 1

/-- `&T{…}` or an expression: composite literals of named types are only recognised where they occur, on the right of an
assignment, so that the block after `if x` is not taken for one. -/
def pRhs : P Ex := fun ts =>
  match ts with
  | .op a :: .id s :: .op o :: ts' =>
    if a = str% "&" && o = str% "{" then do
      let (l, ts) ← pElems exFuel (str% "}") ts'
      return (.un a (.comp (.named s) l), ts)
    else pEx ts
  | ts => pEx ts

/-- The operators of assignments. -/
def assignOps : List Str :=
  [str% "=", str% ":=", str% "+=", str% "-=", str% "*=", str% "|=", str% "&=", str% "^=", str% "<<=", str% ">>=", str% "&^="]

/-- An expression statement, an assignment, or an increment. -/
def pSimple : P St := fun ts => do
  let (e, ts) ← pEx ts
  match ts with
  | .op o :: ts' =>
    if assignOps.contains o then do
      let (r, ts) ← pRhs ts'
      return (.assign o e r, ts)
    else if o = str% "++" || o = str% "--" then some (.inc o e, ts')
    else some (.expr e, ts)
  | ts => some (.expr e, ts)

/-- The declarations of `var x T`, `var x = e`. -/
def pVar : P St := fun ts => do
  let (x, ts) ← name ts
  match ts with
  | .op o :: ts' =>
    if o = str% "=" then do
      let (e, ts) ← pEx ts'
      return (.varE x e, ts)
    else do
      let (t, ts) ← pTy exFuel ts
      return (.varT x t, ts)
  | ts => do
    let (t, ts) ← pTy exFuel ts
    return (.varT x t, ts)

/-- Consumes a semicolon. -/
def semi : P Unit := tok fun t => t == .semi || isOp (str% ";") t

/-- The specifications of `var ( … )`, up to the closing parenthesis, as statements in front of `k`. -/
def pVars : Nat → List Tok → Option (List St × List Tok)
  | 0, _ => none
  | n + 1, ts =>
    match tok (isOp (str% ")")) ts with
    | some (_, ts) => some ([], ts)
    | none => do
      let (s, ts) ← pVar ts
      let (_, ts) ← semi ts
      let (l, ts) ← pVars n ts
      return (s :: l, ts)

/-- Statements in front of others. -/
def St.prepend (l : List St) (rest : St) : St := l.foldr .cons rest

mutual
/-- The statements of a block up to its closing brace, or of a clause up to the next one. -/
def pStmts : Nat → P St
  | 0, _ => none
  | n + 1, ts =>
    match ts with
    | .op o :: ts' =>
      if o = str% "}" then some (.nil, ts)
      else if o = str% "{" then do
        let (b, ts) ← pBlock n ts
        let (_, ts) ← semi ts
        let (r, ts) ← pStmts n ts
        return (.cons (.block b) r, ts)
      else do
        let (s, ts) ← pSimple (.op o :: ts')
        let (_, ts) ← semi ts
        let (r, ts) ← pStmts n ts
        return (.cons s r, ts)
    | .semi :: ts => pStmts n ts
    | .id k :: ts' =>
      if k = str% "case" || k = str% "default" then some (.nil, ts)
      else if k = str% "var" then
        match tok (isOp (str% "(")) ts' with
        | some (_, ts) => do
          let (l, ts) ← pVars n ts
          let (_, ts) ← semi ts
          let (r, ts) ← pStmts n ts
          return (St.prepend l r, ts)
        | none => do
          let (s, ts) ← pVar ts'
          let (_, ts) ← semi ts
          let (r, ts) ← pStmts n ts
          return (.cons s r, ts)
      else if k = str% "return" then
        match semi ts' with
        | some (_, ts) => do
          let (r, ts) ← pStmts n ts
          return (.cons (.ret .none) r, ts)
        | none => do
          let (e, ts) ← pEx ts'
          let (_, ts) ← semi ts
          let (r, ts) ← pStmts n ts
          return (.cons (.ret e) r, ts)
      else if k = str% "break" then do
        let (_, ts) ← semi ts'
        let (r, ts) ← pStmts n ts
        return (.cons .brk r, ts)
      else if k = str% "goto" then do
        let (l, ts) ← name ts'
        let (_, ts) ← semi ts
        let (r, ts) ← pStmts n ts
        return (.cons (.goto l) r, ts)
      else if k = str% "defer" then do
        let (e, ts) ← pEx ts'
        let (_, ts) ← semi ts
        let (r, ts) ← pStmts n ts
        return (.cons (.defer e) r, ts)
      else if k = str% "if" then do
        let (s, ts) ← pIf n ts'
        let (_, ts) ← semi ts
        let (r, ts) ← pStmts n ts
        return (.cons s r, ts)
      else if k = str% "switch" then do
        let (e, ts) ← pEx ts'
        let (_, ts) ← tok (isOp (str% "{")) ts
        let (c, ts) ← pClauses n ts
        let (_, ts) ← semi ts
        let (r, ts) ← pStmts n ts
        return (.cons (.switch e c) r, ts)
      else if k = str% "for" then do
        let (s, ts) ← pFor n ts'
        let (_, ts) ← semi ts
        let (r, ts) ← pStmts n ts
        return (.cons s r, ts)
      else if keywords.contains k then none
      else
        match tok (isOp (str% ":")) ts' with
        | some (_, ts) => do
          let (r, ts) ← pStmts n ts
          return (.cons (.label k) r, ts)
        | none => do
          let (s, ts) ← pSimple ts
          let (_, ts) ← semi ts
          let (r, ts) ← pStmts n ts
          return (.cons s r, ts)
    | _ => none
/-- `{ … }` -/
def pBlock : Nat → P St
  | 0, _ => none
  | n + 1, ts => do
    let (_, ts) ← tok (isOp (str% "{")) ts
    let (b, ts) ← pStmts n ts
    let (_, ts) ← tok (isOp (str% "}")) ts
    return (b, ts)
/-- The rest of an `if`. -/
def pIf : Nat → P St
  | 0, _ => none
  | n + 1, ts => do
    let (c, ts) ← pEx ts
    let (a, ts) ← pBlock n ts
    match tok (isId (str% "else")) ts with
    | none => some (.ifs c a .nil, ts)
    | some (_, ts) =>
      match tok (isId (str% "if")) ts with
      | some (_, ts) => do
        let (b, ts) ← pIf n ts
        return (.ifs c a (.cons b .nil), ts)
      | none => do
        let (b, ts) ← pBlock n ts
        return (.ifs c a b, ts)
/-- The clauses of a `switch`, up to and including its closing brace. -/
def pClauses : Nat → P St
  | 0, _ => none
  | n + 1, ts =>
    match ts with
    | .op o :: ts => if o = str% "}" then some (.nil, ts) else none
    | .id k :: ts =>
      if k = str% "case" then do
        let (e, ts) ← pEx ts
        let (_, ts) ← tok (isOp (str% ":")) ts
        let (b, ts) ← pStmts n ts
        let (r, ts) ← pClauses n ts
        return (.cons (.case e b) r, ts)
      else if k = str% "default" then do
        let (_, ts) ← tok (isOp (str% ":")) ts
        let (b, ts) ← pStmts n ts
        let (r, ts) ← pClauses n ts
        return (.cons (.default b) r, ts)
      else none
    | _ => none
/-- The rest of a `for`. -/
def pFor : Nat → P St
  | 0, _ => none
  | n + 1, ts =>
    match ts with
    | .id x :: .op a :: .id y :: .op d :: .id r :: ts' =>
      if a = str% "," && d = str% ":=" && r = str% "range" && x = str% "_" then do
        let (e, ts) ← pEx ts'
        let (b, ts) ← pBlock n ts
        return (.rangeVal y e b, ts)
      else pFor2 n ts
    | ts => pFor2 n ts
/-- The rest of a `for` without a range over values. -/
def pFor2 : Nat → P St
  | 0, _ => none
  | n + 1, ts =>
    match ts with
    | .id x :: .op d :: .id r :: ts' =>
      if d = str% ":=" && r = str% "range" then do
        let (e, ts) ← pEx ts'
        let (b, ts) ← pBlock n ts
        return (.rangeIdx x e b, ts)
      else pFor3 n ts
    | ts => pFor3 n ts
/-- The rest of a `for` with three parts. -/
def pFor3 : Nat → P St
  | 0, _ => none
  | n + 1, ts => do
    let (i, ts) ← pSimple ts
    let (_, ts) ← semi ts
    let (c, ts) ← pEx ts
    let (_, ts) ← semi ts
    let (p, ts) ← pSimple ts
    let (b, ts) ← pBlock n ts
    return (.for i c p b, ts)
end

/-- The number of statements of a function is below this. -/
def stFuel : Nat := 400

/-- Gives the type to the parameters collected so far, which had none of their own. -/
def closeParams (pending : List Str) (t : Ty) : List (Str × Ty) := pending.map fun x => (x, t)

/-- The parameters up to the closing parenthesis; `pending` are the names without a type so far. -/
def pParams : Nat → List Str → P (List (Str × Ty))
  | 0, _, _ => none
  | n + 1, pending, ts =>
    match tok (isOp (str% ")")) ts with
    | some (_, ts) => if pending.isEmpty then some ([], ts) else none
    | none => do
      let (x, ts) ← name ts
      match comma ts with
      | some ts => pParams n (pending ++ [x]) ts
      | none => do
        let (t, ts) ← pTy exFuel ts
        let l := closeParams (pending ++ [x]) t
        match comma ts with
        | some ts => do
          let (r, ts) ← pParams n [] ts
          return (l ++ r, ts)
        | none => do
          let (_, ts) ← tok (isOp (str% ")")) ts
          return (l, ts)

/-- The result of a function: nothing, a type, or a name with a type. -/
def pResult : P (Option (Str × Ty)) := fun ts =>
  match ts with
  | .op o :: ts' =>
    if o = str% "{" then some (none, ts)
    else if o = str% "(" then do
      let (x, ts) ← name ts'
      let (t, ts) ← pTy exFuel ts
      let (_, ts) ← tok (isOp (str% ")")) ts
      return (some (x, t), ts)
    else (pTy exFuel ts).map fun (t, ts) => (some ([], t), ts)
  | ts => (pTy exFuel ts).map fun (t, ts) => (some ([], t), ts)

/-- A declaration, after the keyword `func`. -/
def pFunc : P Decl := fun ts => do
  let (recv, ts) ← (match tok (isOp (str% "(")) ts with
    | some (_, ts) => do
      let (x, ts) ← name ts
      let (t, ts) ← pTy exFuel ts
      let (_, ts) ← tok (isOp (str% ")")) ts
      return (some (x, t), ts)
    | none => some (none, ts))
  let (f, ts) ← name ts
  let (_, ts) ← tok (isOp (str% "(")) ts
  let (ps, ts) ← pParams exFuel [] ts
  let (r, ts) ← pResult ts
  let (b, ts) ← pBlock stFuel ts
  return (⟨recv, f, ps, r, b⟩, ts)

/-- Comments mean nothing. -/
def noComments (ts : List Tok) : List Tok := ts.filter fun t => match t with | .comment _ => false | _ => true

/-- The fields of a struct up to the closing brace; an embedded type has an empty name. -/
def pFields : Nat → P (List (Str × Ty))
  | 0, _ => none
  | n + 1, ts =>
    match tok (isOp (str% "}")) ts with
    | some (_, ts) => some ([], ts)
    | none => do
      let (x, ts) ← name ts
      let ((x, t), ts) ← (match ts with
        | .op o :: .id y :: ts' =>
          if o = str% "." then some ((([] : Str), Ty.named (x ++ o ++ y)), ts')
          else (pTy exFuel ts).map fun (t, ts) => ((x, t), ts)
        | ts => (pTy exFuel ts).map fun (t, ts) => ((x, t), ts))
      let (_, ts) ← semi ts
      let (r, ts) ← pFields n ts
      return ((x, t) :: r, ts)

/-- What is declared at the top of a file. -/
inductive Top where
  | package (s : Str)
  | imports (l : List Str)
  | struct (s : Str) (fields : List (Str × Ty))
  | func (d : Decl)
deriving Repr

/-- The paths of `import ( … )`, up to the closing parenthesis. -/
def pImports : Nat → P (List Str)
  | 0, _ => none
  | n + 1, ts =>
    match ts with
    | .str s :: .semi :: ts => (pImports n ts).map fun (l, ts) => (s :: l, ts)
    | ts => (tok (isOp (str% ")")) ts).map fun (_, ts) => ([], ts)

/-- A declaration at the top of a file. -/
def pTop : P Top := fun ts =>
  match ts with
  | .id k :: ts =>
    if k = str% "func" then do
      let (d, ts) ← pFunc ts
      let (_, ts) ← semi ts
      return (.func d, ts)
    else if k = str% "package" then do
      let (x, ts) ← name ts
      let (_, ts) ← semi ts
      return (.package x, ts)
    else if k = str% "import" then
      match ts with
      | .str s :: .semi :: ts => some (.imports [s], ts)
      | ts => do
        let (_, ts) ← tok (isOp (str% "(")) ts
        let (l, ts) ← pImports exFuel ts
        let (_, ts) ← semi ts
        return (.imports l, ts)
    else if k = str% "type" then do
      let (x, ts) ← name ts
      let (_, ts) ← tok (isId (str% "struct")) ts
      let (_, ts) ← tok (isOp (str% "{")) ts
      let (l, ts) ← pFields exFuel ts
      let (_, ts) ← semi ts
      return (.struct x l, ts)
    else none
  | _ => none

/-- All declarations. -/
def pTops : Nat → List Tok → Option (List Top)
  | 0, _ => none
  | _ + 1, [] => some []
  | n + 1, ts => do
    let (d, ts) ← pTop ts
    let l ← pTops n ts
    return d :: l

/-- A file, or a part of one that consists of declarations, from its lines. -/
def parse (ls : List Str) : Option (List Top) := pTops (ls.length + 1) (noComments (lexLines false ls))

end Crunch.Src
