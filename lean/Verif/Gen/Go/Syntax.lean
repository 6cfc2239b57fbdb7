import Verif.Src.Syntax

/-!
# The generator's source text: syntax

A parser for the part of Go that generation/complex.go and generation/main.go are written in, from the tokens of
`Verif/Gen/Lex.lean`.  A name followed by a dot is a package if the file imports one of that name; a file that also declares
such a name is not parsed.  Function literals are parsed only as the last argument of a method call.  Anything else outside
that part of Go is not parsed at all (`none`), so nothing is skipped silently.
-/

namespace Crunch.Gen.Go

open Crunch.Src (P tok name semi isOp isId prec comma assignOps hexDigit noComments)

/-- Types. -/
inductive Ty where
  /-- `error`, `string`, `jen.Group` -/
  | named (s : Str)
  | slice (t : Ty)
  | ptr (t : Ty)
  | map (k v : Ty)
deriving DecidableEq, Repr, Inhabited

/-- Expressions and statements; lists of them are chains of `cons` ending in `nil`. -/
inductive T where
  | nil
  | cons (a rest : T)
  | id (s : Str)
  | num (n : Nat)
  /-- a string literal, its contents -/
  | str (s : Str)
  | index (e i : T)
  /-- `e[lo:]` -/
  | sliceFrom (e lo : T)
  | un (op : Str) (e : T)
  | bin (op : Str) (a b : T)
  /-- `f(args)` -/
  | fcall (f : Str) (args : T)
  /-- `pkg.f(args)` -/
  | pcall (pkg f : Str) (args : T)
  /-- `pkg.name` -/
  | pconst (pkg name : Str)
  /-- `e.m(args)` -/
  | mcall (e : T) (m : Str) (args : T)
  /-- `e.m(args, func(params) T { body })` -/
  | mfunc (e : T) (m : Str) (args : T) (params : List (Str × Ty)) (body : T)
  /-- `t(e)` with a type that is not a name -/
  | conv (t : Ty) (e : T)
  /-- `t{elems}` -/
  | comp (t : Ty) (elems : T)
  /-- `&t{elems}` -/
  | new (t : Ty) (elems : T)
  /-- `k: e` in a composite literal -/
  | kv (k e : T)
  /-- an expression as a statement -/
  | expr (e : T)
  /-- `lhs op rhs` for `=`, `:=`, … -/
  | assign (op : Str) (lhs rhs : T)
  /-- `x++`, `x--` -/
  | inc (op : Str) (x : T)
  /-- `var x t` -/
  | var (x : Str) (t : Ty)
  | ret (e : T)
  | ifs (c thn els : T)
  /-- `for init; c; post { body }` -/
  | for (init c post body : T)
  /-- `for k, v := range e { body }`; `_` when there is no second name -/
  | range (k v : Str) (e body : T)
  | switch (e clauses : T)
  | case (e body : T)
  | default (body : T)
  | defer (e : T)
  | cont
deriving DecidableEq, Repr, Inhabited

/-- What is declared at the top of a file. -/
inductive Top where
  | var (x : Str) (t : Ty)
  /-- a function: parameters, named results, body -/
  | func (f : Str) (params results : List (Str × Ty)) (body : T)
deriving DecidableEq, Repr, Inhabited

/-! ## literals -/

/-- The contents of an interpreted string literal; of the escapes, `\n` and `\\`. -/
def unescape : Str → Option Str
  | [] => some []
  | 92 :: 110 :: t => (unescape t).map (10 :: ·)
  | 92 :: 92 :: t => (unescape t).map (92 :: ·)
  | c :: t => if c = 92 then none else (unescape t).map (c :: ·)

/-- The value of a number: decimal, `0x…`, or octal with a leading zero. -/
def numVal (s : Str) : Nat :=
  match s with
  | 48 :: 120 :: t => t.foldl (fun n c => 16 * n + hexDigit c) 0
  | 48 :: t => t.foldl (fun n c => 8 * n + (c.toNat - 48)) 0
  | s => s.foldl (fun n c => 10 * n + (c.toNat - 48)) 0

/-! ## parsing -/

/-- A type. -/
def pTy : Nat → P Ty
  | 0, _ => none
  | n + 1, .op o :: ts =>
    if o = str% "*" then (pTy n ts).map fun (t, ts) => (.ptr t, ts)
    else if o = str% "[" then do
      let (_, ts) ← tok (isOp (str% "]")) ts
      let (t, ts) ← pTy n ts
      return (.slice t, ts)
    else none
  | n + 1, .id s :: ts =>
    if s = str% "map" then do
      let (_, ts) ← tok (isOp (str% "[")) ts
      let (k, ts) ← pTy n ts
      let (_, ts) ← tok (isOp (str% "]")) ts
      let (v, ts) ← pTy n ts
      return (.map k v, ts)
    else if keywords.contains s then none
    else match ts with
      | .op o :: .id s' :: ts' => if o = str% "." then some (.named (s ++ o ++ s'), ts') else some (.named s, ts)
      | _ => some (.named s, ts)
  | _, _ => none

/-- Parameters up to the closing parenthesis, each with its own type. -/
def pParams : Nat → P (List (Str × Ty))
  | 0, _ => none
  | n + 1, ts =>
    match tok (isOp (str% ")")) ts with
    | some (_, ts) => some ([], ts)
    | none => do
      let (x, ts) ← name ts
      let (t, ts) ← pTy n ts
      match comma ts with
      | some ts => do
        let (l, ts) ← pParams n ts
        return ((x, t) :: l, ts)
      | none => do
        let (_, ts) ← tok (isOp (str% ")")) ts
        return ([(x, t)], ts)

/-- A call with these arguments, the last of which may be a function literal. -/
def mkCall (pkgs : List Str) (e : T) (m : Str) (args : T) (lit : Option (List (Str × Ty) × T)) : Option T :=
  match lit with
  | some (ps, b) => (match e with
    | .id p => if pkgs.contains p then none else some (.mfunc e m args ps b)
    | e => some (.mfunc e m args ps b))
  | none => (match e with
    | .id p => if pkgs.contains p then some (.pcall p m args) else some (.mcall e m args)
    | e => some (.mcall e m args))

mutual
/-- An expression with operators of precedence at least `p`. -/
def pBin (pkgs : List Str) : Nat → Nat → P T
  | 0, _, _ => none
  | n + 1, p, ts => do
    let (a, ts) ← pUn pkgs n ts
    pRest pkgs n p a ts
/-- What may follow a complete operand. -/
def pRest (pkgs : List Str) : Nat → Nat → T → P T
  | 0, _, _, _ => none
  | n + 1, p, a, .op o :: ts =>
    if p ≤ prec o && prec o ≠ 0 then do
      let (b, ts) ← pBin pkgs n (prec o + 1) ts
      pRest pkgs n p (.bin o a b) ts
    else some (a, .op o :: ts)
  | _ + 1, _, a, ts => some (a, ts)
/-- A unary expression. -/
def pUn (pkgs : List Str) : Nat → P T
  | 0, _ => none
  | n + 1, .op o :: ts =>
    if o = str% "&" then do
      let (t, ts) ← pTy n ts
      let (_, ts) ← tok (isOp (str% "{")) ts
      let (l, ts) ← pElems pkgs n ts
      return (.new t l, ts)
    else if o = str% "*" || o = str% "!" || o = str% "-" then do
      let (e, ts) ← pUn pkgs n ts
      return (.un o e, ts)
    else if o = str% "(" then do
      let (e, ts) ← pBin pkgs n 1 ts
      let (_, ts) ← tok (isOp (str% ")")) ts
      pPost pkgs n e ts
    else if o = str% "[" then do
      let (t, ts) ← pTy n (.op o :: ts)
      pTyped pkgs n t ts
    else none
  | _ + 1, .num s :: ts => some (.num (numVal s), ts)
  | _ + 1, .str s :: ts => (unescape (s.drop 1).dropLast).map fun s => (.str s, ts)
  | n + 1, .id s :: ts =>
    if s = str% "map" then do
      let (t, ts) ← pTy n (.id s :: ts)
      pTyped pkgs n t ts
    else if keywords.contains s then none
    else if pkgs.contains s then
      match ts with
      | .op d :: .id f :: .op p :: ts' =>
        if d = str% "." then
          if p = str% "(" then do
            let ((args, lit), ts) ← pArgs pkgs n ts'
            let c ← mkCall pkgs (.id s) f args lit
            pPost pkgs n c ts
          else some (.pconst s f, .op p :: ts')
        else none
      | _ => none
    else match ts with
      | .op p :: ts' =>
        if p = str% "(" then do
          let ((args, lit), ts) ← pArgs pkgs n ts'
          match lit with
          | some _ => none
          | none => pPost pkgs n (.fcall s args) ts
        else pPost pkgs n (.id s) ts
      | ts => some (.id s, ts)
  | _, _ => none
/-- A composite literal or a conversion, after its type. -/
def pTyped (pkgs : List Str) : Nat → Ty → P T
  | 0, _, _ => none
  | n + 1, t, .op o :: ts =>
    if o = str% "{" then do
      let (l, ts) ← pElems pkgs n ts
      pPost pkgs n (.comp t l) ts
    else if o = str% "(" then do
      let (e, ts) ← pBin pkgs n 1 ts
      let (_, ts) ← tok (isOp (str% ")")) ts
      pPost pkgs n (.conv t e) ts
    else none
  | _, _, _ => none
/-- Method calls, indices, slices after an operand. -/
def pPost (pkgs : List Str) : Nat → T → P T
  | 0, _, _ => none
  | n + 1, e, .op o :: ts =>
    if o = str% "." then
      match ts with
      | .id m :: ts => do
        let (_, ts) ← tok (isOp (str% "(")) ts
        let ((args, lit), ts) ← pArgs pkgs n ts
        let c ← mkCall pkgs e m args lit
        pPost pkgs n c ts
      | _ => none
    else if o = str% "[" then do
      let (i, ts) ← pBin pkgs n 1 ts
      match tok (isOp (str% ":")) ts with
      | some (_, ts) => do
        let (_, ts) ← tok (isOp (str% "]")) ts
        pPost pkgs n (.sliceFrom e i) ts
      | none => do
        let (_, ts) ← tok (isOp (str% "]")) ts
        pPost pkgs n (.index e i) ts
    else some (e, .op o :: ts)
  | _ + 1, e, ts => some (e, ts)
/-- Arguments up to the closing parenthesis; a function literal only as the last. -/
def pArgs (pkgs : List Str) : Nat → P (T × Option (List (Str × Ty) × T))
  | 0, _ => none
  | n + 1, ts =>
    match tok (isOp (str% ")")) ts with
    | some (_, ts) => some ((.nil, none), ts)
    | none =>
      match tok (isId (str% "func")) ts with
      | some (_, ts) => do
        let (_, ts) ← tok (isOp (str% "(")) ts
        let (ps, ts) ← pParams n ts
        let ts ← (match tok (isOp (str% "{")) ts with
          | some _ => some ts
          | none => (pTy n ts).map (·.2))
        let (b, ts) ← pBlock pkgs n ts
        let (_, ts) ← tok (isOp (str% ")")) ts
        return ((.nil, some (ps, b)), ts)
      | none => do
        let (e, ts) ← pBin pkgs n 1 ts
        match comma ts with
        | some ts => do
          let ((l, lit), ts) ← pArgs pkgs n ts
          return ((.cons e l, lit), ts)
        | none => do
          let (_, ts) ← tok (isOp (str% ")")) ts
          return ((.cons e .nil, none), ts)
/-- The elements of a composite literal, up to and including the closing brace. -/
def pElems (pkgs : List Str) : Nat → P T
  | 0, _ => none
  | n + 1, ts =>
    match tok (isOp (str% "}")) ts with
    | some (_, ts) => some (.nil, ts)
    | none => do
      let (e, ts) ← pBin pkgs n 1 ts
      let (e, ts) ← (match tok (isOp (str% ":")) ts with
        | some (_, ts) => (pBin pkgs n 1 ts).map fun (v, ts) => (T.kv e v, ts)
        | none => some (e, ts))
      match comma ts with
      | some ts => do
        let (l, ts) ← pElems pkgs n ts
        return (.cons e l, ts)
      | none => do
        let (_, ts) ← tok (isOp (str% "}")) ts
        return (.cons e .nil, ts)
/-- Expressions with commas between them. -/
def pExs (pkgs : List Str) : Nat → P T
  | 0, _ => none
  | n + 1, ts => do
    let (e, ts) ← pBin pkgs n 1 ts
    match comma ts with
    | some ts => do
      let (l, ts) ← pExs pkgs n ts
      return (.cons e l, ts)
    | none => some (.cons e .nil, ts)
/-- An expression statement, an assignment, or an increment. -/
def pSimple (pkgs : List Str) : Nat → P T
  | 0, _ => none
  | n + 1, ts => do
    let (l, ts) ← pExs pkgs n ts
    match ts with
    | .op o :: ts' =>
      if assignOps.contains o then do
        let (r, ts) ← pExs pkgs n ts'
        return (.assign o l r, ts)
      else match l with
        | .cons e .nil => if o = str% "++" || o = str% "--" then some (.inc o e, ts') else some (.expr e, ts)
        | _ => none
    | ts => match l with
      | .cons e .nil => some (.expr e, ts)
      | _ => none
/-- The statements of a block up to its closing brace, or of a clause up to the next one. -/
def pStmts (pkgs : List Str) : Nat → P T
  | 0, _ => none
  | n + 1, ts =>
    match ts with
    | .op o :: ts' =>
      if o = str% "}" then some (.nil, ts)
      else do
        let (s, ts) ← pSimple pkgs n (.op o :: ts')
        let (_, ts) ← semi ts
        let (r, ts) ← pStmts pkgs n ts
        return (.cons s r, ts)
    | .semi :: ts => pStmts pkgs n ts
    | .id k :: ts' =>
      if k = str% "case" || k = str% "default" then some (.nil, ts)
      else do
        let (s, ts) ← pStmt pkgs n k ts'
        let (_, ts) ← semi ts
        let (r, ts) ← pStmts pkgs n ts
        return (.cons s r, ts)
    | _ => none
/-- A statement that starts with this word. -/
def pStmt (pkgs : List Str) : Nat → Str → P T
  | 0, _, _ => none
  | n + 1, k, ts =>
    if k = str% "var" then do
      let (x, ts) ← name ts
      let (t, ts) ← pTy n ts
      return (.var x t, ts)
    else if k = str% "return" then
      match semi ts with
      | some _ => some (.ret .nil, ts)
      | none => (pBin pkgs n 1 ts).map fun (e, ts) => (.ret e, ts)
    else if k = str% "continue" then some (.cont, ts)
    else if k = str% "defer" then (pBin pkgs n 1 ts).map fun (e, ts) => (.defer e, ts)
    else if k = str% "if" then pIf pkgs n ts
    else if k = str% "switch" then do
      let (e, ts) ← pBin pkgs n 1 ts
      let (_, ts) ← tok (isOp (str% "{")) ts
      let (c, ts) ← pClauses pkgs n ts
      return (.switch e c, ts)
    else if k = str% "for" then pFor pkgs n ts
    else if keywords.contains k then none
    else pSimple pkgs n (.id k :: ts)
/-- `{ … }` -/
def pBlock (pkgs : List Str) : Nat → P T
  | 0, _ => none
  | n + 1, ts => do
    let (_, ts) ← tok (isOp (str% "{")) ts
    let (b, ts) ← pStmts pkgs n ts
    let (_, ts) ← tok (isOp (str% "}")) ts
    return (b, ts)
/-- The rest of an `if`. -/
def pIf (pkgs : List Str) : Nat → P T
  | 0, _ => none
  | n + 1, ts => do
    let (c, ts) ← pBin pkgs n 1 ts
    let (a, ts) ← pBlock pkgs n ts
    match tok (isId (str% "else")) ts with
    | none => some (.ifs c a .nil, ts)
    | some (_, ts) =>
      match tok (isId (str% "if")) ts with
      | some (_, ts) => do
        let (b, ts) ← pIf pkgs n ts
        return (.ifs c a (.cons b .nil), ts)
      | none => do
        let (b, ts) ← pBlock pkgs n ts
        return (.ifs c a b, ts)
/-- The clauses of a `switch`, up to and including its closing brace. -/
def pClauses (pkgs : List Str) : Nat → P T
  | 0, _ => none
  | n + 1, ts =>
    match ts with
    | .op o :: ts => if o = str% "}" then some (.nil, ts) else none
    | .id k :: ts =>
      if k = str% "case" then do
        let (e, ts) ← pBin pkgs n 1 ts
        let (_, ts) ← tok (isOp (str% ":")) ts
        let (b, ts) ← pStmts pkgs n ts
        let (r, ts) ← pClauses pkgs n ts
        return (.cons (.case e b) r, ts)
      else if k = str% "default" then do
        let (_, ts) ← tok (isOp (str% ":")) ts
        let (b, ts) ← pStmts pkgs n ts
        let (r, ts) ← pClauses pkgs n ts
        return (.cons (.default b) r, ts)
      else none
    | _ => none
/-- The rest of a `for`. -/
def pFor (pkgs : List Str) : Nat → P T
  | 0, _ => none
  | n + 1, ts =>
    match ts with
    | .id x :: .op a :: .id r :: ts' =>
      if a = str% ":=" && r = str% "range" then do
        let (e, ts) ← pBin pkgs n 1 ts'
        let (b, ts) ← pBlock pkgs n ts
        return (.range x (str% "_") e b, ts)
      else if a = str% "," then
        match ts' with
        | .op d :: .id q :: ts' =>
          if d = str% ":=" && q = str% "range" then do
            let (e, ts) ← pBin pkgs n 1 ts'
            let (b, ts) ← pBlock pkgs n ts
            return (.range x r e b, ts)
          else none
        | _ => none
      else pFor3 pkgs n ts
    | ts => pFor3 pkgs n ts
/-- The rest of a `for` with three parts. -/
def pFor3 (pkgs : List Str) : Nat → P T
  | 0, _ => none
  | n + 1, ts => do
    let (i, ts) ← pSimple pkgs n ts
    let (_, ts) ← semi ts
    let (c, ts) ← pBin pkgs n 1 ts
    let (_, ts) ← semi ts
    let (p, ts) ← pSimple pkgs n ts
    let (b, ts) ← pBlock pkgs n ts
    return (.for i c p b, ts)
end

/-- No function of a file is longer or deeper than this. -/
def fuel : Nat := 1000

/-- A function, after the keyword `func`. -/
def pFunc (pkgs : List Str) : P Top := fun ts => do
  let (f, ts) ← name ts
  let (_, ts) ← tok (isOp (str% "(")) ts
  let (ps, ts) ← pParams fuel ts
  let (rs, ts) ← (match tok (isOp (str% "(")) ts with
    | some (_, ts) => pParams fuel ts
    | none => some ([], ts))
  let (b, ts) ← pBlock pkgs fuel ts
  return (.func f ps rs b, ts)

/-- The specifications of `var ( … )`, up to the closing parenthesis. -/
def pVars : Nat → P (List Top)
  | 0, _ => none
  | n + 1, ts =>
    match tok (isOp (str% ")")) ts with
    | some (_, ts) => some ([], ts)
    | none => do
      let (x, ts) ← name ts
      let (t, ts) ← pTy n ts
      let (_, ts) ← semi ts
      let (l, ts) ← pVars n ts
      return (.var x t :: l, ts)

/-- All declarations. -/
def pTops (pkgs : List Str) : Nat → List Tok → Option (List Top)
  | 0, _ => none
  | _ + 1, [] => some []
  | n + 1, .id k :: ts =>
    if k = str% "func" then do
      let (d, ts) ← pFunc pkgs ts
      let (_, ts) ← semi ts
      let l ← pTops pkgs n ts
      return d :: l
    else if k = str% "var" then do
      let (_, ts) ← tok (isOp (str% "(")) ts
      let (d, ts) ← pVars fuel ts
      let (_, ts) ← semi ts
      let l ← pTops pkgs n ts
      return d ++ l
    else none
  | _, _ => none

/-- The paths of `import ( … )`, up to the closing parenthesis. -/
def pImports : Nat → P (List Str)
  | 0, _ => none
  | n + 1, ts =>
    match ts with
    | .str s :: .semi :: ts => (pImports n ts).map fun (l, ts) => ((s.drop 1).dropLast :: l, ts)
    | ts => (tok (isOp (str% ")")) ts).map fun (_, ts) => ([], ts)

/-- The packages of the standard library and jennifer, by import path; the name of a package is the last element of its path. -/
def known : List (Str × Str) :=
  [(str% "bytes", str% "bytes"), (str% "fmt", str% "fmt"), (str% "regexp", str% "regexp"), (str% "strconv", str% "strconv"),
   (str% "strings", str% "strings"), (str% "github.com/dave/jennifer/jen", str% "jen"), (str% "flag", str% "flag"),
   (str% "io/ioutil", str% "ioutil"), (str% "os", str% "os"), (str% "path/filepath", str% "filepath")]

/-- The names that `:=` declares. -/
def lhsNames : T → List Str
  | .cons (.id x) r => x :: lhsNames r
  | .cons _ r => lhsNames r
  | _ => []

/-- The names declared inside a tree. -/
def T.declares : T → List Str
  | .cons a r => a.declares ++ r.declares
  | .mfunc e _ args ps b => e.declares ++ args.declares ++ ps.map (·.1) ++ b.declares
  | .mcall e _ args => e.declares ++ args.declares
  | .pcall _ _ args => args.declares
  | .fcall _ args => args.declares
  | .expr e => e.declares
  | .assign _ l r => lhsNames l ++ l.declares ++ r.declares
  | .var x _ => [x]
  | .ret e => e.declares
  | .ifs c a b => c.declares ++ a.declares ++ b.declares
  | .for i c p b => i.declares ++ c.declares ++ p.declares ++ b.declares
  | .range k v e b => k :: v :: e.declares ++ b.declares
  | .switch e c => e.declares ++ c.declares
  | .case e b => e.declares ++ b.declares
  | .default b => b.declares
  | .defer e => e.declares
  | .index e i => e.declares ++ i.declares
  | .sliceFrom e i => e.declares ++ i.declares
  | .un _ e => e.declares
  | .bin _ a b => a.declares ++ b.declares
  | .conv _ e => e.declares
  | .comp _ l => l.declares
  | .new _ l => l.declares
  | .kv k e => k.declares ++ e.declares
  | _ => []

/-- The names a declaration declares. -/
def Top.declares : Top → List Str
  | .var x _ => [x]
  | .func f ps rs b => f :: ps.map (·.1) ++ rs.map (·.1) ++ b.declares

/-- Names the language gives a meaning, which no declaration may take over. -/
def reserved : List Str := [str% "nil", str% "true", str% "false", str% "string", str% "byte", str% "error", str% "int"]

/-- A file of package `main`, from its lines. -/
def parse (ls : List Str) : Option (List Top) := do
  let ts := noComments (lexLines false ls)
  let (_, ts) ← tok (isId (str% "package")) ts
  let (_, ts) ← tok (isId (str% "main")) ts
  let (_, ts) ← semi ts
  let (_, ts) ← tok (isId (str% "import")) ts
  let (_, ts) ← tok (isOp (str% "(")) ts
  let (paths, ts) ← pImports fuel ts
  let (_, ts) ← semi ts
  let pkgs ← paths.mapM fun p => known.lookup p
  let tops ← pTops pkgs fuel ts
  if (tops.flatMap Top.declares).any fun x => pkgs.contains x || reserved.contains x then none
  return tops

end Crunch.Gen.Go
