import Verif.Gen.Text

/-!
# The tokens of a Go text

Two texts with the same tokens differ only in layout.  The rules are those of the Go specification (Lexical elements), for
the texts that occur here: decimal and hexadecimal numbers, strings without escapes.  Comments are kept as tokens.
-/

namespace Crunch.Gen

/-- A token. -/
inductive Tok where
  /-- an identifier or keyword -/
  | id (s : Str)
  /-- a number -/
  | num (s : Str)
  /-- a string literal, with its quotes -/
  | str (s : Str)
  /-- an operator or punctuation -/
  | op (s : Str)
  /-- a comment, or the part of one on a line -/
  | comment (s : Str)
  /-- a semicolon inserted at the end of a line -/
  | semi
deriving DecidableEq, Repr

/-- The lines of a text; a final newline gives a last, empty, line. -/
def splitLines : Str → List Str
  | [] => [[]]
  | c :: t =>
    if c = nl then [] :: splitLines t
    else match splitLines t with
      | [] => [[c]]
      | l :: ls => (c :: l) :: ls

def isLetter (n : Nat) : Bool := (97 ≤ n && n ≤ 122) || (65 ≤ n && n ≤ 90) || n == 95
def isDigit (n : Nat) : Bool := 48 ≤ n && n ≤ 57
def isWord (c : UInt8) : Bool := isLetter c.toNat || isDigit c.toNat

/-- Operators of two characters. -/
def ops2 : List Str :=
  [str% ":=", str% "<<", str% ">>", str% "++", str% "--", str% "==", str% "!=", str% "<=", str% ">=", str% "&&", str% "||",
   str% "&^", str% "+=", str% "-=", str% "*=", str% "|=", str% "&=", str% "^="]

/-- Operators of three characters. -/
def ops3 : List Str := [str% "...", str% "<<=", str% ">>=", str% "&^="]

/-- The keywords after which no semicolon is inserted. -/
def keywords : List Str :=
  [str% "case", str% "chan", str% "const", str% "default", str% "defer", str% "else", str% "for", str% "func", str% "go",
   str% "goto", str% "if", str% "import", str% "interface", str% "map", str% "package", str% "range", str% "select",
   str% "struct", str% "switch", str% "type", str% "var"]

/-- Whether a line ending after the token ends a statement. -/
def Tok.ends : Tok → Bool
  | .id s => !keywords.contains s
  | .num _ => true
  | .str _ => true
  | .op s => s == str% ")" || s == str% "]" || s == str% "}" || s == str% "++" || s == str% "--"
  | .comment _ => false
  | .semi => false

/-- The text up to and including the next `*/`, and the rest; the whole text if there is none. -/
def closing : Str → Str × Option Str
  | [] => ([], none)
  | c :: t =>
    if c.toNat = 42 ∧ t.head? = some 47 then ([c, 47], some t.tail)
    else ((c :: (closing t).1), (closing t).2)

/-- The tokens of (the rest of) a line, and whether the line ends inside a comment `/* … */`.  `ends`: the line so far would get
a semicolon. -/
def lexLine : Nat → Bool → Str → List Tok × Bool
  | 0, _, _ => ([], false)
  | _ + 1, ends, [] => (if ends then [.semi] else [], false)
  | fuel + 1, ends, c :: t =>
    let n := c.toNat
    if n == 32 || n == 9 || n == 13 then lexLine fuel ends t
    else if isLetter n then
      let tok := Tok.id (c :: t.takeWhile isWord)
      let r := lexLine fuel tok.ends (t.dropWhile isWord)
      (tok :: r.1, r.2)
    else if isDigit n then
      let r := lexLine fuel true (t.dropWhile isWord)
      (.num (c :: t.takeWhile isWord) :: r.1, r.2)
    else if n == 34 then
      let r := lexLine fuel true (t.dropWhile (·.toNat != 34)).tail
      (.str (c :: t.takeWhile (·.toNat != 34) ++ [34]) :: r.1, r.2)
    else if n == 47 && t.head? == some 47 then (.comment (c :: t) :: if ends then [.semi] else [], false)
    else if n == 47 && t.head? == some 42 then
      match closing t.tail with
      | (s, some rest) =>
        let r := lexLine fuel ends rest
        (.comment (c :: 42 :: s) :: r.1, r.2)
      | (s, none) => (.comment (c :: 42 :: s) :: if ends then [.semi] else [], true)
    else if ops3.contains (c :: t.take 2) then
      let r := lexLine fuel false (t.drop 2)
      (.op (c :: t.take 2) :: r.1, r.2)
    else if ops2.contains (c :: t.take 1) then
      let tok := Tok.op (c :: t.take 1)
      let r := lexLine fuel tok.ends (t.drop 1)
      (tok :: r.1, r.2)
    else
      let tok := Tok.op [c]
      let r := lexLine fuel tok.ends t
      (tok :: r.1, r.2)

/-- The tokens of a line that starts inside a comment `/* … */` iff `inside`. -/
def lexFrom (inside : Bool) (l : Str) : List Tok × Bool :=
  if inside then
    match closing l with
    | (s, some rest) =>
      let r := lexLine (rest.length + 1) false rest
      (.comment s :: r.1, r.2)
    | (s, none) => ([.comment s], true)
  else lexLine (l.length + 1) false l

/-- The tokens of a text given as its lines. -/
def lexLines : Bool → List Str → List Tok
  | _, [] => []
  | inside, l :: ls => (lexFrom inside l).1 ++ lexLines (lexFrom inside l).2 ls

/-- The tokens of a text. -/
def lex (s : Str) : List Tok := lexLines false (splitLines s)

end Crunch.Gen
