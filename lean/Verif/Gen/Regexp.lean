import Verif.Gen.Text

/-!
# The part of Go's `regexp` the generator uses

A pattern is a sequence of atoms; `[lo-hi]{1,}` in parentheses is one capturing atom.  Matching is Go's: the leftmost
match is taken, repetitions take as much as possible and give back on failure, `^` and `$` with flag `m` look at the
neighbouring bytes.  This models the standard library, restricted to such patterns; ASCII classes only, so working on
bytes instead of runes makes no difference.
-/

namespace Crunch.Gen

/-- One item of a pattern. -/
inductive Atom where
  /-- `^` with flag `m`: at the start of the text or after a newline -/
  | bol
  /-- `$` with flag `m`: at the end of the text or before a newline -/
  | eol
  /-- a literal byte -/
  | byte (c : UInt8)
  /-- `([lo-hi]{1,})`, capturing -/
  | run (lo hi : UInt8)
deriving DecidableEq, Repr

/-- The bytes of a class. -/
def inClass (lo hi c : UInt8) : Bool := lo ≤ c && c ≤ hi

/-- The first of `k n`, `k (n-1)`, …, `k 1` that succeeds. -/
def longest (k : Nat → Option α) : Nat → Option α
  | 0 => none
  | n + 1 => match k (n + 1) with
    | some a => some a
    | none => longest k n

/-- Matches a pattern at the start of the text `s`, with `prev` the byte before it: the captured texts and what follows the
match. -/
def matchSeq : List Atom → Option UInt8 → Str → Option (List Str × Str)
  | [], _, s => some ([], s)
  | .bol :: p, prev, s => if prev = none ∨ prev = some nl then matchSeq p prev s else none
  | .eol :: p, prev, s => if s = [] ∨ s.head? = some nl then matchSeq p prev s else none
  | .byte c :: p, _, s => if s.head? = some c then matchSeq p (some c) s.tail else none
  | .run lo hi :: p, _, s => longest (fun n => (matchSeq p (s.take n).getLast? (s.drop n)).map fun (cs, r) => (s.take n :: cs, r))
      (s.takeWhile (inClass lo hi)).length

/-- `re.ReplaceAllFunc(src, f)` from a position on, with `prev` the byte before it: at each position, replace the match or copy a
byte.  (An empty match is not replaced; no pattern used here has one.) -/
def replaceFrom (p : List Atom) (f : Str → Str) (prev : Option UInt8) (s : Str) : Str :=
  match matchSeq p prev s with
  | some (_, rest) =>
    if rest.length < s.length then
      f (s.take (s.length - rest.length)) ++ replaceFrom p f (s.take (s.length - rest.length)).getLast? rest
    else match s with
      | [] => []
      | c :: t => c :: replaceFrom p f (some c) t
  | none => match s with
    | [] => []
    | c :: t => c :: replaceFrom p f (some c) t
termination_by s.length

/-- `re.ReplaceAllFunc(src, f)` -/
def replaceAll (p : List Atom) (f : Str → Str) (src : Str) : Str := replaceFrom p f none src

/-- The captured texts of the leftmost match from a position on. -/
def findFrom (p : List Atom) (prev : Option UInt8) : Str → Option (List Str)
  | [] => (matchSeq p prev []).map (·.1)
  | c :: t => match matchSeq p prev (c :: t) with
    | some (cs, _) => some cs
    | none => findFrom p (some c) t

/-- `re.FindAllStringSubmatch(s, -1)[0][1:]`, `none` if there is no match (the index then panics) -/
def findFirst (p : List Atom) (s : Str) : Option (List Str) := findFrom p none s

end Crunch.Gen
