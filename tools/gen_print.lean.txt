import Verif.Gen.Go.Syntax
/-! Prints the syntax of the functions of a file of the generator as definitions, one line each: the name, a tab, a term.  Long
statements get a definition of their own. -/
open Crunch.Gen.Go Crunch.Gen

abbrev Pr := StateM (Array (String × String))

def esc (s : String) : String := ((s.replace "\\" "\\\\").replace "\"" "\\\"").replace "\n" "\\n"
def pStr (s : Str) : String := "(str% \"" ++ esc (String.fromUTF8! ⟨s.toArray⟩) ++ "\")"
def c (f : String) (l : List String) : String := "(" ++ f ++ String.join (l.map (" " ++ ·)) ++ ")"
def pTyp : Ty → String
  | .named s => c ".named" [pStr s]
  | .slice t => c ".slice" [pTyp t]
  | .ptr t => c ".ptr" [pTyp t]
  | .map k v => c ".map" [pTyp k, pTyp v]
def pPs (l : List (Str × Ty)) : String := "[" ++ ", ".intercalate (l.map fun (x, t) => "(" ++ pStr x ++ ", " ++ pTyp t ++ ")") ++ "]"

def hoist (p x : String) : Pr String := do
  modify (·.push (p, x))
  return p

mutual
partial def pT (path : String) : T → Pr String
  | .nil => return ".nil"
  | .cons a r => return c ".cons" [← pT path a, ← pT path r]
  | .id s => return c ".id" [pStr s]
  | .num n => return c ".num" [toString n]
  | .str s => return c ".str" [pStr s]
  | .index a b => return c ".index" [← pT path a, ← pT path b]
  | .sliceFrom a b => return c ".sliceFrom" [← pT path a, ← pT path b]
  | .un o a => return c ".un" [pStr o, ← pT path a]
  | .bin o a b => return c ".bin" [pStr o, ← pT path a, ← pT path b]
  | .fcall f a => return c ".fcall" [pStr f, ← pT path a]
  | .pcall p f a => return c ".pcall" [pStr p, pStr f, ← pT path a]
  | .pconst p f => return c ".pconst" [pStr p, pStr f]
  | .mcall e m a => return c ".mcall" [← pT path e, pStr m, ← pT path a]
  | .mfunc e m a ps b => return c ".mfunc" [← pT path e, pStr m, ← pT path a, pPs ps, ← hoist (path ++ "f") (← pB (path ++ "f") b)]
  | .conv t e => return c ".conv" [pTyp t, ← pT path e]
  | .comp t e => return c ".comp" [pTyp t, ← pT path e]
  | .new t e => return c ".new" [pTyp t, ← pT path e]
  | .kv k e => return c ".kv" [← pT path k, ← pT path e]
  | .expr e => return c ".expr" [← pT path e]
  | .assign o l r => return c ".assign" [pStr o, ← pT path l, ← pT path r]
  | .inc o e => return c ".inc" [pStr o, ← pT path e]
  | .var x t => return c ".var" [pStr x, pTyp t]
  | .ret e => return c ".ret" [← pT path e]
  | .ifs e a b => return c ".ifs" [← pT path e, ← pB (path ++ "a") a, ← pB (path ++ "b") b]
  | .for i e p b => return c ".for" [← pT path i, ← pT path e, ← pT path p, ← pB (path ++ "l") b]
  | .range k v e b => return c ".range" [pStr k, pStr v, ← pT path e, ← hoist (path ++ "r") (← pB (path ++ "r") b)]
  | .switch e cs => return c ".switch" [← pT path e, ← pB (path ++ "s") cs]
  | .case e b => return c ".case" [← pT path e, ← pB (path ++ "c") b]
  | .default b => return c ".default" [← pB (path ++ "d") b]
  | .defer e => return c ".defer" [← pT path e]
  | .cont => return ".cont"
partial def pB (path : String) (t : T) (i : Nat := 0) : Pr String :=
  match t with
  | .cons s r => do
    let p := path ++ toString i
    let x ← pT p s
    let x ← if x.length > 300 || p.length ≤ 8 || p.startsWith "m" then hoist p x else pure x
    return c ".cons" [x, ← pB path r (i + 1)]
  | t => pT path t
end

def main (args : List String) : IO Unit := do
  let ls := (← IO.FS.readFile args.head!).splitOn "\n"
  match parse (ls.map fun l => l.toUTF8.toList) with
  | none => throw (.userError "does not parse")
  | some tops =>
    for t in tops do
      match t with
      | .func f ps rs b =>
        let f := String.fromUTF8! ⟨f.toArray⟩
        let d := if f == "GenerateComplex" then "g" else f.take 1 |>.toString
        let (x, defs) := (pB d b).run #[]
        for (n, y) in defs do IO.println (n ++ "\t" ++ y)
        IO.println (d ++ "\t" ++ x)
        IO.println ("top " ++ f ++ "\t" ++ c ".func" [pStr f.toUTF8.toList, pPs ps, pPs rs, d])
      | .var x t => IO.println ("top\t" ++ c ".var" [pStr x, pTyp t])
