import Verif.Src.Core
/-! Prints the resolved syntax of the functions of a Go file, one line each: the name, a tab, a term. -/
open Crunch.Src Crunch.Gen Crunch

def pStr (s : Str) : String := "(str% \"" ++ String.fromUTF8! ⟨s.toArray⟩ ++ "\")"
def pK : K → String
  | .i16 => ".i16" | .i32 => ".i32" | .i64 => ".i64" | .u8 => ".u8" | .u16 => ".u16" | .u32 => ".u32" | .u64 => ".u64"
  | .f32 => ".f32" | .f64 => ".f64"
def pO : Option K → String
  | none => "none"
  | some k => "some " ++ pK k
def pB : Bop → String
  | .add => ".add" | .sub => ".sub" | .mul => ".mul" | .div => ".div" | .rem => ".rem" | .and => ".and" | .or => ".or"
  | .xor => ".xor" | .shl => ".shl" | .shr => ".shr" | .lt => ".lt" | .le => ".le" | .gt => ".gt" | .ge => ".ge" | .eq => ".eq"
  | .ne => ".ne"
def pF : Field → String
  | .off => ".off" | .cap => ".cap" | .boff => ".boff" | .bcap => ".bcap"
def c (f : String) (l : List String) : String := "(" ++ f ++ String.join (l.map (" " ++ ·)) ++ ")"
def pE : E → String
  | .nil => ".nil"
  | .cons a b => c ".cons" [pE a, pE b]
  | .lit n => c ".lit" [toString n]
  | .bool b => c ".bool" [toString b]
  | .var i => c ".var" [toString i]
  | .field f => c ".field" [pF f]
  | .buf => ".buf"
  | .out => ".out"
  | .outPtr => ".outPtr"
  | .bin o a b => c ".bin" [pB o, pE a, pE b]
  | .compl e => c ".compl" [pE e]
  | .conv k e => c ".conv" [pK k, pE e]
  | .bits k e => c ".bits" [pK k, pE e]
  | .len e => c ".len" [pE e]
  | .cap e => c ".cap" [pE e]
  | .index a b => c ".index" [pE a, pE b]
  | .sliceFrom a b => c ".sliceFrom" [pE a, pE b]
  | .slice a b d => c ".slice" [pE a, pE b, pE d]
  | .make a => c ".make" [pE a]
  | .makeCap a b => c ".makeCap" [pE a, pE b]
  | .makeT k a => c ".makeT" [pK k, pE a]
  | .bytes a => c ".bytes" [pE a]
  | .append a b => c ".append" [pE a, pE b]
  | .call f a => c ".call" [pStr f, pE a]
  | .assert k e => c ".assert" [pK k, pE e]
  | .uint k o e => c ".uint" [pK k, pE o, pE e]
  | .own a => c ".own" [pE a]
def pS : S → String
  | .nil => ".nil"
  | .cons a b => c ".cons" [pS a, pS b]
  | .set i e => c ".set" [toString i, pE e]
  | .zero i k => c ".zero" [toString i, pK k]
  | .setField f e => c ".setField" [pF f, pE e]
  | .setBuf e => c ".setBuf" [pE e]
  | .setBufAt i e => c ".setBufAt" [pE i, pE e]
  | .setAt x i e => c ".setAt" [toString x, pE i, pE e]
  | .setOut e => c ".setOut" [pE e]
  | .nilBytes i => c ".nilBytes" [toString i]
  | .setOutAs k i e => c ".setOutAs" [pK k, pE i, pE e]
  | .put k o x e => c ".put" [pK k, pE o, toString x, pE e]
  | .setOutAt i e => c ".setOutAt" [pE i, pE e]
  | .new a b d e f => c ".new" [pE a, pE b, pE d, pE e, pE f]
  | .copy a b => c ".copy" [pE a, pE b]
  | .expr e => c ".expr" [pE e]
  | .callAddr f x a => c ".callAddr" [pStr f, toString x, pE a]
  | .ret e => c ".ret" [pE e]
  | .retNone => ".retNone"
  | .panic e => c ".panic" [pStr e]
  | .ifs a b d => c ".ifs" [pE a, pS b, pS d]
  | .block l b => c ".block" [pStr l, pS b]
  | .goto l => c ".goto" [pStr l]
  | .brk => ".brk"
  | .switch e b => c ".switch" [pE e, pS b]
  | .case n b => c ".case" [toString n, pS b]
  | .default b => c ".default" [pS b]
  | .lock => ".lock"
  | .unlock => ".unlock"
  | .deferUnlock => ".deferUnlock"
  | .rangeVal x e b => c ".rangeVal" [toString x, pE e, pS b]
  | .rangeIdx x e b => c ".rangeIdx" [toString x, pE e, pS b]
  | .for a b d e => c ".for" [pS a, pE b, pS d, pS e]

def main (args : List String) : IO Unit := do
  let t ← IO.FS.readFile args[0]!
  match parse (splitLines t.toUTF8.toList) with
  | none => throw (IO.userError "no parse")
  | some l =>
    for x in l do
      match x with
      | .func d =>
        match resolve d with
        | some f => IO.println (String.fromUTF8! ⟨f.name.toArray⟩ ++ "\t⟨" ++ pStr f.name ++ ", [" ++ ", ".intercalate (f.params.map pO) ++ "], " ++
            pO f.result ++ ", " ++ toString f.vars ++ ", " ++ pS f.body ++ "⟩")
        | none => pure ()
      | _ => pure ()
