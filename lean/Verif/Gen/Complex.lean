import Verif.Gen.Regexp
import Verif.Gen.Jen

/-!
# generation/complex.go

`GenerateComplex` replaces every directive of a file by two Go functions.  Progress messages (`fmt.Println`) are left out.
`int` arithmetic is on numbers up to 64 here, so natural numbers are used.
-/

namespace Crunch.Gen
open Jen

/-- generation/complex.go:78,
`(?m)^\/\/generator:complex ([A-z]{1,}) ([A-z]{1,}) ([A-z]{1,}) ([0-9]{1,}) ([A-z]{1,})$` -/
def magicCommentRegex : List Atom :=
  [.bol] ++ (str% "//generator:complex ").map .byte ++
  [.run 65 122, .byte 32, .run 65 122, .byte 32, .run 65 122, .byte 32, .run 48 57, .byte 32, .run 65 122, .eol]

/-- Indexing a Go map with string values: the zero value when the key is missing. -/
def lookup (m : List (Str × Str)) (k : Str) : Str := (m.lookup k).getD []

/-- `strconv.Atoi` of a string of digits. -/
def atoi (s : Str) : Nat := s.foldl (fun n c => n * 10 + (c.toNat - 48)) 0

/-- The values of `for i := hi; i > lo; i--`. -/
def down (hi lo : Nat) : List Nat := ((List.range (hi - lo)).map (lo + 1 + ·)).reverse
/-- The values of `for i := lo; i < hi; i++`. -/
def up (lo hi : Nat) : List Nat := (List.range (hi - lo)).map (lo + ·)

/-- generation/complex.go:118-128 -/
def intType (a2 a3 : Str) : Str :=
  join [] [lookup [(str% "I", str% "int"), (str% "U", str% "uint"), (str% "F", str% "float")] a2, a3]
/-- generation/complex.go:130-135 -/
def intBytes (a3 : Str) : Nat := atoi a3 / 8
/-- generation/complex.go:136 -/
def functionName (a1 a2 a3 a4 : Str) : Str := join [] [a1, a2, a3, a4]
/-- generation/complex.go:137 -/
def functionNameNext (a1 a2 a3 a4 : Str) : Str := join [] [functionName a1 a2 a3 a4, str% "Next"]

/-- generation/complex.go:147-150 (and 397-400) -/
def verb (a1 : Str) : Str := lookup [(str% "Read", str% "reads"), (str% "Write", str% "writes")] a1
/-- generation/complex.go:154-157 (and 404-407) -/
def preposition (a1 : Str) : Str := lookup [(str% "Read", str% "from"), (str% "Write", str% "to")] a1
/-- generation/complex.go:162-165 (and 412-415) -/
def order (a4 : Str) : Str := lookup [(str% "BE", str% "big-endian"), (str% "LE", str% "little-endian")] a4

/-- generation/complex.go:142-167, the comment of the first function -/
def comment (a1 a2 a3 a4 : Str) : Code :=
  Comment (join [] [str% "// ", functionName a1 a2 a3 a4, str% " ", verb a1, str% " a slice of ", intType a2 a3, str% "s ",
    preposition a1, str% " the buffer at the\n"]) ++
  Comment (join [] [str% "// specified offset in ", order a4, str% " without modifying the internal\n"]) ++
  Comment (str% "// offset value\n")

/-- generation/complex.go:170-185, parameters and results of the first function -/
def signature (a0 a1 a2 a3 : Str) : Code :=
  if a1 = str% "Write" then
    Params [Id (str% "off") ++ Id (str% "int64"), Id (str% "data") ++ Index [] ++ Id (intType a2 a3)]
  else if a1 = str% "Read" then
    if a0 = str% "Buffer" then
      Params [Id (str% "off"), Id (str% "n") ++ Id (str% "int64")] ++ Params [Id (str% "out") ++ Index [] ++ Id (intType a2 a3)]
    else
      Params [Id (str% "out") ++ Op (str% "*") ++ Index [] ++ Id (intType a2 a3), Id (str% "off"), Id (str% "n") ++ Id (str% "int64")]
  else []

/-- `if c { panic(e) }` -/
def guard (c : Code) (e : Str) : Code := If c ++ Block [Panic (Id e)]

/-- generation/complex.go:188-201, the range checks -/
def guards (a0 a1 a3 : Str) : List Code :=
  if a0 = str% "Buffer" then
    if a1 = str% "Read" then
      [guard (Parens (Id (str% "off") ++ Op (str% "+") ++ Id (str% "n") ++ Op (str% "*") ++ Lit (intBytes a3)) ++ Op (str% ">") ++
         Id (str% "b") ++ Dot (str% "cap")) (str% "BufferOverreadError"),
       guard (Id (str% "off") ++ Op (str% "<") ++ Lit 0) (str% "BufferUnderreadError")]
    else
      [guard (Parens (Id (str% "off") ++ Op (str% "+") ++ Id (str% "int64") ++ Call [Len (Id (str% "data"))] ++ Op (str% "*") ++
         Lit (intBytes a3)) ++ Op (str% ">") ++ Id (str% "b") ++ Dot (str% "cap")) (str% "BufferOverwriteError"),
       guard (Id (str% "off") ++ Op (str% "<") ++ Lit 0) (str% "BufferUnderwriteError")]
  else []

/-- `b.buf[c]` -/
def bufAt (c : Code) : Code := Id (str% "b") ++ Dot (str% "buf") ++ Index c
/-- `(i*w)` -/
def elemPos (w : Nat) : Code := Parens (Id (str% "i") ++ Op (str% "*") ++ Lit w)
/-- `t(b.buf[off+(i*w)])`, the read of the first byte of an element -/
def byte0 (t : Str) (w : Nat) : Code := Id t ++ Call [bufAt (Id (str% "off") ++ Op (str% "+") ++ elemPos w)]
/-- `t(b.buf[off+(k+(i*w))])`, the read of byte `k` of an element -/
def byteK (t : Str) (w k : Nat) : Code :=
  Id t ++ Call [bufAt (Id (str% "off") ++ Op (str% "+") ++ Parens (Lit k ++ Op (str% "+") ++ elemPos w))]

/-- generation/complex.go:227-237 (and, with the same calls, 268-279): the bytes of an element, most significant first in memory -/
def chainBE (t : Str) (w : Nat) : Code :=
  (down (w - 1) 0).flatMap (fun i =>
    byteK t w i ++ (if i < w - 1 then Op (str% "<<") ++ Lit ((w - i - 1) * 8) else []) ++ Op (str% "|")) ++
  byte0 t w ++ Op (str% "<<") ++ Lit ((w - 1) * 8)

/-- generation/complex.go:242-252 (and, with the same calls, 288-297): the bytes of an element, least significant first in memory -/
def chainLE (t : Str) (w : Nat) : Code :=
  byte0 t w ++ Op (str% "|") ++
  (up 1 w).flatMap (fun i =>
    byteK t w i ++ Op (str% "<<") ++ Lit (i * 8) ++ (if i < w - 1 then Op (str% "|") else []))

/-- generation/complex.go:282-283 (and 300-301): `*(*t)(unsafe.Pointer(&u))` -/
def fromBits (t : Str) : Code :=
  Op (str% "*") ++ Parens (Op (str% "*") ++ Id t) ++ Parens (Id (str% "unsafe") ++ Dot (str% "Pointer") ++
    Call [Op (str% "&") ++ Id (str% "u")])

/-- generation/complex.go:221-255, the assignment of the bits of a float -/
def readBits (a2 a3 a4 : Str) : List Code :=
  if a2 = str% "F" then
    if a4 = str% "BE" then [Id (str% "u") ++ Op (str% "=") ++ Call [chainBE (join [] [str% "uint", a3]) (intBytes a3)]]
    else if a4 = str% "LE" then [Id (str% "u") ++ Op (str% "=") ++ Call [chainLE (join [] [str% "uint", a3]) (intBytes a3)]]
    else [Id (str% "u") ++ Op (str% "=")]
  else []

/-- generation/complex.go:257-303, the assignment of an element -/
def readElem (a0 a2 a3 a4 : Str) : Code :=
  (if a0 = str% "Buffer" then Id (str% "out") ++ Index (Id (str% "i"))
   else Parens (Op (str% "*") ++ Id (str% "out")) ++ Index (Id (str% "i"))) ++
  Op (str% "=") ++
  (if a4 = str% "BE" then
     if a2 = str% "U" ∨ a2 = str% "I" then chainBE (intType a2 a3) (intBytes a3)
     else if a2 = str% "F" then fromBits (intType a2 a3) else []
   else
     if a2 = str% "U" ∨ a2 = str% "I" then chainLE (intType a2 a3) (intBytes a3)
     else if a2 = str% "F" then fromBits (intType a2 a3) else [])

/-- generation/complex.go:304-306 (and 371-373): the end of the loop -/
def again (label : Str) : List Code :=
  [Id (str% "i") ++ Op (str% "++"),
   If (Id (str% "i") ++ Op (str% "<") ++ Id (str% "n")) ++ Block [Goto ++ Id label]]

/-- generation/complex.go:203-307, the body of a read -/
def readBody (a0 a2 a3 a4 : Str) : List Code :=
  (if a0 = str% "Buffer" then
     [Id (str% "out") ++ Op (str% "=") ++ Id (str% "make") ++ Call [Index [] ++ Id (intType a2 a3), Id (str% "n")]]
   else []) ++
  [Id (str% "i") ++ Op (str% ":=") ++ Id (str% "int64") ++ Call [Lit 0]] ++
  (if a2 = str% "F" then [Var ++ Id (str% "u") ++ Id (join [] [str% "uint", a3])] else []) ++
  [Block ([Id (str% "read_loop:")] ++ readBits a2 a3 a4 ++ [readElem a0 a2 a3 a4] ++ again (str% "read_loop"))]

/-- `*(*uintN)(unsafe.Pointer(&data[i]))` -/
def dataBits (a3 : Str) : Code :=
  Op (str% "*") ++ Parens (Op (str% "*") ++ Id (join [] [str% "uint", a3])) ++ Parens (Id (str% "unsafe") ++ Dot (str% "Pointer") ++
    Call [Op (str% "&") ++ Id (str% "data") ++ Index (Id (str% "i"))])

/-- The element written: generation/complex.go:318 (`data[i]`) or 330-331 (its bits) -/
def datum (a2 a3 : Str) : Code := if a2 = str% "F" then dataBits a3 else Id (str% "data") ++ Index (Id (str% "i"))

/-- `b.buf[off+int64(p)] = byte(v)` -/
def store (p v : Code) : Code :=
  bufAt (Id (str% "off") ++ Op (str% "+") ++ Id (str% "int64") ++ Call [p]) ++ Op (str% "=") ++ Id (str% "byte") ++ Call [v]
/-- `i*w` -/
def pos0 (w : Nat) : Code := Id (str% "i") ++ Op (str% "*") ++ Lit w
/-- `k+(i*w)` -/
def posK (w k : Nat) : Code := Lit k ++ Op (str% "+") ++ elemPos w

/-- generation/complex.go:314-370, the stores of an element; the branches for `U`/`I` and for `F` make the same calls with
another value -/
def writeElem (a2 a3 a4 : Str) : List Code :=
  let w := intBytes a3
  if a2 = str% "U" ∨ a2 = str% "I" ∨ a2 = str% "F" then
    if a4 = str% "BE" then
      [store (pos0 w) (datum a2 a3 ++ Op (str% ">>") ++ Lit ((w - 1) * 8))] ++
      (down (w - 1) 1).map (fun i => store (posK w (w - i)) (datum a2 a3 ++ Op (str% ">>") ++ Lit ((i - 1) * 8))) ++
      [store (posK w (w - 1)) (datum a2 a3)]
    else
      [store (pos0 w) (datum a2 a3)] ++
      (up 1 w).map (fun i => store (posK w i) (datum a2 a3 ++ Op (str% ">>") ++ Lit (i * 8)))
  else []

/-- generation/complex.go:308-374, the body of a write -/
def writeBody (a2 a3 a4 : Str) : List Code :=
  [Id (str% "i") ++ Op (str% ":=") ++ Lit 0,
   Id (str% "n") ++ Op (str% ":=") ++ Len (Id (str% "data")),
   Block ([Id (str% "write_loop:")] ++ writeElem a2 a3 a4 ++ again (str% "write_loop"))]

/-- generation/complex.go:187-380, the body of the first function -/
def body (a0 a1 a2 a3 a4 : Str) : Code :=
  Block (guards a0 a1 a3 ++ (if a1 = str% "Read" then readBody a0 a2 a3 a4 else writeBody a2 a3 a4) ++
    (if a0 = str% "Buffer" ∧ a1 = str% "Read" then [Return] else []))

/-- generation/complex.go:169 (and 418), `func (b *a0) name` -/
def header (a0 name : Str) : Code := Func ++ Params [Id (str% "b") ++ Op (str% "*") ++ Id a0] ++ Id name

/-- generation/complex.go:392-417, the comment of the second function -/
def commentNext (a1 a2 a3 a4 : Str) : Code :=
  Comment (join [] [str% "// ", functionNameNext a1 a2 a3 a4, str% " ", verb a1, str% " a slice of ", intType a2 a3, str% "s ",
    preposition a1, str% " the buffer at the\n"]) ++
  Comment (join [] [str% "// current offset in ", order a4, str% " and moves the offset forward the\n"]) ++
  Comment (str% "// amount of bytes written\n")

/-- generation/complex.go:419-427, parameters and results of the second function -/
def signatureNext (a0 a1 a2 a3 : Str) : Code :=
  if a1 = str% "Write" then Params [Id (str% "data") ++ Index [] ++ Id (intType a2 a3)]
  else if a1 = str% "Read" then
    if a0 = str% "Buffer" then Params [Id (str% "n") ++ Id (str% "int64")] ++ Params [Id (str% "out") ++ Index [] ++ Id (intType a2 a3)]
    else Params [Id (str% "out") ++ Op (str% "*") ++ Index [] ++ Id (intType a2 a3), Id (str% "n") ++ Id (str% "int64")]
  else []

/-- generation/complex.go:429-452, the body of the second function -/
def bodyNext (a0 a1 a2 a3 a4 : Str) : Code :=
  let call := Id (str% "b") ++ Dot (functionName a1 a2 a3 a4)
  Block (
    if a1 = str% "Write" then
      [call ++ Call [Id (str% "b") ++ Dot (str% "off"), Id (str% "data")],
       Id (str% "b") ++ Dot (str% "SeekByte") ++
         Call [Id (str% "int64") ++ Call [Len (Id (str% "data"))] ++ Op (str% "*") ++ Lit (intBytes a3), LitTrue]]
    else if a1 = str% "Read" then
      [if a0 = str% "Buffer" then Id (str% "out") ++ Op (str% "=") ++ call ++ Call [Id (str% "b") ++ Dot (str% "off"), Id (str% "n")]
       else call ++ Call [Id (str% "out"), Id (str% "b") ++ Dot (str% "off"), Id (str% "n")],
       Id (str% "b") ++ Dot (str% "SeekByte") ++ Call [Id (str% "n") ++ Op (str% "*") ++ Lit (intBytes a3), LitTrue]] ++
      (if a0 = str% "Buffer" then [Return] else [])
    else [])

/-- generation/complex.go:116-460, the two functions of a directive -/
def accessors (a0 a1 a2 a3 a4 : Str) : Str :=
  render (comment a1 a2 a3 a4 ++ header a0 (functionName a1 a2 a3 a4) ++ signature a0 a1 a2 a3 ++ body a0 a1 a2 a3 a4) ++
  str% "\n\n" ++
  render (commentNext a1 a2 a3 a4 ++ header a0 (functionNameNext a1 a2 a3 a4) ++ signatureNext a0 a1 a2 a3 ++ bodyNext a0 a1 a2 a3 a4)

/-- generation/complex.go:89-460, what a directive with these arguments becomes -/
def expand (a0 a1 a2 a3 a4 : Str) : Str :=
  if a0 ≠ str% "Buffer" ∧ a0 ≠ str% "MiniBuffer" then str% "// invalid argument provided in position zero:" ++ a0
  else if a1 ≠ str% "Read" ∧ a1 ≠ str% "Write" then str% "// invalid argument provided in position one:" ++ a1
  else if a2 ≠ str% "I" ∧ a2 ≠ str% "U" ∧ a2 ≠ str% "F" then str% "// invalid argument provided in position two:" ++ a2
  else if a3 ≠ str% "16" ∧ a3 ≠ str% "32" ∧ a3 ≠ str% "64" then str% "// invalid argument provided in position three:" ++ a3
  else if a4 ≠ str% "BE" ∧ a4 ≠ str% "LE" then str% "// invalid argument provided in position four:" ++ a4
  else accessors a0 a1 a2 a3 a4

/-- generation/complex.go:85-461, the function given to `ReplaceAllFunc`; the match it is given has five groups, so the other case
does not occur -/
def replacement (text : Str) : Str :=
  match findFirst magicCommentRegex text with
  | some [a0, a1, a2, a3, a4] => expand a0 a1 a2 a3 a4
  | _ => []

/-- generation/complex.go:77-464, on a map given as the list of its entries, in the order in which they are visited -/
def GenerateComplex (files : List (Str × Str)) : List (Str × Str) :=
  files.map fun (name, contents) => (name, replaceAll magicCommentRegex replacement contents)

end Crunch.Gen
