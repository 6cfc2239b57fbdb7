import Verif.Gen.Go.Syntax
import Verif.Gen.Go.ComplexText

/-!
# generation/complex.go: syntax

Written by tools/src_embed.py; `link` says that it is the syntax of the text.
-/

namespace Crunch.Gen.Go.Complex

/-- generation/complex.go:78 -/
def g0 : T := (.assign (str% ":=") (.cons (.id (str% "magicCommentRegex")) .nil) (.cons (.pcall (str% "regexp") (str% "MustCompile") (.cons (.str (str% "(?m)^\\/\\/generator:complex ([A-z]{1,}) ([A-z]{1,}) ([A-z]{1,}) ([0-9]{1,}) ([A-z]{1,})$")) .nil)) .nil))

/-- generation/complex.go:80 -/
def g1 : T := (.assign (str% "=") (.cons (.id (str% "files")) .nil) (.cons (.id (str% "oldFiles")) .nil))

/-- generation/complex.go:83 -/
def g2r0 : T := (.expr (.pcall (str% "fmt") (str% "Println") (.cons (.str (str% "* scanning")) (.cons (.id (str% "name")) .nil))))

/-- generation/complex.go:86 -/
def g2r1f0 : T := (.assign (str% ":=") (.cons (.id (str% "arguments")) .nil) (.cons (.sliceFrom (.index (.mcall (.id (str% "magicCommentRegex")) (str% "FindAllStringSubmatch") (.cons (.fcall (str% "string") (.cons (.id (str% "comment")) .nil)) (.cons (.un (str% "-") (.num 1)) .nil))) (.num 0)) (.num 1)) .nil))

/-- generation/complex.go:87 -/
def g2r1f1 : T := (.expr (.pcall (str% "fmt") (str% "Printf") (.cons (.str (str% "* invocation. args: %v\n")) (.cons (.id (str% "arguments")) .nil))))

/-- generation/complex.go:92 -/
def g2r1f2a0 : T := (.expr (.pcall (str% "fmt") (str% "Println") (.cons (.str (str% "! invalid argument for position 0:")) (.cons (.index (.id (str% "arguments")) (.num 0)) .nil))))

/-- generation/complex.go:93 -/
def g2r1f2a1 : T := (.ret (.conv (.slice (.named (str% "byte"))) (.pcall (str% "fmt") (str% "Sprint") (.cons (.str (str% "// invalid argument provided in position zero:")) (.cons (.index (.id (str% "arguments")) (.num 0)) .nil)))))

/-- generation/complex.go:91-94 -/
def g2r1f2 : T := (.ifs (.bin (str% "&&") (.bin (str% "!=") (.index (.id (str% "arguments")) (.num 0)) (.str (str% "Buffer"))) (.bin (str% "!=") (.index (.id (str% "arguments")) (.num 0)) (.str (str% "MiniBuffer")))) (.cons g2r1f2a0 (.cons g2r1f2a1 .nil)) .nil)

/-- generation/complex.go:97 -/
def g2r1f3a0 : T := (.expr (.pcall (str% "fmt") (str% "Println") (.cons (.str (str% "! invalid argument for position 1:")) (.cons (.index (.id (str% "arguments")) (.num 1)) .nil))))

/-- generation/complex.go:98 -/
def g2r1f3a1 : T := (.ret (.conv (.slice (.named (str% "byte"))) (.pcall (str% "fmt") (str% "Sprint") (.cons (.str (str% "// invalid argument provided in position one:")) (.cons (.index (.id (str% "arguments")) (.num 1)) .nil)))))

/-- generation/complex.go:96-99 -/
def g2r1f3 : T := (.ifs (.bin (str% "&&") (.bin (str% "!=") (.index (.id (str% "arguments")) (.num 1)) (.str (str% "Read"))) (.bin (str% "!=") (.index (.id (str% "arguments")) (.num 1)) (.str (str% "Write")))) (.cons g2r1f3a0 (.cons g2r1f3a1 .nil)) .nil)

/-- generation/complex.go:102 -/
def g2r1f4a0 : T := (.expr (.pcall (str% "fmt") (str% "Println") (.cons (.str (str% "! invalid argument for position 2:")) (.cons (.index (.id (str% "arguments")) (.num 2)) .nil))))

/-- generation/complex.go:103 -/
def g2r1f4a1 : T := (.ret (.conv (.slice (.named (str% "byte"))) (.pcall (str% "fmt") (str% "Sprint") (.cons (.str (str% "// invalid argument provided in position two:")) (.cons (.index (.id (str% "arguments")) (.num 2)) .nil)))))

/-- generation/complex.go:101-104 -/
def g2r1f4 : T := (.ifs (.bin (str% "&&") (.bin (str% "&&") (.bin (str% "!=") (.index (.id (str% "arguments")) (.num 2)) (.str (str% "I"))) (.bin (str% "!=") (.index (.id (str% "arguments")) (.num 2)) (.str (str% "U")))) (.bin (str% "!=") (.index (.id (str% "arguments")) (.num 2)) (.str (str% "F")))) (.cons g2r1f4a0 (.cons g2r1f4a1 .nil)) .nil)

/-- generation/complex.go:107 -/
def g2r1f5a0 : T := (.expr (.pcall (str% "fmt") (str% "Println") (.cons (.str (str% "! invalid argument for position 3:")) (.cons (.index (.id (str% "arguments")) (.num 3)) .nil))))

/-- generation/complex.go:108 -/
def g2r1f5a1 : T := (.ret (.conv (.slice (.named (str% "byte"))) (.pcall (str% "fmt") (str% "Sprint") (.cons (.str (str% "// invalid argument provided in position three:")) (.cons (.index (.id (str% "arguments")) (.num 3)) .nil)))))

/-- generation/complex.go:106-109 -/
def g2r1f5 : T := (.ifs (.bin (str% "&&") (.bin (str% "&&") (.bin (str% "!=") (.index (.id (str% "arguments")) (.num 3)) (.str (str% "16"))) (.bin (str% "!=") (.index (.id (str% "arguments")) (.num 3)) (.str (str% "32")))) (.bin (str% "!=") (.index (.id (str% "arguments")) (.num 3)) (.str (str% "64")))) (.cons g2r1f5a0 (.cons g2r1f5a1 .nil)) .nil)

/-- generation/complex.go:112 -/
def g2r1f6a0 : T := (.expr (.pcall (str% "fmt") (str% "Println") (.cons (.str (str% "! invalid argument for position 4:")) (.cons (.index (.id (str% "arguments")) (.num 4)) .nil))))

/-- generation/complex.go:113 -/
def g2r1f6a1 : T := (.ret (.conv (.slice (.named (str% "byte"))) (.pcall (str% "fmt") (str% "Sprint") (.cons (.str (str% "// invalid argument provided in position four:")) (.cons (.index (.id (str% "arguments")) (.num 4)) .nil)))))

/-- generation/complex.go:111-114 -/
def g2r1f6 : T := (.ifs (.bin (str% "&&") (.bin (str% "!=") (.index (.id (str% "arguments")) (.num 4)) (.str (str% "BE"))) (.bin (str% "!=") (.index (.id (str% "arguments")) (.num 4)) (.str (str% "LE")))) (.cons g2r1f6a0 (.cons g2r1f6a1 .nil)) .nil)

/-- generation/complex.go:118-128 -/
def g2r1f7 : T := (.assign (str% ":=") (.cons (.id (str% "intType")) .nil) (.cons (.pcall (str% "strings") (str% "Join") (.cons (.comp (.slice (.named (str% "string"))) (.cons (.index (.comp (.map (.named (str% "string")) (.named (str% "string"))) (.cons (.kv (.str (str% "I")) (.str (str% "int"))) (.cons (.kv (.str (str% "U")) (.str (str% "uint"))) (.cons (.kv (.str (str% "F")) (.str (str% "float"))) .nil)))) (.index (.id (str% "arguments")) (.num 2))) (.cons (.index (.id (str% "arguments")) (.num 3)) .nil))) (.cons (.str (str% "")) .nil))) .nil))

/-- generation/complex.go:130 -/
def g2r1f8 : T := (.assign (str% ":=") (.cons (.id (str% "intBits")) (.cons (.id (str% "err")) .nil)) (.cons (.pcall (str% "strconv") (str% "Atoi") (.cons (.index (.id (str% "arguments")) (.num 3)) .nil)) .nil))

/-- generation/complex.go:132 -/
def g2r1f9a0 : T := (.expr (.pcall (str% "fmt") (str% "Println") (.cons (.str (str% "! unable to convert string to integer:")) (.cons (.id (str% "err")) .nil))))

/-- generation/complex.go:133 -/
def g2r1f9a1 : T := (.ret (.conv (.slice (.named (str% "byte"))) (.pcall (str% "fmt") (str% "Sprint") (.cons (.str (str% "// conversion error:")) (.cons (.id (str% "err")) .nil)))))

/-- generation/complex.go:131-134 -/
def g2r1f9 : T := (.ifs (.bin (str% "!=") (.id (str% "err")) (.id (str% "nil"))) (.cons g2r1f9a0 (.cons g2r1f9a1 .nil)) .nil)

/-- generation/complex.go:135 -/
def g2r1f10 : T := (.assign (str% ":=") (.cons (.id (str% "intBytes")) .nil) (.cons (.bin (str% "/") (.id (str% "intBits")) (.num 8)) .nil))

/-- generation/complex.go:136 -/
def g2r1f11 : T := (.assign (str% ":=") (.cons (.id (str% "functionName")) .nil) (.cons (.pcall (str% "strings") (str% "Join") (.cons (.comp (.slice (.named (str% "string"))) (.cons (.index (.id (str% "arguments")) (.num 1)) (.cons (.index (.id (str% "arguments")) (.num 2)) (.cons (.index (.id (str% "arguments")) (.num 3)) (.cons (.index (.id (str% "arguments")) (.num 4)) .nil))))) (.cons (.str (str% "")) .nil))) .nil))

/-- generation/complex.go:137 -/
def g2r1f12 : T := (.assign (str% ":=") (.cons (.id (str% "functionNameNext")) .nil) (.cons (.pcall (str% "strings") (str% "Join") (.cons (.comp (.slice (.named (str% "string"))) (.cons (.id (str% "functionName")) (.cons (.str (str% "Next")) .nil))) (.cons (.str (str% "")) .nil))) .nil))

/-- generation/complex.go:141 -/
def g2r1f13 : T := (.assign (str% ":=") (.cons (.id (str% "builder")) .nil) (.cons (.new (.named (str% "jen.Group")) .nil) .nil))

/-- generation/complex.go:142-158 -/
def g2r1f14 : T := (.expr (.mcall (.id (str% "builder")) (str% "Comment") (.cons (.pcall (str% "strings") (str% "Join") (.cons (.comp (.slice (.named (str% "string"))) (.cons (.str (str% "// ")) (.cons (.id (str% "functionName")) (.cons (.str (str% " ")) (.cons (.index (.comp (.map (.named (str% "string")) (.named (str% "string"))) (.cons (.kv (.str (str% "Read")) (.str (str% "reads"))) (.cons (.kv (.str (str% "Write")) (.str (str% "writes"))) .nil))) (.index (.id (str% "arguments")) (.num 1))) (.cons (.str (str% " a slice of ")) (.cons (.id (str% "intType")) (.cons (.str (str% "s ")) (.cons (.index (.comp (.map (.named (str% "string")) (.named (str% "string"))) (.cons (.kv (.str (str% "Read")) (.str (str% "from"))) (.cons (.kv (.str (str% "Write")) (.str (str% "to"))) .nil))) (.index (.id (str% "arguments")) (.num 1))) (.cons (.str (str% " the buffer at the\n")) .nil)))))))))) (.cons (.str (str% "")) .nil))) .nil)))

/-- generation/complex.go:159-166 -/
def g2r1f15 : T := (.expr (.mcall (.id (str% "builder")) (str% "Comment") (.cons (.pcall (str% "strings") (str% "Join") (.cons (.comp (.slice (.named (str% "string"))) (.cons (.str (str% "// specified offset in ")) (.cons (.index (.comp (.map (.named (str% "string")) (.named (str% "string"))) (.cons (.kv (.str (str% "BE")) (.str (str% "big-endian"))) (.cons (.kv (.str (str% "LE")) (.str (str% "little-endian"))) .nil))) (.index (.id (str% "arguments")) (.num 4))) (.cons (.str (str% " without modifying the internal\n")) .nil)))) (.cons (.str (str% "")) .nil))) .nil)))

/-- generation/complex.go:167 -/
def g2r1f16 : T := (.expr (.mcall (.id (str% "builder")) (str% "Comment") (.cons (.str (str% "// offset value\n")) .nil)))

/-- generation/complex.go:169 -/
def g2r1f17 : T := (.assign (str% ":=") (.cons (.id (str% "function")) .nil) (.cons (.mcall (.mcall (.mcall (.id (str% "builder")) (str% "Func") .nil) (str% "Params") (.cons (.mcall (.mcall (.pcall (str% "jen") (str% "Id") (.cons (.str (str% "b")) .nil)) (str% "Op") (.cons (.str (str% "*")) .nil)) (str% "Id") (.cons (.index (.id (str% "arguments")) (.num 0)) .nil)) .nil)) (str% "Id") (.cons (.id (str% "functionName")) .nil)) .nil))

/-- generation/complex.go:171-173 -/
def g2r1f18a0 : T := (.expr (.mcall (.id (str% "function")) (str% "Params") (.cons (.mcall (.pcall (str% "jen") (str% "Id") (.cons (.str (str% "off")) .nil)) (str% "Id") (.cons (.str (str% "int64")) .nil)) (.cons (.mcall (.mcall (.pcall (str% "jen") (str% "Id") (.cons (.str (str% "data")) .nil)) (str% "Index") .nil) (str% "Id") (.cons (.id (str% "intType")) .nil)) .nil))))

/-- generation/complex.go:176-178 -/
def g2r1f18b0a0a0 : T := (.expr (.mcall (.mcall (.id (str% "function")) (str% "Params") (.cons (.pcall (str% "jen") (str% "Id") (.cons (.str (str% "off")) .nil)) (.cons (.mcall (.pcall (str% "jen") (str% "Id") (.cons (.str (str% "n")) .nil)) (str% "Id") (.cons (.str (str% "int64")) .nil)) .nil))) (str% "Params") (.cons (.mcall (.mcall (.pcall (str% "jen") (str% "Id") (.cons (.str (str% "out")) .nil)) (str% "Index") .nil) (str% "Id") (.cons (.id (str% "intType")) .nil)) .nil)))

/-- generation/complex.go:180-183 -/
def g2r1f18b0a0b0 : T := (.expr (.mcall (.id (str% "function")) (str% "Params") (.cons (.mcall (.mcall (.mcall (.pcall (str% "jen") (str% "Id") (.cons (.str (str% "out")) .nil)) (str% "Op") (.cons (.str (str% "*")) .nil)) (str% "Index") .nil) (str% "Id") (.cons (.id (str% "intType")) .nil)) (.cons (.pcall (str% "jen") (str% "Id") (.cons (.str (str% "off")) .nil)) (.cons (.mcall (.pcall (str% "jen") (str% "Id") (.cons (.str (str% "n")) .nil)) (str% "Id") (.cons (.str (str% "int64")) .nil)) .nil)))))

/-- generation/complex.go:170-185 -/
def g2r1f18 : T := (.ifs (.bin (str% "==") (.index (.id (str% "arguments")) (.num 1)) (.str (str% "Write"))) (.cons g2r1f18a0 .nil) (.cons (.ifs (.bin (str% "==") (.index (.id (str% "arguments")) (.num 1)) (.str (str% "Read"))) (.cons (.ifs (.bin (str% "==") (.index (.id (str% "arguments")) (.num 0)) (.str (str% "Buffer"))) (.cons g2r1f18b0a0a0 .nil) (.cons g2r1f18b0a0b0 .nil)) .nil) .nil) .nil))

/-- generation/complex.go:190-191 -/
def g2r1f19f0a0a0 : T := (.expr (.mcall (.mcall (.id (str% "body")) (str% "If") (.cons (.mcall (.mcall (.mcall (.pcall (str% "jen") (str% "Parens") (.cons (.mcall (.mcall (.mcall (.mcall (.pcall (str% "jen") (str% "Id") (.cons (.str (str% "off")) .nil)) (str% "Op") (.cons (.str (str% "+")) .nil)) (str% "Id") (.cons (.str (str% "n")) .nil)) (str% "Op") (.cons (.str (str% "*")) .nil)) (str% "Lit") (.cons (.id (str% "intBytes")) .nil)) .nil)) (str% "Op") (.cons (.str (str% ">")) .nil)) (str% "Id") (.cons (.str (str% "b")) .nil)) (str% "Dot") (.cons (.str (str% "cap")) .nil)) .nil)) (str% "Block") (.cons (.pcall (str% "jen") (str% "Panic") (.cons (.pcall (str% "jen") (str% "Id") (.cons (.str (str% "BufferOverreadError")) .nil)) .nil)) .nil)))

/-- generation/complex.go:192-193 -/
def g2r1f19f0a0a1 : T := (.expr (.mcall (.mcall (.id (str% "body")) (str% "If") (.cons (.mcall (.mcall (.pcall (str% "jen") (str% "Id") (.cons (.str (str% "off")) .nil)) (str% "Op") (.cons (.str (str% "<")) .nil)) (str% "Lit") (.cons (.num 0) .nil)) .nil)) (str% "Block") (.cons (.pcall (str% "jen") (str% "Panic") (.cons (.pcall (str% "jen") (str% "Id") (.cons (.str (str% "BufferUnderreadError")) .nil)) .nil)) .nil)))

/-- generation/complex.go:195-197 -/
def g2r1f19f0a0b0 : T := (.expr (.mcall (.mcall (.id (str% "body")) (str% "If") (.cons (.mcall (.mcall (.mcall (.pcall (str% "jen") (str% "Parens") (.cons (.mcall (.mcall (.mcall (.mcall (.mcall (.pcall (str% "jen") (str% "Id") (.cons (.str (str% "off")) .nil)) (str% "Op") (.cons (.str (str% "+")) .nil)) (str% "Id") (.cons (.str (str% "int64")) .nil)) (str% "Call") (.cons (.pcall (str% "jen") (str% "Len") (.cons (.pcall (str% "jen") (str% "Id") (.cons (.str (str% "data")) .nil)) .nil)) .nil)) (str% "Op") (.cons (.str (str% "*")) .nil)) (str% "Lit") (.cons (.id (str% "intBytes")) .nil)) .nil)) (str% "Op") (.cons (.str (str% ">")) .nil)) (str% "Id") (.cons (.str (str% "b")) .nil)) (str% "Dot") (.cons (.str (str% "cap")) .nil)) .nil)) (str% "Block") (.cons (.pcall (str% "jen") (str% "Panic") (.cons (.pcall (str% "jen") (str% "Id") (.cons (.str (str% "BufferOverwriteError")) .nil)) .nil)) .nil)))

/-- generation/complex.go:198-199 -/
def g2r1f19f0a0b1 : T := (.expr (.mcall (.mcall (.id (str% "body")) (str% "If") (.cons (.mcall (.mcall (.pcall (str% "jen") (str% "Id") (.cons (.str (str% "off")) .nil)) (str% "Op") (.cons (.str (str% "<")) .nil)) (str% "Lit") (.cons (.num 0) .nil)) .nil)) (str% "Block") (.cons (.pcall (str% "jen") (str% "Panic") (.cons (.pcall (str% "jen") (str% "Id") (.cons (.str (str% "BufferUnderwriteError")) .nil)) .nil)) .nil)))

/-- generation/complex.go:206-209 -/
def g2r1f19f1a0a0 : T := (.expr (.mcall (.mcall (.mcall (.mcall (.id (str% "body")) (str% "Id") (.cons (.str (str% "out")) .nil)) (str% "Op") (.cons (.str (str% "=")) .nil)) (str% "Id") (.cons (.str (str% "make")) .nil)) (str% "Call") (.cons (.mcall (.pcall (str% "jen") (str% "Index") .nil) (str% "Id") (.cons (.id (str% "intType")) .nil)) (.cons (.pcall (str% "jen") (str% "Id") (.cons (.str (str% "n")) .nil)) .nil))))

/-- generation/complex.go:215 -/
def g2r1f19f1a2a0 : T := (.expr (.mcall (.mcall (.mcall (.id (str% "body")) (str% "Var") .nil) (str% "Id") (.cons (.str (str% "u")) .nil)) (str% "Id") (.cons (.pcall (str% "strings") (str% "Join") (.cons (.comp (.slice (.named (str% "string"))) (.cons (.str (str% "uint")) (.cons (.index (.id (str% "arguments")) (.num 3)) .nil))) (.cons (.str (str% "")) .nil))) .nil)))

/-- generation/complex.go:228-229 -/
def g2r1f19f1a3f1a1a0f1l0 : T := (.assign (str% "=") (.cons (.id (str% "s")) .nil) (.cons (.mcall (.mcall (.id (str% "s")) (str% "Id") (.cons (.pcall (str% "strings") (str% "Join") (.cons (.comp (.slice (.named (str% "string"))) (.cons (.str (str% "uint")) (.cons (.index (.id (str% "arguments")) (.num 3)) .nil))) (.cons (.str (str% "")) .nil))) .nil)) (str% "Call") (.cons (.mcall (.mcall (.pcall (str% "jen") (str% "Id") (.cons (.str (str% "b")) .nil)) (str% "Dot") (.cons (.str (str% "buf")) .nil)) (str% "Index") (.cons (.mcall (.mcall (.pcall (str% "jen") (str% "Id") (.cons (.str (str% "off")) .nil)) (str% "Op") (.cons (.str (str% "+")) .nil)) (str% "Parens") (.cons (.mcall (.mcall (.pcall (str% "jen") (str% "Lit") (.cons (.id (str% "i")) .nil)) (str% "Op") (.cons (.str (str% "+")) .nil)) (str% "Parens") (.cons (.mcall (.mcall (.pcall (str% "jen") (str% "Id") (.cons (.str (str% "i")) .nil)) (str% "Op") (.cons (.str (str% "*")) .nil)) (str% "Lit") (.cons (.id (str% "intBytes")) .nil)) .nil)) .nil)) .nil)) .nil)) .nil))

/-- generation/complex.go:231-234 -/
def g2r1f19f1a3f1a1a0f1l1 : T := (.ifs (.bin (str% "<") (.id (str% "i")) (.bin (str% "-") (.id (str% "intBytes")) (.num 1))) (.cons (.assign (str% "=") (.cons (.id (str% "s")) .nil) (.cons (.mcall (.mcall (.id (str% "s")) (str% "Op") (.cons (.str (str% "<<")) .nil)) (str% "Lit") (.cons (.bin (str% "*") (.bin (str% "-") (.bin (str% "-") (.id (str% "intBytes")) (.id (str% "i"))) (.num 1)) (.num 8)) .nil)) .nil)) .nil) .nil)

/-- generation/complex.go:227-236 -/
def g2r1f19f1a3f1a1a0f1 : T := (.for (.assign (str% ":=") (.cons (.id (str% "i")) .nil) (.cons (.bin (str% "-") (.id (str% "intBytes")) (.num 1)) .nil)) (.bin (str% ">") (.id (str% "i")) (.num 0)) (.inc (str% "--") (.id (str% "i"))) (.cons g2r1f19f1a3f1a1a0f1l0 (.cons g2r1f19f1a3f1a1a0f1l1 (.cons (.assign (str% "=") (.cons (.id (str% "s")) .nil) (.cons (.mcall (.id (str% "s")) (str% "Op") (.cons (.str (str% "|")) .nil)) .nil)) .nil))))

/-- generation/complex.go:237-238 -/
def g2r1f19f1a3f1a1a0f2 : T := (.assign (str% "=") (.cons (.id (str% "s")) .nil) (.cons (.mcall (.mcall (.mcall (.mcall (.id (str% "s")) (str% "Id") (.cons (.pcall (str% "strings") (str% "Join") (.cons (.comp (.slice (.named (str% "string"))) (.cons (.str (str% "uint")) (.cons (.index (.id (str% "arguments")) (.num 3)) .nil))) (.cons (.str (str% "")) .nil))) .nil)) (str% "Call") (.cons (.mcall (.mcall (.pcall (str% "jen") (str% "Id") (.cons (.str (str% "b")) .nil)) (str% "Dot") (.cons (.str (str% "buf")) .nil)) (str% "Index") (.cons (.mcall (.mcall (.pcall (str% "jen") (str% "Id") (.cons (.str (str% "off")) .nil)) (str% "Op") (.cons (.str (str% "+")) .nil)) (str% "Parens") (.cons (.mcall (.mcall (.pcall (str% "jen") (str% "Id") (.cons (.str (str% "i")) .nil)) (str% "Op") (.cons (.str (str% "*")) .nil)) (str% "Lit") (.cons (.id (str% "intBytes")) .nil)) .nil)) .nil)) .nil)) (str% "Op") (.cons (.str (str% "<<")) .nil)) (str% "Lit") (.cons (.bin (str% "*") (.bin (str% "-") (.id (str% "intBytes")) (.num 1)) (.num 8)) .nil)) .nil))

/-- generation/complex.go:226-238 -/
def g2r1f19f1a3f1a1a0f : T := (.cons (.assign (str% ":=") (.cons (.id (str% "s")) .nil) (.cons (.mcall (.id (str% "g")) (str% "Null") .nil) .nil)) (.cons g2r1f19f1a3f1a1a0f1 (.cons g2r1f19f1a3f1a1a0f2 .nil)))

/-- generation/complex.go:242-243 -/
def g2r1f19f1a3f1a1b0a0f0 : T := (.assign (str% ":=") (.cons (.id (str% "s")) .nil) (.cons (.mcall (.mcall (.mcall (.id (str% "g")) (str% "Id") (.cons (.pcall (str% "strings") (str% "Join") (.cons (.comp (.slice (.named (str% "string"))) (.cons (.str (str% "uint")) (.cons (.index (.id (str% "arguments")) (.num 3)) .nil))) (.cons (.str (str% "")) .nil))) .nil)) (str% "Call") (.cons (.mcall (.mcall (.pcall (str% "jen") (str% "Id") (.cons (.str (str% "b")) .nil)) (str% "Dot") (.cons (.str (str% "buf")) .nil)) (str% "Index") (.cons (.mcall (.mcall (.pcall (str% "jen") (str% "Id") (.cons (.str (str% "off")) .nil)) (str% "Op") (.cons (.str (str% "+")) .nil)) (str% "Parens") (.cons (.mcall (.mcall (.pcall (str% "jen") (str% "Id") (.cons (.str (str% "i")) .nil)) (str% "Op") (.cons (.str (str% "*")) .nil)) (str% "Lit") (.cons (.id (str% "intBytes")) .nil)) .nil)) .nil)) .nil)) (str% "Op") (.cons (.str (str% "|")) .nil)) .nil))

/-- generation/complex.go:245-246 -/
def g2r1f19f1a3f1a1b0a0f1l0 : T := (.assign (str% "=") (.cons (.id (str% "s")) .nil) (.cons (.mcall (.mcall (.mcall (.mcall (.id (str% "s")) (str% "Id") (.cons (.pcall (str% "strings") (str% "Join") (.cons (.comp (.slice (.named (str% "string"))) (.cons (.str (str% "uint")) (.cons (.index (.id (str% "arguments")) (.num 3)) .nil))) (.cons (.str (str% "")) .nil))) .nil)) (str% "Call") (.cons (.mcall (.mcall (.pcall (str% "jen") (str% "Id") (.cons (.str (str% "b")) .nil)) (str% "Dot") (.cons (.str (str% "buf")) .nil)) (str% "Index") (.cons (.mcall (.mcall (.pcall (str% "jen") (str% "Id") (.cons (.str (str% "off")) .nil)) (str% "Op") (.cons (.str (str% "+")) .nil)) (str% "Parens") (.cons (.mcall (.mcall (.pcall (str% "jen") (str% "Lit") (.cons (.id (str% "i")) .nil)) (str% "Op") (.cons (.str (str% "+")) .nil)) (str% "Parens") (.cons (.mcall (.mcall (.pcall (str% "jen") (str% "Id") (.cons (.str (str% "i")) .nil)) (str% "Op") (.cons (.str (str% "*")) .nil)) (str% "Lit") (.cons (.id (str% "intBytes")) .nil)) .nil)) .nil)) .nil)) .nil)) (str% "Op") (.cons (.str (str% "<<")) .nil)) (str% "Lit") (.cons (.bin (str% "*") (.id (str% "i")) (.num 8)) .nil)) .nil))

/-- generation/complex.go:244-252 -/
def g2r1f19f1a3f1a1b0a0f1 : T := (.for (.assign (str% ":=") (.cons (.id (str% "i")) .nil) (.cons (.num 1) .nil)) (.bin (str% "<") (.id (str% "i")) (.id (str% "intBytes"))) (.inc (str% "++") (.id (str% "i"))) (.cons g2r1f19f1a3f1a1b0a0f1l0 (.cons (.ifs (.bin (str% "<") (.id (str% "i")) (.bin (str% "-") (.id (str% "intBytes")) (.num 1))) (.cons (.assign (str% "=") (.cons (.id (str% "s")) .nil) (.cons (.mcall (.id (str% "s")) (str% "Op") (.cons (.str (str% "|")) .nil)) .nil)) .nil) .nil) .nil)))

/-- generation/complex.go:242-252 -/
def g2r1f19f1a3f1a1b0a0f : T := (.cons g2r1f19f1a3f1a1b0a0f0 (.cons g2r1f19f1a3f1a1b0a0f1 .nil))

/-- generation/complex.go:224-254 -/
def g2r1f19f1a3f1a1 : T := (.ifs (.bin (str% "==") (.index (.id (str% "arguments")) (.num 4)) (.str (str% "BE"))) (.cons (.expr (.mfunc (.id (str% "v")) (str% "CallFunc") .nil [((str% "g"), (.ptr (.named (str% "jen.Group"))))] g2r1f19f1a3f1a1a0f)) .nil) (.cons (.ifs (.bin (str% "==") (.index (.id (str% "arguments")) (.num 4)) (.str (str% "LE"))) (.cons (.expr (.mfunc (.id (str% "v")) (str% "CallFunc") .nil [((str% "g"), (.ptr (.named (str% "jen.Group"))))] g2r1f19f1a3f1a1b0a0f)) .nil) .nil) .nil))

/-- generation/complex.go:221-255 -/
def g2r1f19f1a3f1 : T := (.ifs (.bin (str% "==") (.index (.id (str% "arguments")) (.num 2)) (.str (str% "F"))) (.cons (.assign (str% ":=") (.cons (.id (str% "v")) .nil) (.cons (.mcall (.mcall (.id (str% "loop")) (str% "Id") (.cons (.str (str% "u")) .nil)) (str% "Op") (.cons (.str (str% "=")) .nil)) .nil)) (.cons g2r1f19f1a3f1a1 .nil)) .nil)

/-- generation/complex.go:261 -/
def g2r1f19f1a3f3b0 : T := (.assign (str% "=") (.cons (.id (str% "orChain")) .nil) (.cons (.mcall (.mcall (.id (str% "loop")) (str% "Parens") (.cons (.mcall (.pcall (str% "jen") (str% "Op") (.cons (.str (str% "*")) .nil)) (str% "Id") (.cons (.str (str% "out")) .nil)) .nil)) (str% "Index") (.cons (.pcall (str% "jen") (str% "Id") (.cons (.str (str% "i")) .nil)) .nil)) .nil))

/-- generation/complex.go:258-262 -/
def g2r1f19f1a3f3 : T := (.ifs (.bin (str% "==") (.index (.id (str% "arguments")) (.num 0)) (.str (str% "Buffer"))) (.cons (.assign (str% "=") (.cons (.id (str% "orChain")) .nil) (.cons (.mcall (.mcall (.id (str% "loop")) (str% "Id") (.cons (.str (str% "out")) .nil)) (str% "Index") (.cons (.pcall (str% "jen") (str% "Id") (.cons (.str (str% "i")) .nil)) .nil)) .nil)) .nil) (.cons g2r1f19f1a3f3b0 .nil))

/-- generation/complex.go:269-270 -/
def g2r1f19f1a3f5a0a0l0 : T := (.assign (str% "=") (.cons (.id (str% "orChain")) .nil) (.cons (.mcall (.mcall (.id (str% "orChain")) (str% "Id") (.cons (.id (str% "intType")) .nil)) (str% "Call") (.cons (.mcall (.mcall (.pcall (str% "jen") (str% "Id") (.cons (.str (str% "b")) .nil)) (str% "Dot") (.cons (.str (str% "buf")) .nil)) (str% "Index") (.cons (.mcall (.mcall (.pcall (str% "jen") (str% "Id") (.cons (.str (str% "off")) .nil)) (str% "Op") (.cons (.str (str% "+")) .nil)) (str% "Parens") (.cons (.mcall (.mcall (.pcall (str% "jen") (str% "Lit") (.cons (.id (str% "i")) .nil)) (str% "Op") (.cons (.str (str% "+")) .nil)) (str% "Parens") (.cons (.mcall (.mcall (.pcall (str% "jen") (str% "Id") (.cons (.str (str% "i")) .nil)) (str% "Op") (.cons (.str (str% "*")) .nil)) (str% "Lit") (.cons (.id (str% "intBytes")) .nil)) .nil)) .nil)) .nil)) .nil)) .nil))

/-- generation/complex.go:272-275 -/
def g2r1f19f1a3f5a0a0l1 : T := (.ifs (.bin (str% "<") (.id (str% "i")) (.bin (str% "-") (.id (str% "intBytes")) (.num 1))) (.cons (.assign (str% "=") (.cons (.id (str% "orChain")) .nil) (.cons (.mcall (.mcall (.id (str% "orChain")) (str% "Op") (.cons (.str (str% "<<")) .nil)) (str% "Lit") (.cons (.bin (str% "*") (.bin (str% "-") (.bin (str% "-") (.id (str% "intBytes")) (.id (str% "i"))) (.num 1)) (.num 8)) .nil)) .nil)) .nil) .nil)

/-- generation/complex.go:268-277 -/
def g2r1f19f1a3f5a0a0 : T := (.for (.assign (str% ":=") (.cons (.id (str% "i")) .nil) (.cons (.bin (str% "-") (.id (str% "intBytes")) (.num 1)) .nil)) (.bin (str% ">") (.id (str% "i")) (.num 0)) (.inc (str% "--") (.id (str% "i"))) (.cons g2r1f19f1a3f5a0a0l0 (.cons g2r1f19f1a3f5a0a0l1 (.cons (.assign (str% "=") (.cons (.id (str% "orChain")) .nil) (.cons (.mcall (.id (str% "orChain")) (str% "Op") (.cons (.str (str% "|")) .nil)) .nil)) .nil))))

/-- generation/complex.go:278-279 -/
def g2r1f19f1a3f5a0a1 : T := (.assign (str% "=") (.cons (.id (str% "orChain")) .nil) (.cons (.mcall (.mcall (.mcall (.mcall (.id (str% "orChain")) (str% "Id") (.cons (.id (str% "intType")) .nil)) (str% "Call") (.cons (.mcall (.mcall (.pcall (str% "jen") (str% "Id") (.cons (.str (str% "b")) .nil)) (str% "Dot") (.cons (.str (str% "buf")) .nil)) (str% "Index") (.cons (.mcall (.mcall (.pcall (str% "jen") (str% "Id") (.cons (.str (str% "off")) .nil)) (str% "Op") (.cons (.str (str% "+")) .nil)) (str% "Parens") (.cons (.mcall (.mcall (.pcall (str% "jen") (str% "Id") (.cons (.str (str% "i")) .nil)) (str% "Op") (.cons (.str (str% "*")) .nil)) (str% "Lit") (.cons (.id (str% "intBytes")) .nil)) .nil)) .nil)) .nil)) (str% "Op") (.cons (.str (str% "<<")) .nil)) (str% "Lit") (.cons (.bin (str% "*") (.bin (str% "-") (.id (str% "intBytes")) (.num 1)) (.num 8)) .nil)) .nil))

/-- generation/complex.go:282-283 -/
def g2r1f19f1a3f5a0b0a0 : T := (.assign (str% "=") (.cons (.id (str% "orChain")) .nil) (.cons (.mcall (.mcall (.mcall (.id (str% "orChain")) (str% "Op") (.cons (.str (str% "*")) .nil)) (str% "Parens") (.cons (.mcall (.pcall (str% "jen") (str% "Op") (.cons (.str (str% "*")) .nil)) (str% "Id") (.cons (.id (str% "intType")) .nil)) .nil)) (str% "Parens") (.cons (.mcall (.mcall (.pcall (str% "jen") (str% "Id") (.cons (.str (str% "unsafe")) .nil)) (str% "Dot") (.cons (.str (str% "Pointer")) .nil)) (str% "Call") (.cons (.mcall (.pcall (str% "jen") (str% "Op") (.cons (.str (str% "&")) .nil)) (str% "Id") (.cons (.str (str% "u")) .nil)) .nil)) .nil)) .nil))

/-- generation/complex.go:267-284 -/
def g2r1f19f1a3f5a0 : T := (.ifs (.bin (str% "||") (.bin (str% "==") (.index (.id (str% "arguments")) (.num 2)) (.str (str% "U"))) (.bin (str% "==") (.index (.id (str% "arguments")) (.num 2)) (.str (str% "I")))) (.cons g2r1f19f1a3f5a0a0 (.cons g2r1f19f1a3f5a0a1 .nil)) (.cons (.ifs (.bin (str% "==") (.index (.id (str% "arguments")) (.num 2)) (.str (str% "F"))) (.cons g2r1f19f1a3f5a0b0a0 .nil) .nil) .nil))

/-- generation/complex.go:288-289 -/
def g2r1f19f1a3f5b0a0 : T := (.assign (str% "=") (.cons (.id (str% "orChain")) .nil) (.cons (.mcall (.mcall (.mcall (.id (str% "orChain")) (str% "Id") (.cons (.id (str% "intType")) .nil)) (str% "Call") (.cons (.mcall (.mcall (.pcall (str% "jen") (str% "Id") (.cons (.str (str% "b")) .nil)) (str% "Dot") (.cons (.str (str% "buf")) .nil)) (str% "Index") (.cons (.mcall (.mcall (.pcall (str% "jen") (str% "Id") (.cons (.str (str% "off")) .nil)) (str% "Op") (.cons (.str (str% "+")) .nil)) (str% "Parens") (.cons (.mcall (.mcall (.pcall (str% "jen") (str% "Id") (.cons (.str (str% "i")) .nil)) (str% "Op") (.cons (.str (str% "*")) .nil)) (str% "Lit") (.cons (.id (str% "intBytes")) .nil)) .nil)) .nil)) .nil)) (str% "Op") (.cons (.str (str% "|")) .nil)) .nil))

/-- generation/complex.go:291-292 -/
def g2r1f19f1a3f5b0a1l0 : T := (.assign (str% "=") (.cons (.id (str% "orChain")) .nil) (.cons (.mcall (.mcall (.mcall (.mcall (.id (str% "orChain")) (str% "Id") (.cons (.id (str% "intType")) .nil)) (str% "Call") (.cons (.mcall (.mcall (.pcall (str% "jen") (str% "Id") (.cons (.str (str% "b")) .nil)) (str% "Dot") (.cons (.str (str% "buf")) .nil)) (str% "Index") (.cons (.mcall (.mcall (.pcall (str% "jen") (str% "Id") (.cons (.str (str% "off")) .nil)) (str% "Op") (.cons (.str (str% "+")) .nil)) (str% "Parens") (.cons (.mcall (.mcall (.pcall (str% "jen") (str% "Lit") (.cons (.id (str% "i")) .nil)) (str% "Op") (.cons (.str (str% "+")) .nil)) (str% "Parens") (.cons (.mcall (.mcall (.pcall (str% "jen") (str% "Id") (.cons (.str (str% "i")) .nil)) (str% "Op") (.cons (.str (str% "*")) .nil)) (str% "Lit") (.cons (.id (str% "intBytes")) .nil)) .nil)) .nil)) .nil)) .nil)) (str% "Op") (.cons (.str (str% "<<")) .nil)) (str% "Lit") (.cons (.bin (str% "*") (.id (str% "i")) (.num 8)) .nil)) .nil))

/-- generation/complex.go:290-297 -/
def g2r1f19f1a3f5b0a1 : T := (.for (.assign (str% ":=") (.cons (.id (str% "i")) .nil) (.cons (.num 1) .nil)) (.bin (str% "<") (.id (str% "i")) (.id (str% "intBytes"))) (.inc (str% "++") (.id (str% "i"))) (.cons g2r1f19f1a3f5b0a1l0 (.cons (.ifs (.bin (str% "<") (.id (str% "i")) (.bin (str% "-") (.id (str% "intBytes")) (.num 1))) (.cons (.assign (str% "=") (.cons (.id (str% "orChain")) .nil) (.cons (.mcall (.id (str% "orChain")) (str% "Op") (.cons (.str (str% "|")) .nil)) .nil)) .nil) .nil) .nil)))

/-- generation/complex.go:300-301 -/
def g2r1f19f1a3f5b0b0a0 : T := (.assign (str% "=") (.cons (.id (str% "orChain")) .nil) (.cons (.mcall (.mcall (.mcall (.id (str% "orChain")) (str% "Op") (.cons (.str (str% "*")) .nil)) (str% "Parens") (.cons (.mcall (.pcall (str% "jen") (str% "Op") (.cons (.str (str% "*")) .nil)) (str% "Id") (.cons (.id (str% "intType")) .nil)) .nil)) (str% "Parens") (.cons (.mcall (.mcall (.pcall (str% "jen") (str% "Id") (.cons (.str (str% "unsafe")) .nil)) (str% "Dot") (.cons (.str (str% "Pointer")) .nil)) (str% "Call") (.cons (.mcall (.pcall (str% "jen") (str% "Op") (.cons (.str (str% "&")) .nil)) (str% "Id") (.cons (.str (str% "u")) .nil)) .nil)) .nil)) .nil))

/-- generation/complex.go:287-302 -/
def g2r1f19f1a3f5b0 : T := (.ifs (.bin (str% "||") (.bin (str% "==") (.index (.id (str% "arguments")) (.num 2)) (.str (str% "U"))) (.bin (str% "==") (.index (.id (str% "arguments")) (.num 2)) (.str (str% "I")))) (.cons g2r1f19f1a3f5b0a0 (.cons g2r1f19f1a3f5b0a1 .nil)) (.cons (.ifs (.bin (str% "==") (.index (.id (str% "arguments")) (.num 2)) (.str (str% "F"))) (.cons g2r1f19f1a3f5b0b0a0 .nil) .nil) .nil))

/-- generation/complex.go:305-306 -/
def g2r1f19f1a3f7 : T := (.expr (.mcall (.mcall (.id (str% "loop")) (str% "If") (.cons (.mcall (.mcall (.pcall (str% "jen") (str% "Id") (.cons (.str (str% "i")) .nil)) (str% "Op") (.cons (.str (str% "<")) .nil)) (str% "Id") (.cons (.str (str% "n")) .nil)) .nil)) (str% "Block") (.cons (.mcall (.pcall (str% "jen") (str% "Goto") .nil) (str% "Id") (.cons (.str (str% "read_loop")) .nil)) .nil)))

/-- generation/complex.go:219-306 -/
def g2r1f19f1a3f : T := (.cons (.expr (.mcall (.id (str% "loop")) (str% "Id") (.cons (.str (str% "read_loop:")) .nil))) (.cons g2r1f19f1a3f1 (.cons (.var (str% "orChain") (.ptr (.named (str% "jen.Statement")))) (.cons g2r1f19f1a3f3 (.cons (.assign (str% "=") (.cons (.id (str% "orChain")) .nil) (.cons (.mcall (.id (str% "orChain")) (str% "Op") (.cons (.str (str% "=")) .nil)) .nil)) (.cons (.ifs (.bin (str% "==") (.index (.id (str% "arguments")) (.num 4)) (.str (str% "BE"))) (.cons g2r1f19f1a3f5a0 .nil) (.cons g2r1f19f1a3f5b0 .nil)) (.cons (.expr (.mcall (.mcall (.id (str% "loop")) (str% "Id") (.cons (.str (str% "i")) .nil)) (str% "Op") (.cons (.str (str% "++")) .nil))) (.cons g2r1f19f1a3f7 .nil))))))))

/-- generation/complex.go:316-318 -/
def g2r1f19f1b2f1a0a0 : T := (.expr (.mcall (.mcall (.mcall (.mcall (.mcall (.mcall (.id (str% "loop")) (str% "Id") (.cons (.str (str% "b")) .nil)) (str% "Dot") (.cons (.str (str% "buf")) .nil)) (str% "Index") (.cons (.mcall (.mcall (.mcall (.pcall (str% "jen") (str% "Id") (.cons (.str (str% "off")) .nil)) (str% "Op") (.cons (.str (str% "+")) .nil)) (str% "Id") (.cons (.str (str% "int64")) .nil)) (str% "Call") (.cons (.mcall (.mcall (.pcall (str% "jen") (str% "Id") (.cons (.str (str% "i")) .nil)) (str% "Op") (.cons (.str (str% "*")) .nil)) (str% "Lit") (.cons (.id (str% "intBytes")) .nil)) .nil)) .nil)) (str% "Op") (.cons (.str (str% "=")) .nil)) (str% "Id") (.cons (.str (str% "byte")) .nil)) (str% "Call") (.cons (.mcall (.mcall (.mcall (.pcall (str% "jen") (str% "Id") (.cons (.str (str% "data")) .nil)) (str% "Index") (.cons (.pcall (str% "jen") (str% "Id") (.cons (.str (str% "i")) .nil)) .nil)) (str% "Op") (.cons (.str (str% ">>")) .nil)) (str% "Lit") (.cons (.bin (str% "*") (.bin (str% "-") (.id (str% "intBytes")) (.num 1)) (.num 8)) .nil)) .nil)))

/-- generation/complex.go:320-322 -/
def g2r1f19f1b2f1a0a1l0 : T := (.expr (.mcall (.mcall (.mcall (.mcall (.mcall (.mcall (.id (str% "loop")) (str% "Id") (.cons (.str (str% "b")) .nil)) (str% "Dot") (.cons (.str (str% "buf")) .nil)) (str% "Index") (.cons (.mcall (.mcall (.mcall (.pcall (str% "jen") (str% "Id") (.cons (.str (str% "off")) .nil)) (str% "Op") (.cons (.str (str% "+")) .nil)) (str% "Id") (.cons (.str (str% "int64")) .nil)) (str% "Call") (.cons (.mcall (.mcall (.pcall (str% "jen") (str% "Lit") (.cons (.bin (str% "-") (.id (str% "intBytes")) (.id (str% "i"))) .nil)) (str% "Op") (.cons (.str (str% "+")) .nil)) (str% "Parens") (.cons (.mcall (.mcall (.pcall (str% "jen") (str% "Id") (.cons (.str (str% "i")) .nil)) (str% "Op") (.cons (.str (str% "*")) .nil)) (str% "Lit") (.cons (.id (str% "intBytes")) .nil)) .nil)) .nil)) .nil)) (str% "Op") (.cons (.str (str% "=")) .nil)) (str% "Id") (.cons (.str (str% "byte")) .nil)) (str% "Call") (.cons (.mcall (.mcall (.mcall (.pcall (str% "jen") (str% "Id") (.cons (.str (str% "data")) .nil)) (str% "Index") (.cons (.pcall (str% "jen") (str% "Id") (.cons (.str (str% "i")) .nil)) .nil)) (str% "Op") (.cons (.str (str% ">>")) .nil)) (str% "Lit") (.cons (.bin (str% "*") (.bin (str% "-") (.id (str% "i")) (.num 1)) (.num 8)) .nil)) .nil)))

/-- generation/complex.go:324-326 -/
def g2r1f19f1b2f1a0a2 : T := (.expr (.mcall (.mcall (.mcall (.mcall (.mcall (.mcall (.id (str% "loop")) (str% "Id") (.cons (.str (str% "b")) .nil)) (str% "Dot") (.cons (.str (str% "buf")) .nil)) (str% "Index") (.cons (.mcall (.mcall (.mcall (.pcall (str% "jen") (str% "Id") (.cons (.str (str% "off")) .nil)) (str% "Op") (.cons (.str (str% "+")) .nil)) (str% "Id") (.cons (.str (str% "int64")) .nil)) (str% "Call") (.cons (.mcall (.mcall (.pcall (str% "jen") (str% "Lit") (.cons (.bin (str% "-") (.id (str% "intBytes")) (.num 1)) .nil)) (str% "Op") (.cons (.str (str% "+")) .nil)) (str% "Parens") (.cons (.mcall (.mcall (.pcall (str% "jen") (str% "Id") (.cons (.str (str% "i")) .nil)) (str% "Op") (.cons (.str (str% "*")) .nil)) (str% "Lit") (.cons (.id (str% "intBytes")) .nil)) .nil)) .nil)) .nil)) (str% "Op") (.cons (.str (str% "=")) .nil)) (str% "Id") (.cons (.str (str% "byte")) .nil)) (str% "Call") (.cons (.mcall (.pcall (str% "jen") (str% "Id") (.cons (.str (str% "data")) .nil)) (str% "Index") (.cons (.pcall (str% "jen") (str% "Id") (.cons (.str (str% "i")) .nil)) .nil)) .nil)))

/-- generation/complex.go:328-331 -/
def g2r1f19f1b2f1a0b0a0 : T := (.expr (.mcall (.mcall (.mcall (.mcall (.mcall (.mcall (.id (str% "loop")) (str% "Id") (.cons (.str (str% "b")) .nil)) (str% "Dot") (.cons (.str (str% "buf")) .nil)) (str% "Index") (.cons (.mcall (.mcall (.mcall (.pcall (str% "jen") (str% "Id") (.cons (.str (str% "off")) .nil)) (str% "Op") (.cons (.str (str% "+")) .nil)) (str% "Id") (.cons (.str (str% "int64")) .nil)) (str% "Call") (.cons (.mcall (.mcall (.pcall (str% "jen") (str% "Id") (.cons (.str (str% "i")) .nil)) (str% "Op") (.cons (.str (str% "*")) .nil)) (str% "Lit") (.cons (.id (str% "intBytes")) .nil)) .nil)) .nil)) (str% "Op") (.cons (.str (str% "=")) .nil)) (str% "Id") (.cons (.str (str% "byte")) .nil)) (str% "Call") (.cons (.mcall (.mcall (.mcall (.mcall (.pcall (str% "jen") (str% "Op") (.cons (.str (str% "*")) .nil)) (str% "Parens") (.cons (.mcall (.pcall (str% "jen") (str% "Op") (.cons (.str (str% "*")) .nil)) (str% "Id") (.cons (.pcall (str% "strings") (str% "Join") (.cons (.comp (.slice (.named (str% "string"))) (.cons (.str (str% "uint")) (.cons (.index (.id (str% "arguments")) (.num 3)) .nil))) (.cons (.str (str% "")) .nil))) .nil)) .nil)) (str% "Parens") (.cons (.mcall (.mcall (.pcall (str% "jen") (str% "Id") (.cons (.str (str% "unsafe")) .nil)) (str% "Dot") (.cons (.str (str% "Pointer")) .nil)) (str% "Call") (.cons (.mcall (.mcall (.pcall (str% "jen") (str% "Op") (.cons (.str (str% "&")) .nil)) (str% "Id") (.cons (.str (str% "data")) .nil)) (str% "Index") (.cons (.pcall (str% "jen") (str% "Id") (.cons (.str (str% "i")) .nil)) .nil)) .nil)) .nil)) (str% "Op") (.cons (.str (str% ">>")) .nil)) (str% "Lit") (.cons (.bin (str% "*") (.bin (str% "-") (.id (str% "intBytes")) (.num 1)) (.num 8)) .nil)) .nil)))

/-- generation/complex.go:333-336 -/
def g2r1f19f1b2f1a0b0a1l0 : T := (.expr (.mcall (.mcall (.mcall (.mcall (.mcall (.mcall (.id (str% "loop")) (str% "Id") (.cons (.str (str% "b")) .nil)) (str% "Dot") (.cons (.str (str% "buf")) .nil)) (str% "Index") (.cons (.mcall (.mcall (.mcall (.pcall (str% "jen") (str% "Id") (.cons (.str (str% "off")) .nil)) (str% "Op") (.cons (.str (str% "+")) .nil)) (str% "Id") (.cons (.str (str% "int64")) .nil)) (str% "Call") (.cons (.mcall (.mcall (.pcall (str% "jen") (str% "Lit") (.cons (.bin (str% "-") (.id (str% "intBytes")) (.id (str% "i"))) .nil)) (str% "Op") (.cons (.str (str% "+")) .nil)) (str% "Parens") (.cons (.mcall (.mcall (.pcall (str% "jen") (str% "Id") (.cons (.str (str% "i")) .nil)) (str% "Op") (.cons (.str (str% "*")) .nil)) (str% "Lit") (.cons (.id (str% "intBytes")) .nil)) .nil)) .nil)) .nil)) (str% "Op") (.cons (.str (str% "=")) .nil)) (str% "Id") (.cons (.str (str% "byte")) .nil)) (str% "Call") (.cons (.mcall (.mcall (.mcall (.mcall (.pcall (str% "jen") (str% "Op") (.cons (.str (str% "*")) .nil)) (str% "Parens") (.cons (.mcall (.pcall (str% "jen") (str% "Op") (.cons (.str (str% "*")) .nil)) (str% "Id") (.cons (.pcall (str% "strings") (str% "Join") (.cons (.comp (.slice (.named (str% "string"))) (.cons (.str (str% "uint")) (.cons (.index (.id (str% "arguments")) (.num 3)) .nil))) (.cons (.str (str% "")) .nil))) .nil)) .nil)) (str% "Parens") (.cons (.mcall (.mcall (.pcall (str% "jen") (str% "Id") (.cons (.str (str% "unsafe")) .nil)) (str% "Dot") (.cons (.str (str% "Pointer")) .nil)) (str% "Call") (.cons (.mcall (.mcall (.pcall (str% "jen") (str% "Op") (.cons (.str (str% "&")) .nil)) (str% "Id") (.cons (.str (str% "data")) .nil)) (str% "Index") (.cons (.pcall (str% "jen") (str% "Id") (.cons (.str (str% "i")) .nil)) .nil)) .nil)) .nil)) (str% "Op") (.cons (.str (str% ">>")) .nil)) (str% "Lit") (.cons (.bin (str% "*") (.bin (str% "-") (.id (str% "i")) (.num 1)) (.num 8)) .nil)) .nil)))

/-- generation/complex.go:338-345 -/
def g2r1f19f1b2f1a0b0a2 : T := (.expr (.mcall (.mcall (.mcall (.mcall (.mcall (.mcall (.id (str% "loop")) (str% "Id") (.cons (.str (str% "b")) .nil)) (str% "Dot") (.cons (.str (str% "buf")) .nil)) (str% "Index") (.cons (.mcall (.mcall (.mcall (.pcall (str% "jen") (str% "Id") (.cons (.str (str% "off")) .nil)) (str% "Op") (.cons (.str (str% "+")) .nil)) (str% "Id") (.cons (.str (str% "int64")) .nil)) (str% "Call") (.cons (.mcall (.mcall (.pcall (str% "jen") (str% "Lit") (.cons (.bin (str% "-") (.id (str% "intBytes")) (.num 1)) .nil)) (str% "Op") (.cons (.str (str% "+")) .nil)) (str% "Parens") (.cons (.mcall (.mcall (.pcall (str% "jen") (str% "Id") (.cons (.str (str% "i")) .nil)) (str% "Op") (.cons (.str (str% "*")) .nil)) (str% "Lit") (.cons (.id (str% "intBytes")) .nil)) .nil)) .nil)) .nil)) (str% "Op") (.cons (.str (str% "=")) .nil)) (str% "Id") (.cons (.str (str% "byte")) .nil)) (str% "Call") (.cons (.mcall (.mcall (.pcall (str% "jen") (str% "Op") (.cons (.str (str% "*")) .nil)) (str% "Parens") (.cons (.mcall (.pcall (str% "jen") (str% "Op") (.cons (.str (str% "*")) .nil)) (str% "Id") (.cons (.pcall (str% "strings") (str% "Join") (.cons (.comp (.slice (.named (str% "string"))) (.cons (.str (str% "uint")) (.cons (.index (.id (str% "arguments")) (.num 3)) .nil))) (.cons (.str (str% "")) .nil))) .nil)) .nil)) (str% "Parens") (.cons (.mcall (.mcall (.pcall (str% "jen") (str% "Id") (.cons (.str (str% "unsafe")) .nil)) (str% "Dot") (.cons (.str (str% "Pointer")) .nil)) (str% "Call") (.cons (.mcall (.mcall (.pcall (str% "jen") (str% "Op") (.cons (.str (str% "&")) .nil)) (str% "Id") (.cons (.str (str% "data")) .nil)) (str% "Index") (.cons (.pcall (str% "jen") (str% "Id") (.cons (.str (str% "i")) .nil)) .nil)) .nil)) .nil)) .nil)))

/-- generation/complex.go:327-347 -/
def g2r1f19f1b2f1a0b0 : T := (.ifs (.bin (str% "==") (.index (.id (str% "arguments")) (.num 2)) (.str (str% "F"))) (.cons g2r1f19f1b2f1a0b0a0 (.cons (.for (.assign (str% ":=") (.cons (.id (str% "i")) .nil) (.cons (.bin (str% "-") (.id (str% "intBytes")) (.num 1)) .nil)) (.bin (str% ">") (.id (str% "i")) (.num 1)) (.inc (str% "--") (.id (str% "i"))) (.cons g2r1f19f1b2f1a0b0a1l0 .nil)) (.cons g2r1f19f1b2f1a0b0a2 .nil))) .nil)

/-- generation/complex.go:315-347 -/
def g2r1f19f1b2f1a0 : T := (.ifs (.bin (str% "||") (.bin (str% "==") (.index (.id (str% "arguments")) (.num 2)) (.str (str% "U"))) (.bin (str% "==") (.index (.id (str% "arguments")) (.num 2)) (.str (str% "I")))) (.cons g2r1f19f1b2f1a0a0 (.cons (.for (.assign (str% ":=") (.cons (.id (str% "i")) .nil) (.cons (.bin (str% "-") (.id (str% "intBytes")) (.num 1)) .nil)) (.bin (str% ">") (.id (str% "i")) (.num 1)) (.inc (str% "--") (.id (str% "i"))) (.cons g2r1f19f1b2f1a0a1l0 .nil)) (.cons g2r1f19f1b2f1a0a2 .nil))) (.cons g2r1f19f1b2f1a0b0 .nil))

/-- generation/complex.go:350-352 -/
def g2r1f19f1b2f1b0a0 : T := (.expr (.mcall (.mcall (.mcall (.mcall (.mcall (.mcall (.id (str% "loop")) (str% "Id") (.cons (.str (str% "b")) .nil)) (str% "Dot") (.cons (.str (str% "buf")) .nil)) (str% "Index") (.cons (.mcall (.mcall (.mcall (.pcall (str% "jen") (str% "Id") (.cons (.str (str% "off")) .nil)) (str% "Op") (.cons (.str (str% "+")) .nil)) (str% "Id") (.cons (.str (str% "int64")) .nil)) (str% "Call") (.cons (.mcall (.mcall (.pcall (str% "jen") (str% "Id") (.cons (.str (str% "i")) .nil)) (str% "Op") (.cons (.str (str% "*")) .nil)) (str% "Lit") (.cons (.id (str% "intBytes")) .nil)) .nil)) .nil)) (str% "Op") (.cons (.str (str% "=")) .nil)) (str% "Id") (.cons (.str (str% "byte")) .nil)) (str% "Call") (.cons (.mcall (.pcall (str% "jen") (str% "Id") (.cons (.str (str% "data")) .nil)) (str% "Index") (.cons (.pcall (str% "jen") (str% "Id") (.cons (.str (str% "i")) .nil)) .nil)) .nil)))

/-- generation/complex.go:354-356 -/
def g2r1f19f1b2f1b0a1l0 : T := (.expr (.mcall (.mcall (.mcall (.mcall (.mcall (.mcall (.id (str% "loop")) (str% "Id") (.cons (.str (str% "b")) .nil)) (str% "Dot") (.cons (.str (str% "buf")) .nil)) (str% "Index") (.cons (.mcall (.mcall (.mcall (.pcall (str% "jen") (str% "Id") (.cons (.str (str% "off")) .nil)) (str% "Op") (.cons (.str (str% "+")) .nil)) (str% "Id") (.cons (.str (str% "int64")) .nil)) (str% "Call") (.cons (.mcall (.mcall (.pcall (str% "jen") (str% "Lit") (.cons (.id (str% "i")) .nil)) (str% "Op") (.cons (.str (str% "+")) .nil)) (str% "Parens") (.cons (.mcall (.mcall (.pcall (str% "jen") (str% "Id") (.cons (.str (str% "i")) .nil)) (str% "Op") (.cons (.str (str% "*")) .nil)) (str% "Lit") (.cons (.id (str% "intBytes")) .nil)) .nil)) .nil)) .nil)) (str% "Op") (.cons (.str (str% "=")) .nil)) (str% "Id") (.cons (.str (str% "byte")) .nil)) (str% "Call") (.cons (.mcall (.mcall (.mcall (.pcall (str% "jen") (str% "Id") (.cons (.str (str% "data")) .nil)) (str% "Index") (.cons (.pcall (str% "jen") (str% "Id") (.cons (.str (str% "i")) .nil)) .nil)) (str% "Op") (.cons (.str (str% ">>")) .nil)) (str% "Lit") (.cons (.bin (str% "*") (.id (str% "i")) (.num 8)) .nil)) .nil)))

/-- generation/complex.go:359-362 -/
def g2r1f19f1b2f1b0b0a0 : T := (.expr (.mcall (.mcall (.mcall (.mcall (.mcall (.mcall (.id (str% "loop")) (str% "Id") (.cons (.str (str% "b")) .nil)) (str% "Dot") (.cons (.str (str% "buf")) .nil)) (str% "Index") (.cons (.mcall (.mcall (.mcall (.pcall (str% "jen") (str% "Id") (.cons (.str (str% "off")) .nil)) (str% "Op") (.cons (.str (str% "+")) .nil)) (str% "Id") (.cons (.str (str% "int64")) .nil)) (str% "Call") (.cons (.mcall (.mcall (.pcall (str% "jen") (str% "Id") (.cons (.str (str% "i")) .nil)) (str% "Op") (.cons (.str (str% "*")) .nil)) (str% "Lit") (.cons (.id (str% "intBytes")) .nil)) .nil)) .nil)) (str% "Op") (.cons (.str (str% "=")) .nil)) (str% "Id") (.cons (.str (str% "byte")) .nil)) (str% "Call") (.cons (.mcall (.mcall (.pcall (str% "jen") (str% "Op") (.cons (.str (str% "*")) .nil)) (str% "Parens") (.cons (.mcall (.pcall (str% "jen") (str% "Op") (.cons (.str (str% "*")) .nil)) (str% "Id") (.cons (.pcall (str% "strings") (str% "Join") (.cons (.comp (.slice (.named (str% "string"))) (.cons (.str (str% "uint")) (.cons (.index (.id (str% "arguments")) (.num 3)) .nil))) (.cons (.str (str% "")) .nil))) .nil)) .nil)) (str% "Parens") (.cons (.mcall (.mcall (.pcall (str% "jen") (str% "Id") (.cons (.str (str% "unsafe")) .nil)) (str% "Dot") (.cons (.str (str% "Pointer")) .nil)) (str% "Call") (.cons (.mcall (.mcall (.pcall (str% "jen") (str% "Op") (.cons (.str (str% "&")) .nil)) (str% "Id") (.cons (.str (str% "data")) .nil)) (str% "Index") (.cons (.pcall (str% "jen") (str% "Id") (.cons (.str (str% "i")) .nil)) .nil)) .nil)) .nil)) .nil)))

/-- generation/complex.go:364-367 -/
def g2r1f19f1b2f1b0b0a1l0 : T := (.expr (.mcall (.mcall (.mcall (.mcall (.mcall (.mcall (.id (str% "loop")) (str% "Id") (.cons (.str (str% "b")) .nil)) (str% "Dot") (.cons (.str (str% "buf")) .nil)) (str% "Index") (.cons (.mcall (.mcall (.mcall (.pcall (str% "jen") (str% "Id") (.cons (.str (str% "off")) .nil)) (str% "Op") (.cons (.str (str% "+")) .nil)) (str% "Id") (.cons (.str (str% "int64")) .nil)) (str% "Call") (.cons (.mcall (.mcall (.pcall (str% "jen") (str% "Lit") (.cons (.id (str% "i")) .nil)) (str% "Op") (.cons (.str (str% "+")) .nil)) (str% "Parens") (.cons (.mcall (.mcall (.pcall (str% "jen") (str% "Id") (.cons (.str (str% "i")) .nil)) (str% "Op") (.cons (.str (str% "*")) .nil)) (str% "Lit") (.cons (.id (str% "intBytes")) .nil)) .nil)) .nil)) .nil)) (str% "Op") (.cons (.str (str% "=")) .nil)) (str% "Id") (.cons (.str (str% "byte")) .nil)) (str% "Call") (.cons (.mcall (.mcall (.mcall (.mcall (.pcall (str% "jen") (str% "Op") (.cons (.str (str% "*")) .nil)) (str% "Parens") (.cons (.mcall (.pcall (str% "jen") (str% "Op") (.cons (.str (str% "*")) .nil)) (str% "Id") (.cons (.pcall (str% "strings") (str% "Join") (.cons (.comp (.slice (.named (str% "string"))) (.cons (.str (str% "uint")) (.cons (.index (.id (str% "arguments")) (.num 3)) .nil))) (.cons (.str (str% "")) .nil))) .nil)) .nil)) (str% "Parens") (.cons (.mcall (.mcall (.pcall (str% "jen") (str% "Id") (.cons (.str (str% "unsafe")) .nil)) (str% "Dot") (.cons (.str (str% "Pointer")) .nil)) (str% "Call") (.cons (.mcall (.mcall (.pcall (str% "jen") (str% "Op") (.cons (.str (str% "&")) .nil)) (str% "Id") (.cons (.str (str% "data")) .nil)) (str% "Index") (.cons (.pcall (str% "jen") (str% "Id") (.cons (.str (str% "i")) .nil)) .nil)) .nil)) .nil)) (str% "Op") (.cons (.str (str% ">>")) .nil)) (str% "Lit") (.cons (.bin (str% "*") (.id (str% "i")) (.num 8)) .nil)) .nil)))

/-- generation/complex.go:358-369 -/
def g2r1f19f1b2f1b0b0 : T := (.ifs (.bin (str% "==") (.index (.id (str% "arguments")) (.num 2)) (.str (str% "F"))) (.cons g2r1f19f1b2f1b0b0a0 (.cons (.for (.assign (str% ":=") (.cons (.id (str% "i")) .nil) (.cons (.num 1) .nil)) (.bin (str% "<") (.id (str% "i")) (.id (str% "intBytes"))) (.inc (str% "++") (.id (str% "i"))) (.cons g2r1f19f1b2f1b0b0a1l0 .nil)) .nil)) .nil)

/-- generation/complex.go:349-369 -/
def g2r1f19f1b2f1b0 : T := (.ifs (.bin (str% "||") (.bin (str% "==") (.index (.id (str% "arguments")) (.num 2)) (.str (str% "U"))) (.bin (str% "==") (.index (.id (str% "arguments")) (.num 2)) (.str (str% "I")))) (.cons g2r1f19f1b2f1b0a0 (.cons (.for (.assign (str% ":=") (.cons (.id (str% "i")) .nil) (.cons (.num 1) .nil)) (.bin (str% "<") (.id (str% "i")) (.id (str% "intBytes"))) (.inc (str% "++") (.id (str% "i"))) (.cons g2r1f19f1b2f1b0a1l0 .nil)) .nil)) (.cons g2r1f19f1b2f1b0b0 .nil))

/-- generation/complex.go:372-373 -/
def g2r1f19f1b2f3 : T := (.expr (.mcall (.mcall (.id (str% "loop")) (str% "If") (.cons (.mcall (.mcall (.pcall (str% "jen") (str% "Id") (.cons (.str (str% "i")) .nil)) (str% "Op") (.cons (.str (str% "<")) .nil)) (str% "Id") (.cons (.str (str% "n")) .nil)) .nil)) (str% "Block") (.cons (.mcall (.pcall (str% "jen") (str% "Goto") .nil) (str% "Id") (.cons (.str (str% "write_loop")) .nil)) .nil)))

/-- generation/complex.go:313-373 -/
def g2r1f19f1b2f : T := (.cons (.expr (.mcall (.id (str% "loop")) (str% "Id") (.cons (.str (str% "write_loop:")) .nil))) (.cons (.ifs (.bin (str% "==") (.index (.id (str% "arguments")) (.num 4)) (.str (str% "BE"))) (.cons g2r1f19f1b2f1a0 .nil) (.cons g2r1f19f1b2f1b0 .nil)) (.cons (.expr (.mcall (.mcall (.id (str% "loop")) (str% "Id") (.cons (.str (str% "i")) .nil)) (str% "Op") (.cons (.str (str% "++")) .nil))) (.cons g2r1f19f1b2f3 .nil))))

/-- generation/complex.go:203-375 -/
def g2r1f19f1 : T := (.ifs (.bin (str% "==") (.index (.id (str% "arguments")) (.num 1)) (.str (str% "Read"))) (.cons (.ifs (.bin (str% "==") (.index (.id (str% "arguments")) (.num 0)) (.str (str% "Buffer"))) (.cons g2r1f19f1a0a0 .nil) .nil) (.cons (.expr (.mcall (.mcall (.mcall (.mcall (.id (str% "body")) (str% "Id") (.cons (.str (str% "i")) .nil)) (str% "Op") (.cons (.str (str% ":=")) .nil)) (str% "Id") (.cons (.str (str% "int64")) .nil)) (str% "Call") (.cons (.pcall (str% "jen") (str% "Lit") (.cons (.num 0) .nil)) .nil))) (.cons (.ifs (.bin (str% "==") (.index (.id (str% "arguments")) (.num 2)) (.str (str% "F"))) (.cons g2r1f19f1a2a0 .nil) .nil) (.cons (.expr (.mfunc (.id (str% "body")) (str% "BlockFunc") .nil [((str% "loop"), (.ptr (.named (str% "jen.Group"))))] g2r1f19f1a3f)) .nil)))) (.cons (.expr (.mcall (.mcall (.mcall (.id (str% "body")) (str% "Id") (.cons (.str (str% "i")) .nil)) (str% "Op") (.cons (.str (str% ":=")) .nil)) (str% "Lit") (.cons (.num 0) .nil))) (.cons (.expr (.mcall (.mcall (.mcall (.id (str% "body")) (str% "Id") (.cons (.str (str% "n")) .nil)) (str% "Op") (.cons (.str (str% ":=")) .nil)) (str% "Len") (.cons (.pcall (str% "jen") (str% "Id") (.cons (.str (str% "data")) .nil)) .nil))) (.cons (.expr (.mfunc (.id (str% "body")) (str% "BlockFunc") .nil [((str% "loop"), (.ptr (.named (str% "jen.Group"))))] g2r1f19f1b2f)) .nil))))

/-- generation/complex.go:188-379 -/
def g2r1f19f : T := (.cons (.ifs (.bin (str% "==") (.index (.id (str% "arguments")) (.num 0)) (.str (str% "Buffer"))) (.cons (.ifs (.bin (str% "==") (.index (.id (str% "arguments")) (.num 1)) (.str (str% "Read"))) (.cons g2r1f19f0a0a0 (.cons g2r1f19f0a0a1 .nil)) (.cons g2r1f19f0a0b0 (.cons g2r1f19f0a0b1 .nil))) .nil) .nil) (.cons g2r1f19f1 (.cons (.ifs (.bin (str% "&&") (.bin (str% "==") (.index (.id (str% "arguments")) (.num 0)) (.str (str% "Buffer"))) (.bin (str% "==") (.index (.id (str% "arguments")) (.num 1)) (.str (str% "Read")))) (.cons (.expr (.mcall (.id (str% "body")) (str% "Return") .nil)) .nil) .nil) .nil)))

/-- generation/complex.go:187-380 -/
def g2r1f19 : T := (.expr (.mfunc (.id (str% "function")) (str% "BlockFunc") .nil [((str% "body"), (.ptr (.named (str% "jen.Group"))))] g2r1f19f))

/-- generation/complex.go:382 -/
def g2r1f20 : T := (.assign (str% ":=") (.cons (.id (str% "outputBuffer")) .nil) (.cons (.pcall (str% "bytes") (str% "NewBuffer") (.cons (.comp (.slice (.named (str% "byte"))) .nil) .nil)) .nil))

/-- generation/complex.go:383 -/
def g2r1f21 : T := (.assign (str% "=") (.cons (.id (str% "err")) .nil) (.cons (.mcall (.id (str% "builder")) (str% "Render") (.cons (.id (str% "outputBuffer")) .nil)) .nil))

/-- generation/complex.go:384-387 -/
def g2r1f22 : T := (.ifs (.bin (str% "!=") (.id (str% "err")) (.id (str% "nil"))) (.cons (.expr (.pcall (str% "fmt") (str% "Println") (.cons (.str (str% "! unable to render code:")) (.cons (.id (str% "err")) .nil)))) (.cons (.ret (.conv (.slice (.named (str% "byte"))) (.str (str% "// render failure")))) .nil)) .nil)

/-- generation/complex.go:389 -/
def g2r1f23 : T := (.assign (str% "=") (.cons (.id (str% "_")) (.cons (.id (str% "_")) .nil)) (.cons (.mcall (.id (str% "outputBuffer")) (str% "Write") (.cons (.conv (.slice (.named (str% "byte"))) (.str (str% "\n\n"))) .nil)) .nil))

/-- generation/complex.go:391 -/
def g2r1f24 : T := (.assign (str% "=") (.cons (.id (str% "builder")) .nil) (.cons (.new (.named (str% "jen.Group")) .nil) .nil))

/-- generation/complex.go:392-408 -/
def g2r1f25 : T := (.expr (.mcall (.id (str% "builder")) (str% "Comment") (.cons (.pcall (str% "strings") (str% "Join") (.cons (.comp (.slice (.named (str% "string"))) (.cons (.str (str% "// ")) (.cons (.id (str% "functionNameNext")) (.cons (.str (str% " ")) (.cons (.index (.comp (.map (.named (str% "string")) (.named (str% "string"))) (.cons (.kv (.str (str% "Read")) (.str (str% "reads"))) (.cons (.kv (.str (str% "Write")) (.str (str% "writes"))) .nil))) (.index (.id (str% "arguments")) (.num 1))) (.cons (.str (str% " a slice of ")) (.cons (.id (str% "intType")) (.cons (.str (str% "s ")) (.cons (.index (.comp (.map (.named (str% "string")) (.named (str% "string"))) (.cons (.kv (.str (str% "Read")) (.str (str% "from"))) (.cons (.kv (.str (str% "Write")) (.str (str% "to"))) .nil))) (.index (.id (str% "arguments")) (.num 1))) (.cons (.str (str% " the buffer at the\n")) .nil)))))))))) (.cons (.str (str% "")) .nil))) .nil)))

/-- generation/complex.go:409-416 -/
def g2r1f26 : T := (.expr (.mcall (.id (str% "builder")) (str% "Comment") (.cons (.pcall (str% "strings") (str% "Join") (.cons (.comp (.slice (.named (str% "string"))) (.cons (.str (str% "// current offset in ")) (.cons (.index (.comp (.map (.named (str% "string")) (.named (str% "string"))) (.cons (.kv (.str (str% "BE")) (.str (str% "big-endian"))) (.cons (.kv (.str (str% "LE")) (.str (str% "little-endian"))) .nil))) (.index (.id (str% "arguments")) (.num 4))) (.cons (.str (str% " and moves the offset forward the\n")) .nil)))) (.cons (.str (str% "")) .nil))) .nil)))

/-- generation/complex.go:417 -/
def g2r1f27 : T := (.expr (.mcall (.id (str% "builder")) (str% "Comment") (.cons (.str (str% "// amount of bytes written\n")) .nil)))

/-- generation/complex.go:418 -/
def g2r1f28 : T := (.assign (str% "=") (.cons (.id (str% "function")) .nil) (.cons (.mcall (.mcall (.mcall (.id (str% "builder")) (str% "Func") .nil) (str% "Params") (.cons (.mcall (.mcall (.pcall (str% "jen") (str% "Id") (.cons (.str (str% "b")) .nil)) (str% "Op") (.cons (.str (str% "*")) .nil)) (str% "Id") (.cons (.index (.id (str% "arguments")) (.num 0)) .nil)) .nil)) (str% "Id") (.cons (.id (str% "functionNameNext")) .nil)) .nil))

/-- generation/complex.go:423 -/
def g2r1f29b0a0a0 : T := (.expr (.mcall (.mcall (.id (str% "function")) (str% "Params") (.cons (.mcall (.pcall (str% "jen") (str% "Id") (.cons (.str (str% "n")) .nil)) (str% "Id") (.cons (.str (str% "int64")) .nil)) .nil)) (str% "Params") (.cons (.mcall (.mcall (.pcall (str% "jen") (str% "Id") (.cons (.str (str% "out")) .nil)) (str% "Index") .nil) (str% "Id") (.cons (.id (str% "intType")) .nil)) .nil)))

/-- generation/complex.go:425 -/
def g2r1f29b0a0b0 : T := (.expr (.mcall (.id (str% "function")) (str% "Params") (.cons (.mcall (.mcall (.mcall (.pcall (str% "jen") (str% "Id") (.cons (.str (str% "out")) .nil)) (str% "Op") (.cons (.str (str% "*")) .nil)) (str% "Index") .nil) (str% "Id") (.cons (.id (str% "intType")) .nil)) (.cons (.mcall (.pcall (str% "jen") (str% "Id") (.cons (.str (str% "n")) .nil)) (str% "Id") (.cons (.str (str% "int64")) .nil)) .nil))))

/-- generation/complex.go:419-427 -/
def g2r1f29 : T := (.ifs (.bin (str% "==") (.index (.id (str% "arguments")) (.num 1)) (.str (str% "Write"))) (.cons (.expr (.mcall (.id (str% "function")) (str% "Params") (.cons (.mcall (.mcall (.pcall (str% "jen") (str% "Id") (.cons (.str (str% "data")) .nil)) (str% "Index") .nil) (str% "Id") (.cons (.id (str% "intType")) .nil)) .nil))) .nil) (.cons (.ifs (.bin (str% "==") (.index (.id (str% "arguments")) (.num 1)) (.str (str% "Read"))) (.cons (.ifs (.bin (str% "==") (.index (.id (str% "arguments")) (.num 0)) (.str (str% "Buffer"))) (.cons g2r1f29b0a0a0 .nil) (.cons g2r1f29b0a0b0 .nil)) .nil) .nil) .nil))

/-- generation/complex.go:431-432 -/
def g2r1f30f0a0 : T := (.expr (.mcall (.mcall (.mcall (.id (str% "body")) (str% "Id") (.cons (.str (str% "b")) .nil)) (str% "Dot") (.cons (.id (str% "functionName")) .nil)) (str% "Call") (.cons (.mcall (.pcall (str% "jen") (str% "Id") (.cons (.str (str% "b")) .nil)) (str% "Dot") (.cons (.str (str% "off")) .nil)) (.cons (.pcall (str% "jen") (str% "Id") (.cons (.str (str% "data")) .nil)) .nil))))

/-- generation/complex.go:433-435 -/
def g2r1f30f0a1 : T := (.expr (.mcall (.mcall (.mcall (.id (str% "body")) (str% "Id") (.cons (.str (str% "b")) .nil)) (str% "Dot") (.cons (.str (str% "SeekByte")) .nil)) (str% "Call") (.cons (.mcall (.mcall (.mcall (.pcall (str% "jen") (str% "Id") (.cons (.str (str% "int64")) .nil)) (str% "Call") (.cons (.pcall (str% "jen") (str% "Len") (.cons (.pcall (str% "jen") (str% "Id") (.cons (.str (str% "data")) .nil)) .nil)) .nil)) (str% "Op") (.cons (.str (str% "*")) .nil)) (str% "Lit") (.cons (.id (str% "intBytes")) .nil)) (.cons (.pcall (str% "jen") (str% "Lit") (.cons (.id (str% "true")) .nil)) .nil))))

/-- generation/complex.go:438-439 -/
def g2r1f30f0b0a0a0 : T := (.expr (.mcall (.mcall (.mcall (.mcall (.mcall (.id (str% "body")) (str% "Id") (.cons (.str (str% "out")) .nil)) (str% "Op") (.cons (.str (str% "=")) .nil)) (str% "Id") (.cons (.str (str% "b")) .nil)) (str% "Dot") (.cons (.id (str% "functionName")) .nil)) (str% "Call") (.cons (.mcall (.pcall (str% "jen") (str% "Id") (.cons (.str (str% "b")) .nil)) (str% "Dot") (.cons (.str (str% "off")) .nil)) (.cons (.pcall (str% "jen") (str% "Id") (.cons (.str (str% "n")) .nil)) .nil))))

/-- generation/complex.go:441-442 -/
def g2r1f30f0b0a0b0 : T := (.expr (.mcall (.mcall (.mcall (.id (str% "body")) (str% "Id") (.cons (.str (str% "b")) .nil)) (str% "Dot") (.cons (.id (str% "functionName")) .nil)) (str% "Call") (.cons (.pcall (str% "jen") (str% "Id") (.cons (.str (str% "out")) .nil)) (.cons (.mcall (.pcall (str% "jen") (str% "Id") (.cons (.str (str% "b")) .nil)) (str% "Dot") (.cons (.str (str% "off")) .nil)) (.cons (.pcall (str% "jen") (str% "Id") (.cons (.str (str% "n")) .nil)) .nil)))))

/-- generation/complex.go:445-446 -/
def g2r1f30f0b0a1 : T := (.expr (.mcall (.mcall (.mcall (.id (str% "body")) (str% "Id") (.cons (.str (str% "b")) .nil)) (str% "Dot") (.cons (.str (str% "SeekByte")) .nil)) (str% "Call") (.cons (.mcall (.mcall (.pcall (str% "jen") (str% "Id") (.cons (.str (str% "n")) .nil)) (str% "Op") (.cons (.str (str% "*")) .nil)) (str% "Lit") (.cons (.id (str% "intBytes")) .nil)) (.cons (.pcall (str% "jen") (str% "Lit") (.cons (.id (str% "true")) .nil)) .nil))))

/-- generation/complex.go:436-451 -/
def g2r1f30f0b0 : T := (.ifs (.bin (str% "==") (.index (.id (str% "arguments")) (.num 1)) (.str (str% "Read"))) (.cons (.ifs (.bin (str% "==") (.index (.id (str% "arguments")) (.num 0)) (.str (str% "Buffer"))) (.cons g2r1f30f0b0a0a0 .nil) (.cons g2r1f30f0b0a0b0 .nil)) (.cons g2r1f30f0b0a1 (.cons (.ifs (.bin (str% "==") (.index (.id (str% "arguments")) (.num 0)) (.str (str% "Buffer"))) (.cons (.expr (.mcall (.id (str% "body")) (str% "Return") .nil)) .nil) .nil) .nil))) .nil)

/-- generation/complex.go:430-451 -/
def g2r1f30f : T := (.cons (.ifs (.bin (str% "==") (.index (.id (str% "arguments")) (.num 1)) (.str (str% "Write"))) (.cons g2r1f30f0a0 (.cons g2r1f30f0a1 .nil)) (.cons g2r1f30f0b0 .nil)) .nil)

/-- generation/complex.go:429-452 -/
def g2r1f30 : T := (.expr (.mfunc (.id (str% "function")) (str% "BlockFunc") .nil [((str% "body"), (.ptr (.named (str% "jen.Group"))))] g2r1f30f))

/-- generation/complex.go:454 -/
def g2r1f31 : T := (.assign (str% "=") (.cons (.id (str% "err")) .nil) (.cons (.mcall (.id (str% "builder")) (str% "Render") (.cons (.id (str% "outputBuffer")) .nil)) .nil))

/-- generation/complex.go:455-458 -/
def g2r1f32 : T := (.ifs (.bin (str% "!=") (.id (str% "err")) (.id (str% "nil"))) (.cons (.expr (.pcall (str% "fmt") (str% "Println") (.cons (.str (str% "! unable to render code:")) (.cons (.id (str% "err")) .nil)))) (.cons (.ret (.conv (.slice (.named (str% "byte"))) (.str (str% "// render failure")))) .nil)) .nil)

/-- generation/complex.go:460 -/
def g2r1f33 : T := (.ret (.mcall (.id (str% "outputBuffer")) (str% "Bytes") .nil))

/-- generation/complex.go:86-460 -/
def g2r1f : T := (.cons g2r1f0 (.cons g2r1f1 (.cons g2r1f2 (.cons g2r1f3 (.cons g2r1f4 (.cons g2r1f5 (.cons g2r1f6 (.cons g2r1f7 (.cons g2r1f8 (.cons g2r1f9 (.cons g2r1f10 (.cons g2r1f11 (.cons g2r1f12 (.cons g2r1f13 (.cons g2r1f14 (.cons g2r1f15 (.cons g2r1f16 (.cons g2r1f17 (.cons g2r1f18 (.cons g2r1f19 (.cons g2r1f20 (.cons g2r1f21 (.cons g2r1f22 (.cons g2r1f23 (.cons g2r1f24 (.cons g2r1f25 (.cons g2r1f26 (.cons g2r1f27 (.cons g2r1f28 (.cons g2r1f29 (.cons g2r1f30 (.cons g2r1f31 (.cons g2r1f32 (.cons g2r1f33 .nil))))))))))))))))))))))))))))))))))

/-- generation/complex.go:85-461 -/
def g2r1 : T := (.assign (str% "=") (.cons (.index (.id (str% "files")) (.id (str% "name"))) .nil) (.cons (.mfunc (.id (str% "magicCommentRegex")) (str% "ReplaceAllFunc") (.cons (.index (.id (str% "files")) (.id (str% "name"))) .nil) [((str% "comment"), (.slice (.named (str% "byte"))))] g2r1f) .nil))

/-- generation/complex.go:83-461 -/
def g2r : T := (.cons g2r0 (.cons g2r1 .nil))

/-- generation/complex.go:82-462 -/
def g2 : T := (.range (str% "name") (str% "_") (.id (str% "files")) g2r)

/-- generation/complex.go:463 -/
def g3 : T := (.ret .nil)

/-- generation/complex.go:78-463 -/
def g : T := (.cons g0 (.cons g1 (.cons g2 (.cons g3 .nil))))

/-- The declarations of the file. -/
def tops : List Top := [(.func (str% "GenerateComplex") [((str% "oldFiles"), (.map (.named (str% "string")) (.slice (.named (str% "byte")))))] [((str% "files"), (.map (.named (str% "string")) (.slice (.named (str% "byte"))))), ((str% "e"), (.named (str% "error")))] g)]

theorem link : parse text = some tops := by decide +kernel

end Crunch.Gen.Go.Complex
