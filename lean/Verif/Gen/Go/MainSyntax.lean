import Verif.Gen.Go.Syntax
import Verif.Gen.Go.MainText

/-!
# generation/main.go: syntax

Written by tools/src_embed.py; `link` says that it is the syntax of the text.
-/

namespace Crunch.Gen.Go.Main

/-- generation/main.go:29 -/
def i0 : T := (.assign (str% "=") (.cons (.id (str% "directoryName")) .nil) (.cons (.pcall (str% "flag") (str% "String") (.cons (.str (str% "directory")) (.cons (.str (str% ".")) (.cons (.str (str% "the directory to run code generation on the files in")) .nil)))) .nil))

/-- generation/main.go:30 -/
def i1 : T := (.assign (str% "=") (.cons (.id (str% "generationKind")) .nil) (.cons (.pcall (str% "flag") (str% "String") (.cons (.str (str% "generation")) (.cons (.str (str% "")) (.cons (.str (str% "what kind of generation to run on the files")) .nil)))) .nil))

/-- generation/main.go:29-30 -/
def i : T := (.cons i0 (.cons i1 .nil))

/-- generation/main.go:35 -/
def m0 : T := (.expr (.pcall (str% "flag") (str% "Parse") .nil))

/-- generation/main.go:37 -/
def m1 : T := (.var (str% "err") (.named (str% "error")))

/-- generation/main.go:39 -/
def m2 : T := (.assign (str% "=") (.cons (.un (str% "*") (.id (str% "directoryName"))) (.cons (.id (str% "err")) .nil)) (.cons (.pcall (str% "filepath") (str% "Abs") (.cons (.un (str% "*") (.id (str% "directoryName"))) .nil)) .nil))

/-- generation/main.go:41 -/
def m3a0 : T := (.expr (.pcall (str% "fmt") (str% "Printf") (.cons (.str (str% "! unable to get absolute path of provided directory. (%v)\n")) (.cons (.id (str% "err")) .nil))))

/-- generation/main.go:42 -/
def m3a1 : T := (.ret .nil)

/-- generation/main.go:40-43 -/
def m3 : T := (.ifs (.bin (str% "!=") (.id (str% "err")) (.id (str% "nil"))) (.cons m3a0 (.cons m3a1 .nil)) .nil)

/-- generation/main.go:45 -/
def m4 : T := (.assign (str% ":=") (.cons (.id (str% "directory")) (.cons (.id (str% "err")) .nil)) (.cons (.pcall (str% "os") (str% "Open") (.cons (.un (str% "*") (.id (str% "directoryName"))) .nil)) .nil))

/-- generation/main.go:47 -/
def m5a0 : T := (.expr (.pcall (str% "fmt") (str% "Printf") (.cons (.str (str% "! unable to open source directory. (%v)\n")) (.cons (.id (str% "err")) .nil))))

/-- generation/main.go:48 -/
def m5a1 : T := (.ret .nil)

/-- generation/main.go:46-49 -/
def m5 : T := (.ifs (.bin (str% "!=") (.id (str% "err")) (.id (str% "nil"))) (.cons m5a0 (.cons m5a1 .nil)) .nil)

/-- generation/main.go:50 -/
def m6 : T := (.defer (.mcall (.id (str% "directory")) (str% "Close") .nil))

/-- generation/main.go:52 -/
def m7 : T := (.assign (str% ":=") (.cons (.id (str% "directoryInfo")) (.cons (.id (str% "err")) .nil)) (.cons (.mcall (.id (str% "directory")) (str% "Stat") .nil) .nil))

/-- generation/main.go:54 -/
def m8a0 : T := (.expr (.pcall (str% "fmt") (str% "Printf") (.cons (.str (str% "! unable to get source directory information. (%v)\n")) (.cons (.id (str% "err")) .nil))))

/-- generation/main.go:55 -/
def m8a1 : T := (.ret .nil)

/-- generation/main.go:53-56 -/
def m8 : T := (.ifs (.bin (str% "!=") (.id (str% "err")) (.id (str% "nil"))) (.cons m8a0 (.cons m8a1 .nil)) .nil)

/-- generation/main.go:59 -/
def m9a0 : T := (.expr (.pcall (str% "fmt") (str% "Println") (.cons (.str (str% "! provided source directory is not a directory")) .nil)))

/-- generation/main.go:60 -/
def m9a1 : T := (.ret .nil)

/-- generation/main.go:58-61 -/
def m9 : T := (.ifs (.un (str% "!") (.mcall (.id (str% "directoryInfo")) (str% "IsDir") .nil)) (.cons m9a0 (.cons m9a1 .nil)) .nil)

/-- generation/main.go:65 -/
def m10 : T := (.assign (str% "=") (.cons (.id (str% "_")) .nil) (.cons (.mcall (.id (str% "directory")) (str% "Chdir") .nil) .nil))

/-- generation/main.go:67 -/
def m11 : T := (.assign (str% ":=") (.cons (.id (str% "directoryFiles")) (.cons (.id (str% "err")) .nil)) (.cons (.mcall (.id (str% "directory")) (str% "Readdir") (.cons (.num 0) .nil)) .nil))

/-- generation/main.go:69 -/
def m12a0 : T := (.expr (.pcall (str% "fmt") (str% "Printf") (.cons (.str (str% "! unable to read directory information. (%v)\n")) (.cons (.id (str% "err")) .nil))))

/-- generation/main.go:68-70 -/
def m12 : T := (.ifs (.bin (str% "!=") (.id (str% "err")) (.id (str% "nil"))) (.cons m12a0 .nil) .nil)

/-- generation/main.go:72 -/
def m13 : T := (.assign (str% ":=") (.cons (.id (str% "files")) .nil) (.cons (.comp (.map (.named (str% "string")) (.slice (.named (str% "byte")))) .nil) .nil))

/-- generation/main.go:75 -/
def m14r0a0 : T := (.assign (str% ":=") (.cons (.id (str% "file")) (.cons (.id (str% "err")) .nil)) (.cons (.pcall (str% "os") (str% "Open") (.cons (.mcall (.id (str% "fileInfo")) (str% "Name") .nil) .nil)) .nil))

/-- generation/main.go:77 -/
def m14r0a1a0 : T := (.expr (.pcall (str% "fmt") (str% "Printf") (.cons (.str (str% "! unable to open source file. (%v)\n")) (.cons (.id (str% "err")) .nil))))

/-- generation/main.go:78 -/
def m14r0a1a1 : T := .cont

/-- generation/main.go:76-79 -/
def m14r0a1 : T := (.ifs (.bin (str% "!=") (.id (str% "err")) (.id (str% "nil"))) (.cons m14r0a1a0 (.cons m14r0a1a1 .nil)) .nil)

/-- generation/main.go:81 -/
def m14r0a2 : T := (.assign (str% "=") (.cons (.index (.id (str% "files")) (.mcall (.id (str% "fileInfo")) (str% "Name") .nil)) (.cons (.id (str% "err")) .nil)) (.cons (.pcall (str% "ioutil") (str% "ReadAll") (.cons (.id (str% "file")) .nil)) .nil))

/-- generation/main.go:83 -/
def m14r0a3a0 : T := (.expr (.pcall (str% "fmt") (str% "Printf") (.cons (.str (str% "! unable to read file contents. (%v)\n")) (.cons (.id (str% "err")) .nil))))

/-- generation/main.go:84 -/
def m14r0a3a1 : T := .cont

/-- generation/main.go:82-85 -/
def m14r0a3 : T := (.ifs (.bin (str% "!=") (.id (str% "err")) (.id (str% "nil"))) (.cons m14r0a3a0 (.cons m14r0a3a1 .nil)) .nil)

/-- generation/main.go:87 -/
def m14r0a4 : T := (.assign (str% "=") (.cons (.id (str% "_")) .nil) (.cons (.mcall (.id (str% "file")) (str% "Close") .nil) .nil))

/-- generation/main.go:74-88 -/
def m14r0 : T := (.ifs (.bin (str% "&&") (.bin (str% "&&") (.bin (str% "==") (.pcall (str% "filepath") (str% "Ext") (.cons (.mcall (.id (str% "fileInfo")) (str% "Name") .nil) .nil)) (.str (str% ".go"))) (.un (str% "!") (.mcall (.id (str% "fileInfo")) (str% "IsDir") .nil))) (.pcall (str% "strings") (str% "HasPrefix") (.cons (.mcall (.id (str% "fileInfo")) (str% "Name") .nil) (.cons (.str (str% "_")) .nil)))) (.cons m14r0a0 (.cons m14r0a1 (.cons m14r0a2 (.cons m14r0a3 (.cons m14r0a4 .nil))))) .nil)

/-- generation/main.go:74-88 -/
def m14r : T := (.cons m14r0 .nil)

/-- generation/main.go:73-89 -/
def m14 : T := (.range (str% "_") (str% "fileInfo") (.id (str% "directoryFiles")) m14r)

/-- generation/main.go:91 -/
def m15 : T := (.var (str% "generated") (.map (.named (str% "string")) (.slice (.named (str% "byte")))))

/-- generation/main.go:95 -/
def m16s0c0 : T := (.assign (str% "=") (.cons (.id (str% "generated")) (.cons (.id (str% "err")) .nil)) (.cons (.fcall (str% "GenerateComplex") (.cons (.id (str% "files")) .nil)) .nil))

/-- generation/main.go:97 -/
def m16s0c1a0 : T := (.expr (.pcall (str% "fmt") (str% "Printf") (.cons (.str (str% "! @ GenerateComplex() %v\n")) (.cons (.id (str% "err")) .nil))))

/-- generation/main.go:98 -/
def m16s0c1a1 : T := (.ret .nil)

/-- generation/main.go:96-99 -/
def m16s0c1 : T := (.ifs (.bin (str% "!=") (.id (str% "err")) (.id (str% "nil"))) (.cons m16s0c1a0 (.cons m16s0c1a1 .nil)) .nil)

/-- generation/main.go:94-99 -/
def m16s0 : T := (.case (.str (str% "complex")) (.cons m16s0c0 (.cons m16s0c1 .nil)))

/-- generation/main.go:101 -/
def m16s1d0 : T := (.expr (.pcall (str% "fmt") (str% "Println") (.cons (.str (str% "! no valid generation mode specified")) .nil)))

/-- generation/main.go:102 -/
def m16s1d1 : T := (.ret .nil)

/-- generation/main.go:100-102 -/
def m16s1 : T := (.default (.cons m16s1d0 (.cons m16s1d1 .nil)))

/-- generation/main.go:93-103 -/
def m16 : T := (.switch (.un (str% "*") (.id (str% "generationKind"))) (.cons m16s0 (.cons m16s1 .nil)))

/-- generation/main.go:106 -/
def m17r0 : T := (.assign (str% ":=") (.cons (.id (str% "file")) (.cons (.id (str% "err")) .nil)) (.cons (.pcall (str% "os") (str% "OpenFile") (.cons (.pcall (str% "strings") (str% "Join") (.cons (.comp (.slice (.named (str% "string"))) (.cons (.pcall (str% "strings") (str% "TrimSuffix") (.cons (.pcall (str% "strings") (str% "TrimPrefix") (.cons (.id (str% "name")) (.cons (.str (str% "_")) .nil))) (.cons (.str (str% ".go")) .nil))) (.cons (.str (str% ".generated.go")) .nil))) (.cons (.str (str% "")) .nil))) (.cons (.bin (str% "|") (.pconst (str% "os") (str% "O_RDWR")) (.pconst (str% "os") (str% "O_CREATE"))) (.cons (.num 420) .nil)))) .nil))

/-- generation/main.go:108 -/
def m17r1a0 : T := (.expr (.pcall (str% "fmt") (str% "Printf") (.cons (.str (str% "! unable to open source file. (%v)\n")) (.cons (.id (str% "err")) .nil))))

/-- generation/main.go:109 -/
def m17r1a1 : T := .cont

/-- generation/main.go:107-110 -/
def m17r1 : T := (.ifs (.bin (str% "!=") (.id (str% "err")) (.id (str% "nil"))) (.cons m17r1a0 (.cons m17r1a1 .nil)) .nil)

/-- generation/main.go:112 -/
def m17r2 : T := (.assign (str% "=") (.cons (.id (str% "_")) (.cons (.id (str% "err")) .nil)) (.cons (.mcall (.id (str% "file")) (str% "Write") (.cons (.id (str% "contents")) .nil)) .nil))

/-- generation/main.go:114 -/
def m17r3a0 : T := (.expr (.pcall (str% "fmt") (str% "Printf") (.cons (.str (str% "! unable to update contents of generated file. (%v)\n")) (.cons (.id (str% "err")) .nil))))

/-- generation/main.go:115 -/
def m17r3a1 : T := .cont

/-- generation/main.go:113-116 -/
def m17r3 : T := (.ifs (.bin (str% "!=") (.id (str% "err")) (.id (str% "nil"))) (.cons m17r3a0 (.cons m17r3a1 .nil)) .nil)

/-- generation/main.go:118 -/
def m17r4 : T := (.assign (str% "=") (.cons (.id (str% "_")) .nil) (.cons (.mcall (.id (str% "file")) (str% "Close") .nil) .nil))

/-- generation/main.go:106-118 -/
def m17r : T := (.cons m17r0 (.cons m17r1 (.cons m17r2 (.cons m17r3 (.cons m17r4 .nil)))))

/-- generation/main.go:105-119 -/
def m17 : T := (.range (str% "name") (str% "contents") (.id (str% "generated")) m17r)

/-- generation/main.go:35-119 -/
def m : T := (.cons m0 (.cons m1 (.cons m2 (.cons m3 (.cons m4 (.cons m5 (.cons m6 (.cons m7 (.cons m8 (.cons m9 (.cons m10 (.cons m11 (.cons m12 (.cons m13 (.cons m14 (.cons m15 (.cons m16 (.cons m17 .nil))))))))))))))))))

/-- The declarations of the file. -/
def tops : List Top := [(.var (str% "directoryName") (.ptr (.named (str% "string")))), (.var (str% "generationKind") (.ptr (.named (str% "string")))), (.func (str% "init") [] [] i), (.func (str% "main") [] [] m)]

theorem link : parse text = some tops := by decide +kernel

end Crunch.Gen.Go.Main
