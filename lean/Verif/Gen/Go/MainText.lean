import Verif.Gen.Text

/-!
# generation/main.go

Written by tools/src_embed.py.
-/

namespace Crunch.Gen.Go.Main

/-- generation/main.go:1-80 -/
def text0 : List Str := [
  str% "/*",
  str% "",
  str% "crunch - utilities for taking bytes out of things",
  str% "Copyright (c) 2019-2020 superwhiskers <whiskerdev@protonmail.com>",
  str% "",
  str% "This Source Code Form is subject to the terms of the Mozilla Public",
  str% "License, v. 2.0. If a copy of the MPL was not distributed with this",
  str% "file, You can obtain one at https://mozilla.org/MPL/2.0/.",
  str% "",
  str% "*/",
  str% "",
  str% "package main",
  str% "",
  str% "import (",
  str% "\t\"flag\"",
  str% "\t\"fmt\"",
  str% "\t\"io/ioutil\"",
  str% "\t\"os\"",
  str% "\t\"path/filepath\"",
  str% "\t\"strings\"",
  str% ")",
  str% "",
  str% "var (",
  str% "\tdirectoryName  *string",
  str% "\tgenerationKind *string",
  str% ")",
  str% "",
  str% "func init() {",
  str% "\tdirectoryName = flag.String(\"directory\", \".\", \"the directory to run code generation on the files in\")",
  str% "\tgenerationKind = flag.String(\"generation\", \"\", \"what kind of generation to run on the files\")",
  str% "}",
  str% "",
  str% "//gocyclo:ignore",
  str% "func main() {",
  str% "\tflag.Parse()",
  str% "",
  str% "\tvar err error",
  str% "",
  str% "\t*directoryName, err = filepath.Abs(*directoryName)",
  str% "\tif err != nil {",
  str% "\t\tfmt.Printf(\"! unable to get absolute path of provided directory. (%v)\\n\", err)",
  str% "\t\treturn",
  str% "\t}",
  str% "",
  str% "\tdirectory, err := os.Open(*directoryName)",
  str% "\tif err != nil {",
  str% "\t\tfmt.Printf(\"! unable to open source directory. (%v)\\n\", err)",
  str% "\t\treturn",
  str% "\t}",
  str% "\tdefer directory.Close()",
  str% "",
  str% "\tdirectoryInfo, err := directory.Stat()",
  str% "\tif err != nil {",
  str% "\t\tfmt.Printf(\"! unable to get source directory information. (%v)\\n\", err)",
  str% "\t\treturn",
  str% "\t}",
  str% "",
  str% "\tif !directoryInfo.IsDir() {",
  str% "\t\tfmt.Println(\"! provided source directory is not a directory\")",
  str% "\t\treturn",
  str% "\t}",
  str% "",
  str% "\t// we can be sure that this will not error",
  str% "\t// we know that it is a directory",
  str% "\t_ = directory.Chdir()",
  str% "",
  str% "\tdirectoryFiles, err := directory.Readdir(0)",
  str% "\tif err != nil {",
  str% "\t\tfmt.Printf(\"! unable to read directory information. (%v)\\n\", err)",
  str% "\t}",
  str% "",
  str% "\tfiles := map[string][]byte{}",
  str% "\tfor _, fileInfo := range directoryFiles {",
  str% "\t\tif filepath.Ext(fileInfo.Name()) == \".go\" && !fileInfo.IsDir() && strings.HasPrefix(fileInfo.Name(), \"_\") {",
  str% "\t\t\tfile, err := os.Open(fileInfo.Name())",
  str% "\t\t\tif err != nil {",
  str% "\t\t\t\tfmt.Printf(\"! unable to open source file. (%v)\\n\", err)",
  str% "\t\t\t\tcontinue",
  str% "\t\t\t}",
  str% ""]

/-- generation/main.go:81-121 -/
def text1 : List Str := [
  str% "\t\t\tfiles[fileInfo.Name()], err = ioutil.ReadAll(file)",
  str% "\t\t\tif err != nil {",
  str% "\t\t\t\tfmt.Printf(\"! unable to read file contents. (%v)\\n\", err)",
  str% "\t\t\t\tcontinue",
  str% "\t\t\t}",
  str% "",
  str% "\t\t\t_ = file.Close()",
  str% "\t\t}",
  str% "\t}",
  str% "",
  str% "\tvar generated map[string][]byte",
  str% "",
  str% "\tswitch *generationKind {",
  str% "\tcase \"complex\":",
  str% "\t\tgenerated, err = GenerateComplex(files)",
  str% "\t\tif err != nil {",
  str% "\t\t\tfmt.Printf(\"! @ GenerateComplex() %v\\n\", err)",
  str% "\t\t\treturn",
  str% "\t\t}",
  str% "\tdefault:",
  str% "\t\tfmt.Println(\"! no valid generation mode specified\")",
  str% "\t\treturn",
  str% "\t}",
  str% "",
  str% "\tfor name, contents := range generated {",
  str% "\t\tfile, err := os.OpenFile(strings.Join([]string{strings.TrimSuffix(strings.TrimPrefix(name, \"_\"), \".go\"), \".generated.go\"}, \"\"), os.O_RDWR|os.O_CREATE, 0644)",
  str% "\t\tif err != nil {",
  str% "\t\t\tfmt.Printf(\"! unable to open source file. (%v)\\n\", err)",
  str% "\t\t\tcontinue",
  str% "\t\t}",
  str% "",
  str% "\t\t_, err = file.Write(contents)",
  str% "\t\tif err != nil {",
  str% "\t\t\tfmt.Printf(\"! unable to update contents of generated file. (%v)\\n\", err)",
  str% "\t\t\tcontinue",
  str% "\t\t}",
  str% "",
  str% "\t\t_ = file.Close()",
  str% "\t}",
  str% "}",
  str% ""]

/-- generation/main.go:1-121 -/
def text : List Str := text0 ++ text1

end Crunch.Gen.Go.Main
