import Verif.Gen.Text

/-!
# generation/complex.go

Written by tools/src_embed.py.
-/

namespace Crunch.Gen.Go.Complex

/-- generation/complex.go:1-80 -/
def text0 : List Str := [
  str% "/*",
  str% "",
  str% "crunch - utilities for taking bytes out of things",
  str% "Copyright (c) 2019-2020 superwhiskers <whiskerdev@protonmail.com>",
  str% "",
  str% "This Source Code Form is subject to the terms of the Mozilla Public",
  str% "License, v. 2.0. If a copy of the MPL was not distributed with this",
  str% "file, You can obtain one at https://mozilla.org/MPL/2.0/.",
  str% "",
  str% "*/",
  str% "",
  str% "package main",
  str% "",
  str% "import (",
  str% "\t\"bytes\"",
  str% "\t\"fmt\"",
  str% "\t\"regexp\"",
  str% "\t\"strconv\"",
  str% "\t\"strings\"",
  str% "",
  str% "\t\"github.com/dave/jennifer/jen\"",
  str% ")",
  str% "",
  str% "// GenerateComplex takes an array of file names and the prefix for all of them",
  str% "// it runs over all of the provided files and searches for \"magic comments\"",
  str% "// that look like this:",
  str% "//",
  str% "// \t//generator:complex <receiver: Buffer | MiniBuffer> <rw: [read | write]> <sn: [signed | unsigned]> <is: [intsize (restricted to *8 atm)]> <en: [big | little]>",
  str% "//",
  str% "// if it finds one, it generates two functions in this pattern:",
  str% "//",
  str% "// \t// <naming> <reads | writes> a slice of <integer type>s to the buffer at the",
  str% "// \t// specified offset in <big-endian | little-endian> without modifying the internal",
  str% "// \t// offset value",
  str% "// \tfunc (b *<receiver>) <naming>(off int64, data []<integer type>) {",
  str% "//",
  str% "// \t\t/* standard buffer method prelude omitted for brevity */",
  str% "//",
  str% "// \t\tvar (",
  str% "// \t\t\ti = 0",
  str% "// \t\t\tn = len(data)",
  str% "// \t\t)",
  str% "// \t\t{",
  str% "// \t\t<read | write>_loop:",
  str% "// \t\t\t/** generate lines that look like the following for the number of bits to convert **/",
  str% "// \t\t\tb.buf[off+int64(i*<number of bits / 8>)] = byte(data[i] <add >> <(line of this section - 1) * 8> for each line after line 0>)",
  str% "//",
  str% "// \t\t\t/** the above lines are reversed and some bits are changed around for big-endian **/",
  str% "//",
  str% "// \t\t\ti++",
  str% "// \t\t\tif i < n {",
  str% "//",
  str% "// \t\t\t\tgoto <read | write>_loop",
  str% "//",
  str% "// \t\t\t}",
  str% "// \t\t}",
  str% "// \t}",
  str% "//",
  str% "// \t// <naming>Next <reads | writes> a slice of <integer type>s to the buffer at the",
  str% "// \t// current offset in <big-endian | little-endian> and moves the offset forward the",
  str% "// \t// amount of bytes written",
  str% "// \tfunc (b *<receiver>) <naming>Next(data []<integer type>) {",
  str% "//",
  str% "// \t\tb.<naming>(b.off, data)",
  str% "// \t\tb.SeekByte(int64(len(data))*<number of bits / 8>, true)",
  str% "//",
  str% "// \t}",
  str% "//",
  str% "// that is (mostly) it. after source tweaking, it outputs each modifed file into a new file with a name",
  str% "// like this:",
  str% "//",
  str% "// \t<filename w/o leading underscore>.generated.go",
  str% "//",
  str% "// after that, it goes to the next file and does the same.",
  str% "//",
  str% "//gocyclo:ignore",
  str% "func GenerateComplex(oldFiles map[string][]byte) (files map[string][]byte, e error) {",
  str% "\tmagicCommentRegex := regexp.MustCompile(\"(?m)^\\\\/\\\\/generator:complex ([A-z]{1,}) ([A-z]{1,}) ([A-z]{1,}) ([0-9]{1,}) ([A-z]{1,})$\")",
  str% "",
  str% "\tfiles = oldFiles"]

/-- generation/complex.go:81-160 -/
def text1 : List Str := [
  str% "",
  str% "\tfor name := range files {",
  str% "\t\tfmt.Println(\"* scanning\", name)",
  str% "",
  str% "\t\tfiles[name] = magicCommentRegex.ReplaceAllFunc(files[name], func(comment []byte) []byte {",
  str% "\t\t\targuments := magicCommentRegex.FindAllStringSubmatch(string(comment), -1)[0][1:]",
  str% "\t\t\tfmt.Printf(\"* invocation. args: %v\\n\", arguments)",
  str% "",
  str% "\t\t\t/* argument verification */",
  str% "",
  str% "\t\t\tif arguments[0] != \"Buffer\" && arguments[0] != \"MiniBuffer\" {",
  str% "\t\t\t\tfmt.Println(\"! invalid argument for position 0:\", arguments[0])",
  str% "\t\t\t\treturn []byte(fmt.Sprint(\"// invalid argument provided in position zero:\", arguments[0]))",
  str% "\t\t\t}",
  str% "",
  str% "\t\t\tif arguments[1] != \"Read\" && arguments[1] != \"Write\" {",
  str% "\t\t\t\tfmt.Println(\"! invalid argument for position 1:\", arguments[1])",
  str% "\t\t\t\treturn []byte(fmt.Sprint(\"// invalid argument provided in position one:\", arguments[1]))",
  str% "\t\t\t}",
  str% "",
  str% "\t\t\tif arguments[2] != \"I\" && arguments[2] != \"U\" && arguments[2] != \"F\" {",
  str% "\t\t\t\tfmt.Println(\"! invalid argument for position 2:\", arguments[2])",
  str% "\t\t\t\treturn []byte(fmt.Sprint(\"// invalid argument provided in position two:\", arguments[2]))",
  str% "\t\t\t}",
  str% "",
  str% "\t\t\tif arguments[3] != \"16\" && arguments[3] != \"32\" && arguments[3] != \"64\" {",
  str% "\t\t\t\tfmt.Println(\"! invalid argument for position 3:\", arguments[3])",
  str% "\t\t\t\treturn []byte(fmt.Sprint(\"// invalid argument provided in position three:\", arguments[3]))",
  str% "\t\t\t}",
  str% "",
  str% "\t\t\tif arguments[4] != \"BE\" && arguments[4] != \"LE\" {",
  str% "\t\t\t\tfmt.Println(\"! invalid argument for position 4:\", arguments[4])",
  str% "\t\t\t\treturn []byte(fmt.Sprint(\"// invalid argument provided in position four:\", arguments[4]))",
  str% "\t\t\t}",
  str% "",
  str% "\t\t\t/* convenience definitions */",
  str% "",
  str% "\t\t\tintType := strings.Join(",
  str% "\t\t\t\t[]string{",
  str% "\t\t\t\t\tmap[string]string{",
  str% "\t\t\t\t\t\t\"I\": \"int\",",
  str% "\t\t\t\t\t\t\"U\": \"uint\",",
  str% "\t\t\t\t\t\t\"F\": \"float\",",
  str% "\t\t\t\t\t}[arguments[2]],",
  str% "\t\t\t\t\targuments[3],",
  str% "\t\t\t\t},",
  str% "\t\t\t\t\"\",",
  str% "\t\t\t)",
  str% "",
  str% "\t\t\tintBits, err := strconv.Atoi(arguments[3])",
  str% "\t\t\tif err != nil {",
  str% "\t\t\t\tfmt.Println(\"! unable to convert string to integer:\", err)",
  str% "\t\t\t\treturn []byte(fmt.Sprint(\"// conversion error:\", err))",
  str% "\t\t\t}",
  str% "\t\t\tintBytes := intBits / 8",
  str% "\t\t\tfunctionName := strings.Join([]string{arguments[1], arguments[2], arguments[3], arguments[4]}, \"\")",
  str% "\t\t\tfunctionNameNext := strings.Join([]string{functionName, \"Next\"}, \"\")",
  str% "",
  str% "\t\t\t/* code generation */",
  str% "",
  str% "\t\t\tbuilder := &jen.Group{}",
  str% "\t\t\tbuilder.Comment(strings.Join([]string{",
  str% "\t\t\t\t\"// \",",
  str% "\t\t\t\tfunctionName,",
  str% "\t\t\t\t\" \",",
  str% "\t\t\t\tmap[string]string{",
  str% "\t\t\t\t\t\"Read\":  \"reads\",",
  str% "\t\t\t\t\t\"Write\": \"writes\",",
  str% "\t\t\t\t}[arguments[1]],",
  str% "\t\t\t\t\" a slice of \",",
  str% "\t\t\t\tintType,",
  str% "\t\t\t\t\"s \",",
  str% "\t\t\t\tmap[string]string{",
  str% "\t\t\t\t\t\"Read\":  \"from\",",
  str% "\t\t\t\t\t\"Write\": \"to\",",
  str% "\t\t\t\t}[arguments[1]],",
  str% "\t\t\t\t\" the buffer at the\\n\",",
  str% "\t\t\t}, \"\"))",
  str% "\t\t\tbuilder.Comment(strings.Join([]string{",
  str% "\t\t\t\t\"// specified offset in \","]

/-- generation/complex.go:161-240 -/
def text2 : List Str := [
  str% "\t\t\t\tmap[string]string{",
  str% "\t\t\t\t\t\"BE\": \"big-endian\",",
  str% "\t\t\t\t\t\"LE\": \"little-endian\",",
  str% "\t\t\t\t}[arguments[4]],",
  str% "\t\t\t\t\" without modifying the internal\\n\",",
  str% "\t\t\t}, \"\"))",
  str% "\t\t\tbuilder.Comment(\"// offset value\\n\")",
  str% "",
  str% "\t\t\tfunction := builder.Func().Params(jen.Id(\"b\").Op(\"*\").Id(arguments[0])).Id(functionName)",
  str% "\t\t\tif arguments[1] == \"Write\" {",
  str% "\t\t\t\tfunction.Params(",
  str% "\t\t\t\t\tjen.Id(\"off\").Id(\"int64\"),",
  str% "\t\t\t\t\tjen.Id(\"data\").Index().Id(intType))",
  str% "\t\t\t} else if arguments[1] == \"Read\" {",
  str% "\t\t\t\tif arguments[0] == \"Buffer\" {",
  str% "\t\t\t\t\tfunction.Params(",
  str% "\t\t\t\t\t\tjen.Id(\"off\"),",
  str% "\t\t\t\t\t\tjen.Id(\"n\").Id(\"int64\")).Params(jen.Id(\"out\").Index().Id(intType))",
  str% "\t\t\t\t} else {",
  str% "\t\t\t\t\tfunction.Params(",
  str% "\t\t\t\t\t\tjen.Id(\"out\").Op(\"*\").Index().Id(intType),",
  str% "\t\t\t\t\t\tjen.Id(\"off\"),",
  str% "\t\t\t\t\t\tjen.Id(\"n\").Id(\"int64\"))",
  str% "\t\t\t\t}",
  str% "\t\t\t}",
  str% "",
  str% "\t\t\tfunction.BlockFunc(func(body *jen.Group) {",
  str% "\t\t\t\tif arguments[0] == \"Buffer\" {",
  str% "\t\t\t\t\tif arguments[1] == \"Read\" {",
  str% "\t\t\t\t\t\tbody.If(jen.Parens(jen.Id(\"off\").Op(\"+\").Id(\"n\").Op(\"*\").Lit(intBytes)).Op(\">\").Id(\"b\").Dot(\"cap\")).",
  str% "\t\t\t\t\t\t\tBlock(jen.Panic(jen.Id(\"BufferOverreadError\")))",
  str% "\t\t\t\t\t\tbody.If(jen.Id(\"off\").Op(\"<\").Lit(0x00)).",
  str% "\t\t\t\t\t\t\tBlock(jen.Panic(jen.Id(\"BufferUnderreadError\")))",
  str% "\t\t\t\t\t} else {",
  str% "\t\t\t\t\t\tbody.If(jen.Parens(jen.Id(\"off\").Op(\"+\").Id(\"int64\").",
  str% "\t\t\t\t\t\t\tCall(jen.Len(jen.Id(\"data\"))).Op(\"*\").Lit(intBytes)).Op(\">\").Id(\"b\").Dot(\"cap\")).",
  str% "\t\t\t\t\t\t\tBlock(jen.Panic(jen.Id(\"BufferOverwriteError\")))",
  str% "\t\t\t\t\t\tbody.If(jen.Id(\"off\").Op(\"<\").Lit(0x00)).",
  str% "\t\t\t\t\t\t\tBlock(jen.Panic(jen.Id(\"BufferUnderwriteError\")))",
  str% "\t\t\t\t\t}",
  str% "\t\t\t\t}",
  str% "",
  str% "\t\t\t\tif arguments[1] == \"Read\" {",
  str% "\t\t\t\t\t// read generation code",
  str% "\t\t\t\t\tif arguments[0] == \"Buffer\" {",
  str% "\t\t\t\t\t\tbody.Id(\"out\").Op(\"=\").Id(\"make\").",
  str% "\t\t\t\t\t\t\tCall(",
  str% "\t\t\t\t\t\t\t\tjen.Index().Id(intType),",
  str% "\t\t\t\t\t\t\t\tjen.Id(\"n\"))",
  str% "\t\t\t\t\t}",
  str% "\t\t\t\t\tbody.Id(\"i\").Op(\":=\").Id(\"int64\").",
  str% "\t\t\t\t\t\tCall(jen.Lit(0))",
  str% "",
  str% "\t\t\t\t\tif arguments[2] == \"F\" {",
  str% "\t\t\t\t\t\tbody.Var().Id(\"u\").Id(strings.Join([]string{\"uint\", arguments[3]}, \"\"))",
  str% "\t\t\t\t\t}",
  str% "",
  str% "\t\t\t\t\tbody.BlockFunc(func(loop *jen.Group) {",
  str% "\t\t\t\t\t\tloop.Id(\"read_loop:\")",
  str% "",
  str% "\t\t\t\t\t\tif arguments[2] == \"F\" {",
  str% "\t\t\t\t\t\t\t// this is necessary for precedence",
  str% "\t\t\t\t\t\t\tv := loop.Id(\"u\").Op(\"=\")",
  str% "\t\t\t\t\t\t\tif arguments[4] == \"BE\" {",
  str% "\t\t\t\t\t\t\t\tv.CallFunc(func(g *jen.Group) {",
  str% "\t\t\t\t\t\t\t\t\ts := g.Null()",
  str% "\t\t\t\t\t\t\t\t\tfor i := intBytes - 1; i > 0; i-- {",
  str% "\t\t\t\t\t\t\t\t\t\ts = s.Id(strings.Join([]string{\"uint\", arguments[3]}, \"\")).",
  str% "\t\t\t\t\t\t\t\t\t\t\tCall(jen.Id(\"b\").Dot(\"buf\").Index(jen.Id(\"off\").Op(\"+\").Parens(jen.Lit(i).Op(\"+\").Parens(jen.Id(\"i\").Op(\"*\").Lit(intBytes)))))",
  str% "",
  str% "\t\t\t\t\t\t\t\t\t\tif i < intBytes-1 {",
  str% "\t\t\t\t\t\t\t\t\t\t\t// subsequent iterations",
  str% "\t\t\t\t\t\t\t\t\t\t\ts = s.Op(\"<<\").Lit((intBytes - i - 1) * 8)",
  str% "\t\t\t\t\t\t\t\t\t\t}",
  str% "\t\t\t\t\t\t\t\t\t\ts = s.Op(\"|\")",
  str% "\t\t\t\t\t\t\t\t\t}",
  str% "\t\t\t\t\t\t\t\t\ts = s.Id(strings.Join([]string{\"uint\", arguments[3]}, \"\")).",
  str% "\t\t\t\t\t\t\t\t\t\tCall(jen.Id(\"b\").Dot(\"buf\").Index(jen.Id(\"off\").Op(\"+\").Parens(jen.Id(\"i\").Op(\"*\").Lit(intBytes)))).Op(\"<<\").Lit((intBytes - 1) * 8)",
  str% "\t\t\t\t\t\t\t\t})",
  str% "\t\t\t\t\t\t\t} else if arguments[4] == \"LE\" {"]

/-- generation/complex.go:241-320 -/
def text3 : List Str := [
  str% "\t\t\t\t\t\t\t\tv.CallFunc(func(g *jen.Group) {",
  str% "\t\t\t\t\t\t\t\t\ts := g.Id(strings.Join([]string{\"uint\", arguments[3]}, \"\")).",
  str% "\t\t\t\t\t\t\t\t\t\tCall(jen.Id(\"b\").Dot(\"buf\").Index(jen.Id(\"off\").Op(\"+\").Parens(jen.Id(\"i\").Op(\"*\").Lit(intBytes)))).Op(\"|\")",
  str% "\t\t\t\t\t\t\t\t\tfor i := 1; i < intBytes; i++ {",
  str% "\t\t\t\t\t\t\t\t\t\ts = s.Id(strings.Join([]string{\"uint\", arguments[3]}, \"\")).",
  str% "\t\t\t\t\t\t\t\t\t\t\tCall(jen.Id(\"b\").Dot(\"buf\").Index(jen.Id(\"off\").Op(\"+\").Parens(jen.Lit(i).Op(\"+\").Parens(jen.Id(\"i\").Op(\"*\").Lit(intBytes))))).Op(\"<<\").Lit(i * 8)",
  str% "",
  str% "\t\t\t\t\t\t\t\t\t\tif i < intBytes-1 {",
  str% "\t\t\t\t\t\t\t\t\t\t\t// all operations except last",
  str% "\t\t\t\t\t\t\t\t\t\t\ts = s.Op(\"|\")",
  str% "\t\t\t\t\t\t\t\t\t\t}",
  str% "\t\t\t\t\t\t\t\t\t}",
  str% "\t\t\t\t\t\t\t\t})",
  str% "\t\t\t\t\t\t\t}",
  str% "\t\t\t\t\t\t}",
  str% "",
  str% "\t\t\t\t\t\tvar orChain *jen.Statement",
  str% "\t\t\t\t\t\tif arguments[0] == \"Buffer\" {",
  str% "\t\t\t\t\t\t\torChain = loop.Id(\"out\").Index(jen.Id(\"i\"))",
  str% "\t\t\t\t\t\t} else {",
  str% "\t\t\t\t\t\t\torChain = loop.Parens(jen.Op(\"*\").Id(\"out\")).Index(jen.Id(\"i\"))",
  str% "\t\t\t\t\t\t}",
  str% "\t\t\t\t\t\torChain = orChain.Op(\"=\")",
  str% "",
  str% "\t\t\t\t\t\tif arguments[4] == \"BE\" {",
  str% "\t\t\t\t\t\t\t// double check that we don't need to special-case for the float* types",
  str% "\t\t\t\t\t\t\tif arguments[2] == \"U\" || arguments[2] == \"I\" {",
  str% "\t\t\t\t\t\t\t\tfor i := intBytes - 1; i > 0; i-- {",
  str% "\t\t\t\t\t\t\t\t\torChain = orChain.Id(intType).",
  str% "\t\t\t\t\t\t\t\t\t\tCall(jen.Id(\"b\").Dot(\"buf\").Index(jen.Id(\"off\").Op(\"+\").Parens(jen.Lit(i).Op(\"+\").Parens(jen.Id(\"i\").Op(\"*\").Lit(intBytes)))))",
  str% "",
  str% "\t\t\t\t\t\t\t\t\tif i < intBytes-1 {",
  str% "\t\t\t\t\t\t\t\t\t\t// subsequent iterations",
  str% "\t\t\t\t\t\t\t\t\t\torChain = orChain.Op(\"<<\").Lit((intBytes - i - 1) * 8)",
  str% "\t\t\t\t\t\t\t\t\t}",
  str% "\t\t\t\t\t\t\t\t\torChain = orChain.Op(\"|\")",
  str% "\t\t\t\t\t\t\t\t}",
  str% "\t\t\t\t\t\t\t\torChain = orChain.Id(intType).",
  str% "\t\t\t\t\t\t\t\t\tCall(jen.Id(\"b\").Dot(\"buf\").Index(jen.Id(\"off\").Op(\"+\").Parens(jen.Id(\"i\").Op(\"*\").Lit(intBytes)))).Op(\"<<\").Lit((intBytes - 1) * 8)",
  str% "\t\t\t\t\t\t\t} else if arguments[2] == \"F\" {",
  str% "\t\t\t\t\t\t\t\t// this doesn't really represent the or chain, but this is necessary so i'm not having more special cases",
  str% "\t\t\t\t\t\t\t\torChain = orChain.Op(\"*\").Parens(jen.Op(\"*\").Id(intType)).Parens(jen.Id(\"unsafe\").Dot(\"Pointer\").",
  str% "\t\t\t\t\t\t\t\t\tCall(jen.Op(\"&\").Id(\"u\")))",
  str% "\t\t\t\t\t\t\t}",
  str% "\t\t\t\t\t\t} else {",
  str% "\t\t\t\t\t\t\t// check if we're reading a float* type",
  str% "\t\t\t\t\t\t\tif arguments[2] == \"U\" || arguments[2] == \"I\" {",
  str% "\t\t\t\t\t\t\t\torChain = orChain.Id(intType).",
  str% "\t\t\t\t\t\t\t\t\tCall(jen.Id(\"b\").Dot(\"buf\").Index(jen.Id(\"off\").Op(\"+\").Parens(jen.Id(\"i\").Op(\"*\").Lit(intBytes)))).Op(\"|\")",
  str% "\t\t\t\t\t\t\t\tfor i := 1; i < intBytes; i++ {",
  str% "\t\t\t\t\t\t\t\t\torChain = orChain.Id(intType).",
  str% "\t\t\t\t\t\t\t\t\t\tCall(jen.Id(\"b\").Dot(\"buf\").Index(jen.Id(\"off\").Op(\"+\").Parens(jen.Lit(i).Op(\"+\").Parens(jen.Id(\"i\").Op(\"*\").Lit(intBytes))))).Op(\"<<\").Lit(i * 8)",
  str% "\t\t\t\t\t\t\t\t\tif i < intBytes-1 {",
  str% "\t\t\t\t\t\t\t\t\t\t// all operations except last",
  str% "\t\t\t\t\t\t\t\t\t\torChain = orChain.Op(\"|\")",
  str% "\t\t\t\t\t\t\t\t\t}",
  str% "\t\t\t\t\t\t\t\t}",
  str% "\t\t\t\t\t\t\t} else if arguments[2] == \"F\" {",
  str% "\t\t\t\t\t\t\t\t// again, this doesn't really represent the or chain",
  str% "\t\t\t\t\t\t\t\torChain = orChain.Op(\"*\").Parens(jen.Op(\"*\").Id(intType)).Parens(jen.Id(\"unsafe\").Dot(\"Pointer\").",
  str% "\t\t\t\t\t\t\t\t\tCall(jen.Op(\"&\").Id(\"u\")))",
  str% "\t\t\t\t\t\t\t}",
  str% "\t\t\t\t\t\t}",
  str% "\t\t\t\t\t\tloop.Id(\"i\").Op(\"++\")",
  str% "\t\t\t\t\t\tloop.If(jen.Id(\"i\").Op(\"<\").Id(\"n\")).",
  str% "\t\t\t\t\t\t\tBlock(jen.Goto().Id(\"read_loop\"))",
  str% "\t\t\t\t\t})",
  str% "\t\t\t\t} else {",
  str% "\t\t\t\t\t// write generation code",
  str% "\t\t\t\t\tbody.Id(\"i\").Op(\":=\").Lit(0)",
  str% "\t\t\t\t\tbody.Id(\"n\").Op(\":=\").Len(jen.Id(\"data\"))",
  str% "\t\t\t\t\tbody.BlockFunc(func(loop *jen.Group) {",
  str% "\t\t\t\t\t\tloop.Id(\"write_loop:\")",
  str% "\t\t\t\t\t\tif arguments[4] == \"BE\" {",
  str% "\t\t\t\t\t\t\tif arguments[2] == \"U\" || arguments[2] == \"I\" {",
  str% "\t\t\t\t\t\t\t\tloop.Id(\"b\").Dot(\"buf\").Index(jen.Id(\"off\").Op(\"+\").Id(\"int64\").",
  str% "\t\t\t\t\t\t\t\t\tCall(jen.Id(\"i\").Op(\"*\").Lit(intBytes))).Op(\"=\").Id(\"byte\").",
  str% "\t\t\t\t\t\t\t\t\tCall(jen.Id(\"data\").Index(jen.Id(\"i\")).Op(\">>\").Lit((intBytes - 1) * 8))",
  str% "\t\t\t\t\t\t\t\tfor i := intBytes - 1; i > 1; i-- {",
  str% "\t\t\t\t\t\t\t\t\tloop.Id(\"b\").Dot(\"buf\").Index(jen.Id(\"off\").Op(\"+\").Id(\"int64\")."]

/-- generation/complex.go:321-400 -/
def text4 : List Str := [
  str% "\t\t\t\t\t\t\t\t\t\tCall(jen.Lit(intBytes - i).Op(\"+\").Parens(jen.Id(\"i\").Op(\"*\").Lit(intBytes)))).Op(\"=\").Id(\"byte\").",
  str% "\t\t\t\t\t\t\t\t\t\tCall(jen.Id(\"data\").Index(jen.Id(\"i\")).Op(\">>\").Lit((i - 1) * 8))",
  str% "\t\t\t\t\t\t\t\t}",
  str% "\t\t\t\t\t\t\t\tloop.Id(\"b\").Dot(\"buf\").Index(jen.Id(\"off\").Op(\"+\").Id(\"int64\").",
  str% "\t\t\t\t\t\t\t\t\tCall(jen.Lit(intBytes - 1).Op(\"+\").Parens(jen.Id(\"i\").Op(\"*\").Lit(intBytes)))).Op(\"=\").Id(\"byte\").",
  str% "\t\t\t\t\t\t\t\t\tCall(jen.Id(\"data\").Index(jen.Id(\"i\")))",
  str% "\t\t\t\t\t\t\t} else if arguments[2] == \"F\" {",
  str% "\t\t\t\t\t\t\t\tloop.Id(\"b\").Dot(\"buf\").Index(jen.Id(\"off\").Op(\"+\").Id(\"int64\").",
  str% "\t\t\t\t\t\t\t\t\tCall(jen.Id(\"i\").Op(\"*\").Lit(intBytes))).Op(\"=\").Id(\"byte\").",
  str% "\t\t\t\t\t\t\t\t\tCall(jen.Op(\"*\").Parens(jen.Op(\"*\").Id(strings.Join([]string{\"uint\", arguments[3]}, \"\"))).Parens(jen.Id(\"unsafe\").Dot(\"Pointer\").",
  str% "\t\t\t\t\t\t\t\t\t\tCall(jen.Op(\"&\").Id(\"data\").Index(jen.Id(\"i\")))).Op(\">>\").Lit((intBytes - 1) * 8))",
  str% "\t\t\t\t\t\t\t\tfor i := intBytes - 1; i > 1; i-- {",
  str% "\t\t\t\t\t\t\t\t\tloop.Id(\"b\").Dot(\"buf\").Index(jen.Id(\"off\").Op(\"+\").Id(\"int64\").",
  str% "\t\t\t\t\t\t\t\t\t\tCall(jen.Lit(intBytes - i).Op(\"+\").Parens(jen.Id(\"i\").Op(\"*\").Lit(intBytes)))).Op(\"=\").Id(\"byte\").",
  str% "\t\t\t\t\t\t\t\t\t\tCall(jen.Op(\"*\").Parens(jen.Op(\"*\").Id(strings.Join([]string{\"uint\", arguments[3]}, \"\"))).Parens(jen.Id(\"unsafe\").Dot(\"Pointer\").",
  str% "\t\t\t\t\t\t\t\t\t\t\tCall(jen.Op(\"&\").Id(\"data\").Index(jen.Id(\"i\")))).Op(\">>\").Lit((i - 1) * 8))",
  str% "\t\t\t\t\t\t\t\t}",
  str% "\t\t\t\t\t\t\t\tloop.Id(\"b\").Dot(\"buf\").Index(jen.Id(\"off\").Op(\"+\").Id(\"int64\").",
  str% "\t\t\t\t\t\t\t\t\tCall(jen.Lit(intBytes - 1).Op(\"+\").Parens(jen.Id(\"i\").Op(\"*\").Lit(intBytes)))).Op(\"=\").Id(\"byte\").",
  str% "\t\t\t\t\t\t\t\t\tCall(jen.Op(\"*\").Parens(jen.Op(\"*\").Id(strings.Join([]string{\"uint\", arguments[3]}, \"\"))).Parens(jen.Id(\"unsafe\").Dot(\"Pointer\").",
  str% "\t\t\t\t\t\t\t\t\t\tCall(jen.Op(\"&\").Id(\"data\").Index(jen.Id(\"i\")))))",
  str% "\t\t\t\t\t\t\t\t/*",
  str% "\t\t\t\t\t\t\t\t\tlooking into reworking it to be like this:",
  str% "",
  str% "\t\t\t\t\t\t\t\t\t*(*uintBITS)(unsafe.Pointer(b.obuf + (i * 8))) = (or chain)",
  str% "\t\t\t\t\t\t\t\t*/",
  str% "\t\t\t\t\t\t\t}",
  str% "\t\t\t\t\t\t} else {",
  str% "\t\t\t\t\t\t\tif arguments[2] == \"U\" || arguments[2] == \"I\" {",
  str% "\t\t\t\t\t\t\t\tloop.Id(\"b\").Dot(\"buf\").Index(jen.Id(\"off\").Op(\"+\").Id(\"int64\").",
  str% "\t\t\t\t\t\t\t\t\tCall(jen.Id(\"i\").Op(\"*\").Lit(intBytes))).Op(\"=\").Id(\"byte\").",
  str% "\t\t\t\t\t\t\t\t\tCall(jen.Id(\"data\").Index(jen.Id(\"i\")))",
  str% "\t\t\t\t\t\t\t\tfor i := 1; i < intBytes; i++ {",
  str% "\t\t\t\t\t\t\t\t\tloop.Id(\"b\").Dot(\"buf\").Index(jen.Id(\"off\").Op(\"+\").Id(\"int64\").",
  str% "\t\t\t\t\t\t\t\t\t\tCall(jen.Lit(i).Op(\"+\").Parens(jen.Id(\"i\").Op(\"*\").Lit(intBytes)))).Op(\"=\").Id(\"byte\").",
  str% "\t\t\t\t\t\t\t\t\t\tCall(jen.Id(\"data\").Index(jen.Id(\"i\")).Op(\">>\").Lit(i * 8))",
  str% "\t\t\t\t\t\t\t\t}",
  str% "\t\t\t\t\t\t\t} else if arguments[2] == \"F\" {",
  str% "\t\t\t\t\t\t\t\tloop.Id(\"b\").Dot(\"buf\").Index(jen.Id(\"off\").Op(\"+\").Id(\"int64\").",
  str% "\t\t\t\t\t\t\t\t\tCall(jen.Id(\"i\").Op(\"*\").Lit(intBytes))).Op(\"=\").Id(\"byte\").",
  str% "\t\t\t\t\t\t\t\t\tCall(jen.Op(\"*\").Parens(jen.Op(\"*\").Id(strings.Join([]string{\"uint\", arguments[3]}, \"\"))).Parens(jen.Id(\"unsafe\").Dot(\"Pointer\").",
  str% "\t\t\t\t\t\t\t\t\t\tCall(jen.Op(\"&\").Id(\"data\").Index(jen.Id(\"i\")))))",
  str% "\t\t\t\t\t\t\t\tfor i := 1; i < intBytes; i++ {",
  str% "\t\t\t\t\t\t\t\t\tloop.Id(\"b\").Dot(\"buf\").Index(jen.Id(\"off\").Op(\"+\").Id(\"int64\").",
  str% "\t\t\t\t\t\t\t\t\t\tCall(jen.Lit(i).Op(\"+\").Parens(jen.Id(\"i\").Op(\"*\").Lit(intBytes)))).Op(\"=\").Id(\"byte\").",
  str% "\t\t\t\t\t\t\t\t\t\tCall(jen.Op(\"*\").Parens(jen.Op(\"*\").Id(strings.Join([]string{\"uint\", arguments[3]}, \"\"))).Parens(jen.Id(\"unsafe\").Dot(\"Pointer\").",
  str% "\t\t\t\t\t\t\t\t\t\t\tCall(jen.Op(\"&\").Id(\"data\").Index(jen.Id(\"i\")))).Op(\">>\").Lit(i * 8))",
  str% "\t\t\t\t\t\t\t\t}",
  str% "\t\t\t\t\t\t\t}",
  str% "\t\t\t\t\t\t}",
  str% "\t\t\t\t\t\tloop.Id(\"i\").Op(\"++\")",
  str% "\t\t\t\t\t\tloop.If(jen.Id(\"i\").Op(\"<\").Id(\"n\")).",
  str% "\t\t\t\t\t\t\tBlock(jen.Goto().Id(\"write_loop\"))",
  str% "\t\t\t\t\t})",
  str% "\t\t\t\t}",
  str% "",
  str% "\t\t\t\tif arguments[0] == \"Buffer\" && arguments[1] == \"Read\" {",
  str% "\t\t\t\t\tbody.Return()",
  str% "\t\t\t\t}",
  str% "\t\t\t})",
  str% "",
  str% "\t\t\toutputBuffer := bytes.NewBuffer([]byte{})",
  str% "\t\t\terr = builder.Render(outputBuffer)",
  str% "\t\t\tif err != nil {",
  str% "\t\t\t\tfmt.Println(\"! unable to render code:\", err)",
  str% "\t\t\t\treturn []byte(\"// render failure\")",
  str% "\t\t\t}",
  str% "",
  str% "\t\t\t_, _ = outputBuffer.Write([]byte(\"\\n\\n\"))",
  str% "",
  str% "\t\t\tbuilder = &jen.Group{}",
  str% "\t\t\tbuilder.Comment(strings.Join([]string{",
  str% "\t\t\t\t\"// \",",
  str% "\t\t\t\tfunctionNameNext,",
  str% "\t\t\t\t\" \",",
  str% "\t\t\t\tmap[string]string{",
  str% "\t\t\t\t\t\"Read\":  \"reads\",",
  str% "\t\t\t\t\t\"Write\": \"writes\",",
  str% "\t\t\t\t}[arguments[1]],",
  str% "\t\t\t\t\" a slice of \","]

/-- generation/complex.go:401-465 -/
def text5 : List Str := [
  str% "\t\t\t\tintType,",
  str% "\t\t\t\t\"s \",",
  str% "\t\t\t\tmap[string]string{",
  str% "\t\t\t\t\t\"Read\":  \"from\",",
  str% "\t\t\t\t\t\"Write\": \"to\",",
  str% "\t\t\t\t}[arguments[1]],",
  str% "\t\t\t\t\" the buffer at the\\n\",",
  str% "\t\t\t}, \"\"))",
  str% "\t\t\tbuilder.Comment(strings.Join([]string{",
  str% "\t\t\t\t\"// current offset in \",",
  str% "\t\t\t\tmap[string]string{",
  str% "\t\t\t\t\t\"BE\": \"big-endian\",",
  str% "\t\t\t\t\t\"LE\": \"little-endian\",",
  str% "\t\t\t\t}[arguments[4]],",
  str% "\t\t\t\t\" and moves the offset forward the\\n\",",
  str% "\t\t\t}, \"\"))",
  str% "\t\t\tbuilder.Comment(\"// amount of bytes written\\n\")",
  str% "\t\t\tfunction = builder.Func().Params(jen.Id(\"b\").Op(\"*\").Id(arguments[0])).Id(functionNameNext)",
  str% "\t\t\tif arguments[1] == \"Write\" {",
  str% "\t\t\t\tfunction.Params(jen.Id(\"data\").Index().Id(intType))",
  str% "\t\t\t} else if arguments[1] == \"Read\" {",
  str% "\t\t\t\tif arguments[0] == \"Buffer\" {",
  str% "\t\t\t\t\tfunction.Params(jen.Id(\"n\").Id(\"int64\")).Params(jen.Id(\"out\").Index().Id(intType))",
  str% "\t\t\t\t} else {",
  str% "\t\t\t\t\tfunction.Params(jen.Id(\"out\").Op(\"*\").Index().Id(intType), jen.Id(\"n\").Id(\"int64\"))",
  str% "\t\t\t\t}",
  str% "\t\t\t}",
  str% "",
  str% "\t\t\tfunction.BlockFunc(func(body *jen.Group) {",
  str% "\t\t\t\tif arguments[1] == \"Write\" {",
  str% "\t\t\t\t\tbody.Id(\"b\").Dot(functionName).",
  str% "\t\t\t\t\t\tCall(jen.Id(\"b\").Dot(\"off\"), jen.Id(\"data\"))",
  str% "\t\t\t\t\tbody.Id(\"b\").Dot(\"SeekByte\").",
  str% "\t\t\t\t\t\tCall(jen.Id(\"int64\").",
  str% "\t\t\t\t\t\t\tCall(jen.Len(jen.Id(\"data\"))).Op(\"*\").Lit(intBytes), jen.Lit(true))",
  str% "\t\t\t\t} else if arguments[1] == \"Read\" {",
  str% "\t\t\t\t\tif arguments[0] == \"Buffer\" {",
  str% "\t\t\t\t\t\tbody.Id(\"out\").Op(\"=\").Id(\"b\").Dot(functionName).",
  str% "\t\t\t\t\t\t\tCall(jen.Id(\"b\").Dot(\"off\"), jen.Id(\"n\"))",
  str% "\t\t\t\t\t} else {",
  str% "\t\t\t\t\t\tbody.Id(\"b\").Dot(functionName).",
  str% "\t\t\t\t\t\t\tCall(jen.Id(\"out\"), jen.Id(\"b\").Dot(\"off\"), jen.Id(\"n\"))",
  str% "\t\t\t\t\t}",
  str% "",
  str% "\t\t\t\t\tbody.Id(\"b\").Dot(\"SeekByte\").",
  str% "\t\t\t\t\t\tCall(jen.Id(\"n\").Op(\"*\").Lit(intBytes), jen.Lit(true))",
  str% "",
  str% "\t\t\t\t\tif arguments[0] == \"Buffer\" {",
  str% "\t\t\t\t\t\tbody.Return()",
  str% "\t\t\t\t\t}",
  str% "\t\t\t\t}",
  str% "\t\t\t})",
  str% "",
  str% "\t\t\terr = builder.Render(outputBuffer)",
  str% "\t\t\tif err != nil {",
  str% "\t\t\t\tfmt.Println(\"! unable to render code:\", err)",
  str% "\t\t\t\treturn []byte(\"// render failure\")",
  str% "\t\t\t}",
  str% "",
  str% "\t\t\treturn outputBuffer.Bytes()",
  str% "\t\t})",
  str% "\t}",
  str% "\treturn",
  str% "}",
  str% ""]

/-- generation/complex.go:1-465 -/
def text : List Str := text0 ++ text1 ++ text2 ++ text3 ++ text4 ++ text5

end Crunch.Gen.Go.Complex
