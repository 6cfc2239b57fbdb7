import Verif.Gen.Text

/-!
# The test functions of the error values

Written by tools/src_embed.py.
-/

namespace Crunch.Src.ErrorsTest

open Crunch.Gen (Str)

/-- v3/errors_test.go:22-33 -/
def v3 : List Str := [
  str% "func TestErrorError(t *testing.T) {",
  str% "",
  str% "\texpected := \"crunch: buffer: read exceeds buffer capacity\"",
  str% "",
  str% "\tout := BufferOverreadError.Error()",
  str% "\tif out != expected {",
  str% "",
  str% "\t\tt.Fatalf(\"expected string does not match the one gotten (got \\\"%s\\\", expected \\\"%s\\\")\", out, expected)",
  str% "",
  str% "\t}",
  str% "",
  str% "}"]

/-- v2/errors_test.go:22-33 -/
def v2 : List Str := [
  str% "func TestErrorError(t *testing.T) {",
  str% "",
  str% "\texpected := \"crunch: buffer: read exceeds buffer capacity\"",
  str% "",
  str% "\tout := BufferOverreadError.Error()",
  str% "\tif out != expected {",
  str% "",
  str% "\t\tt.Fatalf(\"expected string does not match the one gotten (got \\\"%s\\\", expected \\\"%s\\\")\", out, expected)",
  str% "",
  str% "\t}",
  str% "",
  str% "}"]

/-- v1/errors_test.go:22-33 -/
def v1 : List Str := [
  str% "func TestErrorError(t *testing.T) {",
  str% "",
  str% "\texpected := \"crunch: buffer: read exceeds buffer capacity\"",
  str% "",
  str% "\tout := BufferOverreadError.Error()",
  str% "\tif out != expected {",
  str% "",
  str% "\t\tt.Fatalf(\"expected string does not match the one gotten (got \\\"%s\\\", expected \\\"%s\\\")\", out, expected)",
  str% "",
  str% "\t}",
  str% "",
  str% "}"]

end Crunch.Src.ErrorsTest
