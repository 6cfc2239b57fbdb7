import Verif.Go

/-! v3/errors.go: the error values. -/

namespace Crunch.V3

/-- v3/errors.go:32-35 -/
def BufferOverreadError : GoError := ⟨"buffer", "read exceeds buffer capacity"⟩
/-- v3/errors.go:39-42 -/
def BufferUnderreadError : GoError := ⟨"buffer", "read offset is less than zero"⟩
/-- v3/errors.go:46-49 -/
def BufferOverwriteError : GoError := ⟨"buffer", "write offset exceeds buffer capacity"⟩
/-- v3/errors.go:53-56 -/
def BufferUnderwriteError : GoError := ⟨"buffer", "write offset is less than zero"⟩
/-- v3/errors.go:60-63 -/
def BufferInvalidByteCountError : GoError := ⟨"buffer", "invalid byte count requested"⟩
/-- v3/errors.go:67-70 -/
def BytesBufNegativeReadError : GoError := ⟨"bytesbuf", "reader returned negative count from Read"⟩

/-- v3/errors.go:23-27, `fmt.Sprintf("crunch: %s: %s", e.scope, e.error)`. -/
def errorString (e : GoError) : String := "crunch: " ++ e.scope ++ ": " ++ e.msg

end Crunch.V3
