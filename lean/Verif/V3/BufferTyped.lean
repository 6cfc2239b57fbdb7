import Verif.V3.Buffer

/-!
# v3 `Buffer`: the 64 typed accessors

Written by tools/transcribe.py from the Go text, statement by statement.  `int` and
`int64` are the same type here (64-bit platform).
-/

namespace Crunch.V3.Buffer

/-- v3/buffer.generated.go:403-421 -/
def WriteU16LE (off : Int64) (data : List UInt16) : GoM St Unit := do
  let b ← getB
  panicIf (off + len data * 2 > b.cap) (.err BufferOverwriteError)
  panicIf (off < 0) (.err BufferUnderwriteError)
  doLoop (fun i _ => do
    let d ← idx data i
    bufStore (off + i * 2) (Elem.byte d)
    let d ← idx data i
    bufStore (off + (1 + i * 2)) (Elem.byte (d >>> 8))) (len data) 0 ()

/-- v3/buffer.generated.go:426-429 -/
def WriteU16LENext (data : List UInt16) : GoM St Unit := do
  let b ← getB
  WriteU16LE b.off data
  SeekByte (len data * 2) true

/-- v3/buffer.generated.go:434-452 -/
def WriteU16BE (off : Int64) (data : List UInt16) : GoM St Unit := do
  let b ← getB
  panicIf (off + len data * 2 > b.cap) (.err BufferOverwriteError)
  panicIf (off < 0) (.err BufferUnderwriteError)
  doLoop (fun i _ => do
    let d ← idx data i
    bufStore (off + i * 2) (Elem.byte (d >>> 8))
    let d ← idx data i
    bufStore (off + (1 + i * 2)) (Elem.byte d)) (len data) 0 ()

/-- v3/buffer.generated.go:457-460 -/
def WriteU16BENext (data : List UInt16) : GoM St Unit := do
  let b ← getB
  WriteU16BE b.off data
  SeekByte (len data * 2) true

/-- v3/buffer.generated.go:465-485 -/
def WriteU32LE (off : Int64) (data : List UInt32) : GoM St Unit := do
  let b ← getB
  panicIf (off + len data * 4 > b.cap) (.err BufferOverwriteError)
  panicIf (off < 0) (.err BufferUnderwriteError)
  doLoop (fun i _ => do
    let d ← idx data i
    bufStore (off + i * 4) (Elem.byte d)
    let d ← idx data i
    bufStore (off + (1 + i * 4)) (Elem.byte (d >>> 8))
    let d ← idx data i
    bufStore (off + (2 + i * 4)) (Elem.byte (d >>> 16))
    let d ← idx data i
    bufStore (off + (3 + i * 4)) (Elem.byte (d >>> 24))) (len data) 0 ()

/-- v3/buffer.generated.go:490-493 -/
def WriteU32LENext (data : List UInt32) : GoM St Unit := do
  let b ← getB
  WriteU32LE b.off data
  SeekByte (len data * 4) true

/-- v3/buffer.generated.go:498-518 -/
def WriteU32BE (off : Int64) (data : List UInt32) : GoM St Unit := do
  let b ← getB
  panicIf (off + len data * 4 > b.cap) (.err BufferOverwriteError)
  panicIf (off < 0) (.err BufferUnderwriteError)
  doLoop (fun i _ => do
    let d ← idx data i
    bufStore (off + i * 4) (Elem.byte (d >>> 24))
    let d ← idx data i
    bufStore (off + (1 + i * 4)) (Elem.byte (d >>> 16))
    let d ← idx data i
    bufStore (off + (2 + i * 4)) (Elem.byte (d >>> 8))
    let d ← idx data i
    bufStore (off + (3 + i * 4)) (Elem.byte d)) (len data) 0 ()

/-- v3/buffer.generated.go:523-526 -/
def WriteU32BENext (data : List UInt32) : GoM St Unit := do
  let b ← getB
  WriteU32BE b.off data
  SeekByte (len data * 4) true

/-- v3/buffer.generated.go:531-555 -/
def WriteU64LE (off : Int64) (data : List UInt64) : GoM St Unit := do
  let b ← getB
  panicIf (off + len data * 8 > b.cap) (.err BufferOverwriteError)
  panicIf (off < 0) (.err BufferUnderwriteError)
  doLoop (fun i _ => do
    let d ← idx data i
    bufStore (off + i * 8) (Elem.byte d)
    let d ← idx data i
    bufStore (off + (1 + i * 8)) (Elem.byte (d >>> 8))
    let d ← idx data i
    bufStore (off + (2 + i * 8)) (Elem.byte (d >>> 16))
    let d ← idx data i
    bufStore (off + (3 + i * 8)) (Elem.byte (d >>> 24))
    let d ← idx data i
    bufStore (off + (4 + i * 8)) (Elem.byte (d >>> 32))
    let d ← idx data i
    bufStore (off + (5 + i * 8)) (Elem.byte (d >>> 40))
    let d ← idx data i
    bufStore (off + (6 + i * 8)) (Elem.byte (d >>> 48))
    let d ← idx data i
    bufStore (off + (7 + i * 8)) (Elem.byte (d >>> 56))) (len data) 0 ()

/-- v3/buffer.generated.go:560-563 -/
def WriteU64LENext (data : List UInt64) : GoM St Unit := do
  let b ← getB
  WriteU64LE b.off data
  SeekByte (len data * 8) true

/-- v3/buffer.generated.go:568-592 -/
def WriteU64BE (off : Int64) (data : List UInt64) : GoM St Unit := do
  let b ← getB
  panicIf (off + len data * 8 > b.cap) (.err BufferOverwriteError)
  panicIf (off < 0) (.err BufferUnderwriteError)
  doLoop (fun i _ => do
    let d ← idx data i
    bufStore (off + i * 8) (Elem.byte (d >>> 56))
    let d ← idx data i
    bufStore (off + (1 + i * 8)) (Elem.byte (d >>> 48))
    let d ← idx data i
    bufStore (off + (2 + i * 8)) (Elem.byte (d >>> 40))
    let d ← idx data i
    bufStore (off + (3 + i * 8)) (Elem.byte (d >>> 32))
    let d ← idx data i
    bufStore (off + (4 + i * 8)) (Elem.byte (d >>> 24))
    let d ← idx data i
    bufStore (off + (5 + i * 8)) (Elem.byte (d >>> 16))
    let d ← idx data i
    bufStore (off + (6 + i * 8)) (Elem.byte (d >>> 8))
    let d ← idx data i
    bufStore (off + (7 + i * 8)) (Elem.byte d)) (len data) 0 ()

/-- v3/buffer.generated.go:597-600 -/
def WriteU64BENext (data : List UInt64) : GoM St Unit := do
  let b ← getB
  WriteU64BE b.off data
  SeekByte (len data * 8) true

/-- v3/buffer.generated.go:605-623 -/
def WriteI16LE (off : Int64) (data : List Int16) : GoM St Unit := do
  let b ← getB
  panicIf (off + len data * 2 > b.cap) (.err BufferOverwriteError)
  panicIf (off < 0) (.err BufferUnderwriteError)
  doLoop (fun i _ => do
    let d ← idx data i
    bufStore (off + i * 2) (Elem.byte d)
    let d ← idx data i
    bufStore (off + (1 + i * 2)) (Elem.byte (d >>> 8))) (len data) 0 ()

/-- v3/buffer.generated.go:628-631 -/
def WriteI16LENext (data : List Int16) : GoM St Unit := do
  let b ← getB
  WriteI16LE b.off data
  SeekByte (len data * 2) true

/-- v3/buffer.generated.go:636-654 -/
def WriteI16BE (off : Int64) (data : List Int16) : GoM St Unit := do
  let b ← getB
  panicIf (off + len data * 2 > b.cap) (.err BufferOverwriteError)
  panicIf (off < 0) (.err BufferUnderwriteError)
  doLoop (fun i _ => do
    let d ← idx data i
    bufStore (off + i * 2) (Elem.byte (d >>> 8))
    let d ← idx data i
    bufStore (off + (1 + i * 2)) (Elem.byte d)) (len data) 0 ()

/-- v3/buffer.generated.go:659-662 -/
def WriteI16BENext (data : List Int16) : GoM St Unit := do
  let b ← getB
  WriteI16BE b.off data
  SeekByte (len data * 2) true

/-- v3/buffer.generated.go:667-687 -/
def WriteI32LE (off : Int64) (data : List Int32) : GoM St Unit := do
  let b ← getB
  panicIf (off + len data * 4 > b.cap) (.err BufferOverwriteError)
  panicIf (off < 0) (.err BufferUnderwriteError)
  doLoop (fun i _ => do
    let d ← idx data i
    bufStore (off + i * 4) (Elem.byte d)
    let d ← idx data i
    bufStore (off + (1 + i * 4)) (Elem.byte (d >>> 8))
    let d ← idx data i
    bufStore (off + (2 + i * 4)) (Elem.byte (d >>> 16))
    let d ← idx data i
    bufStore (off + (3 + i * 4)) (Elem.byte (d >>> 24))) (len data) 0 ()

/-- v3/buffer.generated.go:692-695 -/
def WriteI32LENext (data : List Int32) : GoM St Unit := do
  let b ← getB
  WriteI32LE b.off data
  SeekByte (len data * 4) true

/-- v3/buffer.generated.go:700-720 -/
def WriteI32BE (off : Int64) (data : List Int32) : GoM St Unit := do
  let b ← getB
  panicIf (off + len data * 4 > b.cap) (.err BufferOverwriteError)
  panicIf (off < 0) (.err BufferUnderwriteError)
  doLoop (fun i _ => do
    let d ← idx data i
    bufStore (off + i * 4) (Elem.byte (d >>> 24))
    let d ← idx data i
    bufStore (off + (1 + i * 4)) (Elem.byte (d >>> 16))
    let d ← idx data i
    bufStore (off + (2 + i * 4)) (Elem.byte (d >>> 8))
    let d ← idx data i
    bufStore (off + (3 + i * 4)) (Elem.byte d)) (len data) 0 ()

/-- v3/buffer.generated.go:725-728 -/
def WriteI32BENext (data : List Int32) : GoM St Unit := do
  let b ← getB
  WriteI32BE b.off data
  SeekByte (len data * 4) true

/-- v3/buffer.generated.go:733-757 -/
def WriteI64LE (off : Int64) (data : List Int64) : GoM St Unit := do
  let b ← getB
  panicIf (off + len data * 8 > b.cap) (.err BufferOverwriteError)
  panicIf (off < 0) (.err BufferUnderwriteError)
  doLoop (fun i _ => do
    let d ← idx data i
    bufStore (off + i * 8) (Elem.byte d)
    let d ← idx data i
    bufStore (off + (1 + i * 8)) (Elem.byte (d >>> 8))
    let d ← idx data i
    bufStore (off + (2 + i * 8)) (Elem.byte (d >>> 16))
    let d ← idx data i
    bufStore (off + (3 + i * 8)) (Elem.byte (d >>> 24))
    let d ← idx data i
    bufStore (off + (4 + i * 8)) (Elem.byte (d >>> 32))
    let d ← idx data i
    bufStore (off + (5 + i * 8)) (Elem.byte (d >>> 40))
    let d ← idx data i
    bufStore (off + (6 + i * 8)) (Elem.byte (d >>> 48))
    let d ← idx data i
    bufStore (off + (7 + i * 8)) (Elem.byte (d >>> 56))) (len data) 0 ()

/-- v3/buffer.generated.go:762-765 -/
def WriteI64LENext (data : List Int64) : GoM St Unit := do
  let b ← getB
  WriteI64LE b.off data
  SeekByte (len data * 8) true

/-- v3/buffer.generated.go:770-794 -/
def WriteI64BE (off : Int64) (data : List Int64) : GoM St Unit := do
  let b ← getB
  panicIf (off + len data * 8 > b.cap) (.err BufferOverwriteError)
  panicIf (off < 0) (.err BufferUnderwriteError)
  doLoop (fun i _ => do
    let d ← idx data i
    bufStore (off + i * 8) (Elem.byte (d >>> 56))
    let d ← idx data i
    bufStore (off + (1 + i * 8)) (Elem.byte (d >>> 48))
    let d ← idx data i
    bufStore (off + (2 + i * 8)) (Elem.byte (d >>> 40))
    let d ← idx data i
    bufStore (off + (3 + i * 8)) (Elem.byte (d >>> 32))
    let d ← idx data i
    bufStore (off + (4 + i * 8)) (Elem.byte (d >>> 24))
    let d ← idx data i
    bufStore (off + (5 + i * 8)) (Elem.byte (d >>> 16))
    let d ← idx data i
    bufStore (off + (6 + i * 8)) (Elem.byte (d >>> 8))
    let d ← idx data i
    bufStore (off + (7 + i * 8)) (Elem.byte d)) (len data) 0 ()

/-- v3/buffer.generated.go:799-802 -/
def WriteI64BENext (data : List Int64) : GoM St Unit := do
  let b ← getB
  WriteI64BE b.off data
  SeekByte (len data * 8) true

/-- v3/buffer.generated.go:807-827 -/
def WriteF32LE (off : Int64) (data : List F32) : GoM St Unit := do
  let b ← getB
  panicIf (off + len data * 4 > b.cap) (.err BufferOverwriteError)
  panicIf (off < 0) (.err BufferUnderwriteError)
  doLoop (fun i _ => do
    let d ← idx data i
    bufStore (off + i * 4) (Elem.byte d.bits)
    let d ← idx data i
    bufStore (off + (1 + i * 4)) (Elem.byte (d.bits >>> 8))
    let d ← idx data i
    bufStore (off + (2 + i * 4)) (Elem.byte (d.bits >>> 16))
    let d ← idx data i
    bufStore (off + (3 + i * 4)) (Elem.byte (d.bits >>> 24))) (len data) 0 ()

/-- v3/buffer.generated.go:832-835 -/
def WriteF32LENext (data : List F32) : GoM St Unit := do
  let b ← getB
  WriteF32LE b.off data
  SeekByte (len data * 4) true

/-- v3/buffer.generated.go:840-860 -/
def WriteF32BE (off : Int64) (data : List F32) : GoM St Unit := do
  let b ← getB
  panicIf (off + len data * 4 > b.cap) (.err BufferOverwriteError)
  panicIf (off < 0) (.err BufferUnderwriteError)
  doLoop (fun i _ => do
    let d ← idx data i
    bufStore (off + i * 4) (Elem.byte (d.bits >>> 24))
    let d ← idx data i
    bufStore (off + (1 + i * 4)) (Elem.byte (d.bits >>> 16))
    let d ← idx data i
    bufStore (off + (2 + i * 4)) (Elem.byte (d.bits >>> 8))
    let d ← idx data i
    bufStore (off + (3 + i * 4)) (Elem.byte d.bits)) (len data) 0 ()

/-- v3/buffer.generated.go:865-868 -/
def WriteF32BENext (data : List F32) : GoM St Unit := do
  let b ← getB
  WriteF32BE b.off data
  SeekByte (len data * 4) true

/-- v3/buffer.generated.go:873-897 -/
def WriteF64LE (off : Int64) (data : List F64) : GoM St Unit := do
  let b ← getB
  panicIf (off + len data * 8 > b.cap) (.err BufferOverwriteError)
  panicIf (off < 0) (.err BufferUnderwriteError)
  doLoop (fun i _ => do
    let d ← idx data i
    bufStore (off + i * 8) (Elem.byte d.bits)
    let d ← idx data i
    bufStore (off + (1 + i * 8)) (Elem.byte (d.bits >>> 8))
    let d ← idx data i
    bufStore (off + (2 + i * 8)) (Elem.byte (d.bits >>> 16))
    let d ← idx data i
    bufStore (off + (3 + i * 8)) (Elem.byte (d.bits >>> 24))
    let d ← idx data i
    bufStore (off + (4 + i * 8)) (Elem.byte (d.bits >>> 32))
    let d ← idx data i
    bufStore (off + (5 + i * 8)) (Elem.byte (d.bits >>> 40))
    let d ← idx data i
    bufStore (off + (6 + i * 8)) (Elem.byte (d.bits >>> 48))
    let d ← idx data i
    bufStore (off + (7 + i * 8)) (Elem.byte (d.bits >>> 56))) (len data) 0 ()

/-- v3/buffer.generated.go:902-905 -/
def WriteF64LENext (data : List F64) : GoM St Unit := do
  let b ← getB
  WriteF64LE b.off data
  SeekByte (len data * 8) true

/-- v3/buffer.generated.go:910-934 -/
def WriteF64BE (off : Int64) (data : List F64) : GoM St Unit := do
  let b ← getB
  panicIf (off + len data * 8 > b.cap) (.err BufferOverwriteError)
  panicIf (off < 0) (.err BufferUnderwriteError)
  doLoop (fun i _ => do
    let d ← idx data i
    bufStore (off + i * 8) (Elem.byte (d.bits >>> 56))
    let d ← idx data i
    bufStore (off + (1 + i * 8)) (Elem.byte (d.bits >>> 48))
    let d ← idx data i
    bufStore (off + (2 + i * 8)) (Elem.byte (d.bits >>> 40))
    let d ← idx data i
    bufStore (off + (3 + i * 8)) (Elem.byte (d.bits >>> 32))
    let d ← idx data i
    bufStore (off + (4 + i * 8)) (Elem.byte (d.bits >>> 24))
    let d ← idx data i
    bufStore (off + (5 + i * 8)) (Elem.byte (d.bits >>> 16))
    let d ← idx data i
    bufStore (off + (6 + i * 8)) (Elem.byte (d.bits >>> 8))
    let d ← idx data i
    bufStore (off + (7 + i * 8)) (Elem.byte d.bits)) (len data) 0 ()

/-- v3/buffer.generated.go:939-942 -/
def WriteF64BENext (data : List F64) : GoM St Unit := do
  let b ← getB
  WriteF64BE b.off data
  SeekByte (len data * 8) true

/-- v3/buffer.generated.go:995-1013 -/
def ReadU16LE (off n : Int64) : GoM St (List UInt16) := do
  let b ← getB
  panicIf (off + n * 2 > b.cap) (.err BufferOverreadError)
  panicIf (off < 0) (.err BufferUnderreadError)
  let out ← makeTyped 2 (0 : UInt16) n
  doLoop (fun i out => do
    let x0 ← bufLoad (off + i * 2)
    let x1 ← bufLoad (off + (1 + i * 2))
    setIdx out i (conv UInt16 x0 ||| conv UInt16 x1 <<< 8)) n 0 out

/-- v3/buffer.generated.go:1018-1022 -/
def ReadU16LENext (n : Int64) : GoM St (List UInt16) := do
  let b ← getB
  let out ← ReadU16LE b.off n
  SeekByte (n * 2) true
  return out

/-- v3/buffer.generated.go:1027-1045 -/
def ReadU16BE (off n : Int64) : GoM St (List UInt16) := do
  let b ← getB
  panicIf (off + n * 2 > b.cap) (.err BufferOverreadError)
  panicIf (off < 0) (.err BufferUnderreadError)
  let out ← makeTyped 2 (0 : UInt16) n
  doLoop (fun i out => do
    let x0 ← bufLoad (off + (1 + i * 2))
    let x1 ← bufLoad (off + i * 2)
    setIdx out i (conv UInt16 x0 ||| conv UInt16 x1 <<< 8)) n 0 out

/-- v3/buffer.generated.go:1050-1054 -/
def ReadU16BENext (n : Int64) : GoM St (List UInt16) := do
  let b ← getB
  let out ← ReadU16BE b.off n
  SeekByte (n * 2) true
  return out

/-- v3/buffer.generated.go:1059-1077 -/
def ReadU32LE (off n : Int64) : GoM St (List UInt32) := do
  let b ← getB
  panicIf (off + n * 4 > b.cap) (.err BufferOverreadError)
  panicIf (off < 0) (.err BufferUnderreadError)
  let out ← makeTyped 4 (0 : UInt32) n
  doLoop (fun i out => do
    let x0 ← bufLoad (off + i * 4)
    let x1 ← bufLoad (off + (1 + i * 4))
    let x2 ← bufLoad (off + (2 + i * 4))
    let x3 ← bufLoad (off + (3 + i * 4))
    setIdx out i (conv UInt32 x0 ||| conv UInt32 x1 <<< 8 ||| conv UInt32 x2 <<< 16 ||| conv UInt32 x3 <<< 24)) n 0 out

/-- v3/buffer.generated.go:1082-1086 -/
def ReadU32LENext (n : Int64) : GoM St (List UInt32) := do
  let b ← getB
  let out ← ReadU32LE b.off n
  SeekByte (n * 4) true
  return out

/-- v3/buffer.generated.go:1091-1109 -/
def ReadU32BE (off n : Int64) : GoM St (List UInt32) := do
  let b ← getB
  panicIf (off + n * 4 > b.cap) (.err BufferOverreadError)
  panicIf (off < 0) (.err BufferUnderreadError)
  let out ← makeTyped 4 (0 : UInt32) n
  doLoop (fun i out => do
    let x0 ← bufLoad (off + (3 + i * 4))
    let x1 ← bufLoad (off + (2 + i * 4))
    let x2 ← bufLoad (off + (1 + i * 4))
    let x3 ← bufLoad (off + i * 4)
    setIdx out i (conv UInt32 x0 ||| conv UInt32 x1 <<< 8 ||| conv UInt32 x2 <<< 16 ||| conv UInt32 x3 <<< 24)) n 0 out

/-- v3/buffer.generated.go:1114-1118 -/
def ReadU32BENext (n : Int64) : GoM St (List UInt32) := do
  let b ← getB
  let out ← ReadU32BE b.off n
  SeekByte (n * 4) true
  return out

/-- v3/buffer.generated.go:1123-1141 -/
def ReadU64LE (off n : Int64) : GoM St (List UInt64) := do
  let b ← getB
  panicIf (off + n * 8 > b.cap) (.err BufferOverreadError)
  panicIf (off < 0) (.err BufferUnderreadError)
  let out ← makeTyped 8 (0 : UInt64) n
  doLoop (fun i out => do
    let x0 ← bufLoad (off + i * 8)
    let x1 ← bufLoad (off + (1 + i * 8))
    let x2 ← bufLoad (off + (2 + i * 8))
    let x3 ← bufLoad (off + (3 + i * 8))
    let x4 ← bufLoad (off + (4 + i * 8))
    let x5 ← bufLoad (off + (5 + i * 8))
    let x6 ← bufLoad (off + (6 + i * 8))
    let x7 ← bufLoad (off + (7 + i * 8))
    setIdx out i (conv UInt64 x0 ||| conv UInt64 x1 <<< 8 ||| conv UInt64 x2 <<< 16 ||| conv UInt64 x3 <<< 24 ||| conv UInt64 x4 <<< 32 ||| conv UInt64 x5 <<< 40 ||| conv UInt64 x6 <<< 48 ||| conv UInt64 x7 <<< 56)) n 0 out

/-- v3/buffer.generated.go:1146-1150 -/
def ReadU64LENext (n : Int64) : GoM St (List UInt64) := do
  let b ← getB
  let out ← ReadU64LE b.off n
  SeekByte (n * 8) true
  return out

/-- v3/buffer.generated.go:1155-1173 -/
def ReadU64BE (off n : Int64) : GoM St (List UInt64) := do
  let b ← getB
  panicIf (off + n * 8 > b.cap) (.err BufferOverreadError)
  panicIf (off < 0) (.err BufferUnderreadError)
  let out ← makeTyped 8 (0 : UInt64) n
  doLoop (fun i out => do
    let x0 ← bufLoad (off + (7 + i * 8))
    let x1 ← bufLoad (off + (6 + i * 8))
    let x2 ← bufLoad (off + (5 + i * 8))
    let x3 ← bufLoad (off + (4 + i * 8))
    let x4 ← bufLoad (off + (3 + i * 8))
    let x5 ← bufLoad (off + (2 + i * 8))
    let x6 ← bufLoad (off + (1 + i * 8))
    let x7 ← bufLoad (off + i * 8)
    setIdx out i (conv UInt64 x0 ||| conv UInt64 x1 <<< 8 ||| conv UInt64 x2 <<< 16 ||| conv UInt64 x3 <<< 24 ||| conv UInt64 x4 <<< 32 ||| conv UInt64 x5 <<< 40 ||| conv UInt64 x6 <<< 48 ||| conv UInt64 x7 <<< 56)) n 0 out

/-- v3/buffer.generated.go:1178-1182 -/
def ReadU64BENext (n : Int64) : GoM St (List UInt64) := do
  let b ← getB
  let out ← ReadU64BE b.off n
  SeekByte (n * 8) true
  return out

/-- v3/buffer.generated.go:1187-1205 -/
def ReadI16LE (off n : Int64) : GoM St (List Int16) := do
  let b ← getB
  panicIf (off + n * 2 > b.cap) (.err BufferOverreadError)
  panicIf (off < 0) (.err BufferUnderreadError)
  let out ← makeTyped 2 (0 : Int16) n
  doLoop (fun i out => do
    let x0 ← bufLoad (off + i * 2)
    let x1 ← bufLoad (off + (1 + i * 2))
    setIdx out i (conv Int16 x0 ||| conv Int16 x1 <<< 8)) n 0 out

/-- v3/buffer.generated.go:1210-1214 -/
def ReadI16LENext (n : Int64) : GoM St (List Int16) := do
  let b ← getB
  let out ← ReadI16LE b.off n
  SeekByte (n * 2) true
  return out

/-- v3/buffer.generated.go:1219-1237 -/
def ReadI16BE (off n : Int64) : GoM St (List Int16) := do
  let b ← getB
  panicIf (off + n * 2 > b.cap) (.err BufferOverreadError)
  panicIf (off < 0) (.err BufferUnderreadError)
  let out ← makeTyped 2 (0 : Int16) n
  doLoop (fun i out => do
    let x0 ← bufLoad (off + (1 + i * 2))
    let x1 ← bufLoad (off + i * 2)
    setIdx out i (conv Int16 x0 ||| conv Int16 x1 <<< 8)) n 0 out

/-- v3/buffer.generated.go:1242-1246 -/
def ReadI16BENext (n : Int64) : GoM St (List Int16) := do
  let b ← getB
  let out ← ReadI16BE b.off n
  SeekByte (n * 2) true
  return out

/-- v3/buffer.generated.go:1251-1269 -/
def ReadI32LE (off n : Int64) : GoM St (List Int32) := do
  let b ← getB
  panicIf (off + n * 4 > b.cap) (.err BufferOverreadError)
  panicIf (off < 0) (.err BufferUnderreadError)
  let out ← makeTyped 4 (0 : Int32) n
  doLoop (fun i out => do
    let x0 ← bufLoad (off + i * 4)
    let x1 ← bufLoad (off + (1 + i * 4))
    let x2 ← bufLoad (off + (2 + i * 4))
    let x3 ← bufLoad (off + (3 + i * 4))
    setIdx out i (conv Int32 x0 ||| conv Int32 x1 <<< 8 ||| conv Int32 x2 <<< 16 ||| conv Int32 x3 <<< 24)) n 0 out

/-- v3/buffer.generated.go:1274-1278 -/
def ReadI32LENext (n : Int64) : GoM St (List Int32) := do
  let b ← getB
  let out ← ReadI32LE b.off n
  SeekByte (n * 4) true
  return out

/-- v3/buffer.generated.go:1283-1301 -/
def ReadI32BE (off n : Int64) : GoM St (List Int32) := do
  let b ← getB
  panicIf (off + n * 4 > b.cap) (.err BufferOverreadError)
  panicIf (off < 0) (.err BufferUnderreadError)
  let out ← makeTyped 4 (0 : Int32) n
  doLoop (fun i out => do
    let x0 ← bufLoad (off + (3 + i * 4))
    let x1 ← bufLoad (off + (2 + i * 4))
    let x2 ← bufLoad (off + (1 + i * 4))
    let x3 ← bufLoad (off + i * 4)
    setIdx out i (conv Int32 x0 ||| conv Int32 x1 <<< 8 ||| conv Int32 x2 <<< 16 ||| conv Int32 x3 <<< 24)) n 0 out

/-- v3/buffer.generated.go:1306-1310 -/
def ReadI32BENext (n : Int64) : GoM St (List Int32) := do
  let b ← getB
  let out ← ReadI32BE b.off n
  SeekByte (n * 4) true
  return out

/-- v3/buffer.generated.go:1315-1333 -/
def ReadI64LE (off n : Int64) : GoM St (List Int64) := do
  let b ← getB
  panicIf (off + n * 8 > b.cap) (.err BufferOverreadError)
  panicIf (off < 0) (.err BufferUnderreadError)
  let out ← makeTyped 8 (0 : Int64) n
  doLoop (fun i out => do
    let x0 ← bufLoad (off + i * 8)
    let x1 ← bufLoad (off + (1 + i * 8))
    let x2 ← bufLoad (off + (2 + i * 8))
    let x3 ← bufLoad (off + (3 + i * 8))
    let x4 ← bufLoad (off + (4 + i * 8))
    let x5 ← bufLoad (off + (5 + i * 8))
    let x6 ← bufLoad (off + (6 + i * 8))
    let x7 ← bufLoad (off + (7 + i * 8))
    setIdx out i (conv Int64 x0 ||| conv Int64 x1 <<< 8 ||| conv Int64 x2 <<< 16 ||| conv Int64 x3 <<< 24 ||| conv Int64 x4 <<< 32 ||| conv Int64 x5 <<< 40 ||| conv Int64 x6 <<< 48 ||| conv Int64 x7 <<< 56)) n 0 out

/-- v3/buffer.generated.go:1338-1342 -/
def ReadI64LENext (n : Int64) : GoM St (List Int64) := do
  let b ← getB
  let out ← ReadI64LE b.off n
  SeekByte (n * 8) true
  return out

/-- v3/buffer.generated.go:1347-1365 -/
def ReadI64BE (off n : Int64) : GoM St (List Int64) := do
  let b ← getB
  panicIf (off + n * 8 > b.cap) (.err BufferOverreadError)
  panicIf (off < 0) (.err BufferUnderreadError)
  let out ← makeTyped 8 (0 : Int64) n
  doLoop (fun i out => do
    let x0 ← bufLoad (off + (7 + i * 8))
    let x1 ← bufLoad (off + (6 + i * 8))
    let x2 ← bufLoad (off + (5 + i * 8))
    let x3 ← bufLoad (off + (4 + i * 8))
    let x4 ← bufLoad (off + (3 + i * 8))
    let x5 ← bufLoad (off + (2 + i * 8))
    let x6 ← bufLoad (off + (1 + i * 8))
    let x7 ← bufLoad (off + i * 8)
    setIdx out i (conv Int64 x0 ||| conv Int64 x1 <<< 8 ||| conv Int64 x2 <<< 16 ||| conv Int64 x3 <<< 24 ||| conv Int64 x4 <<< 32 ||| conv Int64 x5 <<< 40 ||| conv Int64 x6 <<< 48 ||| conv Int64 x7 <<< 56)) n 0 out

/-- v3/buffer.generated.go:1370-1374 -/
def ReadI64BENext (n : Int64) : GoM St (List Int64) := do
  let b ← getB
  let out ← ReadI64BE b.off n
  SeekByte (n * 8) true
  return out

/-- v3/buffer.generated.go:1379-1399 -/
def ReadF32LE (off n : Int64) : GoM St (List F32) := do
  let b ← getB
  panicIf (off + n * 4 > b.cap) (.err BufferOverreadError)
  panicIf (off < 0) (.err BufferUnderreadError)
  let out ← makeTyped 4 (⟨0⟩ : F32) n
  doLoop (fun i out => do
    let x0 ← bufLoad (off + i * 4)
    let x1 ← bufLoad (off + (1 + i * 4))
    let x2 ← bufLoad (off + (2 + i * 4))
    let x3 ← bufLoad (off + (3 + i * 4))
    setIdx out i ⟨conv UInt32 x0 ||| conv UInt32 x1 <<< 8 ||| conv UInt32 x2 <<< 16 ||| conv UInt32 x3 <<< 24⟩) n 0 out

/-- v3/buffer.generated.go:1404-1408 -/
def ReadF32LENext (n : Int64) : GoM St (List F32) := do
  let b ← getB
  let out ← ReadF32LE b.off n
  SeekByte (n * 4) true
  return out

/-- v3/buffer.generated.go:1413-1433 -/
def ReadF32BE (off n : Int64) : GoM St (List F32) := do
  let b ← getB
  panicIf (off + n * 4 > b.cap) (.err BufferOverreadError)
  panicIf (off < 0) (.err BufferUnderreadError)
  let out ← makeTyped 4 (⟨0⟩ : F32) n
  doLoop (fun i out => do
    let x0 ← bufLoad (off + (3 + i * 4))
    let x1 ← bufLoad (off + (2 + i * 4))
    let x2 ← bufLoad (off + (1 + i * 4))
    let x3 ← bufLoad (off + i * 4)
    setIdx out i ⟨conv UInt32 x0 ||| conv UInt32 x1 <<< 8 ||| conv UInt32 x2 <<< 16 ||| conv UInt32 x3 <<< 24⟩) n 0 out

/-- v3/buffer.generated.go:1438-1442 -/
def ReadF32BENext (n : Int64) : GoM St (List F32) := do
  let b ← getB
  let out ← ReadF32BE b.off n
  SeekByte (n * 4) true
  return out

/-- v3/buffer.generated.go:1447-1467 -/
def ReadF64LE (off n : Int64) : GoM St (List F64) := do
  let b ← getB
  panicIf (off + n * 8 > b.cap) (.err BufferOverreadError)
  panicIf (off < 0) (.err BufferUnderreadError)
  let out ← makeTyped 8 (⟨0⟩ : F64) n
  doLoop (fun i out => do
    let x0 ← bufLoad (off + i * 8)
    let x1 ← bufLoad (off + (1 + i * 8))
    let x2 ← bufLoad (off + (2 + i * 8))
    let x3 ← bufLoad (off + (3 + i * 8))
    let x4 ← bufLoad (off + (4 + i * 8))
    let x5 ← bufLoad (off + (5 + i * 8))
    let x6 ← bufLoad (off + (6 + i * 8))
    let x7 ← bufLoad (off + (7 + i * 8))
    setIdx out i ⟨conv UInt64 x0 ||| conv UInt64 x1 <<< 8 ||| conv UInt64 x2 <<< 16 ||| conv UInt64 x3 <<< 24 ||| conv UInt64 x4 <<< 32 ||| conv UInt64 x5 <<< 40 ||| conv UInt64 x6 <<< 48 ||| conv UInt64 x7 <<< 56⟩) n 0 out

/-- v3/buffer.generated.go:1472-1476 -/
def ReadF64LENext (n : Int64) : GoM St (List F64) := do
  let b ← getB
  let out ← ReadF64LE b.off n
  SeekByte (n * 8) true
  return out

/-- v3/buffer.generated.go:1481-1501 -/
def ReadF64BE (off n : Int64) : GoM St (List F64) := do
  let b ← getB
  panicIf (off + n * 8 > b.cap) (.err BufferOverreadError)
  panicIf (off < 0) (.err BufferUnderreadError)
  let out ← makeTyped 8 (⟨0⟩ : F64) n
  doLoop (fun i out => do
    let x0 ← bufLoad (off + (7 + i * 8))
    let x1 ← bufLoad (off + (6 + i * 8))
    let x2 ← bufLoad (off + (5 + i * 8))
    let x3 ← bufLoad (off + (4 + i * 8))
    let x4 ← bufLoad (off + (3 + i * 8))
    let x5 ← bufLoad (off + (2 + i * 8))
    let x6 ← bufLoad (off + (1 + i * 8))
    let x7 ← bufLoad (off + i * 8)
    setIdx out i ⟨conv UInt64 x0 ||| conv UInt64 x1 <<< 8 ||| conv UInt64 x2 <<< 16 ||| conv UInt64 x3 <<< 24 ||| conv UInt64 x4 <<< 32 ||| conv UInt64 x5 <<< 40 ||| conv UInt64 x6 <<< 48 ||| conv UInt64 x7 <<< 56⟩) n 0 out

/-- v3/buffer.generated.go:1506-1510 -/
def ReadF64BENext (n : Int64) : GoM St (List F64) := do
  let b ← getB
  let out ← ReadF64BE b.off n
  SeekByte (n * 8) true
  return out

end Crunch.V3.Buffer
