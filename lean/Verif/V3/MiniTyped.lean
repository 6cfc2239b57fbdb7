import Verif.V3.Mini

/-!
# v3 `MiniBuffer`: the 64 typed accessors

Written by tools/transcribe.py from the Go text, statement by statement.  `int` and
`int64` are the same type here (64-bit platform).
-/

namespace Crunch.V3.Mini

/-- v3/minibuf.generated.go:325-337 -/
def WriteU16LE (off : Int64) (data : List UInt16) : GoM St Unit := do
  doLoop (fun i _ => do
    let d ← idx data i
    bufStore (off + i * 2) (Elem.byte d)
    let d ← idx data i
    bufStore (off + (1 + i * 2)) (Elem.byte (d >>> 8))) (len data) 0 ()

/-- v3/minibuf.generated.go:342-345 -/
def WriteU16LENext (data : List UInt16) : GoM St Unit := do
  let b ← getB
  WriteU16LE b.off data
  SeekByte (len data * 2) true

/-- v3/minibuf.generated.go:350-362 -/
def WriteU16BE (off : Int64) (data : List UInt16) : GoM St Unit := do
  doLoop (fun i _ => do
    let d ← idx data i
    bufStore (off + i * 2) (Elem.byte (d >>> 8))
    let d ← idx data i
    bufStore (off + (1 + i * 2)) (Elem.byte d)) (len data) 0 ()

/-- v3/minibuf.generated.go:367-370 -/
def WriteU16BENext (data : List UInt16) : GoM St Unit := do
  let b ← getB
  WriteU16BE b.off data
  SeekByte (len data * 2) true

/-- v3/minibuf.generated.go:375-389 -/
def WriteU32LE (off : Int64) (data : List UInt32) : GoM St Unit := do
  doLoop (fun i _ => do
    let d ← idx data i
    bufStore (off + i * 4) (Elem.byte d)
    let d ← idx data i
    bufStore (off + (1 + i * 4)) (Elem.byte (d >>> 8))
    let d ← idx data i
    bufStore (off + (2 + i * 4)) (Elem.byte (d >>> 16))
    let d ← idx data i
    bufStore (off + (3 + i * 4)) (Elem.byte (d >>> 24))) (len data) 0 ()

/-- v3/minibuf.generated.go:394-397 -/
def WriteU32LENext (data : List UInt32) : GoM St Unit := do
  let b ← getB
  WriteU32LE b.off data
  SeekByte (len data * 4) true

/-- v3/minibuf.generated.go:402-416 -/
def WriteU32BE (off : Int64) (data : List UInt32) : GoM St Unit := do
  doLoop (fun i _ => do
    let d ← idx data i
    bufStore (off + i * 4) (Elem.byte (d >>> 24))
    let d ← idx data i
    bufStore (off + (1 + i * 4)) (Elem.byte (d >>> 16))
    let d ← idx data i
    bufStore (off + (2 + i * 4)) (Elem.byte (d >>> 8))
    let d ← idx data i
    bufStore (off + (3 + i * 4)) (Elem.byte d)) (len data) 0 ()

/-- v3/minibuf.generated.go:421-424 -/
def WriteU32BENext (data : List UInt32) : GoM St Unit := do
  let b ← getB
  WriteU32BE b.off data
  SeekByte (len data * 4) true

/-- v3/minibuf.generated.go:429-447 -/
def WriteU64LE (off : Int64) (data : List UInt64) : GoM St Unit := do
  doLoop (fun i _ => do
    let d ← idx data i
    bufStore (off + i * 8) (Elem.byte d)
    let d ← idx data i
    bufStore (off + (1 + i * 8)) (Elem.byte (d >>> 8))
    let d ← idx data i
    bufStore (off + (2 + i * 8)) (Elem.byte (d >>> 16))
    let d ← idx data i
    bufStore (off + (3 + i * 8)) (Elem.byte (d >>> 24))
    let d ← idx data i
    bufStore (off + (4 + i * 8)) (Elem.byte (d >>> 32))
    let d ← idx data i
    bufStore (off + (5 + i * 8)) (Elem.byte (d >>> 40))
    let d ← idx data i
    bufStore (off + (6 + i * 8)) (Elem.byte (d >>> 48))
    let d ← idx data i
    bufStore (off + (7 + i * 8)) (Elem.byte (d >>> 56))) (len data) 0 ()

/-- v3/minibuf.generated.go:452-455 -/
def WriteU64LENext (data : List UInt64) : GoM St Unit := do
  let b ← getB
  WriteU64LE b.off data
  SeekByte (len data * 8) true

/-- v3/minibuf.generated.go:460-478 -/
def WriteU64BE (off : Int64) (data : List UInt64) : GoM St Unit := do
  doLoop (fun i _ => do
    let d ← idx data i
    bufStore (off + i * 8) (Elem.byte (d >>> 56))
    let d ← idx data i
    bufStore (off + (1 + i * 8)) (Elem.byte (d >>> 48))
    let d ← idx data i
    bufStore (off + (2 + i * 8)) (Elem.byte (d >>> 40))
    let d ← idx data i
    bufStore (off + (3 + i * 8)) (Elem.byte (d >>> 32))
    let d ← idx data i
    bufStore (off + (4 + i * 8)) (Elem.byte (d >>> 24))
    let d ← idx data i
    bufStore (off + (5 + i * 8)) (Elem.byte (d >>> 16))
    let d ← idx data i
    bufStore (off + (6 + i * 8)) (Elem.byte (d >>> 8))
    let d ← idx data i
    bufStore (off + (7 + i * 8)) (Elem.byte d)) (len data) 0 ()

/-- v3/minibuf.generated.go:483-486 -/
def WriteU64BENext (data : List UInt64) : GoM St Unit := do
  let b ← getB
  WriteU64BE b.off data
  SeekByte (len data * 8) true

/-- v3/minibuf.generated.go:491-503 -/
def WriteI16LE (off : Int64) (data : List Int16) : GoM St Unit := do
  doLoop (fun i _ => do
    let d ← idx data i
    bufStore (off + i * 2) (Elem.byte d)
    let d ← idx data i
    bufStore (off + (1 + i * 2)) (Elem.byte (d >>> 8))) (len data) 0 ()

/-- v3/minibuf.generated.go:508-511 -/
def WriteI16LENext (data : List Int16) : GoM St Unit := do
  let b ← getB
  WriteI16LE b.off data
  SeekByte (len data * 2) true

/-- v3/minibuf.generated.go:516-528 -/
def WriteI16BE (off : Int64) (data : List Int16) : GoM St Unit := do
  doLoop (fun i _ => do
    let d ← idx data i
    bufStore (off + i * 2) (Elem.byte (d >>> 8))
    let d ← idx data i
    bufStore (off + (1 + i * 2)) (Elem.byte d)) (len data) 0 ()

/-- v3/minibuf.generated.go:533-536 -/
def WriteI16BENext (data : List Int16) : GoM St Unit := do
  let b ← getB
  WriteI16BE b.off data
  SeekByte (len data * 2) true

/-- v3/minibuf.generated.go:541-555 -/
def WriteI32LE (off : Int64) (data : List Int32) : GoM St Unit := do
  doLoop (fun i _ => do
    let d ← idx data i
    bufStore (off + i * 4) (Elem.byte d)
    let d ← idx data i
    bufStore (off + (1 + i * 4)) (Elem.byte (d >>> 8))
    let d ← idx data i
    bufStore (off + (2 + i * 4)) (Elem.byte (d >>> 16))
    let d ← idx data i
    bufStore (off + (3 + i * 4)) (Elem.byte (d >>> 24))) (len data) 0 ()

/-- v3/minibuf.generated.go:560-563 -/
def WriteI32LENext (data : List Int32) : GoM St Unit := do
  let b ← getB
  WriteI32LE b.off data
  SeekByte (len data * 4) true

/-- v3/minibuf.generated.go:568-582 -/
def WriteI32BE (off : Int64) (data : List Int32) : GoM St Unit := do
  doLoop (fun i _ => do
    let d ← idx data i
    bufStore (off + i * 4) (Elem.byte (d >>> 24))
    let d ← idx data i
    bufStore (off + (1 + i * 4)) (Elem.byte (d >>> 16))
    let d ← idx data i
    bufStore (off + (2 + i * 4)) (Elem.byte (d >>> 8))
    let d ← idx data i
    bufStore (off + (3 + i * 4)) (Elem.byte d)) (len data) 0 ()

/-- v3/minibuf.generated.go:587-590 -/
def WriteI32BENext (data : List Int32) : GoM St Unit := do
  let b ← getB
  WriteI32BE b.off data
  SeekByte (len data * 4) true

/-- v3/minibuf.generated.go:595-613 -/
def WriteI64LE (off : Int64) (data : List Int64) : GoM St Unit := do
  doLoop (fun i _ => do
    let d ← idx data i
    bufStore (off + i * 8) (Elem.byte d)
    let d ← idx data i
    bufStore (off + (1 + i * 8)) (Elem.byte (d >>> 8))
    let d ← idx data i
    bufStore (off + (2 + i * 8)) (Elem.byte (d >>> 16))
    let d ← idx data i
    bufStore (off + (3 + i * 8)) (Elem.byte (d >>> 24))
    let d ← idx data i
    bufStore (off + (4 + i * 8)) (Elem.byte (d >>> 32))
    let d ← idx data i
    bufStore (off + (5 + i * 8)) (Elem.byte (d >>> 40))
    let d ← idx data i
    bufStore (off + (6 + i * 8)) (Elem.byte (d >>> 48))
    let d ← idx data i
    bufStore (off + (7 + i * 8)) (Elem.byte (d >>> 56))) (len data) 0 ()

/-- v3/minibuf.generated.go:618-621 -/
def WriteI64LENext (data : List Int64) : GoM St Unit := do
  let b ← getB
  WriteI64LE b.off data
  SeekByte (len data * 8) true

/-- v3/minibuf.generated.go:626-644 -/
def WriteI64BE (off : Int64) (data : List Int64) : GoM St Unit := do
  doLoop (fun i _ => do
    let d ← idx data i
    bufStore (off + i * 8) (Elem.byte (d >>> 56))
    let d ← idx data i
    bufStore (off + (1 + i * 8)) (Elem.byte (d >>> 48))
    let d ← idx data i
    bufStore (off + (2 + i * 8)) (Elem.byte (d >>> 40))
    let d ← idx data i
    bufStore (off + (3 + i * 8)) (Elem.byte (d >>> 32))
    let d ← idx data i
    bufStore (off + (4 + i * 8)) (Elem.byte (d >>> 24))
    let d ← idx data i
    bufStore (off + (5 + i * 8)) (Elem.byte (d >>> 16))
    let d ← idx data i
    bufStore (off + (6 + i * 8)) (Elem.byte (d >>> 8))
    let d ← idx data i
    bufStore (off + (7 + i * 8)) (Elem.byte d)) (len data) 0 ()

/-- v3/minibuf.generated.go:649-652 -/
def WriteI64BENext (data : List Int64) : GoM St Unit := do
  let b ← getB
  WriteI64BE b.off data
  SeekByte (len data * 8) true

/-- v3/minibuf.generated.go:657-671 -/
def WriteF32LE (off : Int64) (data : List F32) : GoM St Unit := do
  doLoop (fun i _ => do
    let d ← idx data i
    bufStore (off + i * 4) (Elem.byte d.bits)
    let d ← idx data i
    bufStore (off + (1 + i * 4)) (Elem.byte (d.bits >>> 8))
    let d ← idx data i
    bufStore (off + (2 + i * 4)) (Elem.byte (d.bits >>> 16))
    let d ← idx data i
    bufStore (off + (3 + i * 4)) (Elem.byte (d.bits >>> 24))) (len data) 0 ()

/-- v3/minibuf.generated.go:676-679 -/
def WriteF32LENext (data : List F32) : GoM St Unit := do
  let b ← getB
  WriteF32LE b.off data
  SeekByte (len data * 4) true

/-- v3/minibuf.generated.go:684-698 -/
def WriteF32BE (off : Int64) (data : List F32) : GoM St Unit := do
  doLoop (fun i _ => do
    let d ← idx data i
    bufStore (off + i * 4) (Elem.byte (d.bits >>> 24))
    let d ← idx data i
    bufStore (off + (1 + i * 4)) (Elem.byte (d.bits >>> 16))
    let d ← idx data i
    bufStore (off + (2 + i * 4)) (Elem.byte (d.bits >>> 8))
    let d ← idx data i
    bufStore (off + (3 + i * 4)) (Elem.byte d.bits)) (len data) 0 ()

/-- v3/minibuf.generated.go:703-706 -/
def WriteF32BENext (data : List F32) : GoM St Unit := do
  let b ← getB
  WriteF32BE b.off data
  SeekByte (len data * 4) true

/-- v3/minibuf.generated.go:711-729 -/
def WriteF64LE (off : Int64) (data : List F64) : GoM St Unit := do
  doLoop (fun i _ => do
    let d ← idx data i
    bufStore (off + i * 8) (Elem.byte d.bits)
    let d ← idx data i
    bufStore (off + (1 + i * 8)) (Elem.byte (d.bits >>> 8))
    let d ← idx data i
    bufStore (off + (2 + i * 8)) (Elem.byte (d.bits >>> 16))
    let d ← idx data i
    bufStore (off + (3 + i * 8)) (Elem.byte (d.bits >>> 24))
    let d ← idx data i
    bufStore (off + (4 + i * 8)) (Elem.byte (d.bits >>> 32))
    let d ← idx data i
    bufStore (off + (5 + i * 8)) (Elem.byte (d.bits >>> 40))
    let d ← idx data i
    bufStore (off + (6 + i * 8)) (Elem.byte (d.bits >>> 48))
    let d ← idx data i
    bufStore (off + (7 + i * 8)) (Elem.byte (d.bits >>> 56))) (len data) 0 ()

/-- v3/minibuf.generated.go:734-737 -/
def WriteF64LENext (data : List F64) : GoM St Unit := do
  let b ← getB
  WriteF64LE b.off data
  SeekByte (len data * 8) true

/-- v3/minibuf.generated.go:742-760 -/
def WriteF64BE (off : Int64) (data : List F64) : GoM St Unit := do
  doLoop (fun i _ => do
    let d ← idx data i
    bufStore (off + i * 8) (Elem.byte (d.bits >>> 56))
    let d ← idx data i
    bufStore (off + (1 + i * 8)) (Elem.byte (d.bits >>> 48))
    let d ← idx data i
    bufStore (off + (2 + i * 8)) (Elem.byte (d.bits >>> 40))
    let d ← idx data i
    bufStore (off + (3 + i * 8)) (Elem.byte (d.bits >>> 32))
    let d ← idx data i
    bufStore (off + (4 + i * 8)) (Elem.byte (d.bits >>> 24))
    let d ← idx data i
    bufStore (off + (5 + i * 8)) (Elem.byte (d.bits >>> 16))
    let d ← idx data i
    bufStore (off + (6 + i * 8)) (Elem.byte (d.bits >>> 8))
    let d ← idx data i
    bufStore (off + (7 + i * 8)) (Elem.byte d.bits)) (len data) 0 ()

/-- v3/minibuf.generated.go:765-768 -/
def WriteF64BENext (data : List F64) : GoM St Unit := do
  let b ← getB
  WriteF64BE b.off data
  SeekByte (len data * 8) true

/-- v3/minibuf.generated.go:790-800 -/
def ReadU16LE (off n : Int64) : GoM (St × List UInt16) Unit := do
  doLoop (fun i _ => do
    let x0 ← onB (bufLoad (off + i * 2))
    let x1 ← onB (bufLoad (off + (1 + i * 2)))
    let out ← getOut
    let out ← setIdx out i (conv UInt16 x0 ||| conv UInt16 x1 <<< 8)
    putOut out) n 0 ()

/-- v3/minibuf.generated.go:805-808 -/
def ReadU16LENext (n : Int64) : GoM (St × List UInt16) Unit := do
  let b ← onB getB
  ReadU16LE b.off n
  onB (SeekByte (n * 2) true)

/-- v3/minibuf.generated.go:813-823 -/
def ReadU16BE (off n : Int64) : GoM (St × List UInt16) Unit := do
  doLoop (fun i _ => do
    let x0 ← onB (bufLoad (off + (1 + i * 2)))
    let x1 ← onB (bufLoad (off + i * 2))
    let out ← getOut
    let out ← setIdx out i (conv UInt16 x0 ||| conv UInt16 x1 <<< 8)
    putOut out) n 0 ()

/-- v3/minibuf.generated.go:828-831 -/
def ReadU16BENext (n : Int64) : GoM (St × List UInt16) Unit := do
  let b ← onB getB
  ReadU16BE b.off n
  onB (SeekByte (n * 2) true)

/-- v3/minibuf.generated.go:836-846 -/
def ReadU32LE (off n : Int64) : GoM (St × List UInt32) Unit := do
  doLoop (fun i _ => do
    let x0 ← onB (bufLoad (off + i * 4))
    let x1 ← onB (bufLoad (off + (1 + i * 4)))
    let x2 ← onB (bufLoad (off + (2 + i * 4)))
    let x3 ← onB (bufLoad (off + (3 + i * 4)))
    let out ← getOut
    let out ← setIdx out i (conv UInt32 x0 ||| conv UInt32 x1 <<< 8 ||| conv UInt32 x2 <<< 16 ||| conv UInt32 x3 <<< 24)
    putOut out) n 0 ()

/-- v3/minibuf.generated.go:851-854 -/
def ReadU32LENext (n : Int64) : GoM (St × List UInt32) Unit := do
  let b ← onB getB
  ReadU32LE b.off n
  onB (SeekByte (n * 4) true)

/-- v3/minibuf.generated.go:859-869 -/
def ReadU32BE (off n : Int64) : GoM (St × List UInt32) Unit := do
  doLoop (fun i _ => do
    let x0 ← onB (bufLoad (off + (3 + i * 4)))
    let x1 ← onB (bufLoad (off + (2 + i * 4)))
    let x2 ← onB (bufLoad (off + (1 + i * 4)))
    let x3 ← onB (bufLoad (off + i * 4))
    let out ← getOut
    let out ← setIdx out i (conv UInt32 x0 ||| conv UInt32 x1 <<< 8 ||| conv UInt32 x2 <<< 16 ||| conv UInt32 x3 <<< 24)
    putOut out) n 0 ()

/-- v3/minibuf.generated.go:874-877 -/
def ReadU32BENext (n : Int64) : GoM (St × List UInt32) Unit := do
  let b ← onB getB
  ReadU32BE b.off n
  onB (SeekByte (n * 4) true)

/-- v3/minibuf.generated.go:882-892 -/
def ReadU64LE (off n : Int64) : GoM (St × List UInt64) Unit := do
  doLoop (fun i _ => do
    let x0 ← onB (bufLoad (off + i * 8))
    let x1 ← onB (bufLoad (off + (1 + i * 8)))
    let x2 ← onB (bufLoad (off + (2 + i * 8)))
    let x3 ← onB (bufLoad (off + (3 + i * 8)))
    let x4 ← onB (bufLoad (off + (4 + i * 8)))
    let x5 ← onB (bufLoad (off + (5 + i * 8)))
    let x6 ← onB (bufLoad (off + (6 + i * 8)))
    let x7 ← onB (bufLoad (off + (7 + i * 8)))
    let out ← getOut
    let out ← setIdx out i (conv UInt64 x0 ||| conv UInt64 x1 <<< 8 ||| conv UInt64 x2 <<< 16 ||| conv UInt64 x3 <<< 24 ||| conv UInt64 x4 <<< 32 ||| conv UInt64 x5 <<< 40 ||| conv UInt64 x6 <<< 48 ||| conv UInt64 x7 <<< 56)
    putOut out) n 0 ()

/-- v3/minibuf.generated.go:897-900 -/
def ReadU64LENext (n : Int64) : GoM (St × List UInt64) Unit := do
  let b ← onB getB
  ReadU64LE b.off n
  onB (SeekByte (n * 8) true)

/-- v3/minibuf.generated.go:905-915 -/
def ReadU64BE (off n : Int64) : GoM (St × List UInt64) Unit := do
  doLoop (fun i _ => do
    let x0 ← onB (bufLoad (off + (7 + i * 8)))
    let x1 ← onB (bufLoad (off + (6 + i * 8)))
    let x2 ← onB (bufLoad (off + (5 + i * 8)))
    let x3 ← onB (bufLoad (off + (4 + i * 8)))
    let x4 ← onB (bufLoad (off + (3 + i * 8)))
    let x5 ← onB (bufLoad (off + (2 + i * 8)))
    let x6 ← onB (bufLoad (off + (1 + i * 8)))
    let x7 ← onB (bufLoad (off + i * 8))
    let out ← getOut
    let out ← setIdx out i (conv UInt64 x0 ||| conv UInt64 x1 <<< 8 ||| conv UInt64 x2 <<< 16 ||| conv UInt64 x3 <<< 24 ||| conv UInt64 x4 <<< 32 ||| conv UInt64 x5 <<< 40 ||| conv UInt64 x6 <<< 48 ||| conv UInt64 x7 <<< 56)
    putOut out) n 0 ()

/-- v3/minibuf.generated.go:920-923 -/
def ReadU64BENext (n : Int64) : GoM (St × List UInt64) Unit := do
  let b ← onB getB
  ReadU64BE b.off n
  onB (SeekByte (n * 8) true)

/-- v3/minibuf.generated.go:928-938 -/
def ReadI16LE (off n : Int64) : GoM (St × List Int16) Unit := do
  doLoop (fun i _ => do
    let x0 ← onB (bufLoad (off + i * 2))
    let x1 ← onB (bufLoad (off + (1 + i * 2)))
    let out ← getOut
    let out ← setIdx out i (conv Int16 x0 ||| conv Int16 x1 <<< 8)
    putOut out) n 0 ()

/-- v3/minibuf.generated.go:943-946 -/
def ReadI16LENext (n : Int64) : GoM (St × List Int16) Unit := do
  let b ← onB getB
  ReadI16LE b.off n
  onB (SeekByte (n * 2) true)

/-- v3/minibuf.generated.go:951-961 -/
def ReadI16BE (off n : Int64) : GoM (St × List Int16) Unit := do
  doLoop (fun i _ => do
    let x0 ← onB (bufLoad (off + (1 + i * 2)))
    let x1 ← onB (bufLoad (off + i * 2))
    let out ← getOut
    let out ← setIdx out i (conv Int16 x0 ||| conv Int16 x1 <<< 8)
    putOut out) n 0 ()

/-- v3/minibuf.generated.go:966-969 -/
def ReadI16BENext (n : Int64) : GoM (St × List Int16) Unit := do
  let b ← onB getB
  ReadI16BE b.off n
  onB (SeekByte (n * 2) true)

/-- v3/minibuf.generated.go:974-984 -/
def ReadI32LE (off n : Int64) : GoM (St × List Int32) Unit := do
  doLoop (fun i _ => do
    let x0 ← onB (bufLoad (off + i * 4))
    let x1 ← onB (bufLoad (off + (1 + i * 4)))
    let x2 ← onB (bufLoad (off + (2 + i * 4)))
    let x3 ← onB (bufLoad (off + (3 + i * 4)))
    let out ← getOut
    let out ← setIdx out i (conv Int32 x0 ||| conv Int32 x1 <<< 8 ||| conv Int32 x2 <<< 16 ||| conv Int32 x3 <<< 24)
    putOut out) n 0 ()

/-- v3/minibuf.generated.go:989-992 -/
def ReadI32LENext (n : Int64) : GoM (St × List Int32) Unit := do
  let b ← onB getB
  ReadI32LE b.off n
  onB (SeekByte (n * 4) true)

/-- v3/minibuf.generated.go:997-1007 -/
def ReadI32BE (off n : Int64) : GoM (St × List Int32) Unit := do
  doLoop (fun i _ => do
    let x0 ← onB (bufLoad (off + (3 + i * 4)))
    let x1 ← onB (bufLoad (off + (2 + i * 4)))
    let x2 ← onB (bufLoad (off + (1 + i * 4)))
    let x3 ← onB (bufLoad (off + i * 4))
    let out ← getOut
    let out ← setIdx out i (conv Int32 x0 ||| conv Int32 x1 <<< 8 ||| conv Int32 x2 <<< 16 ||| conv Int32 x3 <<< 24)
    putOut out) n 0 ()

/-- v3/minibuf.generated.go:1012-1015 -/
def ReadI32BENext (n : Int64) : GoM (St × List Int32) Unit := do
  let b ← onB getB
  ReadI32BE b.off n
  onB (SeekByte (n * 4) true)

/-- v3/minibuf.generated.go:1020-1030 -/
def ReadI64LE (off n : Int64) : GoM (St × List Int64) Unit := do
  doLoop (fun i _ => do
    let x0 ← onB (bufLoad (off + i * 8))
    let x1 ← onB (bufLoad (off + (1 + i * 8)))
    let x2 ← onB (bufLoad (off + (2 + i * 8)))
    let x3 ← onB (bufLoad (off + (3 + i * 8)))
    let x4 ← onB (bufLoad (off + (4 + i * 8)))
    let x5 ← onB (bufLoad (off + (5 + i * 8)))
    let x6 ← onB (bufLoad (off + (6 + i * 8)))
    let x7 ← onB (bufLoad (off + (7 + i * 8)))
    let out ← getOut
    let out ← setIdx out i (conv Int64 x0 ||| conv Int64 x1 <<< 8 ||| conv Int64 x2 <<< 16 ||| conv Int64 x3 <<< 24 ||| conv Int64 x4 <<< 32 ||| conv Int64 x5 <<< 40 ||| conv Int64 x6 <<< 48 ||| conv Int64 x7 <<< 56)
    putOut out) n 0 ()

/-- v3/minibuf.generated.go:1035-1038 -/
def ReadI64LENext (n : Int64) : GoM (St × List Int64) Unit := do
  let b ← onB getB
  ReadI64LE b.off n
  onB (SeekByte (n * 8) true)

/-- v3/minibuf.generated.go:1043-1053 -/
def ReadI64BE (off n : Int64) : GoM (St × List Int64) Unit := do
  doLoop (fun i _ => do
    let x0 ← onB (bufLoad (off + (7 + i * 8)))
    let x1 ← onB (bufLoad (off + (6 + i * 8)))
    let x2 ← onB (bufLoad (off + (5 + i * 8)))
    let x3 ← onB (bufLoad (off + (4 + i * 8)))
    let x4 ← onB (bufLoad (off + (3 + i * 8)))
    let x5 ← onB (bufLoad (off + (2 + i * 8)))
    let x6 ← onB (bufLoad (off + (1 + i * 8)))
    let x7 ← onB (bufLoad (off + i * 8))
    let out ← getOut
    let out ← setIdx out i (conv Int64 x0 ||| conv Int64 x1 <<< 8 ||| conv Int64 x2 <<< 16 ||| conv Int64 x3 <<< 24 ||| conv Int64 x4 <<< 32 ||| conv Int64 x5 <<< 40 ||| conv Int64 x6 <<< 48 ||| conv Int64 x7 <<< 56)
    putOut out) n 0 ()

/-- v3/minibuf.generated.go:1058-1061 -/
def ReadI64BENext (n : Int64) : GoM (St × List Int64) Unit := do
  let b ← onB getB
  ReadI64BE b.off n
  onB (SeekByte (n * 8) true)

/-- v3/minibuf.generated.go:1066-1078 -/
def ReadF32LE (off n : Int64) : GoM (St × List F32) Unit := do
  doLoop (fun i _ => do
    let x0 ← onB (bufLoad (off + i * 4))
    let x1 ← onB (bufLoad (off + (1 + i * 4)))
    let x2 ← onB (bufLoad (off + (2 + i * 4)))
    let x3 ← onB (bufLoad (off + (3 + i * 4)))
    let out ← getOut
    let out ← setIdx out i ⟨conv UInt32 x0 ||| conv UInt32 x1 <<< 8 ||| conv UInt32 x2 <<< 16 ||| conv UInt32 x3 <<< 24⟩
    putOut out) n 0 ()

/-- v3/minibuf.generated.go:1083-1086 -/
def ReadF32LENext (n : Int64) : GoM (St × List F32) Unit := do
  let b ← onB getB
  ReadF32LE b.off n
  onB (SeekByte (n * 4) true)

/-- v3/minibuf.generated.go:1091-1103 -/
def ReadF32BE (off n : Int64) : GoM (St × List F32) Unit := do
  doLoop (fun i _ => do
    let x0 ← onB (bufLoad (off + (3 + i * 4)))
    let x1 ← onB (bufLoad (off + (2 + i * 4)))
    let x2 ← onB (bufLoad (off + (1 + i * 4)))
    let x3 ← onB (bufLoad (off + i * 4))
    let out ← getOut
    let out ← setIdx out i ⟨conv UInt32 x0 ||| conv UInt32 x1 <<< 8 ||| conv UInt32 x2 <<< 16 ||| conv UInt32 x3 <<< 24⟩
    putOut out) n 0 ()

/-- v3/minibuf.generated.go:1108-1111 -/
def ReadF32BENext (n : Int64) : GoM (St × List F32) Unit := do
  let b ← onB getB
  ReadF32BE b.off n
  onB (SeekByte (n * 4) true)

/-- v3/minibuf.generated.go:1116-1128 -/
def ReadF64LE (off n : Int64) : GoM (St × List F64) Unit := do
  doLoop (fun i _ => do
    let x0 ← onB (bufLoad (off + i * 8))
    let x1 ← onB (bufLoad (off + (1 + i * 8)))
    let x2 ← onB (bufLoad (off + (2 + i * 8)))
    let x3 ← onB (bufLoad (off + (3 + i * 8)))
    let x4 ← onB (bufLoad (off + (4 + i * 8)))
    let x5 ← onB (bufLoad (off + (5 + i * 8)))
    let x6 ← onB (bufLoad (off + (6 + i * 8)))
    let x7 ← onB (bufLoad (off + (7 + i * 8)))
    let out ← getOut
    let out ← setIdx out i ⟨conv UInt64 x0 ||| conv UInt64 x1 <<< 8 ||| conv UInt64 x2 <<< 16 ||| conv UInt64 x3 <<< 24 ||| conv UInt64 x4 <<< 32 ||| conv UInt64 x5 <<< 40 ||| conv UInt64 x6 <<< 48 ||| conv UInt64 x7 <<< 56⟩
    putOut out) n 0 ()

/-- v3/minibuf.generated.go:1133-1136 -/
def ReadF64LENext (n : Int64) : GoM (St × List F64) Unit := do
  let b ← onB getB
  ReadF64LE b.off n
  onB (SeekByte (n * 8) true)

/-- v3/minibuf.generated.go:1141-1153 -/
def ReadF64BE (off n : Int64) : GoM (St × List F64) Unit := do
  doLoop (fun i _ => do
    let x0 ← onB (bufLoad (off + (7 + i * 8)))
    let x1 ← onB (bufLoad (off + (6 + i * 8)))
    let x2 ← onB (bufLoad (off + (5 + i * 8)))
    let x3 ← onB (bufLoad (off + (4 + i * 8)))
    let x4 ← onB (bufLoad (off + (3 + i * 8)))
    let x5 ← onB (bufLoad (off + (2 + i * 8)))
    let x6 ← onB (bufLoad (off + (1 + i * 8)))
    let x7 ← onB (bufLoad (off + i * 8))
    let out ← getOut
    let out ← setIdx out i ⟨conv UInt64 x0 ||| conv UInt64 x1 <<< 8 ||| conv UInt64 x2 <<< 16 ||| conv UInt64 x3 <<< 24 ||| conv UInt64 x4 <<< 32 ||| conv UInt64 x5 <<< 40 ||| conv UInt64 x6 <<< 48 ||| conv UInt64 x7 <<< 56⟩
    putOut out) n 0 ()

/-- v3/minibuf.generated.go:1158-1161 -/
def ReadF64BENext (n : Int64) : GoM (St × List F64) Unit := do
  let b ← onB getB
  ReadF64BE b.off n
  onB (SeekByte (n * 8) true)

end Crunch.V3.Mini
