import Verif.V2.Mini

/-!
# v2 `MiniBuffer`: the typed accessors

Written by tools/transcribe.py from the Go text, statement by statement.  `int` and
`int64` are the same type here (64-bit platform).
-/

namespace Crunch.V2.Mini

open V3 (St getB bufLoad bufStore)
open V3.Mini (onB getOut putOut)

/-- v2/minibuf.go:247-266 -/
def writeU16LE (off : Int64) (data : List UInt16) : GoM St Unit := do
  doLoop (fun i _ => do
    let d ← idx data i
    bufStore (off + i * 2) (Elem.byte d)
    let d ← idx data i
    bufStore (off + (1 + i * 2)) (Elem.byte (d >>> 8))) (len data) 0 ()

/-- v2/minibuf.go:269-288 -/
def writeU16BE (off : Int64) (data : List UInt16) : GoM St Unit := do
  doLoop (fun i _ => do
    let d ← idx data i
    bufStore (off + i * 2) (Elem.byte (d >>> 8))
    let d ← idx data i
    bufStore (off + (1 + i * 2)) (Elem.byte d)) (len data) 0 ()

/-- v2/minibuf.go:291-312 -/
def writeU32LE (off : Int64) (data : List UInt32) : GoM St Unit := do
  doLoop (fun i _ => do
    let d ← idx data i
    bufStore (off + i * 4) (Elem.byte d)
    let d ← idx data i
    bufStore (off + (1 + i * 4)) (Elem.byte (d >>> 8))
    let d ← idx data i
    bufStore (off + (2 + i * 4)) (Elem.byte (d >>> 16))
    let d ← idx data i
    bufStore (off + (3 + i * 4)) (Elem.byte (d >>> 24))) (len data) 0 ()

/-- v2/minibuf.go:315-336 -/
def writeU32BE (off : Int64) (data : List UInt32) : GoM St Unit := do
  doLoop (fun i _ => do
    let d ← idx data i
    bufStore (off + i * 4) (Elem.byte (d >>> 24))
    let d ← idx data i
    bufStore (off + (1 + i * 4)) (Elem.byte (d >>> 16))
    let d ← idx data i
    bufStore (off + (2 + i * 4)) (Elem.byte (d >>> 8))
    let d ← idx data i
    bufStore (off + (3 + i * 4)) (Elem.byte d)) (len data) 0 ()

/-- v2/minibuf.go:339-364 -/
def writeU64LE (off : Int64) (data : List UInt64) : GoM St Unit := do
  doLoop (fun i _ => do
    let d ← idx data i
    bufStore (off + i * 8) (Elem.byte d)
    let d ← idx data i
    bufStore (off + (1 + i * 8)) (Elem.byte (d >>> 8))
    let d ← idx data i
    bufStore (off + (2 + i * 8)) (Elem.byte (d >>> 16))
    let d ← idx data i
    bufStore (off + (3 + i * 8)) (Elem.byte (d >>> 24))
    let d ← idx data i
    bufStore (off + (4 + i * 8)) (Elem.byte (d >>> 32))
    let d ← idx data i
    bufStore (off + (5 + i * 8)) (Elem.byte (d >>> 40))
    let d ← idx data i
    bufStore (off + (6 + i * 8)) (Elem.byte (d >>> 48))
    let d ← idx data i
    bufStore (off + (7 + i * 8)) (Elem.byte (d >>> 56))) (len data) 0 ()

/-- v2/minibuf.go:367-392 -/
def writeU64BE (off : Int64) (data : List UInt64) : GoM St Unit := do
  doLoop (fun i _ => do
    let d ← idx data i
    bufStore (off + i * 8) (Elem.byte (d >>> 56))
    let d ← idx data i
    bufStore (off + (1 + i * 8)) (Elem.byte (d >>> 48))
    let d ← idx data i
    bufStore (off + (2 + i * 8)) (Elem.byte (d >>> 40))
    let d ← idx data i
    bufStore (off + (3 + i * 8)) (Elem.byte (d >>> 32))
    let d ← idx data i
    bufStore (off + (4 + i * 8)) (Elem.byte (d >>> 24))
    let d ← idx data i
    bufStore (off + (5 + i * 8)) (Elem.byte (d >>> 16))
    let d ← idx data i
    bufStore (off + (6 + i * 8)) (Elem.byte (d >>> 8))
    let d ← idx data i
    bufStore (off + (7 + i * 8)) (Elem.byte d)) (len data) 0 ()

/-- v2/minibuf.go:402-418 -/
def readU16LE (off n : Int64) : GoM (St × List UInt16) Unit := do
  doLoop (fun i _ => do
    let x0 ← onB (bufLoad (off + i * 2))
    let x1 ← onB (bufLoad (off + (1 + i * 2)))
    let out ← getOut
    let out ← setIdx out i (conv UInt16 x0 ||| conv UInt16 x1 <<< 8)
    putOut out) n 0 ()

/-- v2/minibuf.go:421-437 -/
def readU16BE (off n : Int64) : GoM (St × List UInt16) Unit := do
  doLoop (fun i _ => do
    let x0 ← onB (bufLoad (off + (1 + i * 2)))
    let x1 ← onB (bufLoad (off + i * 2))
    let out ← getOut
    let out ← setIdx out i (conv UInt16 x0 ||| conv UInt16 x1 <<< 8)
    putOut out) n 0 ()

/-- v2/minibuf.go:440-458 -/
def readU32LE (off n : Int64) : GoM (St × List UInt32) Unit := do
  doLoop (fun i _ => do
    let x0 ← onB (bufLoad (off + i * 4))
    let x1 ← onB (bufLoad (off + (1 + i * 4)))
    let x2 ← onB (bufLoad (off + (2 + i * 4)))
    let x3 ← onB (bufLoad (off + (3 + i * 4)))
    let out ← getOut
    let out ← setIdx out i (conv UInt32 x0 ||| conv UInt32 x1 <<< 8 ||| conv UInt32 x2 <<< 16 ||| conv UInt32 x3 <<< 24)
    putOut out) n 0 ()

/-- v2/minibuf.go:461-479 -/
def readU32BE (off n : Int64) : GoM (St × List UInt32) Unit := do
  doLoop (fun i _ => do
    let x0 ← onB (bufLoad (off + (3 + i * 4)))
    let x1 ← onB (bufLoad (off + (2 + i * 4)))
    let x2 ← onB (bufLoad (off + (1 + i * 4)))
    let x3 ← onB (bufLoad (off + i * 4))
    let out ← getOut
    let out ← setIdx out i (conv UInt32 x0 ||| conv UInt32 x1 <<< 8 ||| conv UInt32 x2 <<< 16 ||| conv UInt32 x3 <<< 24)
    putOut out) n 0 ()

/-- v2/minibuf.go:482-504 -/
def readU64LE (off n : Int64) : GoM (St × List UInt64) Unit := do
  doLoop (fun i _ => do
    let x0 ← onB (bufLoad (off + i * 8))
    let x1 ← onB (bufLoad (off + (1 + i * 8)))
    let x2 ← onB (bufLoad (off + (2 + i * 8)))
    let x3 ← onB (bufLoad (off + (3 + i * 8)))
    let x4 ← onB (bufLoad (off + (4 + i * 8)))
    let x5 ← onB (bufLoad (off + (5 + i * 8)))
    let x6 ← onB (bufLoad (off + (6 + i * 8)))
    let x7 ← onB (bufLoad (off + (7 + i * 8)))
    let out ← getOut
    let out ← setIdx out i (conv UInt64 x0 ||| conv UInt64 x1 <<< 8 ||| conv UInt64 x2 <<< 16 ||| conv UInt64 x3 <<< 24 ||| conv UInt64 x4 <<< 32 ||| conv UInt64 x5 <<< 40 ||| conv UInt64 x6 <<< 48 ||| conv UInt64 x7 <<< 56)
    putOut out) n 0 ()

/-- v2/minibuf.go:507-529 -/
def readU64BE (off n : Int64) : GoM (St × List UInt64) Unit := do
  doLoop (fun i _ => do
    let x0 ← onB (bufLoad (off + (7 + i * 8)))
    let x1 ← onB (bufLoad (off + (6 + i * 8)))
    let x2 ← onB (bufLoad (off + (5 + i * 8)))
    let x3 ← onB (bufLoad (off + (4 + i * 8)))
    let x4 ← onB (bufLoad (off + (3 + i * 8)))
    let x5 ← onB (bufLoad (off + (2 + i * 8)))
    let x6 ← onB (bufLoad (off + (1 + i * 8)))
    let x7 ← onB (bufLoad (off + i * 8))
    let out ← getOut
    let out ← setIdx out i (conv UInt64 x0 ||| conv UInt64 x1 <<< 8 ||| conv UInt64 x2 <<< 16 ||| conv UInt64 x3 <<< 24 ||| conv UInt64 x4 <<< 32 ||| conv UInt64 x5 <<< 40 ||| conv UInt64 x6 <<< 48 ||| conv UInt64 x7 <<< 56)
    putOut out) n 0 ()

/-- v2/minibuf.go:710-714 -/
def ReadU16LE (off n : Int64) : GoM (St × List UInt16) Unit := readU16LE off n

/-- v2/minibuf.go:717-721 -/
def ReadU16BE (off n : Int64) : GoM (St × List UInt16) Unit := readU16BE off n

/-- v2/minibuf.go:724-728 -/
def ReadU32LE (off n : Int64) : GoM (St × List UInt32) Unit := readU32LE off n

/-- v2/minibuf.go:731-735 -/
def ReadU32BE (off n : Int64) : GoM (St × List UInt32) Unit := readU32BE off n

/-- v2/minibuf.go:738-742 -/
def ReadU64LE (off n : Int64) : GoM (St × List UInt64) Unit := readU64LE off n

/-- v2/minibuf.go:745-749 -/
def ReadU64BE (off n : Int64) : GoM (St × List UInt64) Unit := readU64BE off n

/-- v2/minibuf.go:760-765 -/
def ReadU16LENext (n : Int64) : GoM (St × List UInt16) Unit := do
  let b ← onB getB
  readU16LE b.off n
  onB (seek (n * 2) true)

/-- v2/minibuf.go:768-773 -/
def ReadU16BENext (n : Int64) : GoM (St × List UInt16) Unit := do
  let b ← onB getB
  readU16BE b.off n
  onB (seek (n * 2) true)

/-- v2/minibuf.go:776-781 -/
def ReadU32LENext (n : Int64) : GoM (St × List UInt32) Unit := do
  let b ← onB getB
  readU32LE b.off n
  onB (seek (n * 4) true)

/-- v2/minibuf.go:784-789 -/
def ReadU32BENext (n : Int64) : GoM (St × List UInt32) Unit := do
  let b ← onB getB
  readU32BE b.off n
  onB (seek (n * 4) true)

/-- v2/minibuf.go:792-797 -/
def ReadU64LENext (n : Int64) : GoM (St × List UInt64) Unit := do
  let b ← onB getB
  readU64LE b.off n
  onB (seek (n * 8) true)

/-- v2/minibuf.go:800-805 -/
def ReadU64BENext (n : Int64) : GoM (St × List UInt64) Unit := do
  let b ← onB getB
  readU64BE b.off n
  onB (seek (n * 8) true)

/-- v2/minibuf.go:815-819 -/
def WriteU16LE (off : Int64) (data : List UInt16) : GoM St Unit := writeU16LE off data

/-- v2/minibuf.go:822-826 -/
def WriteU16BE (off : Int64) (data : List UInt16) : GoM St Unit := writeU16BE off data

/-- v2/minibuf.go:829-833 -/
def WriteU32LE (off : Int64) (data : List UInt32) : GoM St Unit := writeU32LE off data

/-- v2/minibuf.go:836-840 -/
def WriteU32BE (off : Int64) (data : List UInt32) : GoM St Unit := writeU32BE off data

/-- v2/minibuf.go:843-847 -/
def WriteU64LE (off : Int64) (data : List UInt64) : GoM St Unit := writeU64LE off data

/-- v2/minibuf.go:850-854 -/
def WriteU64BE (off : Int64) (data : List UInt64) : GoM St Unit := writeU64BE off data

/-- v2/minibuf.go:865-870 -/
def WriteU16LENext (data : List UInt16) : GoM St Unit := do
  let b ← getB
  writeU16LE b.off data
  seek (len data * 2) true

/-- v2/minibuf.go:873-878 -/
def WriteU16BENext (data : List UInt16) : GoM St Unit := do
  let b ← getB
  writeU16BE b.off data
  seek (len data * 2) true

/-- v2/minibuf.go:881-886 -/
def WriteU32LENext (data : List UInt32) : GoM St Unit := do
  let b ← getB
  writeU32LE b.off data
  seek (len data * 4) true

/-- v2/minibuf.go:889-894 -/
def WriteU32BENext (data : List UInt32) : GoM St Unit := do
  let b ← getB
  writeU32BE b.off data
  seek (len data * 4) true

/-- v2/minibuf.go:897-902 -/
def WriteU64LENext (data : List UInt64) : GoM St Unit := do
  let b ← getB
  writeU64LE b.off data
  seek (len data * 8) true

/-- v2/minibuf.go:905-910 -/
def WriteU64BENext (data : List UInt64) : GoM St Unit := do
  let b ← getB
  writeU64BE b.off data
  seek (len data * 8) true

end Crunch.V2.Mini
