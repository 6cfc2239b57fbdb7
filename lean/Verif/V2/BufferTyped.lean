import Verif.V2.Buffer

/-!
# v2 `Buffer`: the typed accessors

Written by tools/transcribe.py from the Go text, statement by statement.  `int` and
`int64` are the same type here (64-bit platform).
-/

namespace Crunch.V2.Buffer

/-- v2/buffer.go:316-351 -/
def writeU16LE (off : Int64) (data : List UInt16) : Prog Unit := do
  let cap ← Prog.field .cap
  Prog.panicIf (off + len data * 2 > cap) (.err BufferOverwriteError)
  Prog.panicIf (off < 0) (.err BufferUnderwriteError)
  Prog.Lock
  Prog.doLoop (fun i _ => do
    let d ← Prog.idx data i
    Prog.bufStore (off + i * 2) (Elem.byte d)
    let d ← Prog.idx data i
    Prog.bufStore (off + (1 + i * 2)) (Elem.byte (d >>> 8))) (len data) 0 ()
  Prog.Unlock

/-- v2/buffer.go:354-389 -/
def writeU16BE (off : Int64) (data : List UInt16) : Prog Unit := do
  let cap ← Prog.field .cap
  Prog.panicIf (off + len data * 2 > cap) (.err BufferOverwriteError)
  Prog.panicIf (off < 0) (.err BufferUnderwriteError)
  Prog.Lock
  Prog.doLoop (fun i _ => do
    let d ← Prog.idx data i
    Prog.bufStore (off + i * 2) (Elem.byte (d >>> 8))
    let d ← Prog.idx data i
    Prog.bufStore (off + (1 + i * 2)) (Elem.byte d)) (len data) 0 ()
  Prog.Unlock

/-- v2/buffer.go:392-429 -/
def writeU32LE (off : Int64) (data : List UInt32) : Prog Unit := do
  let cap ← Prog.field .cap
  Prog.panicIf (off + len data * 4 > cap) (.err BufferOverwriteError)
  Prog.panicIf (off < 0) (.err BufferUnderwriteError)
  Prog.Lock
  Prog.doLoop (fun i _ => do
    let d ← Prog.idx data i
    Prog.bufStore (off + i * 4) (Elem.byte d)
    let d ← Prog.idx data i
    Prog.bufStore (off + (1 + i * 4)) (Elem.byte (d >>> 8))
    let d ← Prog.idx data i
    Prog.bufStore (off + (2 + i * 4)) (Elem.byte (d >>> 16))
    let d ← Prog.idx data i
    Prog.bufStore (off + (3 + i * 4)) (Elem.byte (d >>> 24))) (len data) 0 ()
  Prog.Unlock

/-- v2/buffer.go:432-469 -/
def writeU32BE (off : Int64) (data : List UInt32) : Prog Unit := do
  let cap ← Prog.field .cap
  Prog.panicIf (off + len data * 4 > cap) (.err BufferOverwriteError)
  Prog.panicIf (off < 0) (.err BufferUnderwriteError)
  Prog.Lock
  Prog.doLoop (fun i _ => do
    let d ← Prog.idx data i
    Prog.bufStore (off + i * 4) (Elem.byte (d >>> 24))
    let d ← Prog.idx data i
    Prog.bufStore (off + (1 + i * 4)) (Elem.byte (d >>> 16))
    let d ← Prog.idx data i
    Prog.bufStore (off + (2 + i * 4)) (Elem.byte (d >>> 8))
    let d ← Prog.idx data i
    Prog.bufStore (off + (3 + i * 4)) (Elem.byte d)) (len data) 0 ()
  Prog.Unlock

/-- v2/buffer.go:472-513 -/
def writeU64LE (off : Int64) (data : List UInt64) : Prog Unit := do
  let cap ← Prog.field .cap
  Prog.panicIf (off + len data * 8 > cap) (.err BufferOverwriteError)
  Prog.panicIf (off < 0) (.err BufferUnderwriteError)
  Prog.Lock
  Prog.doLoop (fun i _ => do
    let d ← Prog.idx data i
    Prog.bufStore (off + i * 8) (Elem.byte d)
    let d ← Prog.idx data i
    Prog.bufStore (off + (1 + i * 8)) (Elem.byte (d >>> 8))
    let d ← Prog.idx data i
    Prog.bufStore (off + (2 + i * 8)) (Elem.byte (d >>> 16))
    let d ← Prog.idx data i
    Prog.bufStore (off + (3 + i * 8)) (Elem.byte (d >>> 24))
    let d ← Prog.idx data i
    Prog.bufStore (off + (4 + i * 8)) (Elem.byte (d >>> 32))
    let d ← Prog.idx data i
    Prog.bufStore (off + (5 + i * 8)) (Elem.byte (d >>> 40))
    let d ← Prog.idx data i
    Prog.bufStore (off + (6 + i * 8)) (Elem.byte (d >>> 48))
    let d ← Prog.idx data i
    Prog.bufStore (off + (7 + i * 8)) (Elem.byte (d >>> 56))) (len data) 0 ()
  Prog.Unlock

/-- v2/buffer.go:516-557 -/
def writeU64BE (off : Int64) (data : List UInt64) : Prog Unit := do
  let cap ← Prog.field .cap
  Prog.panicIf (off + len data * 8 > cap) (.err BufferOverwriteError)
  Prog.panicIf (off < 0) (.err BufferUnderwriteError)
  Prog.Lock
  Prog.doLoop (fun i _ => do
    let d ← Prog.idx data i
    Prog.bufStore (off + i * 8) (Elem.byte (d >>> 56))
    let d ← Prog.idx data i
    Prog.bufStore (off + (1 + i * 8)) (Elem.byte (d >>> 48))
    let d ← Prog.idx data i
    Prog.bufStore (off + (2 + i * 8)) (Elem.byte (d >>> 40))
    let d ← Prog.idx data i
    Prog.bufStore (off + (3 + i * 8)) (Elem.byte (d >>> 32))
    let d ← Prog.idx data i
    Prog.bufStore (off + (4 + i * 8)) (Elem.byte (d >>> 24))
    let d ← Prog.idx data i
    Prog.bufStore (off + (5 + i * 8)) (Elem.byte (d >>> 16))
    let d ← Prog.idx data i
    Prog.bufStore (off + (6 + i * 8)) (Elem.byte (d >>> 8))
    let d ← Prog.idx data i
    Prog.bufStore (off + (7 + i * 8)) (Elem.byte d)) (len data) 0 ()
  Prog.Unlock

/-- v2/buffer.go:582-617 -/
def readU16LE (off n : Int64) : Prog (List UInt16) := do
  let cap ← Prog.field .cap
  Prog.panicIf (off + n * 2 > cap) (.err BufferOverreadError)
  Prog.panicIf (off < 0) (.err BufferUnderreadError)
  let out ← Prog.makeTyped 2 (0 : UInt16) n
  Prog.locked (Prog.doLoop (fun i out => do
    let x0 ← Prog.bufLoad (off + i * 2)
    let x1 ← Prog.bufLoad (off + (1 + i * 2))
    Prog.setIdx out i (conv UInt16 x0 ||| conv UInt16 x1 <<< 8)) n 0 out)

/-- v2/buffer.go:620-655 -/
def readU16BE (off n : Int64) : Prog (List UInt16) := do
  let cap ← Prog.field .cap
  Prog.panicIf (off + n * 2 > cap) (.err BufferOverreadError)
  Prog.panicIf (off < 0) (.err BufferUnderreadError)
  let out ← Prog.makeTyped 2 (0 : UInt16) n
  Prog.locked (Prog.doLoop (fun i out => do
    let x0 ← Prog.bufLoad (off + (1 + i * 2))
    let x1 ← Prog.bufLoad (off + i * 2)
    Prog.setIdx out i (conv UInt16 x0 ||| conv UInt16 x1 <<< 8)) n 0 out)

/-- v2/buffer.go:658-695 -/
def readU32LE (off n : Int64) : Prog (List UInt32) := do
  let cap ← Prog.field .cap
  Prog.panicIf (off + n * 4 > cap) (.err BufferOverreadError)
  Prog.panicIf (off < 0) (.err BufferUnderreadError)
  let out ← Prog.makeTyped 4 (0 : UInt32) n
  Prog.locked (Prog.doLoop (fun i out => do
    let x0 ← Prog.bufLoad (off + i * 4)
    let x1 ← Prog.bufLoad (off + (1 + i * 4))
    let x2 ← Prog.bufLoad (off + (2 + i * 4))
    let x3 ← Prog.bufLoad (off + (3 + i * 4))
    Prog.setIdx out i (conv UInt32 x0 ||| conv UInt32 x1 <<< 8 ||| conv UInt32 x2 <<< 16 ||| conv UInt32 x3 <<< 24)) n 0 out)

/-- v2/buffer.go:698-735 -/
def readU32BE (off n : Int64) : Prog (List UInt32) := do
  let cap ← Prog.field .cap
  Prog.panicIf (off + n * 4 > cap) (.err BufferOverreadError)
  Prog.panicIf (off < 0) (.err BufferUnderreadError)
  let out ← Prog.makeTyped 4 (0 : UInt32) n
  Prog.locked (Prog.doLoop (fun i out => do
    let x0 ← Prog.bufLoad (off + (3 + i * 4))
    let x1 ← Prog.bufLoad (off + (2 + i * 4))
    let x2 ← Prog.bufLoad (off + (1 + i * 4))
    let x3 ← Prog.bufLoad (off + i * 4)
    Prog.setIdx out i (conv UInt32 x0 ||| conv UInt32 x1 <<< 8 ||| conv UInt32 x2 <<< 16 ||| conv UInt32 x3 <<< 24)) n 0 out)

/-- v2/buffer.go:738-779 -/
def readU64LE (off n : Int64) : Prog (List UInt64) := do
  let cap ← Prog.field .cap
  Prog.panicIf (off + n * 8 > cap) (.err BufferOverreadError)
  Prog.panicIf (off < 0) (.err BufferUnderreadError)
  let out ← Prog.makeTyped 8 (0 : UInt64) n
  Prog.locked (Prog.doLoop (fun i out => do
    let x0 ← Prog.bufLoad (off + i * 8)
    let x1 ← Prog.bufLoad (off + (1 + i * 8))
    let x2 ← Prog.bufLoad (off + (2 + i * 8))
    let x3 ← Prog.bufLoad (off + (3 + i * 8))
    let x4 ← Prog.bufLoad (off + (4 + i * 8))
    let x5 ← Prog.bufLoad (off + (5 + i * 8))
    let x6 ← Prog.bufLoad (off + (6 + i * 8))
    let x7 ← Prog.bufLoad (off + (7 + i * 8))
    Prog.setIdx out i (conv UInt64 x0 ||| conv UInt64 x1 <<< 8 ||| conv UInt64 x2 <<< 16 ||| conv UInt64 x3 <<< 24 ||| conv UInt64 x4 <<< 32 ||| conv UInt64 x5 <<< 40 ||| conv UInt64 x6 <<< 48 ||| conv UInt64 x7 <<< 56)) n 0 out)

/-- v2/buffer.go:782-822 -/
def readU64BE (off n : Int64) : Prog (List UInt64) := do
  let cap ← Prog.field .cap
  Prog.panicIf (off + n * 8 > cap) (.err BufferOverreadError)
  Prog.panicIf (off < 0) (.err BufferUnderreadError)
  let out ← Prog.makeTyped 8 (0 : UInt64) n
  Prog.locked (Prog.doLoop (fun i out => do
    let x0 ← Prog.bufLoad (off + (7 + i * 8))
    let x1 ← Prog.bufLoad (off + (6 + i * 8))
    let x2 ← Prog.bufLoad (off + (5 + i * 8))
    let x3 ← Prog.bufLoad (off + (4 + i * 8))
    let x4 ← Prog.bufLoad (off + (3 + i * 8))
    let x5 ← Prog.bufLoad (off + (2 + i * 8))
    let x6 ← Prog.bufLoad (off + (1 + i * 8))
    let x7 ← Prog.bufLoad (off + i * 8)
    Prog.setIdx out i (conv UInt64 x0 ||| conv UInt64 x1 <<< 8 ||| conv UInt64 x2 <<< 16 ||| conv UInt64 x3 <<< 24 ||| conv UInt64 x4 <<< 32 ||| conv UInt64 x5 <<< 40 ||| conv UInt64 x6 <<< 48 ||| conv UInt64 x7 <<< 56)) n 0 out)

/-- v2/buffer.go:1029-1033 -/
def ReadU16LE (off n : Int64) : Prog (List UInt16) := readU16LE off n

/-- v2/buffer.go:1036-1040 -/
def ReadU16BE (off n : Int64) : Prog (List UInt16) := readU16BE off n

/-- v2/buffer.go:1043-1047 -/
def ReadU32LE (off n : Int64) : Prog (List UInt32) := readU32LE off n

/-- v2/buffer.go:1050-1054 -/
def ReadU32BE (off n : Int64) : Prog (List UInt32) := readU32BE off n

/-- v2/buffer.go:1057-1061 -/
def ReadU64LE (off n : Int64) : Prog (List UInt64) := readU64LE off n

/-- v2/buffer.go:1064-1068 -/
def ReadU64BE (off n : Int64) : Prog (List UInt64) := readU64BE off n

/-- v2/buffer.go:1089-1095 -/
def ReadU16LENext (n : Int64) : Prog (List UInt16) := do
  let off ← Prog.field .off
  let out ← readU16LE off n
  seek (n * 2) true
  return out

/-- v2/buffer.go:1098-1104 -/
def ReadU16BENext (n : Int64) : Prog (List UInt16) := do
  let off ← Prog.field .off
  let out ← readU16BE off n
  seek (n * 2) true
  return out

/-- v2/buffer.go:1107-1113 -/
def ReadU32LENext (n : Int64) : Prog (List UInt32) := do
  let off ← Prog.field .off
  let out ← readU32LE off n
  seek (n * 4) true
  return out

/-- v2/buffer.go:1116-1122 -/
def ReadU32BENext (n : Int64) : Prog (List UInt32) := do
  let off ← Prog.field .off
  let out ← readU32BE off n
  seek (n * 4) true
  return out

/-- v2/buffer.go:1125-1131 -/
def ReadU64LENext (n : Int64) : Prog (List UInt64) := do
  let off ← Prog.field .off
  let out ← readU64LE off n
  seek (n * 8) true
  return out

/-- v2/buffer.go:1134-1140 -/
def ReadU64BENext (n : Int64) : Prog (List UInt64) := do
  let off ← Prog.field .off
  let out ← readU64BE off n
  seek (n * 8) true
  return out

/-- v2/buffer.go:1157-1161 -/
def WriteU16LE (off : Int64) (data : List UInt16) : Prog Unit := writeU16LE off data

/-- v2/buffer.go:1164-1168 -/
def WriteU16BE (off : Int64) (data : List UInt16) : Prog Unit := writeU16BE off data

/-- v2/buffer.go:1171-1175 -/
def WriteU32LE (off : Int64) (data : List UInt32) : Prog Unit := writeU32LE off data

/-- v2/buffer.go:1178-1182 -/
def WriteU32BE (off : Int64) (data : List UInt32) : Prog Unit := writeU32BE off data

/-- v2/buffer.go:1185-1189 -/
def WriteU64LE (off : Int64) (data : List UInt64) : Prog Unit := writeU64LE off data

/-- v2/buffer.go:1192-1196 -/
def WriteU64BE (off : Int64) (data : List UInt64) : Prog Unit := writeU64BE off data

/-- v2/buffer.go:1215-1220 -/
def WriteU16LENext (data : List UInt16) : Prog Unit := do
  let off ← Prog.field .off
  writeU16LE off data
  seek (len data * 2) true

/-- v2/buffer.go:1223-1228 -/
def WriteU16BENext (data : List UInt16) : Prog Unit := do
  let off ← Prog.field .off
  writeU16BE off data
  seek (len data * 2) true

/-- v2/buffer.go:1231-1236 -/
def WriteU32LENext (data : List UInt32) : Prog Unit := do
  let off ← Prog.field .off
  writeU32LE off data
  seek (len data * 4) true

/-- v2/buffer.go:1239-1244 -/
def WriteU32BENext (data : List UInt32) : Prog Unit := do
  let off ← Prog.field .off
  writeU32BE off data
  seek (len data * 4) true

/-- v2/buffer.go:1247-1252 -/
def WriteU64LENext (data : List UInt64) : Prog Unit := do
  let off ← Prog.field .off
  writeU64LE off data
  seek (len data * 8) true

/-- v2/buffer.go:1255-1260 -/
def WriteU64BENext (data : List UInt64) : Prog Unit := do
  let off ← Prog.field .off
  writeU64BE off data
  seek (len data * 8) true

end Crunch.V2.Buffer
