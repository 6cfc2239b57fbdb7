import Verif.V3.State

/-!
# v3 `Buffer`: everything except the typed accessors

Transcribed function by function from v3/buffer.generated.go (whose hand-written
part is v3/_buffer.go).
-/

namespace Crunch.V3.Buffer

/-- v3/buffer.generated.go:1602-1607 -/
def Refresh : GoM St Unit := do
  modB fun b => { b with cap := Int64.ofNat b.buf.len }
  modB fun b => { b with bcap := b.cap * 8 }

/-- v3/buffer.generated.go:28-65.  The receiver of the returned pointer is the
state's `b`; `slices` are the slice headers passed. -/
def NewBuffer (slices : List Slice) : GoM St Unit := do
  let lit ← onMem (litBytes [])
  modB fun _ => { buf := lit, off := 0, cap := 0, boff := 0, bcap := 0 }
  match slices with
  | [] => pure ()
  | [s] => modB fun b => { b with buf := s }
  | slices =>
    doLoop (fun i _ => do
      let b ← getB
      let x ← idx slices i
      let data ← onMem fun h => (.ok (h.view x), h)
      let r ← onMem (appendBytes b.buf data)
      modB fun b => { b with buf := r }) (len slices) 0 ()
  Refresh

/-! ## bit field methods -/

/-- v3/buffer.generated.go:318-330 -/
def SeekBit (off : Int64) (relative : Bool) : GoM St Unit :=
  if relative then modB fun b => { b with boff := b.boff + off }
  else modB fun b => { b with boff := off }

/-- v3/buffer.generated.go:73-89 -/
def ReadBit (off : Int64) : GoM St UInt8 := do
  let b ← getB
  panicIf (off > b.bcap - 1) (.err BufferOverreadError)
  panicIf (off < 0) (.err BufferUnderreadError)
  let x ← bufLoad (off / 8)
  return shr8 x (7 - (off % 8).toUInt64) &&& 1

/-- v3/buffer.generated.go:93-99 -/
def ReadBitNext : GoM St UInt8 := do
  let b ← getB
  let out ← ReadBit b.boff
  SeekBit 1 true
  return out

/-- v3/buffer.generated.go:103-120 -/
def ReadBits (off n : Int64) : GoM St UInt64 :=
  doLoop (fun i out => do
    let x ← ReadBit (off + i)
    return (out <<< 1) ||| x.toUInt64) n 0 0

/-- v3/buffer.generated.go:124-130 -/
def ReadBitsNext (n : Int64) : GoM St UInt64 := do
  let b ← getB
  let out ← ReadBits b.boff n
  SeekBit n true
  return out

/-- v3/buffer.generated.go:134-150 -/
def SetBit (off : Int64) : GoM St Unit := do
  let b ← getB
  panicIf (off > b.bcap - 1) (.err BufferOverwriteError)
  panicIf (off < 0) (.err BufferUnderwriteError)
  let x ← bufLoad (off / 8)
  bufStore (off / 8) (x ||| shl8 1 (7 - off % 8).toUInt64)

/-- v3/buffer.generated.go:154-159 -/
def SetBitNext : GoM St Unit := do
  let b ← getB
  SetBit b.boff
  SeekBit 1 true

/-- v3/buffer.generated.go:163-179 -/
def ClearBit (off : Int64) : GoM St Unit := do
  let b ← getB
  panicIf (off > b.bcap - 1) (.err BufferOverwriteError)
  panicIf (off < 0) (.err BufferUnderwriteError)
  let x ← bufLoad (off / 8)
  bufStore (off / 8) (x &&& ~~~(shl8 1 (7 - off % 8).toUInt64))

/-- v3/buffer.generated.go:183-188 -/
def ClearBitNext : GoM St Unit := do
  let b ← getB
  ClearBit b.boff
  SeekBit 1 true

/-- v3/buffer.generated.go:192-215 -/
def SetBits (off : Int64) (data : UInt64) (n : Int64) : GoM St Unit :=
  doLoop (fun i _ =>
    if (shr64 data (n - i - 1).toUInt64 &&& 1).toUInt8 = 0 then ClearBit (off + i)
    else SetBit (off + i)) n 0 ()

/-- v3/buffer.generated.go:219-224 -/
def SetBitsNext (data : UInt64) (n : Int64) : GoM St Unit := do
  let b ← getB
  SetBits b.boff data n
  SeekBit n true

/-- v3/buffer.generated.go:228-244 -/
def FlipBit (off : Int64) : GoM St Unit := do
  let b ← getB
  panicIf (off > b.bcap - 1) (.err BufferOverwriteError)
  panicIf (off < 0) (.err BufferUnderwriteError)
  let x ← bufLoad (off / 8)
  bufStore (off / 8) (x ^^^ shl8 1 (7 - off % 8).toUInt64)

/-- v3/buffer.generated.go:248-253 -/
def FlipBitNext : GoM St Unit := do
  let b ← getB
  FlipBit b.boff
  SeekBit 1 true

/-- v3/buffer.generated.go:256-273 -/
def ClearAllBits : GoM St Unit := do
  let b ← getB
  doLoop (fun i _ => bufStore i 0) (Int64.ofNat b.buf.len) 0 ()

/-- v3/buffer.generated.go:276-293 -/
def SetAllBits : GoM St Unit := do
  let b ← getB
  doLoop (fun i _ => bufStore i 0xFF) (Int64.ofNat b.buf.len) 0 ()

/-- v3/buffer.generated.go:296-314 -/
def FlipAllBits : GoM St Unit := do
  let b ← getB
  doLoop (fun i _ => do
    let x ← bufLoad i
    bufStore i (~~~x)) (Int64.ofNat b.buf.len) 0 ()

/-- v3/buffer.generated.go:334-343; `off` is the variadic argument. -/
def AfterBit (off : List Int64) : GoM St Int64 := do
  let b ← getB
  match off with
  | [] => return b.bcap - b.boff - 1
  | o :: _ => return b.bcap - o - 1

/-- v3/buffer.generated.go:346-350 -/
def AlignBit : GoM St Unit := modB fun b => { b with boff := b.off * 8 }

/-! ## byte methods -/

/-- v3/buffer.generated.go:1514-1526 -/
def SeekByte (off : Int64) (relative : Bool) : GoM St Unit :=
  if relative then modB fun b => { b with off := b.off + off }
  else modB fun b => { b with off := off }

/-- v3/buffer.generated.go:356-372 -/
def WriteBytes (off : Int64) (data : Slice) : GoM St Unit := do
  let b ← getB
  panicIf (off + Int64.ofNat data.len > b.cap) (.err BufferOverwriteError)
  panicIf (off < 0) (.err BufferUnderwriteError)
  let dst ← onMem (resliceFrom b.buf off)
  onMem (copyBytes dst data)

/-- v3/buffer.generated.go:376-381 -/
def WriteBytesNext (data : Slice) : GoM St Unit := do
  let b ← getB
  WriteBytes b.off data
  SeekByte (Int64.ofNat data.len) true

/-- v3/buffer.generated.go:385-389 -/
def WriteByte (off : Int64) (data : UInt8) : GoM St Unit := do
  let d ← onMem (litBytes [data])
  WriteBytes off d

/-- v3/buffer.generated.go:393-398 -/
def WriteByteNext (data : UInt8) : GoM St Unit := do
  let b ← getB
  let d ← onMem (litBytes [data])
  WriteBytes b.off d
  SeekByte 1 true

/-- v3/buffer.generated.go:946-962 -/
def ReadBytes (off n : Int64) : GoM St Slice := do
  let b ← getB
  panicIf (off + n > b.cap) (.err BufferOverreadError)
  panicIf (off < 0) (.err BufferUnderreadError)
  onMem (reslice b.buf off (off + n))

/-- v3/buffer.generated.go:966-972 -/
def ReadBytesNext (n : Int64) : GoM St Slice := do
  let b ← getB
  let out ← ReadBytes b.off n
  SeekByte n true
  return out

/-- v3/buffer.generated.go:976-980 -/
def ReadByte (off : Int64) : GoM St UInt8 := do
  let s ← ReadBytes off 1
  onMem (loadAt s 0)

/-- v3/buffer.generated.go:984-990 -/
def ReadByteNext : GoM St UInt8 := do
  let b ← getB
  let s ← ReadBytes b.off 1
  let out ← onMem (loadAt s 0)
  SeekByte 1 true
  return out

/-- v3/buffer.generated.go:1530-1539; `off` is the variadic argument. -/
def AfterByte (off : List Int64) : GoM St Int64 := do
  let b ← getB
  match off with
  | [] => return b.cap - b.off - 1
  | o :: _ => return b.cap - o - 1

/-- v3/buffer.generated.go:1542-1546 -/
def AlignByte : GoM St Unit := modB fun b => { b with off := b.boff / 8 }

/-! ## generic methods -/

/-- v3/buffer.generated.go:1551-1562 -/
def TruncateLeft (n : Int64) : GoM St Unit := do
  panicIf (n < 0) (.err BufferInvalidByteCountError)
  let b ← getB
  let r ← onMem (reslice b.buf n b.cap)
  modB fun b => { b with buf := r }
  Refresh

/-- v3/buffer.generated.go:1565-1576 -/
def TruncateRight (n : Int64) : GoM St Unit := do
  panicIf (n < 0) (.err BufferInvalidByteCountError)
  let b ← getB
  let r ← onMem (reslice b.buf 0 (b.cap - n))
  modB fun b => { b with buf := r }
  Refresh

/-- v3/buffer.generated.go:1579-1599 -/
def Grow (n : Int64) : GoM St Unit := do
  panicIf (n < 0) (.err BufferInvalidByteCountError)
  let b ← getB
  if n ≤ Int64.ofNat b.buf.cap - b.cap then
    let r ← onMem (reslice b.buf 0 (b.cap + n))
    modB fun b => { b with buf := r }
    Refresh
  else
    let tmp ← onMem (makeBytes (b.cap + n) ((Int64.ofNat b.buf.cap + n) * 2))
    onMem (copyBytes tmp b.buf)
    modB fun b => { b with buf := tmp }
    Refresh

/-- v3/buffer.generated.go:1610-1618 -/
def Reset : GoM St Unit := do
  let b ← getB
  let r ← onMem (reslice b.buf 0 0)
  modB fun b => { b with buf := r }
  modB fun b => { b with off := 0 }
  modB fun b => { b with boff := 0 }
  modB fun b => { b with cap := 0 }
  modB fun b => { b with bcap := 0 }

/-! ## value retrieval -/

/-- v3/buffer.generated.go:1623-1627 -/
def Bytes : GoM St Slice := do let b ← getB; return b.buf
/-- v3/buffer.generated.go:1630-1634 -/
def ByteCapacity : GoM St Int64 := do let b ← getB; return b.cap
/-- v3/buffer.generated.go:1637-1641 -/
def BitCapacity : GoM St Int64 := do let b ← getB; return b.bcap
/-- v3/buffer.generated.go:1644-1648 -/
def ByteOffset : GoM St Int64 := do let b ← getB; return b.off
/-- v3/buffer.generated.go:1651-1655 -/
def BitOffset : GoM St Int64 := do let b ← getB; return b.boff

end Crunch.V3.Buffer
