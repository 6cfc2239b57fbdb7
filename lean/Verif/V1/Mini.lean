import Verif.V3.Mini
import Verif.V1.Buffer

/-!
# v1 `MiniBuffer`

Transcribed function by function from v1/minibuf.go.  The struct has the fields of `V3.Buf` and a mutex
(v1/minibuf.go:22-30) that none of its methods uses, so no lock is modelled.  A method with an `out *T` parameter
runs in a state that also contains the variable `out` points to, as in `Verif/V3/Mini.lean`.
-/

namespace Crunch.V1.Mini

open V3 (St getB modB onMem bufLoad bufStore)
open V3.Mini (onB getOut putOut callOut)

/-- Code shared with `Buffer` that takes no lock. -/
def plain (p : Prog α) : GoM St α := fun s => ((p.run ⟨s, false⟩).1, (p.run ⟨s, false⟩).2.st)

/-! ## bit field methods -/

/-- v1/minibuf.go:67-71 -/
def readbit (off : Int64) : GoM (St × UInt8) Unit := do
  let x ← onB (bufLoad (off / 8))
  putOut (atob ((x &&& shl8 1 (7 - off % 8).toUInt64) != 0))

/-- v1/minibuf.go:74-84; the local variable `bout` is the loop-carried value. -/
def readbits (off n : Int64) : GoM (St × UInt64) Unit := do
  let _ ← forLoop (fun i bout => do
    let bout ← onB (callOut (readbit (off + i)) bout)
    let out ← getOut
    putOut ((out <<< 1) ||| bout.toUInt64)
    return bout) n 0 0

/-- v1/minibuf.go:87-102 -/
def setbit (off : Int64) (data : UInt8) : GoM St Unit :=
  if data = 0 then do
    let x ← bufLoad (off / 8)
    bufStore (off / 8) (x &&& ~~~(shl8 1 (7 - off % 8).toUInt64))
  else if data = 1 then do
    let x ← bufLoad (off / 8)
    bufStore (off / 8) (x ||| shl8 1 (7 - off % 8).toUInt64)
  else throwP (.err BufferInvalidBitError)

/-- v1/minibuf.go:105-113 -/
def setbits (off : Int64) (data : UInt64) (n : Int64) : GoM St Unit :=
  forLoop (fun i _ => setbit (off + i) (shr64 data (n - i - 1).toUInt64 &&& 1).toUInt8) n 0 ()

/-- v1/minibuf.go:116-120 -/
def flipbit (off : Int64) : GoM St Unit := do
  let x ← bufLoad (off / 8)
  bufStore (off / 8) (x ^^^ shl8 1 (7 - off % 8).toUInt64)

/-- v1/minibuf.go:123-131 -/
def clearallbits : GoM St Unit := do
  let b ← getB
  forLoop (fun i _ => bufStore i 0) (Int64.ofNat b.buf.len) 0 ()

/-- v1/minibuf.go:134-142 -/
def setallbits : GoM St Unit := do
  let b ← getB
  forLoop (fun i _ => bufStore i 0xFF) (Int64.ofNat b.buf.len) 0 ()

/-- v1/minibuf.go:145-153 -/
def flipallbits : GoM St Unit := do
  let b ← getB
  forLoop (fun i _ => do
    let x ← bufLoad i
    bufStore i (~~~x)) (Int64.ofNat b.buf.len) 0 ()

/-- v1/minibuf.go:156-168 -/
def seekbit (off : Int64) (relative : Bool) : GoM St Unit :=
  if relative then modB fun b => { b with boff := b.boff + off }
  else modB fun b => { b with boff := off }

/-- v1/minibuf.go:171-181; `off` is the variadic argument. -/
def afterbit (off : List Int64) : GoM (St × Int64) Unit := do
  let b ← onB getB
  match off with
  | [] => putOut (b.bcap - b.boff - 1)
  | o :: _ => putOut (b.bcap - o - 1)

/-! ## byte methods -/

/-- v1/minibuf.go:186-202 -/
def write (off : Int64) (data : Slice) : GoM St Unit :=
  doLoop (fun i _ => do
    let x ← onMem (loadAt data i)
    bufStore (off + i) x) (Int64.ofNat data.len) 0 ()

/-- v1/minibuf.go:186-202 for a slice that `writeComplex` has just made. -/
def writeLit (off : Int64) (data : List UInt8) : GoM St Unit :=
  doLoop (fun i _ => do
    let x ← idx data i
    bufStore (off + i) x) (Int64.ofNat data.length) 0 ()

/-- v1/minibuf.go:205-271; the conversions are those of `Buffer.writeComplex`, word for word. -/
def writeComplex (off : Int64) (idata : Any) (size : Int64) (endian : ByteOrder) : GoM St Unit :=
  if size = Unsigned8 then do
    let s ← plain idata.toBytes
    write off s
  else if size = Unsigned16 then do
    let adata ← plain idata.toU16
    let data ← plain (bytes16 endian adata)
    writeLit off data
  else if size = Unsigned32 then do
    let adata ← plain idata.toU32
    let data ← plain (bytes32 endian adata)
    writeLit off data
  else if size = Unsigned64 then do
    let adata ← plain idata.toU64
    let data ← plain (bytes64 endian adata)
    writeLit off data
  else throwP (.err BufferInvalidIntegerSizeError)

/-- v1/minibuf.go:274-278 -/
def read (off n : Int64) : GoM (St × Slice) Unit := do
  let b ← onB getB
  let r ← onB (onMem (reslice b.buf off (off + n)))
  putOut r

/-- `(*out).([]uint16)` -/
def outU16 : GoM (St × Any) (List UInt16) := do let x ← getOut; onB (plain x.toU16)
/-- `(*out).([]uint32)` -/
def outU32 : GoM (St × Any) (List UInt32) := do let x ← getOut; onB (plain x.toU32)
/-- `(*out).([]uint64)` -/
def outU64 : GoM (St × Any) (List UInt64) := do let x ← getOut; onB (plain x.toU64)

/-- v1/minibuf.go:281-323; the local variable `data` starts as the nil slice, which `read` overwrites. -/
def readComplex (off n : Int64) (size : Int64) (endian : ByteOrder) : GoM (St × Any) Unit := do
  let data ← onB (callOut (read off n) ⟨0, 0, 0, 0⟩)
  if size = Unsigned8 then putOut (.bytes data)
  else if size = Unsigned16 then do
    let made ← makeTyped 2 (0 : UInt16) n
    putOut (.u16 made)
    forLoop (fun i _ => do
      let l ← outU16
      let t ← onB (onMem (reslice data (i * 2) ((i + 1) * 2)))
      let v ← onB (plain (loadU16 endian t))
      let l ← setIdx l i v
      putOut (.u16 l)) n 0 ()
  else if size = Unsigned32 then do
    let made ← makeTyped 4 (0 : UInt32) n
    putOut (.u32 made)
    forLoop (fun i _ => do
      let l ← outU32
      let t ← onB (onMem (reslice data (i * 4) ((i + 1) * 4)))
      let v ← onB (plain (loadU32 endian t))
      let l ← setIdx l i v
      putOut (.u32 l)) n 0 ()
  else if size = Unsigned64 then do
    let made ← makeTyped 8 (0 : UInt64) n
    putOut (.u64 made)
    forLoop (fun i _ => do
      let l ← outU64
      let t ← onB (onMem (reslice data (i * 8) ((i + 1) * 8)))
      let v ← onB (plain (loadU64 endian t))
      let l ← setIdx l i v
      putOut (.u64 l)) n 0 ()
  else throwP (.err BufferInvalidIntegerSizeError)

/-- v1/minibuf.go:326-338 -/
def seek (off : Int64) (relative : Bool) : GoM St Unit :=
  if relative then modB fun b => { b with off := b.off + off }
  else modB fun b => { b with off := off }

/-- v1/minibuf.go:341-351; `off` is the variadic argument. -/
def after (off : List Int64) : GoM (St × Int64) Unit := do
  let b ← onB getB
  match off with
  | [] => putOut (b.cap - b.off - 1)
  | o :: _ => putOut (b.cap - o - 1)

/-! ## generic methods -/

/-- v1/minibuf.go:364-369 -/
def refresh : GoM St Unit := do
  modB fun b => { b with cap := Int64.ofNat b.buf.len }
  modB fun b => { b with bcap := b.cap * 8 }

/-- v1/minibuf.go:356-361.  The zeros made for `append` are not given an array of their own: nothing can refer to it. -/
def grow (n : Int64) : GoM St Unit := do
  let b ← getB
  panicIf (n.toInt < 0 ∨ n.toInt > maxAlloc) .makeSlice
  let r ← onMem (appendBytes b.buf (List.replicate n.toInt.toNat 0))
  modB fun b => { b with buf := r }
  refresh

/-- v1/minibuf.go:372-376 -/
def alignbit : GoM St Unit := modB fun b => { b with boff := b.off * 8 }

/-- v1/minibuf.go:379-383 -/
def alignbyte : GoM St Unit := modB fun b => { b with off := b.boff / 8 }

/-- v1/minibuf.go:33-60.  `*out` is the state's `b`. -/
def NewMiniBuffer (slices : List Slice) : GoM St Unit := do
  let lit ← onMem (litBytes [])
  modB fun _ => { buf := lit, off := 0, cap := 0, boff := 0, bcap := 0 }
  match slices with
  | [] => pure ()
  | [s] => modB fun b => { b with buf := s }
  | slices =>
    forLoop (fun i _ => do
      let x ← idx slices i
      let b ← getB
      let data ← onMem fun h => (.ok (h.view x), h)
      let r ← onMem (appendBytes b.buf data)
      modB fun b => { b with buf := r }) (len slices) 0 ()
  refresh

/-! ## public methods -/

/-- v1/minibuf.go:388-392 -/
def Bytes : GoM (St × Slice) Unit := do let b ← onB getB; putOut b.buf
/-- v1/minibuf.go:395-399 -/
def Capacity : GoM (St × Int64) Unit := do let b ← onB getB; putOut b.cap
/-- v1/minibuf.go:402-406 -/
def BitCapacity : GoM (St × Int64) Unit := do let b ← onB getB; putOut b.bcap
/-- v1/minibuf.go:409-413 -/
def Offset : GoM (St × Int64) Unit := do let b ← onB getB; putOut b.off
/-- v1/minibuf.go:416-420 -/
def BitOffset : GoM (St × Int64) Unit := do let b ← onB getB; putOut b.boff
/-- v1/minibuf.go:423-427 -/
def Refresh : GoM St Unit := refresh
/-- v1/minibuf.go:430-434 -/
def Grow (n : Int64) : GoM St Unit := grow n
/-- v1/minibuf.go:437-441 -/
def Seek (off : Int64) (relative : Bool) : GoM St Unit := seek off relative
/-- v1/minibuf.go:444-448 -/
def SeekBit (off : Int64) (relative : Bool) : GoM St Unit := seekbit off relative
/-- v1/minibuf.go:451-455 -/
def AlignBit : GoM St Unit := alignbit
/-- v1/minibuf.go:458-462 -/
def AlignByte : GoM St Unit := alignbyte
/-- v1/minibuf.go:465-469 -/
def After (off : List Int64) : GoM (St × Int64) Unit := after off
/-- v1/minibuf.go:472-476 -/
def AfterBit (off : List Int64) : GoM (St × Int64) Unit := afterbit off
/-- v1/minibuf.go:479-483 -/
def ReadBytes (off n : Int64) : GoM (St × Slice) Unit := read off n
/-- v1/minibuf.go:486-490 -/
def ReadComplex (off n : Int64) (size : Int64) (endian : ByteOrder) : GoM (St × Any) Unit := readComplex off n size endian

/-- v1/minibuf.go:493-498 -/
def ReadBytesNext (n : Int64) : GoM (St × Slice) Unit := do
  let b ← onB getB
  read b.off n
  onB (seek n true)

/-- v1/minibuf.go:501-506 -/
def ReadComplexNext (n : Int64) (size : Int64) (endian : ByteOrder) : GoM (St × Any) Unit := do
  let b ← onB getB
  readComplex b.off n size endian
  onB (seek (n * size) true)

/-- v1/minibuf.go:509-513 -/
def WriteBytes (off : Int64) (data : Slice) : GoM St Unit := write off data

/-- v1/minibuf.go:516-520 -/
def WriteComplex (off : Int64) (data : Any) (size : Int64) (endian : ByteOrder) : GoM St Unit := writeComplex off data size endian

/-- v1/minibuf.go:523-528 -/
def WriteBytesNext (data : Slice) : GoM St Unit := do
  let b ← getB
  write b.off data
  seek (Int64.ofNat data.len) true

/-- v1/minibuf.go:531-551 -/
def WriteComplexNext (data : Any) (size : Int64) (endian : ByteOrder) : GoM St Unit := do
  let b ← getB
  writeComplex b.off data size endian
  if size = Unsigned8 then do
    let l ← plain data.toBytes
    seek (Int64.ofNat l.len * size) true
  else if size = Unsigned16 then do
    let l ← plain data.toU16
    seek (Int64.ofNat l.length * size) true
  else if size = Unsigned32 then do
    let l ← plain data.toU32
    seek (Int64.ofNat l.length * size) true
  else if size = Unsigned64 then do
    let l ← plain data.toU64
    seek (Int64.ofNat l.length * size) true
  else pure ()

/-- v1/minibuf.go:554-558 -/
def ReadBit (off : Int64) : GoM (St × UInt8) Unit := readbit off

/-- v1/minibuf.go:561-565 -/
def ReadBits (off n : Int64) : GoM (St × UInt64) Unit := readbits off n

/-- v1/minibuf.go:568-573 -/
def ReadBitNext : GoM (St × UInt8) Unit := do
  let b ← onB getB
  readbit b.boff
  onB (seekbit 1 true)

/-- v1/minibuf.go:576-581 -/
def ReadBitsNext (n : Int64) : GoM (St × UInt64) Unit := do
  let b ← onB getB
  readbits b.boff n
  onB (seekbit n true)

/-- v1/minibuf.go:584-588 -/
def SetBit (off : Int64) (data : UInt8) : GoM St Unit := setbit off data

/-- v1/minibuf.go:591-595 -/
def SetBits (off : Int64) (data : UInt64) (n : Int64) : GoM St Unit := setbits off data n

/-- v1/minibuf.go:598-603 -/
def SetBitNext (data : UInt8) : GoM St Unit := do
  let b ← getB
  setbit b.boff data
  seekbit 1 true

/-- v1/minibuf.go:606-611 -/
def SetBitsNext (data : UInt64) (n : Int64) : GoM St Unit := do
  let b ← getB
  setbits b.boff data n
  seekbit n true

/-- v1/minibuf.go:614-618 -/
def FlipBit (off : Int64) : GoM St Unit := flipbit off

/-- v1/minibuf.go:621-626 -/
def FlipBitNext : GoM St Unit := do
  let b ← getB
  flipbit b.boff
  seekbit 1 true

/-- v1/minibuf.go:629-633 -/
def ClearAllBits : GoM St Unit := clearallbits
/-- v1/minibuf.go:636-640 -/
def SetAllBits : GoM St Unit := setallbits
/-- v1/minibuf.go:643-647 -/
def FlipAllBits : GoM St Unit := flipallbits

end Crunch.V1.Mini
