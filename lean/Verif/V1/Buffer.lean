import Verif.Prog
import Verif.V1.Binary
import Verif.V1.Errors

/-!
# v1 `Buffer`

Transcribed function by function from v1/buffer.go.
-/

namespace Crunch.V1
open Spec (Endian)

/-- v1/utils.go:15-24 -/
def atob (b : Bool) : UInt8 := if b then 1 else 0

/-- v1/crunch.go:26-30: `IntegerSize` is an `int`; the four named sizes follow. -/
def Unsigned8 : Int64 := 1
/-- v1/crunch.go:33 -/
def Unsigned16 : Int64 := 2
/-- v1/crunch.go:36 -/
def Unsigned32 : Int64 := 4
/-- v1/crunch.go:39 -/
def Unsigned64 : Int64 := 8

/-- A value of type `interface{}` as far as `WriteComplex` and `ReadComplex` look at it: `[]byte`, which shares memory, the other
integer slices, whose elements are read-only here, or anything else. -/
inductive Any where
  | bytes (s : Slice)
  | u16 (l : List UInt16)
  | u32 (l : List UInt32)
  | u64 (l : List UInt64)
  | other
deriving DecidableEq, Repr

/-- `x.([]byte)` -/
def Any.toBytes : Any → Prog Slice
  | .bytes s => .ret s
  | _ => .panic .typeAssert
/-- `x.([]uint16)` -/
def Any.toU16 : Any → Prog (List UInt16)
  | .u16 l => .ret l
  | _ => .panic .typeAssert
/-- `x.([]uint32)` -/
def Any.toU32 : Any → Prog (List UInt32)
  | .u32 l => .ret l
  | _ => .panic .typeAssert
/-- `x.([]uint64)` -/
def Any.toU64 : Any → Prog (List UInt64)
  | .u64 l => .ret l
  | _ => .panic .typeAssert

/-- A method call on a nil interface panics. -/
def ByteOrder.get : ByteOrder → Prog Endian
  | some e => .ret e
  | none => .panic .nilDeref

/-- `order.Uint16(s)`: the bytes are loaded one by one. -/
def loadU16 (o : ByteOrder) (s : Slice) : Prog UInt16 := do
  let e ← o.get
  let b1 ← Prog.loadAt s 1
  let b0 ← Prog.loadAt s 0
  return get16 e b0 b1
/-- `order.Uint32(s)` -/
def loadU32 (o : ByteOrder) (s : Slice) : Prog UInt32 := do
  let e ← o.get
  let b3 ← Prog.loadAt s 3
  let b2 ← Prog.loadAt s 2
  let b1 ← Prog.loadAt s 1
  let b0 ← Prog.loadAt s 0
  return get32 e b0 b1 b2 b3
/-- `order.Uint64(s)` -/
def loadU64 (o : ByteOrder) (s : Slice) : Prog UInt64 := do
  let e ← o.get
  let b7 ← Prog.loadAt s 7
  let b6 ← Prog.loadAt s 6
  let b5 ← Prog.loadAt s 5
  let b4 ← Prog.loadAt s 4
  let b3 ← Prog.loadAt s 3
  let b2 ← Prog.loadAt s 2
  let b1 ← Prog.loadAt s 1
  let b0 ← Prog.loadAt s 0
  return get64 e b0 b1 b2 b3 b4 b5 b6 b7

/-! ## the byte slice `writeComplex` builds; it is local, so no step of it is visible to others -/

/-- v1/buffer.go:287-298, the case `Unsigned16`: `tdata` holds the bytes `PutUint16` stores. -/
def bytes16 (o : ByteOrder) (adata : List UInt16) : Prog (List UInt8) := do
  let data ← Prog.makeTyped 1 0 (2 * Int64.ofNat adata.length)
  Prog.forLoop (fun i data => do
    let v ← Prog.idx adata i
    let e ← o.get
    let tdata := put16 e v
    let t0 ← Prog.idx tdata 0
    let data ← Prog.setIdx data (0 + i * 2) t0
    let t1 ← Prog.idx tdata 1
    Prog.setIdx data (1 + i * 2) t1) (Int64.ofNat adata.length) 0 data

/-- v1/buffer.go:300-313, the case `Unsigned32`. -/
def bytes32 (o : ByteOrder) (adata : List UInt32) : Prog (List UInt8) := do
  let data ← Prog.makeTyped 1 0 (4 * Int64.ofNat adata.length)
  Prog.forLoop (fun i data => do
    let v ← Prog.idx adata i
    let e ← o.get
    let tdata := put32 e v
    let t0 ← Prog.idx tdata 0
    let data ← Prog.setIdx data (0 + i * 4) t0
    let t1 ← Prog.idx tdata 1
    let data ← Prog.setIdx data (1 + i * 4) t1
    let t2 ← Prog.idx tdata 2
    let data ← Prog.setIdx data (2 + i * 4) t2
    let t3 ← Prog.idx tdata 3
    Prog.setIdx data (3 + i * 4) t3) (Int64.ofNat adata.length) 0 data

/-- v1/buffer.go:315-332, the case `Unsigned64`. -/
def bytes64 (o : ByteOrder) (adata : List UInt64) : Prog (List UInt8) := do
  let data ← Prog.makeTyped 1 0 (8 * Int64.ofNat adata.length)
  Prog.forLoop (fun i data => do
    let v ← Prog.idx adata i
    let e ← o.get
    let tdata := put64 e v
    let t0 ← Prog.idx tdata 0
    let data ← Prog.setIdx data (0 + i * 8) t0
    let t1 ← Prog.idx tdata 1
    let data ← Prog.setIdx data (1 + i * 8) t1
    let t2 ← Prog.idx tdata 2
    let data ← Prog.setIdx data (2 + i * 8) t2
    let t3 ← Prog.idx tdata 3
    let data ← Prog.setIdx data (3 + i * 8) t3
    let t4 ← Prog.idx tdata 4
    let data ← Prog.setIdx data (4 + i * 8) t4
    let t5 ← Prog.idx tdata 5
    let data ← Prog.setIdx data (5 + i * 8) t5
    let t6 ← Prog.idx tdata 6
    let data ← Prog.setIdx data (6 + i * 8) t6
    let t7 ← Prog.idx tdata 7
    Prog.setIdx data (7 + i * 8) t7) (Int64.ofNat adata.length) 0 data

namespace Buffer

/-! ## bit field methods -/

/-- v1/buffer.go:66-85 -/
def readbit (off : Int64) : Prog UInt8 := do
  let bcap ← Prog.field .bcap
  Prog.panicIf (off > bcap - 1) (.err BufferOverreadError)
  Prog.panicIf (off < 0) (.err BufferUnderreadError)
  Prog.locked do
    let x ← Prog.bufLoad (off / 8)
    return atob ((x &&& shl8 1 (7 - off % 8).toUInt64) != 0)

/-- v1/buffer.go:88-97 -/
def readbits (off n : Int64) : Prog UInt64 :=
  Prog.forLoop (fun i v => do
    let x ← readbit (off + i)
    return (v <<< 1) ||| x.toUInt64) n 0 0

/-- v1/buffer.go:100-130 -/
def setbit (off : Int64) (data : UInt8) : Prog Unit := do
  let bcap ← Prog.field .bcap
  Prog.panicIf (off > bcap - 1) (.err BufferOverwriteError)
  Prog.panicIf (off < 0) (.err BufferUnderwriteError)
  Prog.locked do
    if data = 0 then
      let x ← Prog.bufLoad (off / 8)
      Prog.bufStore (off / 8) (x &&& ~~~(shl8 1 (7 - off % 8).toUInt64))
    else if data = 1 then
      let x ← Prog.bufLoad (off / 8)
      Prog.bufStore (off / 8) (x ||| shl8 1 (7 - off % 8).toUInt64)
    else .panic (.err BufferInvalidBitError)

/-- v1/buffer.go:133-141 -/
def setbits (off : Int64) (data : UInt64) (n : Int64) : Prog Unit :=
  Prog.forLoop (fun i _ => setbit (off + i) (shr64 data (n - i - 1).toUInt64 &&& 1).toUInt8) n 0 ()

/-- v1/buffer.go:144-163 -/
def flipbit (off : Int64) : Prog Unit := do
  let bcap ← Prog.field .bcap
  Prog.panicIf (off > bcap - 1) (.err BufferOverwriteError)
  Prog.panicIf (off < 0) (.err BufferUnderwriteError)
  Prog.locked do
    let x ← Prog.bufLoad (off / 8)
    Prog.bufStore (off / 8) (x ^^^ shl8 1 (7 - off % 8).toUInt64)

/-- v1/buffer.go:166-177; `range b.buf` takes the length once. -/
def clearallbits : Prog Unit :=
  Prog.locked do
    let s ← Prog.buf
    Prog.forLoop (fun i _ => Prog.bufStore i 0) (Int64.ofNat s.len) 0 ()

/-- v1/buffer.go:180-191 -/
def setallbits : Prog Unit :=
  Prog.locked do
    let s ← Prog.buf
    Prog.forLoop (fun i _ => Prog.bufStore i 0xFF) (Int64.ofNat s.len) 0 ()

/-- v1/buffer.go:194-205 -/
def flipallbits : Prog Unit :=
  Prog.locked do
    let s ← Prog.buf
    Prog.forLoop (fun i _ => do
      let x ← Prog.bufLoad i
      Prog.bufStore i (~~~x)) (Int64.ofNat s.len) 0 ()

/-- v1/buffer.go:208-223 -/
def seekbit (off : Int64) (relative : Bool) : Prog Unit :=
  Prog.locked do
    if relative then
      let boff ← Prog.field .boff
      Prog.assign .boff (boff + off)
    else Prog.assign .boff off

/-- v1/buffer.go:226-235; `off` is the variadic argument. -/
def afterbit (off : List Int64) : Prog Int64 := do
  match off with
  | [] =>
    let bcap ← Prog.field .bcap
    let boff ← Prog.field .boff
    return bcap - boff - 1
  | o :: _ =>
    let bcap ← Prog.field .bcap
    return bcap - o - 1

/-! ## byte methods -/

/-- v1/buffer.go:240-272 -/
def write (off : Int64) (data : Src) : Prog Unit := do
  let cap ← Prog.field .cap
  Prog.panicIf (off + Int64.ofNat data.len > cap) (.err BufferOverwriteError)
  Prog.panicIf (off < 0) (.err BufferUnderwriteError)
  Prog.Lock
  Prog.doLoop (fun i _ => do
    let x ← Prog.srcAt data i
    Prog.bufStore (off + i) x) (Int64.ofNat data.len) 0 ()
  Prog.Unlock

/-- v1/buffer.go:275-341 -/
def writeComplex (off : Int64) (idata : Any) (size : Int64) (endian : ByteOrder) : Prog Unit := do
  let data : Src ←
    if size = Unsigned8 then do
      let s ← idata.toBytes
      pure (.mem s)
    else if size = Unsigned16 then do
      let adata ← idata.toU16
      let data ← bytes16 endian adata
      pure (.lit data)
    else if size = Unsigned32 then do
      let adata ← idata.toU32
      let data ← bytes32 endian adata
      pure (.lit data)
    else if size = Unsigned64 then do
      let adata ← idata.toU64
      let data ← bytes64 endian adata
      pure (.lit data)
    else .panic (.err BufferInvalidIntegerSizeError)
  write off data

/-- v1/buffer.go:344-363 -/
def read (off n : Int64) : Prog Slice := do
  let cap ← Prog.field .cap
  Prog.panicIf (off + n > cap) (.err BufferOverreadError)
  Prog.panicIf (off < 0) (.err BufferUnderreadError)
  Prog.locked do
    let s ← Prog.buf
    Prog.reslice s off (off + n)

/-- v1/buffer.go:366-410 -/
def readComplex (off n : Int64) (size : Int64) (endian : ByteOrder) : Prog Any := do
  let data ← read off n
  if size = Unsigned8 then return .bytes data
  else if size = Unsigned16 then do
    let idata ← Prog.makeTyped 2 (0 : UInt16) n
    let idata ← Prog.forLoop (fun i idata => do
      let t ← Prog.reslice data (i * 2) ((i + 1) * 2)
      let v ← loadU16 endian t
      Prog.setIdx idata i v) n 0 idata
    return .u16 idata
  else if size = Unsigned32 then do
    let idata ← Prog.makeTyped 4 (0 : UInt32) n
    let idata ← Prog.forLoop (fun i idata => do
      let t ← Prog.reslice data (i * 4) ((i + 1) * 4)
      let v ← loadU32 endian t
      Prog.setIdx idata i v) n 0 idata
    return .u32 idata
  else if size = Unsigned64 then do
    let idata ← Prog.makeTyped 8 (0 : UInt64) n
    let idata ← Prog.forLoop (fun i idata => do
      let t ← Prog.reslice data (i * 8) ((i + 1) * 8)
      let v ← loadU64 endian t
      Prog.setIdx idata i v) n 0 idata
    return .u64 idata
  else .panic (.err BufferInvalidIntegerSizeError)

/-- v1/buffer.go:413-428 -/
def seek (off : Int64) (relative : Bool) : Prog Unit :=
  Prog.locked do
    if relative then
      let o ← Prog.field .off
      Prog.assign .off (o + off)
    else Prog.assign .off off

/-- v1/buffer.go:431-440; `off` is the variadic argument. -/
def after (off : List Int64) : Prog Int64 := do
  match off with
  | [] =>
    let cap ← Prog.field .cap
    let o ← Prog.field .off
    return cap - o - 1
  | o :: _ =>
    let cap ← Prog.field .cap
    return cap - o - 1

/-! ## generic methods -/

/-- v1/buffer.go:458-466 -/
def refresh : Prog Unit :=
  Prog.locked do
    let s ← Prog.buf
    Prog.assign .cap (Int64.ofNat s.len)
    let cap ← Prog.field .cap
    Prog.assign .bcap (cap * 8)

/-- v1/buffer.go:445-455 -/
def grow (n : Int64) : Prog Unit := do
  Prog.Lock
  let s ← Prog.buf
  let z ← Prog.makeZero n
  let r ← Prog.appendTo s z
  Prog.assignBuf r
  Prog.Unlock
  refresh

/-- v1/buffer.go:469-476 -/
def alignbit : Prog Unit :=
  Prog.locked do
    let o ← Prog.field .off
    Prog.assign .boff (o * 8)

/-- v1/buffer.go:479-486 -/
def alignbyte : Prog Unit :=
  Prog.locked do
    let o ← Prog.field .boff
    Prog.assign .off (o / 8)

/-- v1/buffer.go:31-59.  The fields assigned are those of the new buffer, whose mutex is free. -/
def NewBuffer (slices : List Slice) : Prog Unit := do
  let lit ← (.alloc [] 0 .ret : Prog Slice)
  Prog.assignBuf lit
  Prog.assign .off 0
  Prog.assign .cap 0
  Prog.assign .boff 0
  Prog.assign .bcap 0
  match slices with
  | [] => pure ()
  | [s] => Prog.assignBuf s
  | slices =>
    Prog.forLoop (fun i _ => do
      let x ← Prog.idx slices i
      let s ← Prog.buf
      let r ← Prog.appendTo s (.mem x)
      Prog.assignBuf r) (len slices) 0 ()
  refresh

/-! ## public methods -/

/-- v1/buffer.go:491-495 -/
def Bytes : Prog Slice := Prog.buf
/-- v1/buffer.go:498-502 -/
def Capacity : Prog Int64 := Prog.field .cap
/-- v1/buffer.go:505-509 -/
def BitCapacity : Prog Int64 := Prog.field .bcap
/-- v1/buffer.go:512-516 -/
def Offset : Prog Int64 := Prog.field .off
/-- v1/buffer.go:519-523 -/
def BitOffset : Prog Int64 := Prog.field .boff
/-- v1/buffer.go:526-530 -/
def Refresh : Prog Unit := refresh
/-- v1/buffer.go:533-537 -/
def Grow (n : Int64) : Prog Unit := grow n
/-- v1/buffer.go:540-544 -/
def Seek (off : Int64) (relative : Bool) : Prog Unit := seek off relative
/-- v1/buffer.go:547-551 -/
def SeekBit (off : Int64) (relative : Bool) : Prog Unit := seekbit off relative
/-- v1/buffer.go:554-558 -/
def AlignBit : Prog Unit := alignbit
/-- v1/buffer.go:561-565 -/
def AlignByte : Prog Unit := alignbyte
/-- v1/buffer.go:568-572 -/
def After (off : List Int64) : Prog Int64 := after off
/-- v1/buffer.go:575-579 -/
def AfterBit (off : List Int64) : Prog Int64 := afterbit off

/-- v1/buffer.go:582-586 -/
def ReadByte (off : Int64) : Prog UInt8 := do
  let s ← read off 1
  Prog.loadAt s 0

/-- v1/buffer.go:589-593 -/
def ReadBytes (off n : Int64) : Prog Slice := read off n

/-- v1/buffer.go:596-600 -/
def ReadComplex (off n : Int64) (size : Int64) (endian : ByteOrder) : Prog Any := readComplex off n size endian

/-- v1/buffer.go:603-609 -/
def ReadByteNext : Prog UInt8 := do
  let off ← Prog.field .off
  let s ← read off 1
  let out ← Prog.loadAt s 0
  seek 1 true
  return out

/-- v1/buffer.go:612-618 -/
def ReadBytesNext (n : Int64) : Prog Slice := do
  let off ← Prog.field .off
  let out ← read off n
  seek n true
  return out

/-- v1/buffer.go:621-627 -/
def ReadComplexNext (n : Int64) (size : Int64) (endian : ByteOrder) : Prog Any := do
  let off ← Prog.field .off
  let out ← readComplex off n size endian
  seek (n * size) true
  return out

/-- v1/buffer.go:630-634 -/
def WriteByte (off : Int64) (data : UInt8) : Prog Unit := write off (.lit [data])

/-- v1/buffer.go:637-641 -/
def WriteBytes (off : Int64) (data : Slice) : Prog Unit := write off (.mem data)

/-- v1/buffer.go:644-648 -/
def WriteComplex (off : Int64) (data : Any) (size : Int64) (endian : ByteOrder) : Prog Unit := writeComplex off data size endian

/-- v1/buffer.go:651-656 -/
def WriteByteNext (data : UInt8) : Prog Unit := do
  let off ← Prog.field .off
  write off (.lit [data])
  seek 1 true

/-- v1/buffer.go:659-664 -/
def WriteBytesNext (data : Slice) : Prog Unit := do
  let off ← Prog.field .off
  write off (.mem data)
  seek (Int64.ofNat data.len) true

/-- v1/buffer.go:667-687 -/
def WriteComplexNext (data : Any) (size : Int64) (endian : ByteOrder) : Prog Unit := do
  let off ← Prog.field .off
  writeComplex off data size endian
  if size = Unsigned8 then do
    let l ← data.toBytes
    seek (Int64.ofNat l.len * size) true
  else if size = Unsigned16 then do
    let l ← data.toU16
    seek (Int64.ofNat l.length * size) true
  else if size = Unsigned32 then do
    let l ← data.toU32
    seek (Int64.ofNat l.length * size) true
  else if size = Unsigned64 then do
    let l ← data.toU64
    seek (Int64.ofNat l.length * size) true
  else pure ()

/-- v1/buffer.go:690-694 -/
def ReadBit (off : Int64) : Prog UInt8 := readbit off

/-- v1/buffer.go:697-701 -/
def ReadBits (off n : Int64) : Prog UInt64 := readbits off n

/-- v1/buffer.go:704-710 -/
def ReadBitNext : Prog UInt8 := do
  let boff ← Prog.field .boff
  let out ← readbit boff
  seekbit 1 true
  return out

/-- v1/buffer.go:713-719 -/
def ReadBitsNext (n : Int64) : Prog UInt64 := do
  let boff ← Prog.field .boff
  let out ← readbits boff n
  seekbit n true
  return out

/-- v1/buffer.go:722-726 -/
def SetBit (off : Int64) (data : UInt8) : Prog Unit := setbit off data

/-- v1/buffer.go:729-733 -/
def SetBits (off : Int64) (data : UInt64) (n : Int64) : Prog Unit := setbits off data n

/-- v1/buffer.go:736-741 -/
def SetBitNext (data : UInt8) : Prog Unit := do
  let boff ← Prog.field .boff
  setbit boff data
  seekbit 1 true

/-- v1/buffer.go:744-749 -/
def SetBitsNext (data : UInt64) (n : Int64) : Prog Unit := do
  let boff ← Prog.field .boff
  setbits boff data n
  seekbit n true

/-- v1/buffer.go:752-756 -/
def FlipBit (off : Int64) : Prog Unit := flipbit off

/-- v1/buffer.go:759-764 -/
def FlipBitNext : Prog Unit := do
  let boff ← Prog.field .boff
  flipbit boff
  seekbit 1 true

/-- v1/buffer.go:767-771 -/
def ClearAllBits : Prog Unit := clearallbits
/-- v1/buffer.go:774-778 -/
def SetAllBits : Prog Unit := setallbits
/-- v1/buffer.go:781-785 -/
def FlipAllBits : Prog Unit := flipallbits

end Buffer
end Crunch.V1
