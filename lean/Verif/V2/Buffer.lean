import Verif.Prog
import Verif.V2.Errors

/-!
# v2 `Buffer`: everything except the typed accessors

Transcribed function by function from v2/buffer.go.
-/

namespace Crunch.V2

/-- v2/utils.go:15-24 -/
def atob (b : Bool) : UInt8 := if b then 1 else 0

namespace Buffer

/-! ## bit field methods -/

/-- v2/buffer.go:63-82 -/
def readbit (off : Int64) : Prog UInt8 := do
  let bcap ← Prog.field .bcap
  Prog.panicIf (off > bcap - 1) (.err BufferOverreadError)
  Prog.panicIf (off < 0) (.err BufferUnderreadError)
  Prog.locked do
    let x ← Prog.bufLoad (off / 8)
    return atob ((x &&& shl8 1 (7 - off % 8).toUInt64) != 0)

/-- v2/buffer.go:85-102 -/
def readbits (off n : Int64) : Prog UInt64 :=
  Prog.doLoop (fun i out => do
    let x ← readbit (off + i)
    return (out <<< 1) ||| x.toUInt64) n 0 0

/-- v2/buffer.go:105-135 -/
def setbit (off : Int64) (data : UInt8) : Prog Unit := do
  let bcap ← Prog.field .bcap
  Prog.panicIf (off > bcap - 1) (.err BufferOverwriteError)
  Prog.panicIf (off < 0) (.err BufferUnderwriteError)
  Prog.locked do
    if data = 0 then
      let x ← Prog.bufLoad (off / 8)
      Prog.bufStore (off / 8) (x &&& ~~~(shl8 1 (7 - off % 8).toUInt64))
    else if data = 1 then
      let x ← Prog.bufLoad (off / 8)
      Prog.bufStore (off / 8) (x ||| shl8 1 (7 - off % 8).toUInt64)
    else .panic (.err BufferInvalidBitError)

/-- v2/buffer.go:138-153 -/
def setbits (off : Int64) (data : UInt64) (n : Int64) : Prog Unit :=
  Prog.doLoop (fun i _ => setbit (off + i) (shr64 data (n - i - 1).toUInt64 &&& 1).toUInt8) n 0 ()

/-- v2/buffer.go:156-175 -/
def flipbit (off : Int64) : Prog Unit := do
  let bcap ← Prog.field .bcap
  Prog.panicIf (off > bcap - 1) (.err BufferOverwriteError)
  Prog.panicIf (off < 0) (.err BufferUnderwriteError)
  Prog.locked do
    let x ← Prog.bufLoad (off / 8)
    Prog.bufStore (off / 8) (x ^^^ shl8 1 (7 - off % 8).toUInt64)

/-- v2/buffer.go:178-198 -/
def clearallbits : Prog Unit :=
  Prog.locked do
    let s ← Prog.buf
    Prog.doLoop (fun i _ => Prog.bufStore i 0) (Int64.ofNat s.len) 0 ()

/-- v2/buffer.go:201-221 -/
def setallbits : Prog Unit :=
  Prog.locked do
    let s ← Prog.buf
    Prog.doLoop (fun i _ => Prog.bufStore i 0xFF) (Int64.ofNat s.len) 0 ()

/-- v2/buffer.go:224-245 -/
def flipallbits : Prog Unit :=
  Prog.locked do
    let s ← Prog.buf
    Prog.doLoop (fun i _ => do
      let x ← Prog.bufLoad i
      Prog.bufStore i (~~~x)) (Int64.ofNat s.len) 0 ()

/-- v2/buffer.go:248-263 -/
def seekbit (off : Int64) (relative : Bool) : Prog Unit :=
  Prog.locked do
    if relative then
      let boff ← Prog.field .boff
      Prog.assign .boff (boff + off)
    else Prog.assign .boff off

/-- v2/buffer.go:266-275; `off` is the variadic argument. -/
def afterbit (off : List Int64) : Prog Int64 := do
  match off with
  | [] =>
    let bcap ← Prog.field .bcap
    let boff ← Prog.field .boff
    return bcap - boff - 1
  | o :: _ =>
    let bcap ← Prog.field .bcap
    return bcap - o - 1

/-! ## byte methods -/

/-- v2/buffer.go:280-313 -/
def write (off : Int64) (data : Src) : Prog Unit := do
  let cap ← Prog.field .cap
  Prog.panicIf (off + Int64.ofNat data.len > cap) (.err BufferOverwriteError)
  Prog.panicIf (off < 0) (.err BufferUnderwriteError)
  Prog.Lock
  Prog.doLoop (fun i _ => do
    let x ← Prog.srcAt data i
    Prog.bufStore (off + i) x) (Int64.ofNat data.len) 0 ()
  Prog.Unlock

/-- v2/buffer.go:560-579 -/
def read (off n : Int64) : Prog Slice := do
  let cap ← Prog.field .cap
  Prog.panicIf (off + n > cap) (.err BufferOverreadError)
  Prog.panicIf (off < 0) (.err BufferUnderreadError)
  Prog.locked do
    let s ← Prog.buf
    Prog.reslice s off (off + n)

/-- v2/buffer.go:825-840 -/
def seek (off : Int64) (relative : Bool) : Prog Unit :=
  Prog.locked do
    if relative then
      let o ← Prog.field .off
      Prog.assign .off (o + off)
    else Prog.assign .off off

/-- v2/buffer.go:843-852; `off` is the variadic argument. -/
def after (off : List Int64) : Prog Int64 := do
  match off with
  | [] =>
    let cap ← Prog.field .cap
    let o ← Prog.field .off
    return cap - o - 1
  | o :: _ =>
    let cap ← Prog.field .cap
    return cap - o - 1

/-! ## generic methods -/

/-- v2/buffer.go:870-878 -/
def refresh : Prog Unit :=
  Prog.locked do
    let s ← Prog.buf
    Prog.assign .cap (Int64.ofNat s.len)
    let cap ← Prog.field .cap
    Prog.assign .bcap (cap * 8)

/-- v2/buffer.go:857-867 -/
def grow (n : Int64) : Prog Unit := do
  Prog.Lock
  let s ← Prog.buf
  let z ← Prog.makeZero n
  let r ← Prog.appendTo s z
  Prog.assignBuf r
  Prog.Unlock
  refresh

/-- v2/buffer.go:881-888 -/
def alignbit : Prog Unit :=
  Prog.locked do
    let o ← Prog.field .off
    Prog.assign .boff (o * 8)

/-- v2/buffer.go:891-898 -/
def alignbyte : Prog Unit :=
  Prog.locked do
    let o ← Prog.field .boff
    Prog.assign .off (o / 8)

/-- v2/buffer.go:901-912 -/
def reset : Prog Unit :=
  Prog.locked do
    let s ← (.alloc [] 0 .ret : Prog Slice)
    Prog.assignBuf s
    Prog.assign .off 0
    Prog.assign .boff 0
    Prog.assign .cap 0
    Prog.assign .bcap 0

/-- v2/buffer.go:28-56.  The fields assigned are those of the new buffer, whose mutex is free. -/
def NewBuffer (slices : List Slice) : Prog Unit := do
  let lit ← (.alloc [] 0 .ret : Prog Slice)
  Prog.assignBuf lit
  Prog.assign .off 0
  Prog.assign .cap 0
  Prog.assign .boff 0
  Prog.assign .bcap 0
  match slices with
  | [] => pure ()
  | [s] => Prog.assignBuf s
  | slices =>
    Prog.forLoop (fun i _ => do
      let x ← Prog.idx slices i
      let s ← Prog.buf
      let r ← Prog.appendTo s (.mem x)
      Prog.assignBuf r) (len slices) 0 ()
  refresh

/-! ## public methods -/

/-- v2/buffer.go:917-921 -/
def Bytes : Prog Slice := Prog.buf
/-- v2/buffer.go:924-928 -/
def Capacity : Prog Int64 := Prog.field .cap
/-- v2/buffer.go:931-935 -/
def BitCapacity : Prog Int64 := Prog.field .bcap
/-- v2/buffer.go:938-942 -/
def Offset : Prog Int64 := Prog.field .off
/-- v2/buffer.go:945-949 -/
def BitOffset : Prog Int64 := Prog.field .boff
/-- v2/buffer.go:952-956 -/
def Refresh : Prog Unit := refresh
/-- v2/buffer.go:959-963 -/
def Reset : Prog Unit := reset
/-- v2/buffer.go:966-970 -/
def Grow (n : Int64) : Prog Unit := grow n
/-- v2/buffer.go:973-977 -/
def Seek (off : Int64) (relative : Bool) : Prog Unit := seek off relative
/-- v2/buffer.go:980-984 -/
def SeekBit (off : Int64) (relative : Bool) : Prog Unit := seekbit off relative
/-- v2/buffer.go:987-991 -/
def AlignBit : Prog Unit := alignbit
/-- v2/buffer.go:994-998 -/
def AlignByte : Prog Unit := alignbyte
/-- v2/buffer.go:1001-1005 -/
def After (off : List Int64) : Prog Int64 := after off
/-- v2/buffer.go:1008-1012 -/
def AfterBit (off : List Int64) : Prog Int64 := afterbit off

/-- v2/buffer.go:1015-1019 -/
def ReadByte (off : Int64) : Prog UInt8 := do
  let s ← read off 1
  Prog.loadAt s 0

/-- v2/buffer.go:1022-1026 -/
def ReadBytes (off n : Int64) : Prog Slice := read off n

/-- v2/buffer.go:1071-1077 -/
def ReadByteNext : Prog UInt8 := do
  let off ← Prog.field .off
  let s ← read off 1
  let out ← Prog.loadAt s 0
  seek 1 true
  return out

/-- v2/buffer.go:1080-1086 -/
def ReadBytesNext (n : Int64) : Prog Slice := do
  let off ← Prog.field .off
  let out ← read off n
  seek n true
  return out

/-- v2/buffer.go:1143-1147 -/
def WriteByte (off : Int64) (data : UInt8) : Prog Unit := write off (.lit [data])

/-- v2/buffer.go:1150-1154 -/
def WriteBytes (off : Int64) (data : Slice) : Prog Unit := write off (.mem data)

/-- v2/buffer.go:1199-1204 -/
def WriteByteNext (data : UInt8) : Prog Unit := do
  let off ← Prog.field .off
  write off (.lit [data])
  seek 1 true

/-- v2/buffer.go:1207-1212 -/
def WriteBytesNext (data : Slice) : Prog Unit := do
  let off ← Prog.field .off
  write off (.mem data)
  seek (Int64.ofNat data.len) true

/-- v2/buffer.go:1263-1267 -/
def ReadBit (off : Int64) : Prog UInt8 := readbit off

/-- v2/buffer.go:1270-1274 -/
def ReadBits (off n : Int64) : Prog UInt64 := readbits off n

/-- v2/buffer.go:1277-1283 -/
def ReadBitNext : Prog UInt8 := do
  let boff ← Prog.field .boff
  let out ← readbit boff
  seekbit 1 true
  return out

/-- v2/buffer.go:1286-1292 -/
def ReadBitsNext (n : Int64) : Prog UInt64 := do
  let boff ← Prog.field .boff
  let out ← readbits boff n
  seekbit n true
  return out

/-- v2/buffer.go:1295-1299 -/
def SetBit (off : Int64) (data : UInt8) : Prog Unit := setbit off data

/-- v2/buffer.go:1302-1306 -/
def SetBits (off : Int64) (data : UInt64) (n : Int64) : Prog Unit := setbits off data n

/-- v2/buffer.go:1309-1314 -/
def SetBitNext (data : UInt8) : Prog Unit := do
  let boff ← Prog.field .boff
  setbit boff data
  seekbit 1 true

/-- v2/buffer.go:1317-1322 -/
def SetBitsNext (data : UInt64) (n : Int64) : Prog Unit := do
  let boff ← Prog.field .boff
  setbits boff data n
  seekbit n true

/-- v2/buffer.go:1325-1329 -/
def FlipBit (off : Int64) : Prog Unit := flipbit off

/-- v2/buffer.go:1332-1337 -/
def FlipBitNext : Prog Unit := do
  let boff ← Prog.field .boff
  flipbit boff
  seekbit 1 true

/-- v2/buffer.go:1340-1344 -/
def ClearAllBits : Prog Unit := clearallbits
/-- v2/buffer.go:1347-1351 -/
def SetAllBits : Prog Unit := setallbits
/-- v2/buffer.go:1354-1358 -/
def FlipAllBits : Prog Unit := flipallbits

end Buffer
end Crunch.V2
