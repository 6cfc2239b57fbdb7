import Verif.V3.Mini
import Verif.V2.Buffer

/-!
# v2 `MiniBuffer`: everything except the typed accessors

Transcribed function by function from v2/minibuf.go.  The struct has the fields of `V3.Buf` and a mutex
(v2/minibuf.go:19-27) that none of its methods uses, so no lock is modelled.  A method with an `out *T` parameter
runs in a state that also contains the variable `out` points to, as in `Verif/V3/Mini.lean`.
-/

namespace Crunch.V2.Mini

open V3 (St getB modB onMem bufLoad bufStore)
open V3.Mini (onB getOut putOut callOut)

/-! ## bit field methods -/

/-- v2/minibuf.go:197-209 -/
def seekbit (off : Int64) (relative : Bool) : GoM St Unit :=
  if relative then modB fun b => { b with boff := b.boff + off }
  else modB fun b => { b with boff := off }

/-- v2/minibuf.go:64-68 -/
def readbit (off : Int64) : GoM (St × UInt8) Unit := do
  let x ← onB (bufLoad (off / 8))
  putOut (atob ((x &&& shl8 1 (7 - off % 8).toUInt64) != 0))

/-- v2/minibuf.go:71-90; the local variable `bout` is the loop-carried value. -/
def readbits (off n : Int64) : GoM (St × UInt64) Unit := do
  let _ ← doLoop (fun i bout => do
    let bout ← onB (callOut (readbit (off + i)) bout)
    let out ← getOut
    putOut ((out <<< 1) ||| bout.toUInt64)
    return bout) n 0 0

/-- v2/minibuf.go:93-108 -/
def setbit (off : Int64) (data : UInt8) : GoM St Unit :=
  if data = 0 then do
    let x ← bufLoad (off / 8)
    bufStore (off / 8) (x &&& ~~~(shl8 1 (7 - off % 8).toUInt64))
  else if data = 1 then do
    let x ← bufLoad (off / 8)
    bufStore (off / 8) (x ||| shl8 1 (7 - off % 8).toUInt64)
  else throwP (.err BufferInvalidBitError)

/-- v2/minibuf.go:111-126 -/
def setbits (off : Int64) (data : UInt64) (n : Int64) : GoM St Unit :=
  doLoop (fun i _ => setbit (off + i) (shr64 data (n - i - 1).toUInt64 &&& 1).toUInt8) n 0 ()

/-- v2/minibuf.go:129-133 -/
def flipbit (off : Int64) : GoM St Unit := do
  let x ← bufLoad (off / 8)
  bufStore (off / 8) (x ^^^ shl8 1 (7 - off % 8).toUInt64)

/-- v2/minibuf.go:136-153 -/
def clearallbits : GoM St Unit := do
  let b ← getB
  doLoop (fun i _ => bufStore i 0) (Int64.ofNat b.buf.len) 0 ()

/-- v2/minibuf.go:156-173 -/
def setallbits : GoM St Unit := do
  let b ← getB
  doLoop (fun i _ => bufStore i 0xFF) (Int64.ofNat b.buf.len) 0 ()

/-- v2/minibuf.go:176-194 -/
def flipallbits : GoM St Unit := do
  let b ← getB
  doLoop (fun i _ => do
    let x ← bufLoad i
    bufStore i (~~~x)) (Int64.ofNat b.buf.len) 0 ()

/-- v2/minibuf.go:212-222; `off` is the variadic argument. -/
def afterbit (off : List Int64) : GoM (St × Int64) Unit := do
  let b ← onB getB
  match off with
  | [] => putOut (b.bcap - b.boff - 1)
  | o :: _ => putOut (b.bcap - o - 1)

/-! ## byte methods -/

/-- v2/minibuf.go:227-244 -/
def write (off : Int64) (data : Slice) : GoM St Unit :=
  doLoop (fun i _ => do
    let x ← onMem (loadAt data i)
    bufStore (off + i) x) (Int64.ofNat data.len) 0 ()

/-- v2/minibuf.go:395-399 -/
def read (off n : Int64) : GoM (St × Slice) Unit := do
  let b ← onB getB
  let r ← onB (onMem (reslice b.buf off (off + n)))
  putOut r

/-- v2/minibuf.go:532-544 -/
def seek (off : Int64) (relative : Bool) : GoM St Unit :=
  if relative then modB fun b => { b with off := b.off + off }
  else modB fun b => { b with off := off }

/-- v2/minibuf.go:547-557; `off` is the variadic argument. -/
def after (off : List Int64) : GoM (St × Int64) Unit := do
  let b ← onB getB
  match off with
  | [] => putOut (b.cap - b.off - 1)
  | o :: _ => putOut (b.cap - o - 1)

/-! ## generic methods -/

/-- v2/minibuf.go:570-575 -/
def refresh : GoM St Unit := do
  modB fun b => { b with cap := Int64.ofNat b.buf.len }
  modB fun b => { b with bcap := b.cap * 8 }

/-- v2/minibuf.go:562-567.  The zeros made for `append` are not given an array of their own: nothing can refer to it. -/
def grow (n : Int64) : GoM St Unit := do
  let b ← getB
  panicIf (n.toInt < 0 ∨ n.toInt > maxAlloc) .makeSlice
  let r ← onMem (appendBytes b.buf (List.replicate n.toInt.toNat 0))
  modB fun b => { b with buf := r }
  refresh

/-- v2/minibuf.go:578-582 -/
def alignbit : GoM St Unit := modB fun b => { b with boff := b.off * 8 }

/-- v2/minibuf.go:585-589 -/
def alignbyte : GoM St Unit := modB fun b => { b with off := b.boff / 8 }

/-- v2/minibuf.go:592-600 -/
def reset : GoM St Unit := do
  let s ← onMem (litBytes [])
  modB fun b => { b with buf := s }
  modB fun b => { b with off := 0 }
  modB fun b => { b with boff := 0 }
  modB fun b => { b with cap := 0 }
  modB fun b => { b with bcap := 0 }

/-- v2/minibuf.go:30-57.  `*out` is the state's `b`. -/
def NewMiniBuffer (slices : List Slice) : GoM St Unit := do
  let lit ← onMem (litBytes [])
  modB fun _ => { buf := lit, off := 0, cap := 0, boff := 0, bcap := 0 }
  match slices with
  | [] => pure ()
  | [s] => modB fun b => { b with buf := s }
  | slices =>
    forLoop (fun i _ => do
      let x ← idx slices i
      let b ← getB
      let data ← onMem fun h => (.ok (h.view x), h)
      let r ← onMem (appendBytes b.buf data)
      modB fun b => { b with buf := r }) (len slices) 0 ()
  refresh

/-! ## public methods -/

/-- v2/minibuf.go:605-609 -/
def Bytes : GoM (St × Slice) Unit := do let b ← onB getB; putOut b.buf
/-- v2/minibuf.go:612-616 -/
def Capacity : GoM (St × Int64) Unit := do let b ← onB getB; putOut b.cap
/-- v2/minibuf.go:619-623 -/
def BitCapacity : GoM (St × Int64) Unit := do let b ← onB getB; putOut b.bcap
/-- v2/minibuf.go:626-630 -/
def Offset : GoM (St × Int64) Unit := do let b ← onB getB; putOut b.off
/-- v2/minibuf.go:633-637 -/
def BitOffset : GoM (St × Int64) Unit := do let b ← onB getB; putOut b.boff
/-- v2/minibuf.go:640-644 -/
def Refresh : GoM St Unit := refresh
/-- v2/minibuf.go:647-651 -/
def Reset : GoM St Unit := reset
/-- v2/minibuf.go:654-658 -/
def Grow (n : Int64) : GoM St Unit := grow n
/-- v2/minibuf.go:661-665 -/
def Seek (off : Int64) (relative : Bool) : GoM St Unit := seek off relative
/-- v2/minibuf.go:668-672 -/
def SeekBit (off : Int64) (relative : Bool) : GoM St Unit := seekbit off relative
/-- v2/minibuf.go:675-679 -/
def AlignBit : GoM St Unit := alignbit
/-- v2/minibuf.go:682-686 -/
def AlignByte : GoM St Unit := alignbyte
/-- v2/minibuf.go:689-693 -/
def After (off : List Int64) : GoM (St × Int64) Unit := after off
/-- v2/minibuf.go:696-700 -/
def AfterBit (off : List Int64) : GoM (St × Int64) Unit := afterbit off
/-- v2/minibuf.go:703-707 -/
def ReadBytes (off n : Int64) : GoM (St × Slice) Unit := read off n

/-- v2/minibuf.go:752-757 -/
def ReadBytesNext (n : Int64) : GoM (St × Slice) Unit := do
  let b ← onB getB
  read b.off n
  onB (seek n true)

/-- v2/minibuf.go:808-812 -/
def WriteBytes (off : Int64) (data : Slice) : GoM St Unit := write off data

/-- v2/minibuf.go:857-862 -/
def WriteBytesNext (data : Slice) : GoM St Unit := do
  let b ← getB
  write b.off data
  seek (Int64.ofNat data.len) true

/-- v2/minibuf.go:913-917 -/
def ReadBit (off : Int64) : GoM (St × UInt8) Unit := readbit off

/-- v2/minibuf.go:920-924 -/
def ReadBits (off n : Int64) : GoM (St × UInt64) Unit := readbits off n

/-- v2/minibuf.go:927-932 -/
def ReadBitNext : GoM (St × UInt8) Unit := do
  let b ← onB getB
  readbit b.boff
  onB (seekbit 1 true)

/-- v2/minibuf.go:935-940 -/
def ReadBitsNext (n : Int64) : GoM (St × UInt64) Unit := do
  let b ← onB getB
  readbits b.boff n
  onB (seekbit n true)

/-- v2/minibuf.go:943-947 -/
def SetBit (off : Int64) (data : UInt8) : GoM St Unit := setbit off data

/-- v2/minibuf.go:950-954 -/
def SetBits (off : Int64) (data : UInt64) (n : Int64) : GoM St Unit := setbits off data n

/-- v2/minibuf.go:957-962 -/
def SetBitNext (data : UInt8) : GoM St Unit := do
  let b ← getB
  setbit b.boff data
  seekbit 1 true

/-- v2/minibuf.go:965-970 -/
def SetBitsNext (data : UInt64) (n : Int64) : GoM St Unit := do
  let b ← getB
  setbits b.boff data n
  seekbit n true

/-- v2/minibuf.go:973-977 -/
def FlipBit (off : Int64) : GoM St Unit := flipbit off

/-- v2/minibuf.go:980-985 -/
def FlipBitNext : GoM St Unit := do
  let b ← getB
  flipbit b.boff
  seekbit 1 true

/-- v2/minibuf.go:988-992 -/
def ClearAllBits : GoM St Unit := clearallbits
/-- v2/minibuf.go:995-999 -/
def SetAllBits : GoM St Unit := setallbits
/-- v2/minibuf.go:1002-1006 -/
def FlipAllBits : GoM St Unit := flipallbits

end Crunch.V2.Mini
