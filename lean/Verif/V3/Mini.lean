import Verif.V3.State

/-!
# v3 `MiniBuffer`: everything except the typed accessors

Transcribed function by function from v3/minibuf.generated.go (whose hand-written
part is v3/_minibuf.go).  A method with an `out *T` parameter runs in a state that
also contains the variable `out` points to: `St × T`.
-/

namespace Crunch.V3.Mini

/-- Work on the receiver in a method that has an out parameter. -/
def onB (m : GoM St α) : GoM (St × O) α := fun s => ((m s.1).1, ((m s.1).2, s.2))
/-- `*out` -/
def getOut : GoM (St × O) O := fun s => (.ok s.2, s)
/-- `*out = v` -/
def putOut (v : O) : GoM (St × O) Unit := fun s => (.ok (), (s.1, v))
/-- `f(&x)` for a local variable `x`: the value of `x` afterwards. -/
def callOut (m : GoM (St × X) Unit) (x : X) : GoM St X := fun s =>
  match m (s, x) with
  | (.ok _, s') => (.ok s'.2, s'.1)
  | (.panic p, s') => (.panic p, s'.1)

/-- v3/minibuf.generated.go:1237-1242 -/
def Refresh : GoM St Unit := do
  modB fun b => { b with cap := Int64.ofNat b.buf.len }
  modB fun b => { b with bcap := b.cap * 8 }

/-- v3/minibuf.generated.go:29-65.  `*out` is the state's `b`. -/
def NewMiniBuffer (slices : List Slice) : GoM St Unit := do
  let lit ← onMem (litBytes [])
  modB fun _ => { buf := lit, off := 0, cap := 0, boff := 0, bcap := 0 }
  match slices with
  | [] => pure ()
  | [s] => modB fun b => { b with buf := s }
  | slices =>
    doLoop (fun i _ => do
      let b ← getB
      let x ← idx slices i
      let data ← onMem fun h => (.ok (h.view x), h)
      let r ← onMem (appendBytes b.buf data)
      modB fun b => { b with buf := r }) (len slices) 0 ()
  Refresh

/-! ## bit field methods -/

/-- v3/minibuf.generated.go:268-280 -/
def SeekBit (off : Int64) (relative : Bool) : GoM St Unit :=
  if relative then modB fun b => { b with boff := b.boff + off }
  else modB fun b => { b with boff := off }

/-- v3/minibuf.generated.go:71-75 -/
def ReadBit (off : Int64) : GoM (St × UInt8) Unit := do
  let x ← onB (bufLoad (off / 8))
  putOut (shr8 x (7 - (off % 8).toUInt64) &&& 1)

/-- v3/minibuf.generated.go:79-84 -/
def ReadBitNext : GoM (St × UInt8) Unit := do
  let b ← onB getB
  ReadBit b.boff
  onB (SeekBit 1 true)

/-- v3/minibuf.generated.go:88-107; the local variable `bout` is the loop-carried
value. -/
def ReadBits (off n : Int64) : GoM (St × UInt64) Unit := do
  let _ ← doLoop (fun i bout => do
    let bout ← onB (callOut (ReadBit (off + i)) bout)
    let out ← getOut
    putOut ((out <<< 1) ||| bout.toUInt64)
    return bout) n 0 0

/-- v3/minibuf.generated.go:111-116 -/
def ReadBitsNext (n : Int64) : GoM (St × UInt64) Unit := do
  let b ← onB getB
  ReadBits b.boff n
  onB (SeekBit n true)

/-- v3/minibuf.generated.go:120-124 -/
def SetBit (off : Int64) : GoM St Unit := do
  let x ← bufLoad (off / 8)
  bufStore (off / 8) (x ||| shl8 1 (7 - off % 8).toUInt64)

/-- v3/minibuf.generated.go:128-133 -/
def SetBitNext : GoM St Unit := do
  let b ← getB
  SetBit b.boff
  SeekBit 1 true

/-- v3/minibuf.generated.go:137-141 -/
def ClearBit (off : Int64) : GoM St Unit := do
  let x ← bufLoad (off / 8)
  bufStore (off / 8) (x &&& ~~~(shl8 1 (7 - off % 8).toUInt64))

/-- v3/minibuf.generated.go:145-150 -/
def ClearBitNext : GoM St Unit := do
  let b ← getB
  ClearBit b.boff
  SeekBit 1 true

/-- v3/minibuf.generated.go:154-177 -/
def SetBits (off : Int64) (data : UInt64) (n : Int64) : GoM St Unit :=
  doLoop (fun i _ =>
    if (shr64 data (n - i - 1).toUInt64 &&& 1).toUInt8 = 0 then ClearBit (off + i)
    else SetBit (off + i)) n 0 ()

/-- v3/minibuf.generated.go:181-186 -/
def SetBitsNext (data : UInt64) (n : Int64) : GoM St Unit := do
  let b ← getB
  SetBits b.boff data n
  SeekBit n true

/-- v3/minibuf.generated.go:190-194 -/
def FlipBit (off : Int64) : GoM St Unit := do
  let x ← bufLoad (off / 8)
  bufStore (off / 8) (x ^^^ shl8 1 (7 - off % 8).toUInt64)

/-- v3/minibuf.generated.go:198-203 -/
def FlipBitNext : GoM St Unit := do
  let b ← getB
  FlipBit b.boff
  SeekBit 1 true

/-- v3/minibuf.generated.go:206-223 -/
def ClearAllBits : GoM St Unit := do
  let b ← getB
  doLoop (fun i _ => bufStore i 0) (Int64.ofNat b.buf.len) 0 ()

/-- v3/minibuf.generated.go:226-243 -/
def SetAllBits : GoM St Unit := do
  let b ← getB
  doLoop (fun i _ => bufStore i 0xFF) (Int64.ofNat b.buf.len) 0 ()

/-- v3/minibuf.generated.go:246-264 -/
def FlipAllBits : GoM St Unit := do
  let b ← getB
  doLoop (fun i _ => do
    let x ← bufLoad i
    bufStore i (~~~x)) (Int64.ofNat b.buf.len) 0 ()

/-- v3/minibuf.generated.go:284-294; `off` is the variadic argument. -/
def AfterBit (off : List Int64) : GoM (St × Int64) Unit := do
  let b ← onB getB
  match off with
  | [] => putOut (b.bcap - b.boff - 1)
  | o :: _ => putOut (b.bcap - o - 1)

/-- v3/minibuf.generated.go:297-301 -/
def AlignBit : GoM St Unit := modB fun b => { b with boff := b.off * 8 }

/-! ## byte methods -/

/-- v3/minibuf.generated.go:1165-1177 -/
def SeekByte (off : Int64) (relative : Bool) : GoM St Unit :=
  if relative then modB fun b => { b with off := b.off + off }
  else modB fun b => { b with off := off }

/-- v3/minibuf.generated.go:307-311 -/
def WriteBytes (off : Int64) (data : Slice) : GoM St Unit := do
  let b ← getB
  let dst ← onMem (resliceFrom b.buf off)
  onMem (copyBytes dst data)

/-- v3/minibuf.generated.go:315-320 -/
def WriteBytesNext (data : Slice) : GoM St Unit := do
  let b ← getB
  WriteBytes b.off data
  SeekByte (Int64.ofNat data.len) true

/-- v3/minibuf.generated.go:772-776 -/
def ReadBytes (off n : Int64) : GoM (St × Slice) Unit := do
  let b ← onB getB
  let r ← onB (onMem (reslice b.buf off (off + n)))
  putOut r

/-- v3/minibuf.generated.go:780-785 -/
def ReadBytesNext (n : Int64) : GoM (St × Slice) Unit := do
  let b ← onB getB
  ReadBytes b.off n
  onB (SeekByte n true)

/-- v3/minibuf.generated.go:1181-1191; `off` is the variadic argument. -/
def AfterByte (off : List Int64) : GoM (St × Int64) Unit := do
  let b ← onB getB
  match off with
  | [] => putOut (b.cap - b.off - 1)
  | o :: _ => putOut (b.cap - o - 1)

/-- v3/minibuf.generated.go:1194-1198 -/
def AlignByte : GoM St Unit := modB fun b => { b with off := b.boff / 8 }

/-! ## generic methods -/

/-- v3/minibuf.generated.go:1203-1208 -/
def TruncateLeft (n : Int64) : GoM St Unit := do
  let b ← getB
  let r ← onMem (reslice b.buf n b.cap)
  modB fun b => { b with buf := r }
  Refresh

/-- v3/minibuf.generated.go:1211-1216 -/
def TruncateRight (n : Int64) : GoM St Unit := do
  let b ← getB
  let r ← onMem (reslice b.buf 0 (b.cap - n))
  modB fun b => { b with buf := r }
  Refresh

/-- v3/minibuf.generated.go:1219-1234 -/
def Grow (n : Int64) : GoM St Unit := do
  let b ← getB
  if n ≤ Int64.ofNat b.buf.cap - b.cap then
    let r ← onMem (reslice b.buf 0 (b.cap + n))
    modB fun b => { b with buf := r }
    Refresh
  else
    let tmp ← onMem (makeBytes (b.cap + n) ((Int64.ofNat b.buf.cap + n) * 2))
    onMem (copyBytes tmp b.buf)
    modB fun b => { b with buf := tmp }
    Refresh

/-- v3/minibuf.generated.go:1245-1253 -/
def Reset : GoM St Unit := do
  let b ← getB
  let r ← onMem (reslice b.buf 0 0)
  modB fun b => { b with buf := r }
  modB fun b => { b with off := 0 }
  modB fun b => { b with boff := 0 }
  modB fun b => { b with cap := 0 }
  modB fun b => { b with bcap := 0 }

/-! ## value retrieval -/

/-- v3/minibuf.generated.go:1258-1262 -/
def Bytes : GoM (St × Slice) Unit := do let b ← onB getB; putOut b.buf
/-- v3/minibuf.generated.go:1265-1269 -/
def ByteCapacity : GoM (St × Int64) Unit := do let b ← onB getB; putOut b.cap
/-- v3/minibuf.generated.go:1272-1276 -/
def BitCapacity : GoM (St × Int64) Unit := do let b ← onB getB; putOut b.bcap
/-- v3/minibuf.generated.go:1279-1283 -/
def ByteOffset : GoM (St × Int64) Unit := do let b ← onB getB; putOut b.off
/-- v3/minibuf.generated.go:1286-1290 -/
def BitOffset : GoM (St × Int64) Unit := do let b ← onB getB; putOut b.boff

end Crunch.V3.Mini
