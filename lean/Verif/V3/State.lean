import Verif.Go
import Verif.V3.Errors

/-! The state a v3 method runs in: memory plus one buffer. -/

namespace Crunch.V3

/-- v3/buffer.generated.go:18-24 (`Buffer`), and the identical
v3/minibuf.generated.go:19-25 (`MiniBuffer`). -/
structure Buf where
  buf : Slice
  off : Int64
  cap : Int64
  boff : Int64
  bcap : Int64
deriving DecidableEq, Repr

/-- The memory a method sees and the receiver it works on. -/
structure St where
  mem : Heap
  b : Buf

/-- The receiver's fields. -/
def getB : GoM St Buf := fun s => (.ok s.b, s)

/-- Assign to the receiver's fields. -/
def modB (f : Buf → Buf) : GoM St Unit := fun s => (.ok (), { s with b := f s.b })

/-- Run a memory primitive. -/
def onMem (m : GoM Heap α) : GoM St α := fun s => ((m s.mem).1, { s with mem := (m s.mem).2 })

/-- `b.buf[i]` -/
def bufLoad (i : Int64) : GoM St UInt8 := getB >>= fun b => onMem (loadAt b.buf i)

/-- `b.buf[i] = v` -/
def bufStore (i : Int64) (v : UInt8) : GoM St Unit := getB >>= fun b => onMem (storeAt b.buf i v)

end Crunch.V3
