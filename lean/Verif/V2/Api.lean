import Verif.V2.BufferTyped
import Verif.V2.MiniTyped
import Verif.V3.Api

/-!
The public methods of v2 `Buffer` as data.  Positioned and Next variants share a constructor: `some off` is the
positioned method, `none` the Next one.  Results are the values of `V3.Val`.
-/

namespace Crunch.V2
open Spec
open V3 (Val Kind Op)

/-- The element types of the v2 accessors: only the unsigned ones. -/
inductive UKind where
  | u16 | u32 | u64
deriving DecidableEq, Repr

/-- The same element type in v3. -/
@[reducible] def UKind.kind : UKind → Kind
  | .u16 => .u16
  | .u32 => .u32
  | .u64 => .u64

/-- `Buffer.Write⟨kind⟩⟨order⟩` -/
def Buffer.Write : (k : UKind) → Endian → Int64 → List k.kind.Ty → Prog Unit
  | .u16, .le => Buffer.WriteU16LE | .u16, .be => Buffer.WriteU16BE
  | .u32, .le => Buffer.WriteU32LE | .u32, .be => Buffer.WriteU32BE
  | .u64, .le => Buffer.WriteU64LE | .u64, .be => Buffer.WriteU64BE

/-- `Buffer.Write⟨kind⟩⟨order⟩Next` -/
def Buffer.WriteNext : (k : UKind) → Endian → List k.kind.Ty → Prog Unit
  | .u16, .le => Buffer.WriteU16LENext | .u16, .be => Buffer.WriteU16BENext
  | .u32, .le => Buffer.WriteU32LENext | .u32, .be => Buffer.WriteU32BENext
  | .u64, .le => Buffer.WriteU64LENext | .u64, .be => Buffer.WriteU64BENext

/-- `Buffer.Read⟨kind⟩⟨order⟩` -/
def Buffer.Read : (k : UKind) → Endian → Int64 → Int64 → Prog (List k.kind.Ty)
  | .u16, .le => Buffer.ReadU16LE | .u16, .be => Buffer.ReadU16BE
  | .u32, .le => Buffer.ReadU32LE | .u32, .be => Buffer.ReadU32BE
  | .u64, .le => Buffer.ReadU64LE | .u64, .be => Buffer.ReadU64BE

/-- `Buffer.Read⟨kind⟩⟨order⟩Next` -/
def Buffer.ReadNext : (k : UKind) → Endian → Int64 → Prog (List k.kind.Ty)
  | .u16, .le => Buffer.ReadU16LENext | .u16, .be => Buffer.ReadU16BENext
  | .u32, .le => Buffer.ReadU32LENext | .u32, .be => Buffer.ReadU32BENext
  | .u64, .le => Buffer.ReadU64LENext | .u64, .be => Buffer.ReadU64BENext

/-- `MiniBuffer.Write⟨kind⟩⟨order⟩` -/
def Mini.Write : (k : UKind) → Endian → Int64 → List k.kind.Ty → GoM V3.St Unit
  | .u16, .le => Mini.WriteU16LE | .u16, .be => Mini.WriteU16BE
  | .u32, .le => Mini.WriteU32LE | .u32, .be => Mini.WriteU32BE
  | .u64, .le => Mini.WriteU64LE | .u64, .be => Mini.WriteU64BE

/-- `MiniBuffer.Write⟨kind⟩⟨order⟩Next` -/
def Mini.WriteNext : (k : UKind) → Endian → List k.kind.Ty → GoM V3.St Unit
  | .u16, .le => Mini.WriteU16LENext | .u16, .be => Mini.WriteU16BENext
  | .u32, .le => Mini.WriteU32LENext | .u32, .be => Mini.WriteU32BENext
  | .u64, .le => Mini.WriteU64LENext | .u64, .be => Mini.WriteU64BENext

/-- `MiniBuffer.Read⟨kind⟩⟨order⟩` -/
def Mini.Read : (k : UKind) → Endian → Int64 → Int64 → GoM (V3.St × List k.kind.Ty) Unit
  | .u16, .le => Mini.ReadU16LE | .u16, .be => Mini.ReadU16BE
  | .u32, .le => Mini.ReadU32LE | .u32, .be => Mini.ReadU32BE
  | .u64, .le => Mini.ReadU64LE | .u64, .be => Mini.ReadU64BE

/-- `MiniBuffer.Read⟨kind⟩⟨order⟩Next` -/
def Mini.ReadNext : (k : UKind) → Endian → Int64 → GoM (V3.St × List k.kind.Ty) Unit
  | .u16, .le => Mini.ReadU16LENext | .u16, .be => Mini.ReadU16BENext
  | .u32, .le => Mini.ReadU32LENext | .u32, .be => Mini.ReadU32BENext
  | .u64, .le => Mini.ReadU64LENext | .u64, .be => Mini.ReadU64BENext

/-- One method call with its arguments. -/
inductive Op2 where
  | write (k : UKind) (e : Endian) (pos : Option Int64) (data : List k.kind.Ty)
  | read (k : UKind) (e : Endian) (pos : Option Int64) (n : Int64)
  | writeBytes (pos : Option Int64) (src : Slice)
  | writeByte (pos : Option Int64) (v : UInt8)
  | readBytes (pos : Option Int64) (n : Int64)
  | readByte (pos : Option Int64)
  | readBit (pos : Option Int64)
  | readBits (pos : Option Int64) (n : Int64)
  | setBit (pos : Option Int64) (data : UInt8)
  | flipBit (pos : Option Int64)
  | setBits (pos : Option Int64) (data : UInt64) (n : Int64)
  | clearAll
  | setAll
  | flipAll
  | seek (off : Int64) (relative : Bool)
  | seekBit (off : Int64) (relative : Bool)
  | after (off : List Int64)
  | afterBit (off : List Int64)
  | alignByte
  | alignBit
  | grow (n : Int64)
  | refresh
  | reset
  | bytes
  | capacity
  | bitCapacity
  | offset
  | bitOffset

/-- Wrap a result. -/
def wrapVal (f : α → Val) (p : Prog α) : Prog Val := p.bind fun a => .ret (f a)

/-- Perform a call. -/
def exec : Op2 → Prog Val
  | .write k e (some o) data => wrapVal (fun _ => .unit) (Buffer.Write k e o data)
  | .write k e none data => wrapVal (fun _ => .unit) (Buffer.WriteNext k e data)
  | .read k e (some o) n => wrapVal (.typed k.kind) (Buffer.Read k e o n)
  | .read k e none n => wrapVal (.typed k.kind) (Buffer.ReadNext k e n)
  | .writeBytes (some o) src => wrapVal (fun _ => .unit) (Buffer.WriteBytes o src)
  | .writeBytes none src => wrapVal (fun _ => .unit) (Buffer.WriteBytesNext src)
  | .writeByte (some o) v => wrapVal (fun _ => .unit) (Buffer.WriteByte o v)
  | .writeByte none v => wrapVal (fun _ => .unit) (Buffer.WriteByteNext v)
  | .readBytes (some o) n => wrapVal .slice (Buffer.ReadBytes o n)
  | .readBytes none n => wrapVal .slice (Buffer.ReadBytesNext n)
  | .readByte (some o) => wrapVal .u8 (Buffer.ReadByte o)
  | .readByte none => wrapVal .u8 Buffer.ReadByteNext
  | .readBit (some o) => wrapVal .u8 (Buffer.ReadBit o)
  | .readBit none => wrapVal .u8 Buffer.ReadBitNext
  | .readBits (some o) n => wrapVal .u64 (Buffer.ReadBits o n)
  | .readBits none n => wrapVal .u64 (Buffer.ReadBitsNext n)
  | .setBit (some o) v => wrapVal (fun _ => .unit) (Buffer.SetBit o v)
  | .setBit none v => wrapVal (fun _ => .unit) (Buffer.SetBitNext v)
  | .flipBit (some o) => wrapVal (fun _ => .unit) (Buffer.FlipBit o)
  | .flipBit none => wrapVal (fun _ => .unit) Buffer.FlipBitNext
  | .setBits (some o) d n => wrapVal (fun _ => .unit) (Buffer.SetBits o d n)
  | .setBits none d n => wrapVal (fun _ => .unit) (Buffer.SetBitsNext d n)
  | .clearAll => wrapVal (fun _ => .unit) Buffer.ClearAllBits
  | .setAll => wrapVal (fun _ => .unit) Buffer.SetAllBits
  | .flipAll => wrapVal (fun _ => .unit) Buffer.FlipAllBits
  | .seek o r => wrapVal (fun _ => .unit) (Buffer.Seek o r)
  | .seekBit o r => wrapVal (fun _ => .unit) (Buffer.SeekBit o r)
  | .after o => wrapVal .i64 (Buffer.After o)
  | .afterBit o => wrapVal .i64 (Buffer.AfterBit o)
  | .alignByte => wrapVal (fun _ => .unit) Buffer.AlignByte
  | .alignBit => wrapVal (fun _ => .unit) Buffer.AlignBit
  | .grow n => wrapVal (fun _ => .unit) (Buffer.Grow n)
  | .refresh => wrapVal (fun _ => .unit) Buffer.Refresh
  | .reset => wrapVal (fun _ => .unit) Buffer.Reset
  | .bytes => wrapVal .slice Buffer.Bytes
  | .capacity => wrapVal .i64 Buffer.Capacity
  | .bitCapacity => wrapVal .i64 Buffer.BitCapacity
  | .offset => wrapVal .i64 Buffer.Offset
  | .bitOffset => wrapVal .i64 Buffer.BitOffset

/-- The v3 call with the same meaning.  v3 has no `SetBit` with a value: it has `ClearBit` and `SetBit`. -/
def toV3 : Op2 → Option Op
  | .write k e p d => some (.write k.kind e p d)
  | .read k e p n => some (.read k.kind e p n)
  | .writeBytes p s => some (.writeBytes p s)
  | .writeByte p v => some (.writeByte p v)
  | .readBytes p n => some (.readBytes p n)
  | .readByte p => some (.readByte p)
  | .readBit p => some (.readBit p)
  | .readBits p n => some (.readBits p n)
  | .setBit p v => if v = 0 then some (.clearBit p) else if v = 1 then some (.setBit p) else none
  | .flipBit p => some (.flipBit p)
  | .setBits p d n => some (.setBits p d n)
  | .clearAll => some .clearAll
  | .setAll => some .setAll
  | .flipAll => some .flipAll
  | .seek o r => some (.seekByte o r)
  | .seekBit o r => some (.seekBit o r)
  | .after o => some (.afterByte o)
  | .afterBit o => some (.afterBit o)
  | .alignByte => some .alignByte
  | .alignBit => some .alignBit
  | .grow n => some (.grow n)
  | .refresh => some .refresh
  | .reset => some .reset
  | .bytes => some .bytes
  | .capacity => some .byteCapacity
  | .bitCapacity => some .bitCapacity
  | .offset => some .byteOffset
  | .bitOffset => some .bitOffset

end Crunch.V2
