import Verif.V3.Kinds

/-!
The public methods of v3 `Buffer` as data, to quantify over sequences of calls.  Positioned and
Next variants share a constructor: `some off` is the positioned method, `none` the Next one.
-/

namespace Crunch.V3
open Spec

/-- One method call with its arguments. -/
inductive Op where
  | write (k : Kind) (e : Endian) (pos : Option Int64) (data : List k.Ty)
  | read (k : Kind) (e : Endian) (pos : Option Int64) (n : Int64)
  | writeBytes (pos : Option Int64) (src : Slice)
  | writeByte (pos : Option Int64) (v : UInt8)
  | readBytes (pos : Option Int64) (n : Int64)
  | readByte (pos : Option Int64)
  | readBit (pos : Option Int64)
  | readBits (pos : Option Int64) (n : Int64)
  | setBit (pos : Option Int64)
  | clearBit (pos : Option Int64)
  | flipBit (pos : Option Int64)
  | setBits (pos : Option Int64) (data : UInt64) (n : Int64)
  | clearAll
  | setAll
  | flipAll
  | seekByte (off : Int64) (relative : Bool)
  | seekBit (off : Int64) (relative : Bool)
  | afterByte (off : List Int64)
  | afterBit (off : List Int64)
  | alignByte
  | alignBit
  | truncateLeft (n : Int64)
  | truncateRight (n : Int64)
  | grow (n : Int64)
  | refresh
  | reset
  | bytes
  | byteCapacity
  | bitCapacity
  | byteOffset
  | bitOffset

/-- What a call returns. -/
inductive Val where
  | unit
  | u8 (v : UInt8)
  | u64 (v : UInt64)
  | i64 (v : Int64)
  | slice (s : Slice)
  | typed (k : Kind) (l : List k.Ty)

/-- Wrap a result. -/
def wrapVal (f : α → Val) (m : GoM St α) : GoM St Val := m >>= fun a => pure (f a)

/-- Perform a call. -/
def exec : Op → GoM St Val
  | .write k e (some o) data => wrapVal (fun _ => .unit) (Buffer.Write k e o data)
  | .write k e none data => wrapVal (fun _ => .unit) (Buffer.WriteNext k e data)
  | .read k e (some o) n => wrapVal (.typed k) (Buffer.Read k e o n)
  | .read k e none n => wrapVal (.typed k) (Buffer.ReadNext k e n)
  | .writeBytes (some o) src => wrapVal (fun _ => .unit) (Buffer.WriteBytes o src)
  | .writeBytes none src => wrapVal (fun _ => .unit) (Buffer.WriteBytesNext src)
  | .writeByte (some o) v => wrapVal (fun _ => .unit) (Buffer.WriteByte o v)
  | .writeByte none v => wrapVal (fun _ => .unit) (Buffer.WriteByteNext v)
  | .readBytes (some o) n => wrapVal .slice (Buffer.ReadBytes o n)
  | .readBytes none n => wrapVal .slice (Buffer.ReadBytesNext n)
  | .readByte (some o) => wrapVal .u8 (Buffer.ReadByte o)
  | .readByte none => wrapVal .u8 Buffer.ReadByteNext
  | .readBit (some o) => wrapVal .u8 (Buffer.ReadBit o)
  | .readBit none => wrapVal .u8 Buffer.ReadBitNext
  | .readBits (some o) n => wrapVal .u64 (Buffer.ReadBits o n)
  | .readBits none n => wrapVal .u64 (Buffer.ReadBitsNext n)
  | .setBit (some o) => wrapVal (fun _ => .unit) (Buffer.SetBit o)
  | .setBit none => wrapVal (fun _ => .unit) Buffer.SetBitNext
  | .clearBit (some o) => wrapVal (fun _ => .unit) (Buffer.ClearBit o)
  | .clearBit none => wrapVal (fun _ => .unit) Buffer.ClearBitNext
  | .flipBit (some o) => wrapVal (fun _ => .unit) (Buffer.FlipBit o)
  | .flipBit none => wrapVal (fun _ => .unit) Buffer.FlipBitNext
  | .setBits (some o) d n => wrapVal (fun _ => .unit) (Buffer.SetBits o d n)
  | .setBits none d n => wrapVal (fun _ => .unit) (Buffer.SetBitsNext d n)
  | .clearAll => wrapVal (fun _ => .unit) Buffer.ClearAllBits
  | .setAll => wrapVal (fun _ => .unit) Buffer.SetAllBits
  | .flipAll => wrapVal (fun _ => .unit) Buffer.FlipAllBits
  | .seekByte o r => wrapVal (fun _ => .unit) (Buffer.SeekByte o r)
  | .seekBit o r => wrapVal (fun _ => .unit) (Buffer.SeekBit o r)
  | .afterByte o => wrapVal .i64 (Buffer.AfterByte o)
  | .afterBit o => wrapVal .i64 (Buffer.AfterBit o)
  | .alignByte => wrapVal (fun _ => .unit) Buffer.AlignByte
  | .alignBit => wrapVal (fun _ => .unit) Buffer.AlignBit
  | .truncateLeft n => wrapVal (fun _ => .unit) (Buffer.TruncateLeft n)
  | .truncateRight n => wrapVal (fun _ => .unit) (Buffer.TruncateRight n)
  | .grow n => wrapVal (fun _ => .unit) (Buffer.Grow n)
  | .refresh => wrapVal (fun _ => .unit) Buffer.Refresh
  | .reset => wrapVal (fun _ => .unit) Buffer.Reset
  | .bytes => wrapVal .slice Buffer.Bytes
  | .byteCapacity => wrapVal .i64 Buffer.ByteCapacity
  | .bitCapacity => wrapVal .i64 Buffer.BitCapacity
  | .byteOffset => wrapVal .i64 Buffer.ByteOffset
  | .bitOffset => wrapVal .i64 Buffer.BitOffset

/-- The argument slices exist: they are no larger than Go can allocate. -/
def Op.Arg : Op → Prop
  | .write k _ _ data => data.length * k.size ≤ maxAlloc
  | .writeBytes _ src => src.len ≤ maxAlloc
  | _ => True

/-- A sequence of calls; a panic is recovered by the caller and the sequence goes on. -/
def execAll : List Op → St → List (Res Val) × St
  | [], s => ([], s)
  | op :: ops, s => ((exec op s).1 :: (execAll ops (exec op s).2).1, (execAll ops (exec op s).2).2)

end Crunch.V3
