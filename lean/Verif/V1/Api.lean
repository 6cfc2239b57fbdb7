import Verif.V1.Mini
import Verif.V2.Api

/-!
The public methods of v1 `Buffer` as data.  Positioned and Next variants share a constructor: `some off` is the
positioned method, `none` the Next one.
-/

namespace Crunch.V1
open V3 (Val)

/-- What a call returns: a value as in v3, or the `interface{}` of `ReadComplex`. -/
inductive Val1 where
  | val (v : Val)
  | any (a : Any)

/-- One method call with its arguments. -/
inductive Op1 where
  | writeComplex (pos : Option Int64) (data : Any) (size : Int64) (endian : ByteOrder)
  | readComplex (pos : Option Int64) (n size : Int64) (endian : ByteOrder)
  | writeBytes (pos : Option Int64) (src : Slice)
  | writeByte (pos : Option Int64) (v : UInt8)
  | readBytes (pos : Option Int64) (n : Int64)
  | readByte (pos : Option Int64)
  | readBit (pos : Option Int64)
  | readBits (pos : Option Int64) (n : Int64)
  | setBit (pos : Option Int64) (data : UInt8)
  | flipBit (pos : Option Int64)
  | setBits (pos : Option Int64) (data : UInt64) (n : Int64)
  | clearAll
  | setAll
  | flipAll
  | seek (off : Int64) (relative : Bool)
  | seekBit (off : Int64) (relative : Bool)
  | after (off : List Int64)
  | afterBit (off : List Int64)
  | alignByte
  | alignBit
  | grow (n : Int64)
  | refresh
  | bytes
  | capacity
  | bitCapacity
  | offset
  | bitOffset

/-- Wrap a result. -/
def wrap1 (f : α → Val) (p : Prog α) : Prog Val1 := p.bind fun a => .ret (.val (f a))

/-- Perform a call. -/
def exec1 : Op1 → Prog Val1
  | .writeComplex (some o) d w e => wrap1 (fun _ => .unit) (Buffer.WriteComplex o d w e)
  | .writeComplex none d w e => wrap1 (fun _ => .unit) (Buffer.WriteComplexNext d w e)
  | .readComplex (some o) n w e => (Buffer.ReadComplex o n w e).bind fun a => .ret (.any a)
  | .readComplex none n w e => (Buffer.ReadComplexNext n w e).bind fun a => .ret (.any a)
  | .writeBytes (some o) src => wrap1 (fun _ => .unit) (Buffer.WriteBytes o src)
  | .writeBytes none src => wrap1 (fun _ => .unit) (Buffer.WriteBytesNext src)
  | .writeByte (some o) v => wrap1 (fun _ => .unit) (Buffer.WriteByte o v)
  | .writeByte none v => wrap1 (fun _ => .unit) (Buffer.WriteByteNext v)
  | .readBytes (some o) n => wrap1 .slice (Buffer.ReadBytes o n)
  | .readBytes none n => wrap1 .slice (Buffer.ReadBytesNext n)
  | .readByte (some o) => wrap1 .u8 (Buffer.ReadByte o)
  | .readByte none => wrap1 .u8 Buffer.ReadByteNext
  | .readBit (some o) => wrap1 .u8 (Buffer.ReadBit o)
  | .readBit none => wrap1 .u8 Buffer.ReadBitNext
  | .readBits (some o) n => wrap1 .u64 (Buffer.ReadBits o n)
  | .readBits none n => wrap1 .u64 (Buffer.ReadBitsNext n)
  | .setBit (some o) v => wrap1 (fun _ => .unit) (Buffer.SetBit o v)
  | .setBit none v => wrap1 (fun _ => .unit) (Buffer.SetBitNext v)
  | .flipBit (some o) => wrap1 (fun _ => .unit) (Buffer.FlipBit o)
  | .flipBit none => wrap1 (fun _ => .unit) Buffer.FlipBitNext
  | .setBits (some o) d n => wrap1 (fun _ => .unit) (Buffer.SetBits o d n)
  | .setBits none d n => wrap1 (fun _ => .unit) (Buffer.SetBitsNext d n)
  | .clearAll => wrap1 (fun _ => .unit) Buffer.ClearAllBits
  | .setAll => wrap1 (fun _ => .unit) Buffer.SetAllBits
  | .flipAll => wrap1 (fun _ => .unit) Buffer.FlipAllBits
  | .seek o r => wrap1 (fun _ => .unit) (Buffer.Seek o r)
  | .seekBit o r => wrap1 (fun _ => .unit) (Buffer.SeekBit o r)
  | .after o => wrap1 .i64 (Buffer.After o)
  | .afterBit o => wrap1 .i64 (Buffer.AfterBit o)
  | .alignByte => wrap1 (fun _ => .unit) Buffer.AlignByte
  | .alignBit => wrap1 (fun _ => .unit) Buffer.AlignBit
  | .grow n => wrap1 (fun _ => .unit) (Buffer.Grow n)
  | .refresh => wrap1 (fun _ => .unit) Buffer.Refresh
  | .bytes => wrap1 .slice Buffer.Bytes
  | .capacity => wrap1 .i64 Buffer.Capacity
  | .bitCapacity => wrap1 .i64 Buffer.BitCapacity
  | .offset => wrap1 .i64 Buffer.Offset
  | .bitOffset => wrap1 .i64 Buffer.BitOffset

/-- The v2 call of the same name; v2 has no `WriteComplex` and no `ReadComplex`. -/
def toV2 : Op1 → Option V2.Op2
  | .writeComplex .. => none
  | .readComplex .. => none
  | .writeBytes p s => some (.writeBytes p s)
  | .writeByte p v => some (.writeByte p v)
  | .readBytes p n => some (.readBytes p n)
  | .readByte p => some (.readByte p)
  | .readBit p => some (.readBit p)
  | .readBits p n => some (.readBits p n)
  | .setBit p v => some (.setBit p v)
  | .flipBit p => some (.flipBit p)
  | .setBits p d n => some (.setBits p d n)
  | .clearAll => some .clearAll
  | .setAll => some .setAll
  | .flipAll => some .flipAll
  | .seek o r => some (.seek o r)
  | .seekBit o r => some (.seekBit o r)
  | .after o => some (.after o)
  | .afterBit o => some (.afterBit o)
  | .alignByte => some .alignByte
  | .alignBit => some .alignBit
  | .grow n => some (.grow n)
  | .refresh => some .refresh
  | .bytes => some .bytes
  | .capacity => some .capacity
  | .bitCapacity => some .bitCapacity
  | .offset => some .offset
  | .bitOffset => some .bitOffset

end Crunch.V1
