import Verif.Src.Sem
import Verif.V3.MiniApi

/-!
How a call of the model is written in Go: the name of the method, its arguments, and what the result is as a value of the interpreter.
-/

namespace Crunch.Src

open Crunch.Gen (Str)
open Spec (Endian)

/-- The part of a method name for the element type. -/
def kindName : V3.Kind → Str
  | .u16 => str% "U16" | .u32 => str% "U32" | .u64 => str% "U64"
  | .i16 => str% "I16" | .i32 => str% "I32" | .i64 => str% "I64"
  | .f32 => str% "F32" | .f64 => str% "F64"

/-- The part of a method name for the byte order. -/
def orderName : Endian → Str
  | .le => str% "LE"
  | .be => str% "BE"

/-- The name of the Next form of a method if no position is given. -/
def nextName (name : Str) : Option Int64 → Str
  | some _ => name
  | none => name ++ str% "Next"

/-- The name of the method. -/
def goName : V3.Op → Str
  | .write k e p _ => nextName (str% "Write" ++ kindName k ++ orderName e) p
  | .read k e p _ => nextName (str% "Read" ++ kindName k ++ orderName e) p
  | .writeBytes p _ => nextName (str% "WriteBytes") p
  | .writeByte p _ => nextName (str% "WriteByte") p
  | .readBytes p _ => nextName (str% "ReadBytes") p
  | .readByte p => nextName (str% "ReadByte") p
  | .readBit p => nextName (str% "ReadBit") p
  | .readBits p _ => nextName (str% "ReadBits") p
  | .setBit p => nextName (str% "SetBit") p
  | .clearBit p => nextName (str% "ClearBit") p
  | .flipBit p => nextName (str% "FlipBit") p
  | .setBits p _ _ => nextName (str% "SetBits") p
  | .clearAll => str% "ClearAllBits"
  | .setAll => str% "SetAllBits"
  | .flipAll => str% "FlipAllBits"
  | .seekByte _ _ => str% "SeekByte"
  | .seekBit _ _ => str% "SeekBit"
  | .afterByte _ => str% "AfterByte"
  | .afterBit _ => str% "AfterBit"
  | .alignByte => str% "AlignByte"
  | .alignBit => str% "AlignBit"
  | .truncateLeft _ => str% "TruncateLeft"
  | .truncateRight _ => str% "TruncateRight"
  | .grow _ => str% "Grow"
  | .refresh => str% "Refresh"
  | .reset => str% "Reset"
  | .bytes => str% "Bytes"
  | .byteCapacity => str% "ByteCapacity"
  | .bitCapacity => str% "BitCapacity"
  | .byteOffset => str% "ByteOffset"
  | .bitOffset => str% "BitOffset"

/-- A typed slice as a value. -/
def goList : (k : V3.Kind) → List k.Ty → V
  | .u16 => .lu16 | .u32 => .lu32 | .u64 => .lu64
  | .i16 => .li16 | .i32 => .li32 | .i64 => .li64
  | .f32 => .lf32 | .f64 => .lf64

/-- The position, where one is given, before other arguments. -/
def atPos (p : Option Int64) (l : List V) : List V :=
  match p with
  | some o => .i64 o :: l
  | none => l

/-- The arguments of the call, other than a result variable. -/
def goArgs : V3.Op → List V
  | .write k _ p data => atPos p [goList k data]
  | .read _ _ p n => atPos p [.i64 n]
  | .writeBytes p src => atPos p [.bytes (.mem src)]
  | .writeByte p v => atPos p [.u8 v]
  | .readBytes p n => atPos p [.i64 n]
  | .readByte p => atPos p []
  | .readBit p => atPos p []
  | .readBits p n => atPos p [.i64 n]
  | .setBit p => atPos p []
  | .clearBit p => atPos p []
  | .flipBit p => atPos p []
  | .setBits p data n => atPos p [.u64 data, .i64 n]
  | .seekByte o r => [.i64 o, .bool r]
  | .seekBit o r => [.i64 o, .bool r]
  | .afterByte o => [.li64 o]
  | .afterBit o => [.li64 o]
  | .truncateLeft n => [.i64 n]
  | .truncateRight n => [.i64 n]
  | .grow n => [.i64 n]
  | _ => []

/-- A result as a value. -/
def goVal : V3.Val → V
  | .unit => .unit
  | .u8 v => .u8 v
  | .u64 v => .u64 v
  | .i64 v => .i64 v
  | .slice s => .bytes (.mem s)
  | .typed k l => goList k l

/-- The outcome with the result as a value. -/
def goRes : Res V3.Val → Res V
  | .ok v => .ok (goVal v)
  | .panic p => .panic p

/-- The variadic arguments are a slice that Go can have. -/
def Fits : V3.Op → Prop
  | .afterByte o => o.length < 2 ^ 63
  | .afterBit o => o.length < 2 ^ 63
  | _ => True

/-- What the result variable of a `MiniBuffer` method holds before the call, for the methods that have one. -/
def goOut (o : V3.Outs) : V3.Op → Option V
  | .read k _ _ _ => some (goList k (o.typed k))
  | .readBytes _ _ => some (.bytes (.mem o.slice))
  | .readBit _ => some (.u8 o.u8)
  | .readBits _ _ => some (.u64 o.u64)
  | .afterByte _ => some (.i64 o.i64)
  | .afterBit _ => some (.i64 o.i64)
  | .bytes => some (.bytes (.mem o.slice))
  | .byteCapacity => some (.i64 o.i64)
  | .bitCapacity => some (.i64 o.i64)
  | .byteOffset => some (.i64 o.i64)
  | .bitOffset => some (.i64 o.i64)
  | _ => none

/-- A call on a v3 `Buffer`, or of a function without a result variable on a `MiniBuffer`. -/
def Pkg.callBuf (p : Pkg) (fuel depth : Nat) (name : Str) (args : List V) : GoM (V3.St × V) V := p.call fuel depth name args

/-- The call of a `MiniBuffer` method; the value is that of the result variable afterwards, if there is one. -/
def Pkg.callMini (p : Pkg) (fuel depth : Nat) (name : Str) (args : List V) (out : Option V) : GoM (V3.St × V) V :=
  match out with
  | none => p.call fuel depth name args
  | some v => Sem.withOut v do
    let _ ← (p.call fuel depth name (.ptr :: args) : GoM (V3.St × V) V)

end Crunch.Src
