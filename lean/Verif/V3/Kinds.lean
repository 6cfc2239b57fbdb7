import Verif.V3.BufferTyped
import Verif.V3.MiniTyped
import Verif.Spec

/-!
The 8 element types and 2 byte orders of the typed accessors, and the name
of the accessor for each combination (the Go methods are named this way; the
dispatch is only a way to quantify over the 2 × 16 methods of each family).
-/

namespace Crunch.V3
open Spec

/-- The element types that occur in the accessor names `U16 … F64`
(v3/_buffer.go:400-510, the `generator:complex` directives). -/
inductive Kind where
  | u16 | u32 | u64 | i16 | i32 | i64 | f32 | f64
deriving DecidableEq, Repr

/-- The Go element type of a kind. -/
@[reducible] def Kind.Ty : Kind → Type
  | .u16 => UInt16 | .u32 => UInt32 | .u64 => UInt64
  | .i16 => Int16 | .i32 => Int32 | .i64 => Int64
  | .f32 => F32 | .f64 => F64

/-- Element size in bytes. -/
def Kind.size : Kind → Nat
  | .u16 | .i16 => 2
  | .u32 | .i32 | .f32 => 4
  | .u64 | .i64 | .f64 => 8

/-- The bit pattern of an element as a number below `256 ^ size`: two's complement for
the signed types, the IEEE representation for the floats. -/
def Kind.pat : (k : Kind) → k.Ty → Nat
  | .u16, x => x.toNat
  | .u32, x => x.toNat
  | .u64, x => x.toNat
  | .i16, x => (x.toInt % 2 ^ 16).toNat
  | .i32, x => (x.toInt % 2 ^ 32).toNat
  | .i64, x => (x.toInt % 2 ^ 64).toNat
  | .f32, x => x.bits.toNat
  | .f64, x => x.bits.toNat

/-- The Go zero value. -/
def Kind.zero : (k : Kind) → k.Ty
  | .u16 => 0 | .u32 => 0 | .u64 => 0 | .i16 => 0 | .i32 => 0 | .i64 => 0
  | .f32 => ⟨0⟩ | .f64 => ⟨0⟩

/-- `Buffer.Write⟨kind⟩⟨order⟩` -/
def Buffer.Write : (k : Kind) → Endian → Int64 → List k.Ty → GoM St Unit
  | .u16, .le => Buffer.WriteU16LE | .u16, .be => Buffer.WriteU16BE
  | .u32, .le => Buffer.WriteU32LE | .u32, .be => Buffer.WriteU32BE
  | .u64, .le => Buffer.WriteU64LE | .u64, .be => Buffer.WriteU64BE
  | .i16, .le => Buffer.WriteI16LE | .i16, .be => Buffer.WriteI16BE
  | .i32, .le => Buffer.WriteI32LE | .i32, .be => Buffer.WriteI32BE
  | .i64, .le => Buffer.WriteI64LE | .i64, .be => Buffer.WriteI64BE
  | .f32, .le => Buffer.WriteF32LE | .f32, .be => Buffer.WriteF32BE
  | .f64, .le => Buffer.WriteF64LE | .f64, .be => Buffer.WriteF64BE

/-- `Buffer.Write⟨kind⟩⟨order⟩Next` -/
def Buffer.WriteNext : (k : Kind) → Endian → List k.Ty → GoM St Unit
  | .u16, .le => Buffer.WriteU16LENext | .u16, .be => Buffer.WriteU16BENext
  | .u32, .le => Buffer.WriteU32LENext | .u32, .be => Buffer.WriteU32BENext
  | .u64, .le => Buffer.WriteU64LENext | .u64, .be => Buffer.WriteU64BENext
  | .i16, .le => Buffer.WriteI16LENext | .i16, .be => Buffer.WriteI16BENext
  | .i32, .le => Buffer.WriteI32LENext | .i32, .be => Buffer.WriteI32BENext
  | .i64, .le => Buffer.WriteI64LENext | .i64, .be => Buffer.WriteI64BENext
  | .f32, .le => Buffer.WriteF32LENext | .f32, .be => Buffer.WriteF32BENext
  | .f64, .le => Buffer.WriteF64LENext | .f64, .be => Buffer.WriteF64BENext

/-- `Buffer.Read⟨kind⟩⟨order⟩` -/
def Buffer.Read : (k : Kind) → Endian → Int64 → Int64 → GoM St (List k.Ty)
  | .u16, .le => Buffer.ReadU16LE | .u16, .be => Buffer.ReadU16BE
  | .u32, .le => Buffer.ReadU32LE | .u32, .be => Buffer.ReadU32BE
  | .u64, .le => Buffer.ReadU64LE | .u64, .be => Buffer.ReadU64BE
  | .i16, .le => Buffer.ReadI16LE | .i16, .be => Buffer.ReadI16BE
  | .i32, .le => Buffer.ReadI32LE | .i32, .be => Buffer.ReadI32BE
  | .i64, .le => Buffer.ReadI64LE | .i64, .be => Buffer.ReadI64BE
  | .f32, .le => Buffer.ReadF32LE | .f32, .be => Buffer.ReadF32BE
  | .f64, .le => Buffer.ReadF64LE | .f64, .be => Buffer.ReadF64BE

/-- `Buffer.Read⟨kind⟩⟨order⟩Next` -/
def Buffer.ReadNext : (k : Kind) → Endian → Int64 → GoM St (List k.Ty)
  | .u16, .le => Buffer.ReadU16LENext | .u16, .be => Buffer.ReadU16BENext
  | .u32, .le => Buffer.ReadU32LENext | .u32, .be => Buffer.ReadU32BENext
  | .u64, .le => Buffer.ReadU64LENext | .u64, .be => Buffer.ReadU64BENext
  | .i16, .le => Buffer.ReadI16LENext | .i16, .be => Buffer.ReadI16BENext
  | .i32, .le => Buffer.ReadI32LENext | .i32, .be => Buffer.ReadI32BENext
  | .i64, .le => Buffer.ReadI64LENext | .i64, .be => Buffer.ReadI64BENext
  | .f32, .le => Buffer.ReadF32LENext | .f32, .be => Buffer.ReadF32BENext
  | .f64, .le => Buffer.ReadF64LENext | .f64, .be => Buffer.ReadF64BENext

/-- `MiniBuffer.Write⟨kind⟩⟨order⟩` -/
def Mini.Write : (k : Kind) → Endian → Int64 → List k.Ty → GoM St Unit
  | .u16, .le => Mini.WriteU16LE | .u16, .be => Mini.WriteU16BE
  | .u32, .le => Mini.WriteU32LE | .u32, .be => Mini.WriteU32BE
  | .u64, .le => Mini.WriteU64LE | .u64, .be => Mini.WriteU64BE
  | .i16, .le => Mini.WriteI16LE | .i16, .be => Mini.WriteI16BE
  | .i32, .le => Mini.WriteI32LE | .i32, .be => Mini.WriteI32BE
  | .i64, .le => Mini.WriteI64LE | .i64, .be => Mini.WriteI64BE
  | .f32, .le => Mini.WriteF32LE | .f32, .be => Mini.WriteF32BE
  | .f64, .le => Mini.WriteF64LE | .f64, .be => Mini.WriteF64BE

/-- `MiniBuffer.Write⟨kind⟩⟨order⟩Next` -/
def Mini.WriteNext : (k : Kind) → Endian → List k.Ty → GoM St Unit
  | .u16, .le => Mini.WriteU16LENext | .u16, .be => Mini.WriteU16BENext
  | .u32, .le => Mini.WriteU32LENext | .u32, .be => Mini.WriteU32BENext
  | .u64, .le => Mini.WriteU64LENext | .u64, .be => Mini.WriteU64BENext
  | .i16, .le => Mini.WriteI16LENext | .i16, .be => Mini.WriteI16BENext
  | .i32, .le => Mini.WriteI32LENext | .i32, .be => Mini.WriteI32BENext
  | .i64, .le => Mini.WriteI64LENext | .i64, .be => Mini.WriteI64BENext
  | .f32, .le => Mini.WriteF32LENext | .f32, .be => Mini.WriteF32BENext
  | .f64, .le => Mini.WriteF64LENext | .f64, .be => Mini.WriteF64BENext

/-- `MiniBuffer.Read⟨kind⟩⟨order⟩` -/
def Mini.Read : (k : Kind) → Endian → Int64 → Int64 → GoM (St × List k.Ty) Unit
  | .u16, .le => Mini.ReadU16LE | .u16, .be => Mini.ReadU16BE
  | .u32, .le => Mini.ReadU32LE | .u32, .be => Mini.ReadU32BE
  | .u64, .le => Mini.ReadU64LE | .u64, .be => Mini.ReadU64BE
  | .i16, .le => Mini.ReadI16LE | .i16, .be => Mini.ReadI16BE
  | .i32, .le => Mini.ReadI32LE | .i32, .be => Mini.ReadI32BE
  | .i64, .le => Mini.ReadI64LE | .i64, .be => Mini.ReadI64BE
  | .f32, .le => Mini.ReadF32LE | .f32, .be => Mini.ReadF32BE
  | .f64, .le => Mini.ReadF64LE | .f64, .be => Mini.ReadF64BE

/-- `MiniBuffer.Read⟨kind⟩⟨order⟩Next` -/
def Mini.ReadNext : (k : Kind) → Endian → Int64 → GoM (St × List k.Ty) Unit
  | .u16, .le => Mini.ReadU16LENext | .u16, .be => Mini.ReadU16BENext
  | .u32, .le => Mini.ReadU32LENext | .u32, .be => Mini.ReadU32BENext
  | .u64, .le => Mini.ReadU64LENext | .u64, .be => Mini.ReadU64BENext
  | .i16, .le => Mini.ReadI16LENext | .i16, .be => Mini.ReadI16BENext
  | .i32, .le => Mini.ReadI32LENext | .i32, .be => Mini.ReadI32BENext
  | .i64, .le => Mini.ReadI64LENext | .i64, .be => Mini.ReadI64BENext
  | .f32, .le => Mini.ReadF32LENext | .f32, .be => Mini.ReadF32BENext
  | .f64, .le => Mini.ReadF64LENext | .f64, .be => Mini.ReadF64BENext

end Crunch.V3
