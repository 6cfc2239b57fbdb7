import Verif.Spec

/-!
# `encoding/binary`

The parameter of type `binary.ByteOrder` is one of the two byte orders the package offers (v1/crunch.go:17-23) or nil; other
implementations of the interface are not modelled.  The bodies are those of the Go standard library.
-/

namespace Crunch.V1
open Spec (Endian)

/-- A `binary.ByteOrder`: `none` is nil. -/
abbrev ByteOrder := Option Endian

/-- The content of a two-byte slice after `PutUint16`. -/
def put16 : Endian → UInt16 → List UInt8
  | .le, v => [v.toUInt8, (v >>> 8).toUInt8]
  | .be, v => [(v >>> 8).toUInt8, v.toUInt8]
/-- The content of a four-byte slice after `PutUint32`. -/
def put32 : Endian → UInt32 → List UInt8
  | .le, v => [v.toUInt8, (v >>> 8).toUInt8, (v >>> 16).toUInt8, (v >>> 24).toUInt8]
  | .be, v => [(v >>> 24).toUInt8, (v >>> 16).toUInt8, (v >>> 8).toUInt8, v.toUInt8]
/-- The content of an eight-byte slice after `PutUint64`. -/
def put64 : Endian → UInt64 → List UInt8
  | .le, v => [v.toUInt8, (v >>> 8).toUInt8, (v >>> 16).toUInt8, (v >>> 24).toUInt8,
      (v >>> 32).toUInt8, (v >>> 40).toUInt8, (v >>> 48).toUInt8, (v >>> 56).toUInt8]
  | .be, v => [(v >>> 56).toUInt8, (v >>> 48).toUInt8, (v >>> 40).toUInt8, (v >>> 32).toUInt8,
      (v >>> 24).toUInt8, (v >>> 16).toUInt8, (v >>> 8).toUInt8, v.toUInt8]

/-- `Uint16(b)` of two bytes `b[0], b[1]`. -/
def get16 : Endian → UInt8 → UInt8 → UInt16
  | .le, b0, b1 => b0.toUInt16 ||| b1.toUInt16 <<< 8
  | .be, b0, b1 => b1.toUInt16 ||| b0.toUInt16 <<< 8
/-- `Uint32(b)` -/
def get32 : Endian → UInt8 → UInt8 → UInt8 → UInt8 → UInt32
  | .le, b0, b1, b2, b3 => b0.toUInt32 ||| b1.toUInt32 <<< 8 ||| b2.toUInt32 <<< 16 ||| b3.toUInt32 <<< 24
  | .be, b0, b1, b2, b3 => b3.toUInt32 ||| b2.toUInt32 <<< 8 ||| b1.toUInt32 <<< 16 ||| b0.toUInt32 <<< 24
/-- `Uint64(b)` -/
def get64 : Endian → UInt8 → UInt8 → UInt8 → UInt8 → UInt8 → UInt8 → UInt8 → UInt8 → UInt64
  | .le, b0, b1, b2, b3, b4, b5, b6, b7 => b0.toUInt64 ||| b1.toUInt64 <<< 8 ||| b2.toUInt64 <<< 16 ||| b3.toUInt64 <<< 24 |||
      b4.toUInt64 <<< 32 ||| b5.toUInt64 <<< 40 ||| b6.toUInt64 <<< 48 ||| b7.toUInt64 <<< 56
  | .be, b0, b1, b2, b3, b4, b5, b6, b7 => b7.toUInt64 ||| b6.toUInt64 <<< 8 ||| b5.toUInt64 <<< 16 ||| b4.toUInt64 <<< 24 |||
      b3.toUInt64 <<< 32 ||| b2.toUInt64 <<< 40 ||| b1.toUInt64 <<< 48 ||| b0.toUInt64 <<< 56

end Crunch.V1
