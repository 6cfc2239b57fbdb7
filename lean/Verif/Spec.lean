/-!
# Specification vocabulary

Small definitions, independent of the model, in which the properties are stated:
replacing a stretch of a byte list, positional byte encodings, bits of a byte list.
-/

namespace Crunch.Spec

/-- `l` with the bytes from position `p` on replaced by `bs`. -/
def patch (l : List UInt8) (p : Nat) (bs : List UInt8) : List UInt8 :=
  l.take p ++ bs ++ l.drop (p + bs.length)

/-- The stretch of `n` bytes at position `p`. -/
def slice (l : List UInt8) (p n : Nat) : List UInt8 := (l.drop p).take n

/-- Byte order. -/
inductive Endian where
  | le
  | be
deriving DecidableEq, Repr

/-- The `w` base-256 digits of `v`, least significant first. -/
def digits : Nat → Nat → List UInt8
  | 0, _ => []
  | w + 1, v => UInt8.ofNat (v % 256) :: digits w (v / 256)

/-- The number with the given base-256 digits, least significant first. -/
def value : List UInt8 → Nat
  | [] => 0
  | b :: bs => b.toNat + 256 * value bs

/-- The `w`-byte encoding of `v`. -/
def encode : Endian → Nat → Nat → List UInt8
  | .le, w, v => digits w v
  | .be, w, v => (digits w v).reverse

/-- Which base-256 digit (counted from the least significant) byte `j` of a `w`-byte encoding is. -/
def digitPos : Endian → Nat → Nat → Nat
  | .le, _, j => j
  | .be, w, j => w - 1 - j

/-- The value of an encoding. -/
def decode : Endian → List UInt8 → Nat
  | .le, bs => value bs
  | .be, bs => value bs.reverse

/-- Bit `i` of a byte list, most significant bit of byte 0 first. -/
def bit (l : List UInt8) (i : Nat) : Bool :=
  match l[i / 8]? with
  | some b => b.toNat.testBit (7 - i % 8)
  | none => false

/-- The number written by the bits `f 0, f 1, …, f (n-1)`, first bit most significant. -/
def binary (f : Nat → Bool) : Nat → Nat
  | 0 => 0
  | n + 1 => 2 * binary f n + (f n).toNat

end Crunch.Spec
