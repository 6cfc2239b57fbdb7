import Verif.V1.MiniApi
import Verif.V2.MiniApi
import Verif.V3.MiniApi
import Verif.Props.V1Seq

/-!
# One wire format for all versions

The typed Next writers and readers that all six buffer types have: unsigned integers of 16, 32 and 64 bits in either byte order.
`write` and `read` make one such call on a buffer of the given library that nobody else uses.
-/

namespace Crunch.Wire
open V3 (St)
open Spec (Endian)

/-- The buffer types. -/
inductive Lib where
  | v1 | v1mini | v2 | v2mini | v3 | v3mini
deriving DecidableEq, Repr

/-- One message. -/
structure Msg where
  k : V2.UKind
  e : Endian
  data : List k.kind.Ty

/-- What a reader has to know of it. -/
structure Head where
  k : V2.UKind
  e : Endian
  n : Nat

def Msg.head (m : Msg) : Head := ⟨m.k, m.e, m.data.length⟩

/-- The result, if there is one. -/
def Res.get? : Res α → Option α
  | .ok a => some a
  | .panic _ => none

/-- Result and state of a call that returns. -/
def ended (r : Res α × St) : Option (α × St) := (Res.get? r.1).map fun a => (a, r.2)

/-- The same where there is a mutex, which has to be free afterwards. -/
def endedFree (r : Res α × Sh) : Option (α × St) := if r.2.locked then none else (Res.get? r.1).map fun a => (a, r.2.st)

/-- The integers in an `interface{}` that holds a slice of them. -/
def integers : (k : V2.UKind) → V1.Any → Option (List k.kind.Ty)
  | .u16, .u16 l => some l
  | .u32, .u32 l => some l
  | .u64, .u64 l => some l
  | _, _ => none

/-- `WriteU16LENext` … `WriteU64BENext` (v2/buffer.go:1215-1260, v2/minibuf.go:865-910, v3/buffer.generated.go:426-600,
v3/minibuf.generated.go:342-486), in v1 `WriteComplexNext` (v1/buffer.go:667-672, v1/minibuf.go:531-534).  `none` if the call panics or leaves the mutex taken. -/
def write (lib : Lib) (m : Msg) (s : St) : Option St :=
  Option.map (·.2) (match lib with
  | .v1 => endedFree ((V1.Buffer.WriteComplexNext (V1.asAny m.k m.data) (V1.sizeOf m.k) (some m.e)).run ⟨s, false⟩)
  | .v1mini => ended (V1.Mini.WriteComplexNext (V1.asAny m.k m.data) (V1.sizeOf m.k) (some m.e) s)
  | .v2 => endedFree ((V2.Buffer.WriteNext m.k m.e m.data).run ⟨s, false⟩)
  | .v2mini => ended (V2.Mini.WriteNext m.k m.e m.data s)
  | .v3 => ended (V3.Buffer.WriteNext m.k.kind m.e m.data s)
  | .v3mini => ended (V3.Mini.WriteNext m.k.kind m.e m.data s) : Option (Unit × St))

/-- The variables a `MiniBuffer` is given for the result. -/
structure Var (k : V2.UKind) where
  list : List k.kind.Ty
  any : V1.Any

/-- `ReadU16LENext` … `ReadU64BENext` (v2/buffer.go:1089-1140, v2/minibuf.go:760-805, v3/buffer.generated.go:1018-1182,
v3/minibuf.generated.go:805-923), in v1 `ReadComplexNext` (v1/buffer.go:621-627, v1/minibuf.go:501-504). -/
def read (lib : Lib) (h : Head) (x : Var h.k) (s : St) : Option (Msg × St) :=
  Option.map (fun r => (⟨h.k, h.e, r.1⟩, r.2)) (match lib with
  | .v1 => (endedFree ((V1.Buffer.ReadComplexNext (Int64.ofNat h.n) (V1.sizeOf h.k) (some h.e)).run ⟨s, false⟩)).bind fun r =>
      (integers h.k r.1).map fun l => (l, r.2)
  | .v1mini => (ended (V3.Mini.callOut (V1.Mini.ReadComplexNext (Int64.ofNat h.n) (V1.sizeOf h.k) (some h.e)) x.any s)).bind fun r =>
      (integers h.k r.1).map fun l => (l, r.2)
  | .v2 => endedFree ((V2.Buffer.ReadNext h.k h.e (Int64.ofNat h.n)).run ⟨s, false⟩)
  | .v2mini => ended (V3.Mini.callOut (V2.Mini.ReadNext h.k h.e (Int64.ofNat h.n)) x.list s)
  | .v3 => ended (V3.Buffer.ReadNext h.k.kind h.e (Int64.ofNat h.n) s)
  | .v3mini => ended (V3.Mini.callOut (V3.Mini.ReadNext h.k.kind h.e (Int64.ofNat h.n)) x.list s) : Option (List h.k.kind.Ty × St))

/-- Write a list of messages, each with a library of its own; `none` if one of the calls fails. -/
def writeAll : List (Lib × Msg) → St → Option St
  | [], s => some s
  | (lib, m) :: l, s => (write lib m s).bind (writeAll l)

/-- Read messages, each with a library of its own; `x` gives the variables for the result. -/
def readAll (x : (h : Head) → Var h.k) : List (Lib × Head) → St → Option (List Msg × St)
  | [], s => some ([], s)
  | (lib, h) :: l, s => (read lib h (x h) s).bind fun r => (readAll x l r.2).map fun t => (r.1 :: t.1, t.2)

/-- The bytes of a message: one integer after the other, in its byte order. -/
def Msg.bytes (m : Msg) : List UInt8 := m.data.flatMap fun x => Spec.encode m.e m.k.kind.size (m.k.kind.pat x)

/-- Their number. -/
def size (ms : List Msg) : Nat := (ms.map fun m => m.data.length * m.k.kind.size).sum

end Crunch.Wire
