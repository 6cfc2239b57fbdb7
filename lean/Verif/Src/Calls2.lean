import Verif.Src.Calls
import Verif.V2.MiniApi

/-!
How a call of the v2 model is written in Go; see `Verif/Src/Calls.lean`.
-/

namespace Crunch.Src

open Crunch.Gen (Str)

/-- The functions of two files of a package. -/
theorem compileAll_append {l m : List (List Str)} {a b : List Fun} (h : compileAll l = some a) (h' : compileAll m = some b) :
    compileAll (l ++ m) = some (a ++ b) := by
  simp only [compileAll, Option.map_eq_some_iff] at h h' ⊢
  obtain ⟨c, hc, rfl⟩ := h
  obtain ⟨d, hd, rfl⟩ := h'
  exact ⟨c ++ d, by rw [List.mapM_append, hc, hd]; rfl, List.flatten_append ..⟩

namespace Two

open V2 (Op2)

/-- The name of the v2 method. -/
def goName : Op2 → Str
  | .write k e p _ => nextName (str% "Write" ++ kindName k.kind ++ orderName e) p
  | .read k e p _ => nextName (str% "Read" ++ kindName k.kind ++ orderName e) p
  | .writeBytes p _ => nextName (str% "WriteBytes") p
  | .writeByte p _ => nextName (str% "WriteByte") p
  | .readBytes p _ => nextName (str% "ReadBytes") p
  | .readByte p => nextName (str% "ReadByte") p
  | .readBit p => nextName (str% "ReadBit") p
  | .readBits p _ => nextName (str% "ReadBits") p
  | .setBit p _ => nextName (str% "SetBit") p
  | .flipBit p => nextName (str% "FlipBit") p
  | .setBits p _ _ => nextName (str% "SetBits") p
  | .clearAll => str% "ClearAllBits"
  | .setAll => str% "SetAllBits"
  | .flipAll => str% "FlipAllBits"
  | .seek _ _ => str% "Seek"
  | .seekBit _ _ => str% "SeekBit"
  | .after _ => str% "After"
  | .afterBit _ => str% "AfterBit"
  | .alignByte => str% "AlignByte"
  | .alignBit => str% "AlignBit"
  | .grow _ => str% "Grow"
  | .refresh => str% "Refresh"
  | .reset => str% "Reset"
  | .bytes => str% "Bytes"
  | .capacity => str% "Capacity"
  | .bitCapacity => str% "BitCapacity"
  | .offset => str% "Offset"
  | .bitOffset => str% "BitOffset"

/-- The arguments of the call, other than a result variable. -/
def goArgs : Op2 → List V
  | .write k _ p data => atPos p [goList k.kind data]
  | .read _ _ p n => atPos p [.i64 n]
  | .writeBytes p src => atPos p [.bytes (.mem src)]
  | .writeByte p v => atPos p [.u8 v]
  | .readBytes p n => atPos p [.i64 n]
  | .readByte p => atPos p []
  | .readBit p => atPos p []
  | .readBits p n => atPos p [.i64 n]
  | .setBit p data => atPos p [.u8 data]
  | .flipBit p => atPos p []
  | .setBits p data n => atPos p [.u64 data, .i64 n]
  | .seek o r => [.i64 o, .bool r]
  | .seekBit o r => [.i64 o, .bool r]
  | .after o => [.li64 o]
  | .afterBit o => [.li64 o]
  | .grow n => [.i64 n]
  | _ => []

/-- The variadic arguments are a slice that Go can have. -/
def Fits : Op2 → Prop
  | .after o => o.length < 2 ^ 63
  | .afterBit o => o.length < 2 ^ 63
  | _ => True

/-- What the result variable of a `MiniBuffer` method holds before the call, for the methods that have one. -/
def goOut (o : V3.Outs) : Op2 → Option V
  | .read k _ _ _ => some (goList k.kind (o.typed k.kind))
  | .readBytes _ _ => some (.bytes (.mem o.slice))
  | .readBit _ => some (.u8 o.u8)
  | .readBits _ _ => some (.u64 o.u64)
  | .after _ => some (.i64 o.i64)
  | .afterBit _ => some (.i64 o.i64)
  | .bytes => some (.bytes (.mem o.slice))
  | .capacity => some (.i64 o.i64)
  | .bitCapacity => some (.i64 o.i64)
  | .offset => some (.i64 o.i64)
  | .bitOffset => some (.i64 o.i64)
  | _ => none

end Two

end Crunch.Src
