import Verif.Props.BenchRef

/-!
# C137: the benchmarks of the project come to their end
-/

namespace Crunch.Src.Tests

open Crunch.Gen Crunch.V3 Spec
open Program (Const)

/-- `rfl` that only the kernel checks. -/
elab "krfl" : tactic => do
  let g ← Lean.Elab.Tactic.getMainGoal
  g.withContext do
    let some (_, _, b) := (← Lean.instantiateMVars (← g.getType)).eq? | throwError "not an equation"
    g.assign (← Lean.Meta.mkEqRefl b)

/-! ## what stands in the texts -/

def bufName : Str := str% "buf"

def outName : Str := str% "out"

/-- `n` -/
def num (n : Nat) : Const := ⟨false, n, 0⟩

/-- `buf.f(…)` -/
def does (f : Str) (args : List Tm) : MCall := ⟨bufName, f, none, args, none⟩

/-- `buf.f(&out, …)` -/
def gives (f : Str) (args : List Tm) : MCall := ⟨bufName, f, some outName, args, none⟩

/-- `buf := NewBuffer([]byte{0x00, …})` -/
def newBuf (n : Nat) : Stmt := .put bufName none (.new [zeroLit n])

/-- `buf := &MiniBuffer{}` and `NewMiniBuffer(&buf, []byte{0x00, …})` -/
def newMiniBuf (n : Nat) : List Stmt := [.put bufName none (.struct []), .newMini bufName [zeroLit n]]

/-- `_ = out` -/
def useOut : Stmt := .put (str% "_") none (.tm (.var outName))

/-- `[]byte{0x01, 0x02}` -/
def bytes12 : Tm := .list .u8 [num 1, num 2]

/-- `[]uint32{0x01, 0x02}` -/
def words12 : Tm := .list .u32 [num 1, num 2]

/-! ## before the loop -/

/-- The state after a constructor that has been given `n` zeros, and after literals that are no argument of it. -/
def made (n : Nat) (rest : List (List UInt8)) (slack : Nat → Nat → Nat) : V3.St :=
  ⟨⟨zeros n :: rest, slack⟩, ⟨⟨0, 0, n, n⟩, 0, Int64.ofNat n, 0, Int64.ofNat (8 * n)⟩⟩

theorem on_made {n : Nat} (hn : n ≤ maxAlloc) (rest : List (List UInt8)) (slack : Nat → Nat → Nat) : On (LongR n) (made n rest slack) := by
  have hz : (zeros n).length = n := List.length_replicate
  have ok : SliceOK (made n rest slack).mem (made n rest slack).b.buf :=
    ⟨Nat.le_refl _, by show 0 + n ≤ (zeros n).length; omega, by show (zeros n).length ≤ _; omega⟩
  exact ⟨⟨ok, rfl, rfl⟩, abs_len ok⟩

/-- The state after a constructor without arguments. -/
def made0 (slack : Nat → Nat → Nat) : V3.St := ⟨⟨[[]], slack⟩, ⟨⟨0, 0, 0, 0⟩, 0, 0, 0, 0⟩⟩

theorem on_made0 (slack : Nat → Nat → Nat) : On EmptyR (made0 slack) :=
  ⟨⟨⟨Nat.le_refl _, Nat.le_refl _, Nat.zero_le _⟩, rfl, rfl⟩, rfl, Nat.zero_le _⟩

/-! ## arguments -/

/-- The slice of a literal of two bytes. -/
def lit2 (s : V3.St) : Slice := ⟨s.mem.arrays.length, 0, 2, 2⟩

theorem two_ok : ([1, 2] : List UInt8).length ≤ maxAlloc := by decide

theorem adds_lit (s : V3.St) : Adds s (s.mem.alloc [1, 2]) := .inr ⟨[1, 2], two_ok, rfl⟩

theorem lit2_ok (s : V3.St) : SliceOK (s.mem.alloc [1, 2]) (lit2 s) := slice_fresh s.mem [1, 2] two_ok

theorem lit2_view (s : V3.St) : (s.mem.alloc [1, 2]).view (lit2 s) = [1, 2] := view_fresh s.mem [1, 2]

theorem lit2_len (s : V3.St) {n : Nat} (hn : 2 ≤ n) : ((s.mem.alloc [1, 2]).view (lit2 s)).length ≤ n := by rw [lit2_view]; exact hn

theorem four_ok : 4 ≤ maxAlloc := by decide

theorem eight_ok : 8 ≤ maxAlloc := by decide

theorem small8 : 2 * 4 ≤ maxAlloc := by decide

theorem small32 : 8 * 4 ≤ maxAlloc := by decide

theorem lit2_some (s : V3.St) : (s.mem.alloc [1, 2]).view (lit2 s) ≠ [] := by rw [lit2_view]; exact List.cons_ne_nil _ _

/-! ## v3 `Buffer` -/

/-! ## v3 `Buffer` -/

namespace V3B

theorem writeBytes : Calls V3Buffer.P (runBuf V3Buffer.P) (On (LongR 4)) (On (LongR 4)) (does (str% "WriteBytes") [.const (num 0), bytes12]) :=
  calls_v3 (fun s => .writeBytes (some 0) (lit2 s)) (fun s => s.mem.alloc [1, 2]) ⟨rfl, rfl, fun _ => rfl⟩ (fun env s => by krfl)
    (fun s => ⟨adds_lit s, lit2_ok s, trivial⟩) fun s => writeBytes_long (lit2_len s (by decide))

/-- The calls whose arguments are numbers. -/
theorem plain {S S' : Ref.Ref → Prop} {c : MCall} (op : V3.Op) (h : c.out = none ∧ c.as = none ∧ c.name = goName op)
    (hc : ∀ env s, callArgs V3Buffer.P env s c = some (goArgs op, s.mem)) (hm : ∀ m, op.Valid m ∧ Fits op)
    (hg : ∀ m, Goes (Ref.step (op.lower m)) S S') : Calls V3Buffer.P (runBuf V3Buffer.P) (On S) (On S') c :=
  calls_v3 (fun _ => op) (fun s => s.mem) ⟨h.1, h.2.1, fun _ => h.2.2⟩ hc (fun s => ⟨.inl rfl, hm s.mem⟩) fun s => hg s.mem

theorem writeU32 : Calls V3Buffer.P (runBuf V3Buffer.P) (On (LongR 8)) (On (LongR 8)) (does (str% "WriteU32LE") [.const (num 0), words12]) :=
  plain (.write .u32 .le (some 0) [1, 2]) ⟨rfl, rfl, rfl⟩ (fun env s => by krfl) (fun _ => ⟨small8, trivial⟩) fun _ => write_long (by decide)

theorem readBytes : Calls V3Buffer.P (runBuf V3Buffer.P) (On (LongR 4)) (On (LongR 4)) (does (str% "ReadBytes") [.const (num 0), .const (num 2)]) :=
  plain (.readBytes (some 0) 2) ⟨rfl, rfl, rfl⟩ (fun env s => by krfl) (fun _ => ⟨trivial, trivial⟩) fun _ => readBytes_long (by decide)

theorem readU32 : Calls V3Buffer.P (runBuf V3Buffer.P) (On (LongR 8)) (On (LongR 8)) (does (str% "ReadU32LE") [.const (num 0), .const (num 2)]) :=
  plain (.read .u32 .le (some 0) 2) ⟨rfl, rfl, rfl⟩ (fun env s => by krfl) (fun _ => ⟨trivial, trivial⟩) fun _ => read_long (by decide)

theorem readBit : Calls V3Buffer.P (runBuf V3Buffer.P) (On (LongR 4)) (On (LongR 4)) (does (str% "ReadBit") [.const (num 0)]) :=
  plain (.readBit (some 0)) ⟨rfl, rfl, rfl⟩ (fun env s => by krfl) (fun _ => ⟨trivial, trivial⟩) fun _ => readBit_long (by decide)

theorem readBits : Calls V3Buffer.P (runBuf V3Buffer.P) (On (LongR 4)) (On (LongR 4)) (does (str% "ReadBits") [.const (num 0), .const (num 2)]) :=
  plain (.readBits (some 0) 2) ⟨rfl, rfl, rfl⟩ (fun env s => by krfl) (fun _ => ⟨trivial, trivial⟩) fun _ => readBits_long (by decide)

theorem setBit : Calls V3Buffer.P (runBuf V3Buffer.P) (On (LongR 4)) (On (LongR 4)) (does (str% "SetBit") [.const (num 0)]) :=
  plain (.setBit (some 0)) ⟨rfl, rfl, rfl⟩ (fun env s => by krfl) (fun _ => ⟨trivial, trivial⟩) fun _ => setBit_long (by decide)

theorem clearBit : Calls V3Buffer.P (runBuf V3Buffer.P) (On (LongR 4)) (On (LongR 4)) (does (str% "ClearBit") [.const (num 0)]) :=
  plain (.clearBit (some 0)) ⟨rfl, rfl, rfl⟩ (fun env s => by krfl) (fun _ => ⟨trivial, trivial⟩) fun _ => clearBit_long (by decide)

theorem grow : Calls V3Buffer.P (runBuf V3Buffer.P) (On EmptyR) (On SingleR) (does (str% "Grow") [.const (num 1)]) :=
  plain (.grow 1) ⟨rfl, rfl, rfl⟩ (fun env s => by krfl) (fun _ => ⟨trivial, trivial⟩) fun _ => grow_empty

theorem reset : Calls V3Buffer.P (runBuf V3Buffer.P) (On SingleR) (On EmptyR) (does (str% "Reset") []) :=
  plain .reset ⟨rfl, rfl, rfl⟩ (fun env s => by krfl) (fun _ => ⟨trivial, trivial⟩) fun _ => reset_single

/-- Before the loop: a buffer of `n` zeros. -/
theorem before {n : Nat} (hn : n ≤ maxAlloc) (slack : Nat → Nat → Nat)
    (h : ∀ l, runStmts V3Buffer.P (runBuf V3Buffer.P) none ([newBuf n] ++ l) [] (start slack) =
      runStmts V3Buffer.P (runBuf V3Buffer.P) none l [(bufName, .buf)] (made n [[]] slack)) :
    ∃ env s, Has bufName (On (LongR n)) env s ∧
      ∀ l, runStmts V3Buffer.P (runBuf V3Buffer.P) none ([newBuf n] ++ l) [] (start slack) = runStmts V3Buffer.P (runBuf V3Buffer.P) none l env s :=
  ⟨_, _, ⟨rfl, on_made hn _ _⟩, h⟩

theorem finishes : ∀ l ∈ V3BufferBench.text, Finishes (str% "Buffer") V3Buffer.P (runBuf V3Buffer.P) l := by
  intro l hl
  simp only [V3BufferBench.text, List.mem_cons, List.not_mem_nil, or_false] at hl
  rcases hl with rfl | rfl | rfl | rfl | rfl | rfl | rfl | rfl | rfl
  · exact finishes_of (b := ⟨str% "BenchmarkBufferWriteBytes", [newBuf 4], [.call (does (str% "WriteBytes") [.const (num 0), bytes12])], []⟩)
      (by decide +kernel) (fun slack => before four_ok slack fun l => by krfl) (keeps_call writeBytes) after_nil
  · exact finishes_of (b := ⟨str% "BenchmarkBufferReadBytes", [newBuf 4, .zero outName (.slice (.named (str% "byte")))],
        [.put outName none (.call (does (str% "ReadBytes") [.const (num 0), .const (num 2)]))], [useOut]⟩)
      (by decide +kernel) (fun slack => ⟨[(outName, .val (.bytes (.mem ⟨0, 0, 0, 0⟩))), (bufName, .buf)], made 4 [[]] slack,
        ⟨rfl, ⟨_, rfl, trivial⟩, on_made four_ok _ _⟩, fun l => by krfl⟩) (keeps_put rfl readBytes) after_use
  · exact finishes_of (b := ⟨str% "BenchmarkBufferWriteU32LE", [newBuf 8], [.call (does (str% "WriteU32LE") [.const (num 0), words12])], []⟩)
      (by decide +kernel) (fun slack => before eight_ok slack fun l => by krfl) (keeps_call writeU32) after_nil
  · exact finishes_of (b := ⟨str% "BenchmarkBufferReadU32LE", [newBuf 8, .zero outName (.slice (.named (str% "uint32")))],
        [.put outName none (.call (does (str% "ReadU32LE") [.const (num 0), .const (num 2)]))], [useOut]⟩)
      (by decide +kernel) (fun slack => ⟨[(outName, .val (.lu32 [])), (bufName, .buf)], made 8 [[]] slack,
        ⟨rfl, ⟨_, rfl, trivial⟩, on_made eight_ok _ _⟩, fun l => by krfl⟩) (keeps_put rfl readU32) after_use
  · exact finishes_of (b := ⟨str% "BenchmarkBufferReadBit", [newBuf 4], [.put (str% "_") none (.call (does (str% "ReadBit") [.const (num 0)]))], []⟩)
      (by decide +kernel) (fun slack => before four_ok slack fun l => by krfl) (keeps_drop rfl readBit) after_nil
  · exact finishes_of (b := ⟨str% "BenchmarkBufferReadBits", [newBuf 4],
        [.put (str% "_") none (.call (does (str% "ReadBits") [.const (num 0), .const (num 2)]))], []⟩)
      (by decide +kernel) (fun slack => before four_ok slack fun l => by krfl) (keeps_drop rfl readBits) after_nil
  · exact finishes_of (b := ⟨str% "BenchmarkBufferSetBit", [newBuf 4], [.call (does (str% "SetBit") [.const (num 0)])], []⟩)
      (by decide +kernel) (fun slack => before four_ok slack fun l => by krfl) (keeps_call setBit) after_nil
  · exact finishes_of (b := ⟨str% "BenchmarkBufferClearBit", [newBuf 4], [.call (does (str% "ClearBit") [.const (num 0)])], []⟩)
      (by decide +kernel) (fun slack => before four_ok slack fun l => by krfl) (keeps_call clearBit) after_nil
  · exact finishes_of (b := ⟨str% "BenchmarkBufferGrow", [.put bufName none (.new [])],
        [.call (does (str% "Grow") [.const (num 1)]), .call (does (str% "Reset") [])], []⟩)
      (by decide +kernel) (fun slack => ⟨[(bufName, .buf)], made0 slack, ⟨rfl, on_made0 slack⟩, fun l => by krfl⟩)
      (keeps_calls rfl grow reset) after_nil

end V3B

/-! ## result variables -/

/-- `[]byte` -/
def IsBytes (v : V) : Prop := ∃ t, v = .bytes (.mem t)

/-- `byte` -/
def IsByte (v : V) : Prop := ∃ b, v = .u8 b

/-- `uint64` -/
def IsU64 (v : V) : Prop := ∃ b, v = .u64 b

/-- `[]uint32` of length `n` -/
def IsU32s (n : Nat) (v : V) : Prop := ∃ l, v = .lu32 l ∧ l.length = n

/-- `[]float32` of length `n` -/
def IsF32s (n : Nat) (v : V) : Prop := ∃ l, v = .lf32 l ∧ l.length = n

/-- Nothing in any of the variables. -/
def noOuts : V3.Outs := ⟨0, 0, 0, ⟨0, 0, 0, 0⟩, fun _ => []⟩

theorem noOuts_ok : noOuts.Valid := fun _ => by
  show 0 * _ ≤ _
  rw [Nat.zero_mul]; exact Nat.zero_le _

theorem var_bytes : Var IsBytes (fun _ => True) (fun o => some (.bytes (.mem o.slice))) V3.Val.slice :=
  ⟨fun _ ⟨t, h⟩ => ⟨{ noOuts with slice := t }, noOuts_ok, by rw [h]⟩, fun a _ _ => ⟨a, rfl⟩⟩

theorem var_byte : Var IsByte (fun _ => True) (fun o => some (.u8 o.u8)) V3.Val.u8 :=
  ⟨fun _ ⟨t, h⟩ => ⟨{ noOuts with u8 := t }, noOuts_ok, by rw [h]⟩, fun a _ _ => ⟨a, rfl⟩⟩

theorem var_u64 : Var IsU64 (fun _ => True) (fun o => some (.u64 o.u64)) V3.Val.u64 :=
  ⟨fun _ ⟨t, h⟩ => ⟨{ noOuts with u64 := t }, noOuts_ok, by rw [h]⟩, fun a _ _ => ⟨a, rfl⟩⟩

/-- Only a `[]uint32`. -/
def u32Outs (l : List UInt32) : V3.Outs := { noOuts with typed := fun k => match k with | .u32 => l | _ => [] }

/-- Only a `[]float32`. -/
def f32Outs (l : List F32) : V3.Outs := { noOuts with typed := fun k => match k with | .f32 => l | _ => [] }

theorem var_u32s {n : Nat} (hn : n * 4 ≤ maxAlloc) : Var (IsU32s n) (NumsR n) (fun o => some (goList .u32 (o.typed .u32))) (V3.Val.typed .u32) := by
  refine ⟨fun _ ⟨l, h, hl⟩ => ⟨u32Outs l, fun k => ?_, by rw [h]; rfl⟩, fun a m h => ?_⟩
  · cases k
    case u32 => show l.length * 4 ≤ _; rw [hl]; exact hn
    all_goals exact noOuts_ok _
  · obtain ⟨l, h1, h2⟩ := h
    cases h1
    exact ⟨a, rfl, by rw [List.length_map] at h2; exact h2⟩

theorem var_f32s {n : Nat} (hn : n * 4 ≤ maxAlloc) : Var (IsF32s n) (NumsR n) (fun o => some (goList .f32 (o.typed .f32))) (V3.Val.typed .f32) := by
  refine ⟨fun _ ⟨l, h, hl⟩ => ⟨f32Outs l, fun k => ?_, by rw [h]; rfl⟩, fun a m h => ?_⟩
  · cases k
    case f32 => show l.length * 4 ≤ _; rw [hl]; exact hn
    all_goals exact noOuts_ok _
  · obtain ⟨l, h1, h2⟩ := h
    cases h1
    exact ⟨a, rfl, by rw [List.length_map] at h2; exact h2⟩

theorem u32s_len {n : Nat} {o : V3.Outs} {v : V} (h : some (goList .u32 (o.typed .u32)) = some v) (hv : IsU32s n v) :
    ((o.typed .u32).map (V3.Kind.pat .u32)).length = n := by
  obtain ⟨l, rfl, hl⟩ := hv
  rw [List.length_map, ← hl]
  injection h with h
  injection h with h
  rw [h]

theorem f32s_len {n : Nat} {o : V3.Outs} {v : V} (h : some (goList .f32 (o.typed .f32)) = some v) (hv : IsF32s n v) :
    ((o.typed .f32).map (V3.Kind.pat .f32)).length = n := by
  obtain ⟨l, rfl, hl⟩ := hv
  rw [List.length_map, ← hl]
  injection h with h
  injection h with h
  rw [h]

theorem readMini_keeps {n w k j : Nat} {e : Endian} {ks : List Nat} (h : 2 * w ≤ n) (hk : ks.length = j) (hj : 2 ≤ j) :
    GoesTo (Ref.miniStep k ks (.read w e (some 0) 2)) (LongR n) (NumsR j) := by
  subst hk
  exact readMini_long h hj

/-! ## v3 `MiniBuffer` -/

namespace V3M

theorem writeBytes : Calls V3Mini.P (runMini V3Mini.P) (On (LongR 4)) (On (LongR 4)) (does (str% "WriteBytes") [.const (num 0), bytes12]) :=
  calls_v3m noOuts noOuts_ok (fun s => .writeBytes (some 0) (lit2 s)) (fun s => s.mem.alloc [1, 2]) ⟨rfl, rfl, fun _ => ⟨rfl, rfl, rfl⟩⟩
    (fun env s => by krfl) (fun s => ⟨adds_lit s, lit2_ok s, trivial⟩) fun s => writeBytesMini_long (lit2_len s (by decide))

/-- The calls whose arguments are numbers. -/
theorem plain {S S' : Ref.Ref → Prop} {c : MCall} (op : V3.Op)
    (h : c.out = none ∧ c.as = none ∧ c.name = goName op ∧ goOut noOuts op = none ∧ (V3.miniCall noOuts op).isSome = true)
    (hc : ∀ env s, callArgs V3Mini.P env s c = some (goArgs op, s.mem)) (hm : ∀ m, op.Valid m ∧ Fits op)
    (hg : ∀ m, Goes (Ref.miniStep 0 (noOuts.nums op) (op.lower m)) S S') : Calls V3Mini.P (runMini V3Mini.P) (On S) (On S') c :=
  calls_v3m noOuts noOuts_ok (fun _ => op) (fun s => s.mem) ⟨h.1, h.2.1, fun _ => h.2.2⟩ hc (fun s => ⟨.inl rfl, hm s.mem⟩) fun s => hg s.mem

theorem writeU32 : Calls V3Mini.P (runMini V3Mini.P) (On (LongR 8)) (On (LongR 8)) (does (str% "WriteU32LE") [.const (num 0), words12]) :=
  plain (.write .u32 .le (some 0) [1, 2]) ⟨rfl, rfl, rfl, rfl, rfl⟩ (fun env s => by krfl) (fun _ => ⟨small8, trivial⟩)
    fun _ => writeMini_long (by decide) (by decide)

theorem writeF32 : Calls V3Mini.P (runMini V3Mini.P) (On (LongR 8)) (On (LongR 8))
    (does (str% "WriteF32LE") [.const (num 0), .list .f32 [⟨false, 1, 2⟩, ⟨false, 2, 2⟩]]) :=
  plain (.write .f32 .le (some 0) [⟨0x3c23d70a⟩, ⟨0x3ca3d70a⟩]) ⟨rfl, rfl, rfl, rfl, rfl⟩ (fun env s => by krfl) (fun _ => ⟨small8, trivial⟩)
    fun _ => writeMini_long (by decide) (by decide)

theorem setBit : Calls V3Mini.P (runMini V3Mini.P) (On (LongR 4)) (On (LongR 4)) (does (str% "SetBit") [.const (num 0)]) :=
  plain (.setBit (some 0)) ⟨rfl, rfl, rfl, rfl, rfl⟩ (fun env s => by krfl) (fun _ => ⟨trivial, trivial⟩) fun _ => setBitMini_long (by decide)

theorem clearBit : Calls V3Mini.P (runMini V3Mini.P) (On (LongR 4)) (On (LongR 4)) (does (str% "ClearBit") [.const (num 0)]) :=
  plain (.clearBit (some 0)) ⟨rfl, rfl, rfl, rfl, rfl⟩ (fun env s => by krfl) (fun _ => ⟨trivial, trivial⟩) fun _ => clearBitMini_long (by decide)

theorem grow : Calls V3Mini.P (runMini V3Mini.P) (On EmptyR) (On SingleR) (does (str% "Grow") [.const (num 1)]) :=
  plain (.grow 1) ⟨rfl, rfl, rfl, rfl, rfl⟩ (fun env s => by krfl) (fun _ => ⟨trivial, trivial⟩) fun _ => growMini_empty

theorem reset : Calls V3Mini.P (runMini V3Mini.P) (On SingleR) (On EmptyR) (does (str% "Reset") []) :=
  plain .reset ⟨rfl, rfl, rfl, rfl, rfl⟩ (fun env s => by krfl) (fun _ => ⟨trivial, trivial⟩) fun _ => resetMini_single

theorem readBytes : CallsOut V3Mini.P (runMini V3Mini.P) (On (LongR 4)) IsBytes (gives (str% "ReadBytes") [.const (num 0), .const (num 2)]) outName :=
  out_v3m (.readBytes (some 0) 2) var_bytes (fun o => V3.Mini.callOut (V3.Mini.ReadBytes 0 2) o.slice) ⟨rfl, rfl, rfl⟩ (fun _ => rfl) (fun env s => by krfl)
    (fun _ => ⟨trivial, trivial⟩) fun _ _ _ _ _ => readBytesMini_long (by decide)

theorem readBit : CallsOut V3Mini.P (runMini V3Mini.P) (On (LongR 4)) IsByte (gives (str% "ReadBit") [.const (num 0)]) outName :=
  out_v3m (.readBit (some 0)) var_byte (fun o => V3.Mini.callOut (V3.Mini.ReadBit 0) o.u8) ⟨rfl, rfl, rfl⟩ (fun _ => rfl) (fun env s => by krfl)
    (fun _ => ⟨trivial, trivial⟩) fun _ _ _ _ _ => readBitMini_long (by decide)

theorem readBits : CallsOut V3Mini.P (runMini V3Mini.P) (On (LongR 4)) IsU64 (gives (str% "ReadBits") [.const (num 0), .const (num 2)]) outName :=
  out_v3m (.readBits (some 0) 2) var_u64 (fun o => V3.Mini.callOut (V3.Mini.ReadBits 0 2) o.u64) ⟨rfl, rfl, rfl⟩ (fun _ => rfl) (fun env s => by krfl)
    (fun _ => ⟨trivial, trivial⟩) fun _ _ _ _ _ => readBitsMini_long (by decide)

theorem readU32 : CallsOut V3Mini.P (runMini V3Mini.P) (On (LongR 8)) (IsU32s 2) (gives (str% "ReadU32LE") [.const (num 0), .const (num 2)]) outName :=
  out_v3m (.read .u32 .le (some 0) 2) (var_u32s small8) (fun o => V3.Mini.callOut (V3.Mini.Read .u32 .le 0 2) (o.typed .u32)) ⟨rfl, rfl, rfl⟩
    (fun _ => rfl) (fun env s => by krfl) (fun _ => ⟨trivial, trivial⟩)
    fun _ _ _ h hv => readMini_keeps (by decide) (u32s_len h hv) (Nat.le_refl _)

theorem readF32 : CallsOut V3Mini.P (runMini V3Mini.P) (On (LongR 8)) (IsF32s 2) (gives (str% "ReadF32LE") [.const (num 0), .const (num 2)]) outName :=
  out_v3m (.read .f32 .le (some 0) 2) (var_f32s small8) (fun o => V3.Mini.callOut (V3.Mini.Read .f32 .le 0 2) (o.typed .f32)) ⟨rfl, rfl, rfl⟩
    (fun _ => rfl) (fun env s => by krfl) (fun _ => ⟨trivial, trivial⟩)
    fun _ _ _ h hv => readMini_keeps (by decide) (f32s_len h hv) (Nat.le_refl _)

/-- Before the loop: a buffer of `n` zeros. -/
theorem before {n : Nat} (hn : n ≤ maxAlloc) (slack : Nat → Nat → Nat)
    (h : ∀ l, runStmts V3Mini.P (runMini V3Mini.P) none (newMiniBuf n ++ l) [] (start slack) =
      runStmts V3Mini.P (runMini V3Mini.P) none l [(bufName, .buf)] (made n [[]] slack)) :
    ∃ env s, Has bufName (On (LongR n)) env s ∧
      ∀ l, runStmts V3Mini.P (runMini V3Mini.P) none (newMiniBuf n ++ l) [] (start slack) = runStmts V3Mini.P (runMini V3Mini.P) none l env s :=
  ⟨_, _, ⟨rfl, on_made hn _ _⟩, h⟩

theorem finishes : ∀ l ∈ V3MiniBench.text, Finishes (str% "MiniBuffer") V3Mini.P (runMini V3Mini.P) l := by
  intro l hl
  simp only [V3MiniBench.text, List.mem_cons, List.not_mem_nil, or_false] at hl
  rcases hl with rfl | rfl | rfl | rfl | rfl | rfl | rfl | rfl | rfl | rfl | rfl
  · exact finishes_of (b := ⟨str% "BenchmarkMiniBufferWriteBytes", newMiniBuf 4, [.call (does (str% "WriteBytes") [.const (num 0), bytes12])], []⟩)
      (by decide +kernel) (fun slack => before four_ok slack fun l => by krfl) (keeps_call writeBytes) after_nil
  · exact finishes_of (b := ⟨str% "BenchmarkMiniBufferReadBytes", newMiniBuf 4 ++ [.put outName none (.tm (.list .u8 []))],
        [.call (gives (str% "ReadBytes") [.const (num 0), .const (num 2)])], []⟩)
      (by decide +kernel) (fun slack => ⟨[(outName, .val (.bytes (.mem ⟨2, 0, 0, 0⟩))), (bufName, .buf)], made 4 [[], []] slack,
        ⟨rfl, ⟨_, rfl, ⟨_, rfl⟩⟩, on_made four_ok _ _⟩, fun l => by krfl⟩) (keeps_out rfl readBytes) after_nil
  · exact finishes_of (b := ⟨str% "BenchmarkMiniBufferWriteU32LE", newMiniBuf 8, [.call (does (str% "WriteU32LE") [.const (num 0), words12])], []⟩)
      (by decide +kernel) (fun slack => before eight_ok slack fun l => by krfl) (keeps_call writeU32) after_nil
  · exact finishes_of (b := ⟨str% "BenchmarkMiniBufferReadU32LE", newMiniBuf 8 ++ [.put outName none (.tm (.list .u32 [num 0, num 0]))],
        [.call (gives (str% "ReadU32LE") [.const (num 0), .const (num 2)])], [useOut]⟩)
      (by decide +kernel) (fun slack => ⟨[(outName, .val (.lu32 [0, 0])), (bufName, .buf)], made 8 [[]] slack,
        ⟨rfl, ⟨_, rfl, ⟨_, rfl, rfl⟩⟩, on_made eight_ok _ _⟩, fun l => by krfl⟩) (keeps_out rfl readU32) after_use
  · exact finishes_of (b := ⟨str% "BenchmarkMiniBufferWriteF32LE", newMiniBuf 8,
        [.call (does (str% "WriteF32LE") [.const (num 0), .list .f32 [⟨false, 1, 2⟩, ⟨false, 2, 2⟩]])], []⟩)
      (by decide +kernel) (fun slack => before eight_ok slack fun l => by krfl) (keeps_call writeF32) after_nil
  · exact finishes_of (b := ⟨str% "BenchmarkMiniBufferReadF32LE", newMiniBuf 8 ++ [.put outName none (.tm (.list .f32 [num 0, num 0]))],
        [.call (gives (str% "ReadF32LE") [.const (num 0), .const (num 2)])], [useOut]⟩)
      (by decide +kernel) (fun slack => ⟨[(outName, .val (.lf32 [⟨0⟩, ⟨0⟩])), (bufName, .buf)], made 8 [[]] slack,
        ⟨rfl, ⟨_, rfl, ⟨_, rfl, rfl⟩⟩, on_made eight_ok _ _⟩, fun l => by krfl⟩) (keeps_out rfl readF32) after_use
  · exact finishes_of (b := ⟨str% "BenchmarkMiniBufferReadBit", newMiniBuf 4 ++ [.zero outName (.named (str% "byte"))],
        [.call (gives (str% "ReadBit") [.const (num 0)])], [useOut]⟩)
      (by decide +kernel) (fun slack => ⟨[(outName, .val (.u8 0)), (bufName, .buf)], made 4 [[]] slack,
        ⟨rfl, ⟨_, rfl, ⟨_, rfl⟩⟩, on_made four_ok _ _⟩, fun l => by krfl⟩) (keeps_out rfl readBit) after_use
  · exact finishes_of (b := ⟨str% "BenchmarkMiniBufferReadBits", newMiniBuf 4 ++ [.zero outName (.named (str% "uint64"))],
        [.call (gives (str% "ReadBits") [.const (num 0), .const (num 2)])], [useOut]⟩)
      (by decide +kernel) (fun slack => ⟨[(outName, .val (.u64 0)), (bufName, .buf)], made 4 [[]] slack,
        ⟨rfl, ⟨_, rfl, ⟨_, rfl⟩⟩, on_made four_ok _ _⟩, fun l => by krfl⟩) (keeps_out rfl readBits) after_use
  · exact finishes_of (b := ⟨str% "BenchmarkMiniBufferSetBit", newMiniBuf 4, [.call (does (str% "SetBit") [.const (num 0)])], []⟩)
      (by decide +kernel) (fun slack => before four_ok slack fun l => by krfl) (keeps_call setBit) after_nil
  · exact finishes_of (b := ⟨str% "BenchmarkMiniBufferClearBit", newMiniBuf 4, [.call (does (str% "ClearBit") [.const (num 0)])], []⟩)
      (by decide +kernel) (fun slack => before four_ok slack fun l => by krfl) (keeps_call clearBit) after_nil
  · exact finishes_of (b := ⟨str% "BenchmarkMiniBufferGrow", [.put bufName none (.struct []), .newMini bufName []],
        [.call (does (str% "Grow") [.const (num 1)]), .call (does (str% "Reset") [])], []⟩)
      (by decide +kernel) (fun slack => ⟨[(bufName, .buf)], made0 slack, ⟨rfl, on_made0 slack⟩, fun l => by krfl⟩)
      (keeps_calls rfl grow reset) after_nil

end V3M

/-! ## v2 `Buffer` -/

namespace V2B

theorem writeBytes : Calls V2Buffer.P (runProg V2Buffer.P) (On (LongR 4)) (On (LongR 4)) (does (str% "WriteBytes") [.const (num 0), bytes12]) :=
  calls_v2 (fun s => .writeBytes (some 0) (lit2 s)) (fun s => s.mem.alloc [1, 2]) ⟨rfl, rfl, fun _ => rfl⟩ (fun env s => by krfl)
    (fun s => ⟨adds_lit s, lit2_ok s, trivial⟩) fun s => writeBytes2_long (lit2_some s) (lit2_len s (by decide))

theorem readBytes : Calls V2Buffer.P (runProg V2Buffer.P) (On (LongR 4)) (On (LongR 4)) (does (str% "ReadBytes") [.const (num 0), .const (num 2)]) :=
  calls_v2 (fun _ => .readBytes (some 0) 2) (fun s => s.mem) ⟨rfl, rfl, fun _ => rfl⟩ (fun env s => by krfl)
    (fun s => ⟨.inl rfl, trivial, trivial⟩) fun s => readBytes_long (by decide)

theorem writeU32 : Calls V2Buffer.P (runProg V2Buffer.P) (On (LongR 8)) (On (LongR 8)) (does (str% "WriteU32LE") [.const (num 0), words12]) :=
  calls_v2 (fun _ => .write .u32 .le (some 0) ([1, 2] : List UInt32)) (fun s => s.mem) ⟨rfl, rfl, fun _ => rfl⟩ (fun env s => by krfl)
    (fun s => ⟨.inl rfl, small8, trivial⟩) fun s => write_long (by decide)

theorem readU32 : Calls V2Buffer.P (runProg V2Buffer.P) (On (LongR 8)) (On (LongR 8)) (does (str% "ReadU32LE") [.const (num 0), .const (num 2)]) :=
  calls_v2 (fun _ => .read .u32 .le (some 0) 2) (fun s => s.mem) ⟨rfl, rfl, fun _ => rfl⟩ (fun env s => by krfl)
    (fun s => ⟨.inl rfl, trivial, trivial⟩) fun s => read_long (by decide)

theorem finishes : ∀ l ∈ V2BufferBench.text, Finishes (str% "Buffer") V2Buffer.P (runProg V2Buffer.P) l := by
  intro l hl
  simp only [V2BufferBench.text, List.mem_cons, List.not_mem_nil, or_false] at hl
  rcases hl with rfl | rfl | rfl | rfl
  · exact finishes_of (b := ⟨str% "BenchmarkBufferWrite", [newBuf 4], [.call (does (str% "WriteBytes") [.const (num 0), bytes12])], []⟩)
      (by decide +kernel) (fun slack => ⟨[(bufName, .buf)], made 4 [[]] slack, ⟨rfl, on_made four_ok _ _⟩, fun l => by krfl⟩)
      (keeps_call writeBytes) after_nil
  · exact finishes_of (b := ⟨str% "BenchmarkBufferRead", [newBuf 4, .zero outName (.slice (.named (str% "byte")))],
        [.put outName none (.call (does (str% "ReadBytes") [.const (num 0), .const (num 2)]))], [useOut]⟩)
      (by decide +kernel) (fun slack => ⟨[(outName, .val (.bytes (.mem ⟨0, 0, 0, 0⟩))), (bufName, .buf)], made 4 [[]] slack,
        ⟨rfl, ⟨_, rfl, trivial⟩, on_made four_ok _ _⟩, fun l => by krfl⟩) (keeps_put rfl readBytes) after_use
  · exact finishes_of (b := ⟨str% "BenchmarkBufferWriteU32LE", [newBuf 8], [.call (does (str% "WriteU32LE") [.const (num 0), words12])], []⟩)
      (by decide +kernel) (fun slack => ⟨[(bufName, .buf)], made 8 [[]] slack, ⟨rfl, on_made eight_ok _ _⟩, fun l => by krfl⟩)
      (keeps_call writeU32) after_nil
  · exact finishes_of (b := ⟨str% "BenchmarkBufferReadU32LE", [newBuf 8, .zero outName (.slice (.named (str% "uint32")))],
        [.put outName none (.call (does (str% "ReadU32LE") [.const (num 0), .const (num 2)]))], [useOut]⟩)
      (by decide +kernel) (fun slack => ⟨[(outName, .val (.lu32 [])), (bufName, .buf)], made 8 [[]] slack,
        ⟨rfl, ⟨_, rfl, trivial⟩, on_made eight_ok _ _⟩, fun l => by krfl⟩) (keeps_put rfl readU32) after_use

end V2B

/-! ## v2 `MiniBuffer` -/

namespace V2M

theorem writeBytes : Calls V2Mini.P (runMini V2Mini.P) (On (LongR 4)) (On (LongR 4)) (does (str% "WriteBytes") [.const (num 0), bytes12]) :=
  calls_v2m noOuts noOuts_ok (fun s => .writeBytes (some 0) (lit2 s)) (fun s => s.mem.alloc [1, 2]) ⟨rfl, rfl, fun _ => ⟨rfl, rfl, rfl⟩⟩
    (fun env s => by krfl) (fun s => ⟨adds_lit s, lit2_ok s, trivial⟩) fun s => writeBytesMini2_long (k := 0) (ks := []) (lit2_some s) (lit2_len s (by decide))

theorem readBytes : CallsOut V2Mini.P (runMini V2Mini.P) (On (LongR 4)) IsBytes (gives (str% "ReadBytes") [.const (num 0), .const (num 2)]) outName :=
  out_v2m (.readBytes (some 0) 2) var_bytes (fun o => V3.Mini.callOut (V2.Mini.ReadBytes 0 2) o.slice) ⟨rfl, rfl, rfl⟩ (fun _ => rfl)
    (fun env s => by krfl) (fun _ => ⟨trivial, trivial⟩) fun o _ _ _ _ => readBytesMini_long (k := o.u64.toNat) (ks := []) (by decide)

theorem writeU32 : Calls V2Mini.P (runMini V2Mini.P) (On (LongR 8)) (On (LongR 8)) (does (str% "WriteU32LE") [.const (num 0), words12]) :=
  calls_v2m noOuts noOuts_ok (fun _ => .write .u32 .le (some 0) ([1, 2] : List UInt32)) (fun s => s.mem) ⟨rfl, rfl, fun _ => ⟨rfl, rfl, rfl⟩⟩
    (fun env s => by krfl) (fun s => ⟨.inl rfl, small8, trivial⟩) fun s => writeMini_long (k := 0) (ks := []) (by decide) (by decide)

theorem readU32 : CallsOut V2Mini.P (runMini V2Mini.P) (On (LongR 8)) (IsU32s 8) (gives (str% "ReadU32LE") [.const (num 0), .const (num 2)]) outName :=
  out_v2m (.read .u32 .le (some 0) 2) (var_u32s small32) (fun o => V3.Mini.callOut (V2.Mini.Read .u32 .le 0 2) (o.typed .u32)) ⟨rfl, rfl, rfl⟩
    (fun _ => rfl) (fun env s => by krfl) (fun _ => ⟨trivial, trivial⟩)
    fun o _ _ h hv => readMini_keeps (k := o.u64.toNat) (by decide) (u32s_len h hv) (by decide)

theorem finishes : ∀ l ∈ V2MiniBench.text, Finishes (str% "MiniBuffer") V2Mini.P (runMini V2Mini.P) l := by
  intro l hl
  simp only [V2MiniBench.text, List.mem_cons, List.not_mem_nil, or_false] at hl
  rcases hl with rfl | rfl | rfl | rfl
  · exact finishes_of (b := ⟨str% "BenchmarkMiniBufferWrite", newMiniBuf 4, [.call (does (str% "WriteBytes") [.const (num 0), bytes12])], []⟩)
      (by decide +kernel) (fun slack => ⟨[(bufName, .buf)], made 4 [[]] slack, ⟨rfl, on_made four_ok _ _⟩, fun l => by krfl⟩)
      (keeps_call writeBytes) after_nil
  · exact finishes_of (b := ⟨str% "BenchmarkMiniBufferRead", newMiniBuf 4 ++ [.put outName none (.tm (.list .u8 []))],
        [.call (gives (str% "ReadBytes") [.const (num 0), .const (num 2)])], []⟩)
      (by decide +kernel) (fun slack => ⟨[(outName, .val (.bytes (.mem ⟨2, 0, 0, 0⟩))), (bufName, .buf)], made 4 [[], []] slack,
        ⟨rfl, ⟨_, rfl, ⟨_, rfl⟩⟩, on_made four_ok _ _⟩, fun l => by krfl⟩) (keeps_out rfl readBytes) after_nil
  · exact finishes_of (b := ⟨str% "BenchmarkMiniBufferWriteU32LE", newMiniBuf 8, [.call (does (str% "WriteU32LE") [.const (num 0), words12])], []⟩)
      (by decide +kernel) (fun slack => ⟨[(bufName, .buf)], made 8 [[]] slack, ⟨rfl, on_made eight_ok _ _⟩, fun l => by krfl⟩)
      (keeps_call writeU32) after_nil
  · exact finishes_of (b := ⟨str% "BenchmarkMiniBufferReadU32LE", newMiniBuf 8 ++ [.put outName none (.tm (.list .u32 (List.replicate 8 (num 0))))],
        [.call (gives (str% "ReadU32LE") [.const (num 0), .const (num 2)])], [useOut]⟩)
      (by decide +kernel) (fun slack => ⟨[(outName, .val (.lu32 [0, 0, 0, 0, 0, 0, 0, 0])), (bufName, .buf)], made 8 [[]] slack,
        ⟨rfl, ⟨_, rfl, ⟨_, rfl, rfl⟩⟩, on_made eight_ok _ _⟩, fun l => by krfl⟩) (keeps_out rfl readU32) after_use

end V2M

/-! ## v1 `Buffer` -/

namespace V1B

theorem fits_any {op : V1.Op1} {op2 : V2.Op2} (h : V1.toV2 op = some op2) (hf : Two.Fits op2 := by trivial) : One.Fits op := by
  intro op3 h3
  rw [h] at h3
  cases h3
  exact hf

theorem writeBytes : Calls V1Buffer.P (runProg V1Buffer.P) (On (LongR 4)) (On (LongR 4)) (does (str% "WriteBytes") [.const (num 0), bytes12]) :=
  calls_v1 (fun s => .writeBytes (some 0) (lit2 s)) (fun s => s.mem.alloc [1, 2]) ⟨rfl, rfl, fun _ => rfl⟩ (fun env s => by krfl)
    (fun s => ⟨adds_lit s, lit2_ok s, fits_any rfl⟩) (fun _ _ _ => rfl) fun s => writeBytes2_long (lit2_some s) (lit2_len s (by decide))

theorem readBytes : Calls V1Buffer.P (runProg V1Buffer.P) (On (LongR 4)) (On (LongR 4)) (does (str% "ReadBytes") [.const (num 0), .const (num 2)]) :=
  calls_v1 (fun _ => .readBytes (some 0) 2) (fun s => s.mem) ⟨rfl, rfl, fun _ => rfl⟩ (fun env s => by krfl)
    (fun s => ⟨.inl rfl, trivial, fits_any rfl⟩) (fun _ _ _ => rfl) fun s => readBytes_long (by decide)

theorem finishes : ∀ l ∈ V1BufferBench.text, Finishes (str% "Buffer") V1Buffer.P (runProg V1Buffer.P) l := by
  intro l hl
  simp only [V1BufferBench.text, List.mem_cons, List.not_mem_nil, or_false] at hl
  rcases hl with rfl | rfl
  · exact finishes_of (b := ⟨str% "BenchmarkBufferWrite", [newBuf 4], [.call (does (str% "WriteBytes") [.const (num 0), bytes12])], []⟩)
      (by decide +kernel) (fun slack => ⟨[(bufName, .buf)], made 4 [[]] slack, ⟨rfl, on_made four_ok _ _⟩, fun l => by krfl⟩)
      (keeps_call writeBytes) after_nil
  · exact finishes_of (b := ⟨str% "BenchmarkBufferRead", [newBuf 4, .zero outName (.slice (.named (str% "byte")))],
        [.put outName none (.call (does (str% "ReadBytes") [.const (num 0), .const (num 2)]))], [useOut]⟩)
      (by decide +kernel) (fun slack => ⟨[(outName, .val (.bytes (.mem ⟨0, 0, 0, 0⟩))), (bufName, .buf)], made 4 [[]] slack,
        ⟨rfl, ⟨_, rfl, trivial⟩, on_made four_ok _ _⟩, fun l => by krfl⟩) (keeps_put rfl readBytes) after_use

end V1B

/-! ## v1 `MiniBuffer` -/

namespace V1M

/-- What is in a variable of `ReadComplex`; no call here has one. -/
def noAny : V1.Any := .bytes ⟨0, 0, 0, 0⟩

theorem writeBytes : Calls V1Mini.P (runMini V1Mini.P) (On (LongR 4)) (On (LongR 4)) (does (str% "WriteBytes") [.const (num 0), bytes12]) :=
  calls_v1m noOuts noOuts_ok noAny (fun s => .writeBytes (some 0) (lit2 s)) (fun s => s.mem.alloc [1, 2]) ⟨rfl, rfl, fun _ => ⟨rfl, rfl, rfl⟩⟩
    (fun env s => by krfl) (fun s => ⟨adds_lit s, lit2_ok s, V1B.fits_any rfl⟩) fun s => writeBytesMini2_long (k := 0) (ks := []) (lit2_some s) (lit2_len s (by decide))

theorem readBytes : CallsOut V1Mini.P (runMini V1Mini.P) (On (LongR 4)) IsBytes (gives (str% "ReadBytes") [.const (num 0), .const (num 2)]) outName :=
  out_v1m noAny (.readBytes (some 0) 2) var_bytes (fun o => V3.Mini.callOut (V1.Mini.ReadBytes 0 2) o.slice) ⟨rfl, rfl, rfl⟩ (fun _ => rfl)
    (fun env s => by krfl) (fun _ => ⟨trivial, V1B.fits_any rfl⟩) fun o _ _ _ _ => readBytesMini_long (k := o.u64.toNat) (ks := []) (by decide)

theorem finishes : ∀ l ∈ V1MiniBench.text, Finishes (str% "MiniBuffer") V1Mini.P (runMini V1Mini.P) l := by
  intro l hl
  simp only [V1MiniBench.text, List.mem_cons, List.not_mem_nil, or_false] at hl
  rcases hl with rfl | rfl
  · exact finishes_of (b := ⟨str% "BenchmarkMiniBufferWrite", newMiniBuf 4, [.call (does (str% "WriteBytes") [.const (num 0), bytes12])], []⟩)
      (by decide +kernel) (fun slack => ⟨[(bufName, .buf)], made 4 [[]] slack, ⟨rfl, on_made four_ok _ _⟩, fun l => by krfl⟩)
      (keeps_call writeBytes) after_nil
  · exact finishes_of (b := ⟨str% "BenchmarkMiniBufferRead", newMiniBuf 4 ++ [.put outName none (.tm (.list .u8 []))],
        [.call (gives (str% "ReadBytes") [.const (num 0), .const (num 2)])], []⟩)
      (by decide +kernel) (fun slack => ⟨[(outName, .val (.bytes (.mem ⟨2, 0, 0, 0⟩))), (bufName, .buf)], made 4 [[], []] slack,
        ⟨rfl, ⟨_, rfl, ⟨_, rfl⟩⟩, on_made four_ok _ _⟩, fun l => by krfl⟩) (keeps_out rfl readBytes) after_nil

end V1M

/-! ## the theorems -/

/-- C137 (/repo/v3/buffer_test.go): every benchmark of the file that uses a `Buffer` comes to its end, for every `b.N`, when the methods are run
from their texts. -/
theorem C137_v3_buffer :
    ∃ funs, compileAll V3Buffer.text = some funs ∧
    ∀ l ∈ V3BufferBench.text, Finishes (str% "Buffer") ⟨funs, V3Buffer.errs⟩ (runBuf ⟨funs, V3Buffer.errs⟩) l :=
  ⟨_, V3Buffer.link, V3B.finishes⟩

/-- C137 (/repo/v3/minibuf_test.go): every benchmark of the file that uses a `MiniBuffer` comes to its end, for every `b.N`, when the methods are run
from their texts. -/
theorem C137_v3_mini :
    ∃ funs, compileAll V3Mini.text = some funs ∧
    ∀ l ∈ V3MiniBench.text, Finishes (str% "MiniBuffer") ⟨funs, V3Mini.errs⟩ (runMini ⟨funs, V3Mini.errs⟩) l :=
  ⟨_, V3Mini.link, V3M.finishes⟩

/-- C137 (/repo/v2/buffer_test.go): every benchmark of the file that uses a `Buffer` comes to its end, for every `b.N`, when the methods are run
from their texts. -/
theorem C137_v2_buffer :
    ∃ funs, compileAll (V2Utils.text ++ V2Buffer.text) = some funs ∧
    ∀ l ∈ V2BufferBench.text, Finishes (str% "Buffer") ⟨funs, V2Buffer.errs⟩ (runProg ⟨funs, V2Buffer.errs⟩) l :=
  ⟨_, compileAll_append V2Utils.link V2Buffer.link, V2B.finishes⟩

/-- C137 (/repo/v2/minibuf_test.go): every benchmark of the file that uses a `MiniBuffer` comes to its end, for every `b.N`, when the methods are run
from their texts. -/
theorem C137_v2_mini :
    ∃ funs, compileAll (V2Utils.text ++ V2Mini.text) = some funs ∧
    ∀ l ∈ V2MiniBench.text, Finishes (str% "MiniBuffer") ⟨funs, V2Mini.errs⟩ (runMini ⟨funs, V2Mini.errs⟩) l :=
  ⟨_, compileAll_append V2Utils.link V2Mini.link, V2M.finishes⟩

/-- C137 (/repo/v1/buffer_test.go): every benchmark of the file that uses a `Buffer` comes to its end, for every `b.N`, when the methods are run
from their texts. -/
theorem C137_v1_buffer :
    ∃ funs, compileAll (V1Utils.text ++ V1Buffer.text) = some funs ∧
    ∀ l ∈ V1BufferBench.text, Finishes (str% "Buffer") ⟨funs, V1Buffer.errs⟩ (runProg ⟨funs, V1Buffer.errs⟩) l :=
  ⟨_, compileAll_append V1Utils.link V1Buffer.link, V1B.finishes⟩

/-- C137 (/repo/v1/minibuf_test.go): every benchmark of the file that uses a `MiniBuffer` comes to its end, for every `b.N`, when the methods are run
from their texts. -/
theorem C137_v1_mini :
    ∃ funs, compileAll (V1Utils.text ++ V1Mini.text) = some funs ∧
    ∀ l ∈ V1MiniBench.text, Finishes (str% "MiniBuffer") ⟨funs, V1Mini.errs⟩ (runMini ⟨funs, V1Mini.errs⟩) l :=
  ⟨_, compileAll_append V1Utils.link V1Mini.link, V1M.finishes⟩

/-- There are 32 of them. -/
example : (V3BufferBench.text ++ V3MiniBench.text ++ V2BufferBench.text ++ V2MiniBench.text ++ V1BufferBench.text ++ V1MiniBench.text).length = 32 := by
  rfl

/-! ## benchmarks that do not come to their end -/

/-- Two bytes more in every round. -/
def growing : List Str := [
  str% "func BenchmarkBufferWriteBytesNext(b *testing.B) {",
  str% "\tb.ReportAllocs()",
  str% "\tbuf := NewBuffer([]byte{0x00, 0x00, 0x00, 0x00})",
  str% "\tfor n := 0; n < b.N; n++ {",
  str% "\t\tbuf.WriteBytesNext([]byte{0x01, 0x02})",
  str% "\t}",
  str% "}"]

/-- The same with the position given. -/
def beyond : List Str := [
  str% "func BenchmarkBufferWriteBytes(b *testing.B) {",
  str% "\tb.ReportAllocs()",
  str% "\tbuf := NewBuffer([]byte{0x00, 0x00, 0x00, 0x00})",
  str% "\tfor n := 0; n < b.N; n++ {",
  str% "\t\tbuf.WriteBytes(0x03, []byte{0x01, 0x02})",
  str% "\t}",
  str% "}"]

/-- Whether a benchmark comes to its end with this `b.N`. -/
def ends (l : List Str) (n : Nat) : Bool :=
  match parseBench (str% "Buffer") l with
  | some b => passes V3Buffer.P (runBuf V3Buffer.P) (fun _ _ => 0) (b.rounds n)
  | none => true

theorem not_finishes {l : List Str} {n : Nat} (h : ends l n = false) : ¬ Finishes (str% "Buffer") V3Buffer.P (runBuf V3Buffer.P) l := by
  rintro ⟨b, hb, hp⟩
  unfold ends at h
  rw [hb] at h
  exact Bool.noConfusion ((hp n fun _ _ => 0).symm.trans h)

/-- Two rounds are all there is room for. -/
example : ends growing 2 = true ∧ ¬ Finishes (str% "Buffer") V3Buffer.P (runBuf V3Buffer.P) growing :=
  ⟨by decide +kernel, not_finishes (n := 3) (by decide +kernel)⟩

/-- It comes to its end only if the loop is never entered. -/
example : ends beyond 0 = true ∧ ¬ Finishes (str% "Buffer") V3Buffer.P (runBuf V3Buffer.P) beyond :=
  ⟨by decide +kernel, not_finishes (n := 1) (by decide +kernel)⟩

end Crunch.Src.Tests
