import Verif.Props.Tests
import Verif.Src.Tactic
import Verif.Lemmas.New
import Verif.Lemmas.V2New
import Verif.Props.V1Seq
import Verif.Props.V1Mini
import Verif.Props.V2Mini
import Verif.Props.SourceV3
import Verif.Props.SourceV2
import Verif.Props.SourceV1
import Verif.Props.SourceV2Buffer
import Verif.Props.SourceV1Buffer
import Verif.Src.Text.V3BufferTest
import Verif.Src.Text.V3MiniTest

/-!
# C134: the test of the constructors

`TestNewBuffer` and `TestNewMiniBuffer` are the only tests in which `append` is used more than once, and there the steps depend on what it has
allocated ahead: they are proved for any constructor that builds a buffer with the bytes of its arguments.
-/

namespace Crunch.Src.Tests

open Crunch.Gen Crunch.V3
open Program (Const)

/-- What the constructor does: a buffer with the bytes of the slices, at the beginning. -/
def Builds (f : Str) (ptr : List V) (r : Runner) : Prop :=
  ∀ (ss : List Slice) (s : V3.St), ss.length ≤ 2 → (∀ t ∈ ss, SliceOK s.mem t) → (cat s.mem ss).length ≤ maxAlloc →
    ∃ v s', r f (ptr ++ [.slices ss]) none s = some (.ok v, s') ∧ WF s' ∧ s'.bytes = cat s.mem ss ∧ s'.b.off = 0 ∧ s'.b.boff = 0

theorem builds_of {f : Str} {ptr : List V} {r : Runner}
    (h : ∀ (ss : List Slice) (s : V3.St), ss.length ≤ 2 → (∀ t ∈ ss, SliceOK s.mem t) → (V3.Buffer.NewBuffer ss s).1 = .ok () →
      ∃ v, r f (ptr ++ [.slices ss]) none s = some (.ok v, (V3.Buffer.NewBuffer ss s).2)) : Builds f ptr r := by
  intro ss s hl hs hc
  obtain ⟨h1, h2, _⟩ := newBuffer_run s ss (by have : 2 ≤ maxAlloc := by decide
                                               omega) hs
  by_cases e : ss.length = 1
  · obtain ⟨t, s', ht, hn, hw, _, _, _, hb, ho, hbo⟩ := h1 e
    obtain ⟨v, hv⟩ := h ss s hl hs (by rw [hn])
    rw [hn] at hv
    refine ⟨v, s', hv, hw, ?_, ho, hbo⟩
    rw [hb, ht]; simp [cat]
  · obtain ⟨s', hn, hw, hb⟩ := h2 e hc
    obtain ⟨v, hv⟩ := h ss s hl hs (by rw [hn])
    rw [hn] at hv
    exact ⟨v, s', hv, hw, hb.view, hb.zero.1, hb.zero.2⟩

/-- The bytes of `n` zeros. -/
def zeros (n : Nat) : List UInt8 := List.replicate n 0

/-- `[]byte{0x00, …}` -/
def zeroLit (n : Nat) : Tm := .list .u8 (List.replicate n ⟨false, 0, 0⟩)

theorem slice_fresh (m : Heap) (bs : List UInt8) (h : bs.length ≤ maxAlloc) : SliceOK (m.alloc bs) ⟨m.arrays.length, 0, bs.length, bs.length⟩ := by
  refine ⟨Nat.le_refl _, ?_, ?_⟩
  · show 0 + bs.length ≤ ((m.alloc bs).array m.arrays.length).length
    rw [array_alloc_self]; omega
  · show ((m.alloc bs).array m.arrays.length).length ≤ _
    rw [array_alloc_self]; exact h

theorem view_fresh (m : Heap) (bs : List UInt8) : (m.alloc bs).view ⟨m.arrays.length, 0, bs.length, bs.length⟩ = bs := by
  unfold Heap.view
  rw [array_alloc_self]
  simp

/-- The arguments of the three calls: slices with these bytes. -/
theorem evalSlices_zero (env : Env) (s : V3.St) (k : Nat) (hk : k ≤ 2) :
    ∃ ss m, evalSlices env s (List.replicate k (zeroLit 4)) = some (ss, m) ∧ ss.length ≤ 2 ∧ (∀ t ∈ ss, SliceOK m t) ∧
      cat m ss = zeros (4 * k) := by
  match k, hk with
  | 0, _ => exact ⟨[], s.mem, rfl, by decide, fun _ h => absurd h List.not_mem_nil, rfl⟩
  | 1, _ =>
    refine ⟨[⟨s.mem.arrays.length, 0, 4, 4⟩], s.mem.alloc (zeros 4), rfl, Nat.le_succ 1, ?_, ?_⟩
    · intro t ht
      rw [List.mem_singleton.mp ht]
      exact slice_fresh s.mem (zeros 4) (by decide)
    · show (s.mem.alloc (zeros 4)).view ⟨s.mem.arrays.length, 0, 4, 4⟩ ++ [] = _
      rw [List.append_nil]
      exact view_fresh s.mem (zeros 4)
  | 2, _ =>
    refine ⟨[⟨s.mem.arrays.length, 0, 4, 4⟩, ⟨(s.mem.alloc (zeros 4)).arrays.length, 0, 4, 4⟩], (s.mem.alloc (zeros 4)).alloc (zeros 4), rfl,
      Nat.le_refl 2, ?_, ?_⟩
    · intro t ht
      rcases List.mem_cons.mp ht with rfl | ht
      · exact (slice_fresh s.mem (zeros 4) (by decide)).alloc (by decide)
      · rw [List.mem_singleton.mp ht]
        exact slice_fresh (s.mem.alloc (zeros 4)) (zeros 4) (by decide)
    · show ((s.mem.alloc (zeros 4)).alloc (zeros 4)).view ⟨s.mem.arrays.length, 0, 4, 4⟩ ++
          (((s.mem.alloc (zeros 4)).alloc (zeros 4)).view ⟨(s.mem.alloc (zeros 4)).arrays.length, 0, 4, 4⟩ ++ []) = _
      have h := slice_fresh s.mem (zeros 4) (by decide)
      rw [List.append_nil, show zeros (4 * 2) = zeros 4 ++ zeros 4 from rfl]
      exact congr (congrArg _ ((view_alloc h (zeros 4)).trans (view_fresh s.mem (zeros 4)))) (view_fresh (s.mem.alloc (zeros 4)) (zeros 4))

/-- What a buffer of `n` zeros is compared with. -/
def wantZeros (n : Nat) : Slot := .want (zeros n) 0 (Int64.ofNat n) 0 (Int64.ofNat (8 * n))

variable {p : Pkg} {r : Runner}

/-- The comparison after a constructor. -/
theorem compare_zeros {e : Option Str} {y x : Str} {l : List Stmt} {env : Env} {s : V3.St} {n : Nat} (hn : n < 100)
    (hy : env.lookup y = some (wantZeros n)) (hx : env.lookup x = some .buf) (hw : WF s) (hb : s.bytes = zeros n) (ho : s.b.off = 0)
    (hbo : s.b.boff = 0) : runStmts p r e (.unequalBuf y x :: l) env s = runStmts p r e l env s := by
  have hl : s.b.buf.len = n := by
    rw [← length_view hw.ok]
    show s.bytes.length = n
    rw [hb]; exact List.length_replicate ..
  have hc : s.b.cap = Int64.ofNat n := by
    apply Int64.toInt_inj.mp
    rw [hw.cap_toInt, hl, Int64.toInt_ofNat_of_lt (by omega)]
  have hbc : s.b.bcap = Int64.ofNat (8 * n) := by
    apply Int64.toInt_inj.mp
    rw [hw.bcap_toInt, hl, Int64.toInt_ofNat_of_lt (by omega)]
    omega
  simp only [runStmts, hy, hx, wantZeros]
  rw [if_pos ⟨hb, ho, hc, hbo, hbc⟩]

/-- A call of `NewBuffer` and the comparison. -/
theorem new_zeros (h : Builds (str% "NewBuffer") [] r) {e : Option Str} {y x : Str} {l : List Stmt} {env : Env} (s : V3.St) (k : Nat)
    (hk : k ≤ 2) (hxy : (y == x) = false) (hy : env.lookup y = some (wantZeros (4 * k))) :
    ∃ s', runStmts p r e (.put x none (.new (List.replicate k (zeroLit 4))) :: .unequalBuf y x :: l) env s =
      runStmts p r e l ((x, .buf) :: env) s' := by
  obtain ⟨ss, m, hs, hl, hok, hc⟩ := evalSlices_zero env s k hk
  obtain ⟨v, s', hr, hw, hb, ho, hbo⟩ := h ss { s with mem := m } hl hok (by
    rw [hc]; simp only [zeros, List.length_replicate]
    have : 8 ≤ maxAlloc := by decide
    omega)
  refine ⟨s', ?_⟩
  rw [runStmts]
  simp only [hs]
  rw [List.nil_append] at hr
  rw [hr]
  refine compare_zeros (n := 4 * k) (by omega) ?_ ?_ hw (hb.trans hc) ho hbo
  · rw [List.lookup_cons, hxy]; exact hy
  · rw [List.lookup_cons, beq_self_eq_true]

/-- A call of `NewMiniBuffer` and the comparison. -/
theorem newMini_zeros (h : Builds (str% "NewMiniBuffer") [.ptr] r) {e : Option Str} {y x : Str} {l : List Stmt} {env : Env} (s : V3.St)
    (k : Nat) (hk : k ≤ 2) (hx : env.lookup x = some .buf) (hy : env.lookup y = some (wantZeros (4 * k))) :
    ∃ s', runStmts p r e (.newMini x (List.replicate k (zeroLit 4)) :: .unequalBuf y x :: l) env s = runStmts p r e l env s' := by
  obtain ⟨ss, m, hs, hl, hok, hc⟩ := evalSlices_zero env s k hk
  obtain ⟨v, s', hr, hw, hb, ho, hbo⟩ := h ss { s with mem := m } hl hok (by
    rw [hc]; simp only [zeros, List.length_replicate]
    have : 8 ≤ maxAlloc := by decide
    omega)
  refine ⟨s', ?_⟩
  rw [runStmts]
  simp only [hs, hx]
  rw [List.cons_append, List.nil_append] at hr
  rw [hr]
  exact compare_zeros (n := 4 * k) (by omega) hy hx hw (hb.trans hc) ho hbo

/-- `&Buffer{…}` with `n` zeros. -/
def zeroStruct (n : Nat) : Rhs :=
  .struct [(str% "buf", zeroLit n), (str% "off", .const ⟨false, 0, 0⟩), (str% "cap", .const ⟨false, n, 0⟩), (str% "boff", .const ⟨false, 0, 0⟩),
    (str% "bcap", .const ⟨false, 8 * n, 0⟩)]

/-- `TestNewBuffer` (/repo/v3/buffer_test.go:42-90). -/
def newTest : Test := ⟨str% "TestNewBuffer",
  [.put (str% "expected1") none (zeroStruct 4), .put (str% "expected2") none (zeroStruct 0), .put (str% "expected3") none (zeroStruct 8),
    .put (str% "out") none (.new (List.replicate 1 (zeroLit 4))), .unequalBuf (str% "expected1") (str% "out"),
    .put (str% "out") none (.new (List.replicate 0 (zeroLit 4))), .unequalBuf (str% "expected2") (str% "out"),
    .put (str% "out") none (.new (List.replicate 2 (zeroLit 4))), .unequalBuf (str% "expected3") (str% "out")]⟩

/-- `TestNewMiniBuffer` (/repo/v3/minibuf_test.go:42-92). -/
def newMiniTest : Test := ⟨str% "TestNewMiniBuffer",
  [.put (str% "expected1") none (zeroStruct 4), .put (str% "expected2") none (zeroStruct 0), .put (str% "expected3") none (zeroStruct 8),
    .put (str% "out") none (.struct []),
    .newMini (str% "out") (List.replicate 1 (zeroLit 4)), .unequalBuf (str% "expected1") (str% "out"),
    .newMini (str% "out") (List.replicate 0 (zeroLit 4)), .unequalBuf (str% "expected2") (str% "out"),
    .newMini (str% "out") (List.replicate 2 (zeroLit 4)), .unequalBuf (str% "expected3") (str% "out")]⟩

theorem parse_new : parseTest (str% "Buffer") V3BufferTest.TestNewBuffer = some newTest := by decide +kernel

theorem parse_newMini : parseTest (str% "MiniBuffer") V3MiniTest.TestNewMiniBuffer = some newMiniTest := by decide +kernel

/-- A literal of zeros. -/
theorem put_zeros {e : Option Str} {x : Str} {l : List Stmt} {env : Env} {s : V3.St} (n : Nat)
    (h : wanted env s [(str% "buf", zeroLit n), (str% "off", .const ⟨false, 0, 0⟩), (str% "cap", .const ⟨false, n, 0⟩),
      (str% "boff", .const ⟨false, 0, 0⟩), (str% "bcap", .const ⟨false, 8 * n, 0⟩)] = some (wantZeros n)) :
    runStmts p r e (.put x none (zeroStruct n) :: l) env s = runStmts p r e l ((x, wantZeros n) :: env) s := by
  rw [zeroStruct, runStmts]
  · simp only [h]
  · intro hh; cases hh

theorem newTest_passes (h : Builds (str% "NewBuffer") [] r) (slack : Nat → Nat → Nat) : passes p r slack newTest = true := by
  have e : runStmts p r none newTest.body [] ⟨⟨[], slack⟩, ⟨⟨0, 0, 0, 0⟩, 0, 0, 0, 0⟩⟩ = .done none := by
    unfold newTest
    rw [put_zeros 4 rfl, put_zeros 0 rfl, put_zeros 8 rfl]
    obtain ⟨s1, h1⟩ := new_zeros (p := p) h (e := none) (y := str% "expected1") (x := str% "out") (l := [
      .put (str% "out") none (.new (List.replicate 0 (zeroLit 4))), .unequalBuf (str% "expected2") (str% "out"),
      .put (str% "out") none (.new (List.replicate 2 (zeroLit 4))), .unequalBuf (str% "expected3") (str% "out")])
      (env := [(str% "expected3", wantZeros 8), (str% "expected2", wantZeros 0), (str% "expected1", wantZeros 4)])
      ⟨⟨[], slack⟩, ⟨⟨0, 0, 0, 0⟩, 0, 0, 0, 0⟩⟩ 1 (by decide) rfl rfl
    rw [h1]
    obtain ⟨s2, h2⟩ := new_zeros (p := p) h (e := none) (y := str% "expected2") (x := str% "out") (l := [
      .put (str% "out") none (.new (List.replicate 2 (zeroLit 4))), .unequalBuf (str% "expected3") (str% "out")])
      (env := [(str% "out", .buf), (str% "expected3", wantZeros 8), (str% "expected2", wantZeros 0), (str% "expected1", wantZeros 4)])
      s1 0 (by decide) rfl rfl
    rw [h2]
    obtain ⟨s3, h3⟩ := new_zeros (p := p) h (e := none) (y := str% "expected3") (x := str% "out") (l := [])
      (env := [(str% "out", .buf), (str% "out", .buf), (str% "expected3", wantZeros 8), (str% "expected2", wantZeros 0),
        (str% "expected1", wantZeros 4)]) s2 2 (by decide) rfl rfl
    rw [h3]
    rfl
  unfold passes
  rw [e]

theorem newMiniTest_passes (h : Builds (str% "NewMiniBuffer") [.ptr] r) (slack : Nat → Nat → Nat) : passes p r slack newMiniTest = true := by
  have e : runStmts p r none newMiniTest.body [] ⟨⟨[], slack⟩, ⟨⟨0, 0, 0, 0⟩, 0, 0, 0, 0⟩⟩ = .done none := by
    unfold newMiniTest
    rw [put_zeros 4 rfl, put_zeros 0 rfl, put_zeros 8 rfl]
    rw [runStmts]
    obtain ⟨s1, h1⟩ := newMini_zeros (p := p) h (e := none) (y := str% "expected1") (x := str% "out") (l := [
      .newMini (str% "out") (List.replicate 0 (zeroLit 4)), .unequalBuf (str% "expected2") (str% "out"),
      .newMini (str% "out") (List.replicate 2 (zeroLit 4)), .unequalBuf (str% "expected3") (str% "out")])
      (env := [(str% "out", .buf), (str% "expected3", wantZeros 8), (str% "expected2", wantZeros 0), (str% "expected1", wantZeros 4)])
      ⟨⟨[], slack⟩, ⟨⟨0, 0, 0, 0⟩, 0, 0, 0, 0⟩⟩ 1 (by decide) rfl rfl
    rw [h1]
    obtain ⟨s2, h2⟩ := newMini_zeros (p := p) h (e := none) (y := str% "expected2") (x := str% "out") (l := [
      .newMini (str% "out") (List.replicate 2 (zeroLit 4)), .unequalBuf (str% "expected3") (str% "out")])
      (env := [(str% "out", .buf), (str% "expected3", wantZeros 8), (str% "expected2", wantZeros 0), (str% "expected1", wantZeros 4)])
      s1 0 (by decide) rfl rfl
    rw [h2]
    obtain ⟨s3, h3⟩ := newMini_zeros (p := p) h (e := none) (y := str% "expected3") (x := str% "out") (l := [])
      (env := [(str% "out", .buf), (str% "expected3", wantZeros 8), (str% "expected2", wantZeros 0), (str% "expected1", wantZeros 4)])
      s2 2 (by decide) rfl rfl
    rw [h3]
    rfl
  unfold passes
  rw [e]

/-! ## the constructors of the texts -/

theorem two_lt {ss : List Slice} (hl : ss.length ≤ 2) : ss.length < 2 ^ 63 := by
  have : (2 : Nat) < 2 ^ 63 := by decide
  omega

theorem fuel_ok : 2 ^ 64 < fuel := by decide

theorem builds_v3 : Builds (str% "NewBuffer") [] (runBuf V3Buffer.P) := by
  refine builds_of fun ss s hl _ hk => ⟨.unit, ?_⟩
  obtain ⟨funs, hc, h⟩ := C81_constructor_text
  rw [V3Buffer.link] at hc
  cases hc
  show some ((V3Buffer.P.callBuf fuel 4 (str% "NewBuffer") [.slices ss] (s, .unit)).1, (V3Buffer.P.callBuf fuel 4 (str% "NewBuffer") [.slices ss] (s, .unit)).2.1) = _
  rw [show (V3Buffer.P).callBuf fuel 4 (str% "NewBuffer") [.slices ss] (s, .unit) = _ from h fuel 4 fuel_ok (by decide) ss (two_lt hl) s .unit]
  unfold V3.wrapVal
  rw [bind_run]
  rcases hn : V3.Buffer.NewBuffer ss s with ⟨q | q, s'⟩
  · rfl
  · rw [hn] at hk; cases hk

theorem builds_v3m : Builds (str% "NewMiniBuffer") [.ptr] (runMini V3Mini.P) := by
  refine builds_of fun ss s hl _ hk => ⟨.unit, ?_⟩
  obtain ⟨funs, hc, h⟩ := C82_constructor_text
  rw [V3Mini.link] at hc
  cases hc
  show some ((V3Mini.P.callBuf fuel 4 (str% "NewMiniBuffer") [.ptr, .slices ss] (s, .unit)).1, (V3Mini.P.callBuf fuel 4 (str% "NewMiniBuffer") [.ptr, .slices ss] (s, .unit)).2.1) = _
  rw [show (V3Mini.P).callBuf fuel 4 (str% "NewMiniBuffer") [.ptr, .slices ss] (s, .unit) = _ from h fuel 4 fuel_ok (by decide) ss (two_lt hl) s .unit]
  unfold V3.wrapVal
  rw [bind_run, C43_constructors]
  rcases hn : V3.Buffer.NewBuffer ss s with ⟨q | q, s'⟩
  · rfl
  · rw [hn] at hk; cases hk

theorem builds_v2m : Builds (str% "NewMiniBuffer") [.ptr] (runMini V2Mini.P) := by
  refine builds_of fun ss s hl _ hk => ⟨.unit, ?_⟩
  obtain ⟨funs, hc, h⟩ := C84_constructor_text
  rw [compileAll_append V2Utils.link V2Mini.link] at hc
  cases hc
  show some ((V2Mini.P.callBuf fuel 4 (str% "NewMiniBuffer") [.ptr, .slices ss] (s, .unit)).1, (V2Mini.P.callBuf fuel 4 (str% "NewMiniBuffer") [.ptr, .slices ss] (s, .unit)).2.1) = _
  rw [show (V2Mini.P).callBuf fuel 4 (str% "NewMiniBuffer") [.ptr, .slices ss] (s, .unit) = _ from h fuel 4 fuel_ok (by decide) ss (two_lt hl) s .unit]
  unfold V3.wrapVal
  rw [bind_run, V2.newMini_eq ss (two_lt hl), C43_constructors]
  rcases hn : V3.Buffer.NewBuffer ss s with ⟨q | q, s'⟩
  · rfl
  · rw [hn] at hk; cases hk

theorem builds_v1m : Builds (str% "NewMiniBuffer") [.ptr] (runMini V1Mini.P) := by
  refine builds_of fun ss s hl _ hk => ⟨.unit, ?_⟩
  obtain ⟨funs, hc, h⟩ := C85_constructor_text
  rw [compileAll_append V1Utils.link V1Mini.link] at hc
  cases hc
  show some ((V1Mini.P.callBuf fuel 4 (str% "NewMiniBuffer") [.ptr, .slices ss] (s, .unit)).1, (V1Mini.P.callBuf fuel 4 (str% "NewMiniBuffer") [.ptr, .slices ss] (s, .unit)).2.1) = _
  rw [show (V1Mini.P).callBuf fuel 4 (str% "NewMiniBuffer") [.ptr, .slices ss] (s, .unit) = _ from h fuel 4 fuel_ok (by decide) ss (two_lt hl) s .unit]
  unfold V3.wrapVal
  rw [bind_run, V1.C77_mini_constructor ss, V2.newMini_eq ss (two_lt hl), C43_constructors]
  rcases hn : V3.Buffer.NewBuffer ss s with ⟨q | q, s'⟩
  · rfl
  · rw [hn] at hk; cases hk

theorem builds_v2 : Builds (str% "NewBuffer") [] (runProg V2Buffer.P) := by
  refine builds_of fun ss s hl hs hk => ⟨.unit, ?_⟩
  obtain ⟨funs, hc, h⟩ := C86_constructor_text
  rw [compileAll_append V2Utils.link V2Buffer.link] at hc
  cases hc
  unfold runProg
  simp only [List.nil_append]
  rw [show ((V2Buffer.P).call fuel 4 (str% "NewBuffer") [.slices ss] : Prog V) = _ from h fuel 4 fuel_ok (by decide) ss (two_lt hl),
    Prog.run_map, V2.newBuffer_v3 ss s (two_lt hl) hs]
  rcases hn : V3.Buffer.NewBuffer ss s with ⟨q | q, s'⟩
  · rfl
  · rw [hn] at hk; cases hk

theorem builds_v1 : Builds (str% "NewBuffer") [] (runProg V1Buffer.P) := by
  refine builds_of fun ss s hl hs hk => ⟨.unit, ?_⟩
  obtain ⟨funs, hc, h⟩ := C87_constructor_text
  rw [compileAll_append V1Utils.link V1Buffer.link] at hc
  cases hc
  unfold runProg
  simp only [List.nil_append]
  rw [show ((V1Buffer.P).call fuel 4 (str% "NewBuffer") [.slices ss] : Prog V) = _ from h fuel 4 fuel_ok (by decide) ss (two_lt hl),
    V1.C69_constructor ss, Prog.run_map, V2.newBuffer_v3 ss s (two_lt hl) hs]
  rcases hn : V3.Buffer.NewBuffer ss s with ⟨q | q, s'⟩
  · rfl
  · rw [hn] at hk; cases hk

/-! ## a test can fail -/

/-- `TestBufferReadByte` with another byte expected. -/
def wrongByte : List Str := [
  str% "func TestBufferReadByte(t *testing.T) {",
  str% "\tvar expected byte = 0x03",
  str% "\tbuf := NewBuffer([]byte{0x01, 0x02, 0x03, 0x04})",
  str% "\tout := buf.ReadByte(0x01)",
  str% "\tif expected != out {",
  str% "\t\tt.Fatalf(\"no\")",
  str% "\t}",
  str% "}"]

/-- A test for a panic that does not come. -/
def wrongPanic : List Str := [
  str% "func TestBufferReadByte(t *testing.T) {",
  str% "\tbuf := NewBuffer([]byte{0x01, 0x02, 0x03, 0x04})",
  str% "\tdefer panicChecker(t, BufferOverreadError)",
  str% "\t_ = buf.ReadByte(0x03)",
  str% "}"]

/-- The same where another error comes. -/
def wrongError : List Str := [
  str% "func TestBufferReadByte(t *testing.T) {",
  str% "\tbuf := NewBuffer([]byte{0x01, 0x02, 0x03, 0x04})",
  str% "\tdefer panicChecker(t, BufferUnderreadError)",
  str% "\t_ = buf.ReadByte(0x04)",
  str% "}"]

/-- And where it is the one expected. -/
def rightError : List Str := [
  str% "func TestBufferReadByte(t *testing.T) {",
  str% "\tbuf := NewBuffer([]byte{0x01, 0x02, 0x03, 0x04})",
  str% "\tdefer panicChecker(t, BufferOverreadError)",
  str% "\t_ = buf.ReadByte(0x04)",
  str% "}"]

/-- A test that does not pass under one policy does not pass. -/
theorem not_passes {ty : Str} {p : Pkg} {r : Runner} {l : List Str} (h : (parseTest ty l).isSome = true ∧ check ty p r (fun _ _ => 0) l = false) :
    ¬ Passes ty p r l := by
  rintro ⟨t, ht, hp⟩
  have := h.2
  unfold check at this
  rw [ht] at this
  exact Bool.noConfusion ((hp fun _ _ => 0).symm.trans this)

example : ¬ Passes (str% "Buffer") V3Buffer.P (runBuf V3Buffer.P) wrongByte := not_passes (by decide +kernel)
example : ¬ Passes (str% "Buffer") V3Buffer.P (runBuf V3Buffer.P) wrongPanic := not_passes (by decide +kernel)
example : ¬ Passes (str% "Buffer") V3Buffer.P (runBuf V3Buffer.P) wrongError := not_passes (by decide +kernel)
example : Passes (str% "Buffer") V3Buffer.P (runBuf V3Buffer.P) rightError := of_check (by kexact (fun _ : Nat → Nat → Nat => Eq.refl true))

end Crunch.Src.Tests
