import Verif.Src.Program
import Verif.Src.Text.HelloWorld
import Verif.Src.Text.SignedIntegers
import Verif.Src.Text.FloatingPoint
import Verif.Props.Examples

/-!
# Programs that use a v3 `Buffer`, from their texts (C133)
-/

namespace Crunch.Src.Program
open Crunch.Gen (Str)
open V3 (WF abs Op)

/-! ## what a program means -/

/-- A call of a method; `lit` are the bytes it is given, if it is given bytes. -/
structure Meant where
  op : V3.Op
  lit : List UInt8 := []

/-- How it is written. -/
def Meant.call (c : Meant) : TCall :=
  ⟨goName c.op, (goArgs c.op).map fun
    | .bytes _ => .bytes c.lit
    | v => .val v⟩

/-- The call for the reference machine. -/
def Meant.ref (c : Meant) : Ref.Op :=
  match c.op with
  | .writeBytes p _ => .writeBytes (p.map Int64.toInt) c.lit
  | op => op.lower ⟨[], fun _ n => n⟩

/-- What Go can hold in memory. -/
def Meant.Small (c : Meant) : Prop :=
  c.lit.length ≤ maxAlloc ∧
    match c.op with
    | .write k _ _ data => data.length * k.size ≤ maxAlloc
    | .afterByte o => o.length < 2 ^ 63
    | .afterBit o => o.length < 2 ^ 63
    | _ => True

/-- A number by its pattern. -/
def element (F : Floats) : V3.Kind → Nat → Str
  | .u16, n => decimal n | .u32, n => decimal n | .u64, n => decimal n
  | .i16, n => decimalInt (Int.bmod n (2 ^ 16)) | .i32, n => decimalInt (Int.bmod n (2 ^ 32)) | .i64, n => decimalInt (Int.bmod n (2 ^ 64))
  | .f32, n => F.f32 ⟨UInt32.ofNat n⟩ | .f64, n => F.f64 ⟨UInt64.ofNat n⟩

/-- What is printed for a result of the reference machine. -/
def refShown (F : Floats) (op : V3.Op) : Ref.Val → Option Str
  | .num n => some (decimalInt n)
  | .bytes l => some (bracketed (l.map fun x => decimal x.toNat))
  | .nums l =>
    match op with
    | .read k _ _ _ => some (bracketed (l.map (element F k)))
    | _ => none
  | .unit => none

/-- What is written for it. -/
def refOutput (F : Floats) (op : V3.Op) : Use → Ref.Val → Option Str
  | .drop, _ => some []
  | .print, v => (refShown F op v).map (· ++ str% "\n")
  | .printStr, .bytes l => some (l ++ str% "\n")
  | .printStr, _ => none

/-- The program on the reference machine. -/
def refLines (F : Floats) : List (Use × Meant) → Ref.Ref → Option Outcome
  | [], _ => some ([], .ok ())
  | (u, c) :: l, r =>
    match Ref.step c.ref r with
    | (.panic e, _) => some ([], .panic e)
    | (.ok v, r') => do
      let o ← refOutput F c.op u v
      let t ← refLines F l r'
      return (o ++ t.1, t.2)

/-! ## proof -/

/-- The call with the bytes in memory. -/
def Meant.at (c : Meant) (t : Slice) : V3.Op :=
  match c.op with
  | .writeBytes p _ => .writeBytes p t
  | op => op

theorem alloc_wf {s : V3.St} (h : WF s) {bs : List UInt8} (hb : bs.length ≤ maxAlloc) :
    WF { s with mem := s.mem.alloc bs } ∧ abs { s with mem := s.mem.alloc bs } = abs s := by
  refine ⟨⟨SliceOK.alloc h.ok hb, h.cap, h.bcap⟩, ?_⟩
  have hw : (s.mem.alloc bs).window s.b.buf = s.mem.window s.b.buf := by
    unfold Heap.window
    by_cases hs : s.b.buf.arr < s.mem.arrays.length
    · rw [array_alloc_lt hs]
    · have e := array_nil_of_ge (h := s.mem) (a := s.b.buf.arr) (by omega)
      have : s.b.buf.cap = 0 := by have := h.ok.fits; rw [e] at this; simp at this; omega
      simp [this]
  show (⟨(s.mem.alloc bs).view s.b.buf, ((s.mem.alloc bs).window s.b.buf).drop _, _, _⟩ : Ref.Ref) = ⟨s.mem.view s.b.buf, _, _, _⟩
  rw [hw, view_alloc h.ok]

/-- Evaluating the arguments. -/
theorem eval_call {s : V3.St} (h : WF s) (c : Meant) (hc : c.Small) :
    ∃ t m, evalArgs c.call.args s.mem = (goArgs (c.at t), m) ∧ WF { s with mem := m } ∧ abs { s with mem := m } = abs s ∧
      (c.at t).Valid m ∧ (c.at t).lower m = c.ref ∧ goName (c.at t) = goName c.op ∧ Fits (c.at t) ∧
      ∀ k e p n, c.at t = .read k e p n → c.op = .read k e p n := by
  obtain ⟨op, lit⟩ := c
  obtain ⟨h1, h2⟩ := hc
  have hb := alloc_wf h h1
  cases op with
  | writeBytes p src =>
    have hv : SliceOK (s.mem.alloc lit) ⟨s.mem.arrays.length, 0, lit.length, lit.length⟩ :=
      ⟨Nat.le_refl _, by rw [array_alloc_self]; simp, by rw [array_alloc_self]; exact h1⟩
    refine ⟨⟨s.mem.arrays.length, 0, lit.length, lit.length⟩, s.mem.alloc lit, ?_, hb.1, hb.2, hv, ?_, ?_, trivial, nofun⟩
    · cases p <;> rfl
    · show Ref.Op.writeBytes _ _ = Ref.Op.writeBytes _ _
      congr 1
      unfold Heap.view
      rw [array_alloc_self]
      simp
    · cases p <;> rfl
  | write k e p data => exact ⟨⟨0, 0, 0, 0⟩, s.mem, by cases p <;> cases k <;> rfl, h, rfl, h2, rfl, rfl, trivial, nofun⟩
  | read k e p n => exact ⟨⟨0, 0, 0, 0⟩, s.mem, by cases p <;> rfl, h, rfl, trivial, rfl, rfl, trivial, fun _ _ _ _ e => e⟩
  | writeByte p v => exact ⟨⟨0, 0, 0, 0⟩, s.mem, by cases p <;> rfl, h, rfl, trivial, rfl, rfl, trivial, nofun⟩
  | readBytes p n => exact ⟨⟨0, 0, 0, 0⟩, s.mem, by cases p <;> rfl, h, rfl, trivial, rfl, rfl, trivial, nofun⟩
  | readByte p => exact ⟨⟨0, 0, 0, 0⟩, s.mem, by cases p <;> rfl, h, rfl, trivial, rfl, rfl, trivial, nofun⟩
  | readBit p => exact ⟨⟨0, 0, 0, 0⟩, s.mem, by cases p <;> rfl, h, rfl, trivial, rfl, rfl, trivial, nofun⟩
  | readBits p n => exact ⟨⟨0, 0, 0, 0⟩, s.mem, by cases p <;> rfl, h, rfl, trivial, rfl, rfl, trivial, nofun⟩
  | setBit p => exact ⟨⟨0, 0, 0, 0⟩, s.mem, by cases p <;> rfl, h, rfl, trivial, rfl, rfl, trivial, nofun⟩
  | clearBit p => exact ⟨⟨0, 0, 0, 0⟩, s.mem, by cases p <;> rfl, h, rfl, trivial, rfl, rfl, trivial, nofun⟩
  | flipBit p => exact ⟨⟨0, 0, 0, 0⟩, s.mem, by cases p <;> rfl, h, rfl, trivial, rfl, rfl, trivial, nofun⟩
  | setBits p v n => exact ⟨⟨0, 0, 0, 0⟩, s.mem, by cases p <;> rfl, h, rfl, trivial, rfl, rfl, trivial, nofun⟩
  | afterByte o => exact ⟨⟨0, 0, 0, 0⟩, s.mem, rfl, h, rfl, trivial, rfl, rfl, h2, nofun⟩
  | afterBit o => exact ⟨⟨0, 0, 0, 0⟩, s.mem, rfl, h, rfl, trivial, rfl, rfl, h2, nofun⟩
  | _ => exact ⟨⟨0, 0, 0, 0⟩, s.mem, rfl, h, rfl, trivial, rfl, rfl, trivial, nofun⟩

theorem wrapVal_typed {f : α → V3.Val} {m : GoM V3.St α} {s t : V3.St} {k : V3.Kind} {l : List k.Ty}
    (h : V3.wrapVal f m s = (.ok (.typed k l), t)) : ∃ a, f a = .typed k l := by
  rw [V3.wrapVal_run] at h
  generalize m s = r at h
  rcases r with ⟨a | _, s'⟩
  · have h' : f a = _ := (Res.ok.inj (congrArg Prod.fst h))
    exact ⟨a, h'⟩
  · cases h

/-- Only the typed readers give typed slices. -/
theorem typed_read {op : V3.Op} {s t : V3.St} {k : V3.Kind} {l : List k.Ty} (h : V3.exec op s = (.ok (.typed k l), t)) :
    ∃ e p n, op = .read k e p n := by
  cases op with
  | read k' e p n =>
    have : ∃ a : List k'.Ty, V3.Val.typed k' a = .typed k l := by cases p <;> exact wrapVal_typed h
    obtain ⟨a, ha⟩ := this
    cases ha
    exact ⟨_, _, _, rfl⟩
  | write k' e p d => cases p <;> exact absurd (wrapVal_typed h) nofun
  | writeBytes p d => cases p <;> exact absurd (wrapVal_typed h) nofun
  | writeByte p d => cases p <;> exact absurd (wrapVal_typed h) nofun
  | readBytes p d => cases p <;> exact absurd (wrapVal_typed h) nofun
  | readByte p => cases p <;> exact absurd (wrapVal_typed h) nofun
  | readBit p => cases p <;> exact absurd (wrapVal_typed h) nofun
  | readBits p d => cases p <;> exact absurd (wrapVal_typed h) nofun
  | setBit p => cases p <;> exact absurd (wrapVal_typed h) nofun
  | clearBit p => cases p <;> exact absurd (wrapVal_typed h) nofun
  | flipBit p => cases p <;> exact absurd (wrapVal_typed h) nofun
  | setBits p d n => cases p <;> exact absurd (wrapVal_typed h) nofun
  | _ => exact absurd (wrapVal_typed h) nofun

theorem decimalInt_ofNat (n : Nat) : decimalInt (n : Int) = decimal n := by
  unfold decimalInt
  rw [if_neg (by omega)]
  rfl

theorem toNat_mod {x : Int} {b : Nat} (h1 : -(2 ^ b : Nat) ≤ 2 * x) (h2 : 2 * x < (2 ^ b : Nat)) :
    Int.bmod ((x % (2 ^ b : Nat)).toNat : Nat) (2 ^ b) = x := by
  have hp : (0 : Int) < (2 ^ b : Nat) := by have := Nat.two_pow_pos b; omega
  rw [Int.toNat_of_nonneg (Int.emod_nonneg _ (by omega)), Int.emod_bmod]
  exact Int.bmod_eq_of_le_mul_two (by omega) (by omega)

/-- What is printed for an element. -/
def elementOf (F : Floats) : (k : V3.Kind) → k.Ty → Str
  | .u16, x => decimal x.toNat | .u32, x => decimal x.toNat | .u64, x => decimal x.toNat
  | .i16, x => decimalInt x.toInt | .i32, x => decimalInt x.toInt | .i64, x => decimalInt x.toInt
  | .f32, x => F.f32 x | .f64, x => F.f64 x

theorem element_pat (F : Floats) (k : V3.Kind) (x : k.Ty) : element F k (k.pat x) = elementOf F k x := by
  cases k with
  | i16 => exact congrArg decimalInt (toNat_mod (b := 16) (by have := Int16.le_toInt x; omega) (by have := Int16.toInt_lt x; omega))
  | i32 => exact congrArg decimalInt (toNat_mod (b := 32) (by have := Int32.le_toInt x; omega) (by have := Int32.toInt_lt x; omega))
  | i64 => exact congrArg decimalInt (toNat_mod (b := 64) (by have := Int64.le_toInt x; omega) (by have := Int64.toInt_lt x; omega))
  | f32 => exact congrArg F.f32 (congrArg F32.mk (UInt32.ofNat_toNat (x := x.bits)))
  | f64 => exact congrArg F.f64 (congrArg F64.mk (UInt64.ofNat_toNat (x := x.bits)))
  | _ => rfl

theorem shown_ref (F : Floats) (m : Heap) (op : V3.Op) (v : V3.Val) (hk : ∀ k (l : List k.Ty), v = .typed k l → ∃ e p n, op = .read k e p n) :
    shown F m (goVal v) = refShown F op (v.obs m) := by
  cases v with
  | typed k l =>
    obtain ⟨e, p, n, rfl⟩ := hk k l rfl
    have h1 : shown F m (goVal (.typed k l)) = some (bracketed (l.map (elementOf F k))) := by cases k <;> rfl
    rw [h1]
    show _ = some (bracketed (List.map _ (List.map _ l)))
    rw [List.map_map]
    exact congrArg (fun f => some (bracketed (List.map f l))) (funext fun x => (element_pat F k x).symm)
  | u8 x => exact congrArg some (decimalInt_ofNat _).symm
  | u64 x => exact congrArg some (decimalInt_ofNat _).symm
  | _ => rfl

theorem output_ref (F : Floats) (m : Heap) (op : V3.Op) (u : Use) (v : V3.Val) (hk : ∀ k (l : List k.Ty), v = .typed k l → ∃ e p n, op = .read k e p n) :
    output F m u (goVal v) = refOutput F op u (v.obs m) := by
  cases u with
  | drop => rfl
  | print => show Option.map _ _ = Option.map _ _; rw [shown_ref F m op v hk]
  | printStr =>
    cases v with
    | typed k l => cases k <;> rfl
    | _ => rfl

theorem lines_ref {p : Pkg} {fuel depth : Nat} (hp : ∀ (op : V3.Op), Fits op → ∀ (s : V3.St) (v : V),
      p.callBuf fuel depth (goName op) (goArgs op) (s, v) = (goRes (V3.exec op s).1, ((V3.exec op s).2, v)))
    (F : Floats) (l : List (Use × Meant)) (hl : ∀ c ∈ l, c.2.Small) {s : V3.St} (h : WF s) :
    runLines p fuel depth F (l.map fun c => (c.1, c.2.call)) s = refLines F l (abs s) := by
  induction l generalizing s with
  | nil => rfl
  | cons uc l ih =>
    obtain ⟨u, c⟩ := uc
    obtain ⟨t, m, e1, e2, e3, e4, e5, e6, e7, e8⟩ := eval_call h c (hl _ (List.mem_cons_self ..))
    have hs := V3.step_ok e2 (c.at t) e4
    have hr := hs.result
    have ht := hs.state
    rw [e3, show (c.at t).lower m = c.ref from e5] at hr ht
    have hc := hp (c.at t) e7 { s with mem := m } .unit
    rw [e6] at hc
    simp only [List.map_cons, runLines, refLines, e1, show c.call.name = goName c.op from rfl, hc]
    have hx := fun k l => typed_read (op := c.at t) (s := { s with mem := m }) (t := (V3.exec (c.at t) { s with mem := m }).2) (k := k) (l := l)
    generalize V3.exec (c.at t) { s with mem := m } = r at hr ht hs hx ⊢
    generalize Ref.step c.ref (abs s) = q at hr ht ⊢
    obtain ⟨r, s'⟩ := r
    obtain ⟨q, r'⟩ := q
    cases r with
    | panic e => cases hr; rfl
    | ok v =>
      cases hr
      cases ht
      have ho := output_ref F s'.mem c.op u v fun k l hv => by
        obtain ⟨e, p, n, hop⟩ := hx k l (by rw [hv])
        exact ⟨e, p, n, e8 _ _ _ _ hop⟩
      show (output F s'.mem u (goVal v)).bind _ = (refOutput F c.op u _).bind _
      rw [ho]
      exact congrArg (Option.bind _) (funext fun o => by
        rw [ih (fun c hc => hl c (List.mem_cons_of_mem _ hc)) hs.wf]; rfl)

/-! ## C133 -/

/-- C133: a program that makes a v3 `Buffer`, calls its methods with constants and prints results, run from the text of v3 in any memory, prints
what it prints on the reference machine, and ends as it ends there: normally, or with the same panic after the same output. -/
theorem C133_programs :
    ∃ funs, compileAll V3Buffer.text = some funs ∧
    ∀ (fuel depth : Nat), 2 ^ 64 < fuel → 3 ≤ depth → ∀ (F : Floats) (ls : List Line) (l : List (Use × Meant)),
    ls.mapM (Line.typed ⟨funs, V3Buffer.errs⟩) = some (l.map fun c => (c.1, c.2.call)) → (∀ c ∈ l, c.2.Small) → ∀ (s : V3.St),
    run ⟨funs, V3Buffer.errs⟩ fuel depth F ls s = refLines F l ⟨[], [], 0, 0⟩ := by
  obtain ⟨funs, hc, hcall⟩ := C81_buffer_text
  obtain ⟨funs', hc', hnew⟩ := C81_constructor_text
  rw [hc] at hc'
  cases hc'
  refine ⟨funs, hc, fun fuel depth hf hd F ls l hl hs s => ?_⟩
  have hn := hnew fuel depth hf hd [] (by decide) s .unit
  rw [V3.wrapVal_run, V3.new_empty] at hn
  simp only [run, hl, Option.bind_eq_bind, Option.bind_some]
  rw [hn]
  have hb := V3.emptyAt_built s.mem
  have := lines_ref (hcall fuel depth hf hd) F l hs (s := V3.emptyAt s.mem) ⟨hb.ok, rfl, rfl⟩
  rw [V3.abs_emptyAt] at this
  exact this

/-- What the three programs consist of. -/
def helloWorld : List (Use × Meant) :=
  [(.drop, ⟨.grow 12, []⟩), (.drop, ⟨.writeBytes none ⟨0, 0, 0, 0⟩, str% "hello, world"⟩), (.printStr, ⟨.bytes, []⟩)]
def signedIntegers : List (Use × Meant) :=
  [(.drop, ⟨.grow 8, []⟩), (.drop, ⟨.write .i32 .le none [(-42 : Int32), (69 : Int32)], []⟩), (.print, ⟨.bytes, []⟩),
   (.drop, ⟨.seekByte 0 false, []⟩), (.print, ⟨.read .i32 .le none 2, []⟩)]
def floatingPoint : List (Use × Meant) :=
  [(.drop, ⟨.grow 32, []⟩),
   (.drop, ⟨.write .f64 .be none [(⟨0x4051400000000000⟩ : F64), (⟨0xC035000000000000⟩ : F64), (⟨0xC04535C28F5C28F6⟩ : F64), (⟨0x400CF7CED916872B⟩ : F64)], []⟩),
   (.print, ⟨.bytes, []⟩), (.drop, ⟨.seekByte 0 false, []⟩), (.print, ⟨.read .f64 .be none 4, []⟩)]

/-- The statements of the programs, as parsed. -/
def helloWorldLines : List Line :=
  [.call ⟨str% "Grow", [.const ⟨false, 12, 0⟩]⟩, .call ⟨str% "WriteBytesNext", [.str (str% "hello, world")]⟩, .printStr ⟨str% "Bytes", []⟩]
def signedIntegersLines : List Line :=
  [.call ⟨str% "Grow", [.const ⟨false, 8, 0⟩]⟩, .call ⟨str% "WriteI32LENext", [.list .i32 [⟨true, 42, 0⟩, ⟨false, 69, 0⟩]]⟩,
   .print ⟨str% "Bytes", []⟩, .call ⟨str% "SeekByte", [.const ⟨false, 0, 0⟩, .flag false]⟩, .print ⟨str% "ReadI32LENext", [.const ⟨false, 2, 0⟩]⟩]
def floatingPointLines : List Line :=
  [.call ⟨str% "Grow", [.const ⟨false, 32, 0⟩]⟩,
   .call ⟨str% "WriteF64BENext", [.list .f64 [⟨false, 690, 1⟩, ⟨true, 210, 1⟩, ⟨true, 4242, 2⟩, ⟨false, 3621, 3⟩]]⟩,
   .print ⟨str% "Bytes", []⟩, .call ⟨str% "SeekByte", [.const ⟨false, 0, 0⟩, .flag false]⟩, .print ⟨str% "ReadF64BENext", [.const ⟨false, 4, 0⟩]⟩]

/-- A program text prints `out` and ends normally, in any memory. -/
def Prints (text : List Str) (out : Floats → Str) : Prop :=
  ∃ funs, compileAll V3Buffer.text = some funs ∧ ∃ ls, parseMain text = some ls ∧
    ∀ (fuel depth : Nat), 2 ^ 64 < fuel → 3 ≤ depth → ∀ (F : Floats) (s : V3.St),
    run ⟨funs, V3Buffer.errs⟩ fuel depth F ls s = some (out F, .ok ())

theorem prints_of {text : List Str} {out : Floats → Str} (ls : List Line) (hp : parseMain text = some ls) (l : List (Use × Meant))
    (ht : ls.mapM (Line.typed ⟨V3Buffer.funs, V3Buffer.errs⟩) = some (l.map fun c => (c.1, c.2.call))) (hs : ∀ c ∈ l, c.2.Small)
    (hr : ∀ F, refLines F l ⟨[], [], 0, 0⟩ = some (out F, .ok ())) : Prints text out := by
  obtain ⟨funs, hc, h⟩ := C133_programs
  have e := hc
  rw [V3Buffer.link] at e
  cases e
  exact ⟨_, hc, ls, hp, fun fuel depth hf hd F s => (h fuel depth hf hd F ls l ht hs s).trans (hr F)⟩

/-- C133: examples/helloworld/main.go. -/
theorem C133_helloworld : Prints HelloWorld.text fun _ => str% "hello, world\n" := by
  refine prints_of helloWorldLines (by decide +kernel) helloWorld (by kexact (Eq.refl (some (helloWorld.map fun c => (c.1, c.2.call))))) ?_ fun F => by kexact (Eq.refl (refLines F helloWorld ⟨[], [], 0, 0⟩))
  intro c hc
  simp only [helloWorld, List.mem_cons, List.not_mem_nil, or_false] at hc
  rcases hc with rfl | rfl | rfl <;> exact ⟨by decide, trivial⟩

/-- C133: examples/signed-integers/main.go. -/
theorem C133_signed_integers : Prints SignedIntegers.text fun _ => str% "[214 255 255 255 69 0 0 0]\n[-42 69]\n" := by
  refine prints_of signedIntegersLines (by decide +kernel) signedIntegers (by kexact (Eq.refl (some (signedIntegers.map fun c => (c.1, c.2.call))))) ?_ fun F => by kexact (Eq.refl (refLines F signedIntegers ⟨[], [], 0, 0⟩))
  intro c hc
  simp only [signedIntegers, List.mem_cons, List.not_mem_nil, or_false] at hc
  rcases hc with rfl | rfl | rfl | rfl | rfl <;> exact ⟨by decide, by first | trivial | decide⟩

/-- C133: examples/floating-point/main.go.  The constants are the nearest numbers; how they are printed is left open, but what is printed
at the end are the numbers that were written. -/
theorem C133_floating_point : Prints FloatingPoint.text fun F =>
    str% "[64 81 64 0 0 0 0 0 192 53 0 0 0 0 0 0 192 69 53 194 143 92 40 246 64 12 247 206 217 22 135 43]\n[" ++
      (F.f64 ⟨0x4051400000000000⟩ ++ str% " " ++ (F.f64 ⟨0xC035000000000000⟩ ++ str% " " ++ (F.f64 ⟨0xC04535C28F5C28F6⟩ ++ str% " " ++
        F.f64 ⟨0x400CF7CED916872B⟩))) ++ str% "]\n" := by
  refine prints_of floatingPointLines (by decide +kernel) floatingPoint (by kexact (Eq.refl (some (floatingPoint.map fun c => (c.1, c.2.call))))) ?_ ?_
  rotate_left
  · intro F
    have : ∀ F, refLines F floatingPoint ⟨[], [], 0, 0⟩ =
        some (str% "[64 81 64 0 0 0 0 0 192 53 0 0 0 0 0 0 192 69 53 194 143 92 40 246 64 12 247 206 217 22 135 43]\n" ++
          (str% "[" ++ (F.f64 ⟨0x4051400000000000⟩ ++ str% " " ++ (F.f64 ⟨0xC035000000000000⟩ ++ str% " " ++ (F.f64 ⟨0xC04535C28F5C28F6⟩ ++ str% " " ++
            F.f64 ⟨0x400CF7CED916872B⟩))) ++ str% "]" ++ str% "\n" ++ []), .ok ()) := by
      kexact (fun F => Eq.refl (refLines F floatingPoint ⟨[], [], 0, 0⟩))
    rw [this F]
    simp only [List.append_assoc, List.append_nil]
    rfl
  intro c hc
  simp only [floatingPoint, List.mem_cons, List.not_mem_nil, or_false] at hc
  rcases hc with rfl | rfl | rfl | rfl | rfl <;> exact ⟨by decide, by first | trivial | decide⟩

/-- A program that does not end normally: it prints a byte, then reads behind the end. -/
example : refLines ⟨fun _ => [], fun _ => []⟩ [(.drop, ⟨.grow 1, []⟩), (.print, ⟨.readByte (some 0), []⟩), (.print, ⟨.readByte (some 5), []⟩)] ⟨[], [], 0, 0⟩ =
    some (str% "0\n", .panic (.err V3.BufferOverreadError)) := by kexact (Eq.refl (some ((str% "0\n", .panic (.err V3.BufferOverreadError)) : Outcome)))
example : [Line.call ⟨str% "Grow", [.const ⟨false, 1, 0⟩]⟩, .print ⟨str% "ReadByte", [.const ⟨false, 0, 0⟩]⟩, .print ⟨str% "ReadByte", [.const ⟨false, 5, 0⟩]⟩].mapM
      (Line.typed ⟨V3Buffer.funs, V3Buffer.errs⟩) =
    some ([(Use.drop, Meant.mk (.grow 1) []), (.print, ⟨.readByte (some 0), []⟩), (.print, ⟨.readByte (some 5), []⟩)].map fun c => (c.1, c.2.call)) := by rfl

/-- Constants are rounded to the nearest integer multiple of the last place. -/
theorem nearest_spec (p q : Nat) (hq : 0 < q) : 2 * p ≤ 2 * (q * nearest p q) + q ∧ 2 * (q * nearest p q) ≤ 2 * p + q := by
  have h := Nat.div_add_mod p q
  have h2 := Nat.mod_lt p hq
  unfold nearest
  split
  · omega
  · rw [Nat.mul_add, Nat.mul_one]; omega

end Crunch.Src.Program
