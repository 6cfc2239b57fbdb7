import Verif.Props.Sharing
import Verif.Props.MixedMini

/-!
# Buffers that share bytes, with rejected calls (C146)
-/

namespace Crunch.Wire
open V3 (St WF Iso abs demo demo_wf Buf)
open Src hiding St
open Ref (Tame)

/-! ## a call leaves the slice of the buffer as it is, also when it panics -/

theorem ans_V {f : GoM (St × V) V} {s t t' : St} {w : Res V} {a : Res Ref.Val} (hf : f (s, .unit) = (w, (t, .unit))) (h : answerV f s = some (a, t')) :
    t' = t := by
  unfold answerV at h
  rw [hf] at h
  cases h; rfl

theorem ans_P {f : Prog V} {s t' : St} {w : Res V × Sh} {a : Res Ref.Val} (hf : f.run ⟨s, false⟩ = w) (h : answerP f s = some (a, t')) : t' = w.2.st := by
  unfold answerP at h
  rw [hf] at h
  split at h
  · cases h
  · cases h; rfl

theorem kept_answer {T : Texts} (hT : T.Parsed) {fuel depth : Nat} (hf : 2 ^ 64 < fuel) (hd : 4 ≤ depth) {u : Use} {s t : St} (h : WF s) (hg : u.Good s)
    {a : Res Ref.Val} (hr : u.answer T fuel depth s = some (a, t)) : t.b.buf = s.b.buf := by
  obtain ⟨lib, op, o, any⟩ := u
  obtain ⟨hs, hoff, ho⟩ := hg
  dsimp only at hs hoff ho
  have hd3 : 3 ≤ depth := by omega
  cases lib with
  | v3 =>
    obtain ⟨funs, hc, hh⟩ := C81_buffer_text
    cases hc.symm.trans hT.v3
    rw [ans_V (hh fuel depth hf hd3 _ (fits3 (.inl hs)) s .unit) hr]; exact keep3 h hs
  | v3mini =>
    obtain ⟨funs, hc, hh⟩ := C82_mini_text
    cases hc.symm.trans hT.v3mini
    have hb := hoff (by decide)
    obtain ⟨m, hm⟩ := mini3 (.inl hs) hb
    rw [ans_V (hh fuel depth hf hd3 o _ (fits3 (.inl hs)) m hm s .unit) hr]; exact keep3m h hs hb hm
  | v2 =>
    obtain ⟨funs, hc, hh⟩ := C86_alone_text
    cases hc.symm.trans hT.v2
    rw [ans_P (hh fuel depth hf hd op (fits2 (.inl hs)) ⟨s, false⟩) hr]; exact keep2 h hs false
  | v2mini =>
    obtain ⟨funs, hc, hh⟩ := C84_mini_text
    cases hc.symm.trans hT.v2mini
    obtain ⟨m, hm⟩ := mini2 (.inl hs) (hoff (by decide))
    rw [ans_V (hh fuel depth hf hd o _ (fits2 (.inl hs)) m hm s .unit) hr]; exact keep2m h hs hm
  | v1 =>
    obtain ⟨funs, hc, hh⟩ := C87_alone_text
    cases hc.symm.trans hT.v1
    rw [ans_P (hh fuel depth hf hd (one op) (fits1 (.inl hs)) ⟨s, false⟩) hr]; exact keep1 h hs false
  | v1mini =>
    obtain ⟨funs, hc, hh⟩ := C85_mini_text
    cases hc.symm.trans hT.v1mini
    obtain ⟨m, hm⟩ := mini1 (any := any) (.inl hs) (hoff (by decide))
    rw [ans_V (hh fuel depth hf hd o any _ (fits1 (.inl hs)) m hm s .unit) hr]; exact keep1m h hs hm

/-! ## buffers that share bytes -/

/-- The calls `l` one after the other, each on the buffer with its number and each panic recovered: the outcomes, memory and the buffers afterwards; `none` if
one of them leaves a mutex taken. -/
def answersShared (T : Texts) (fuel depth : Nat) : List (Nat × Use) → Heap → (Nat → Buf) → Option (List (Res Ref.Val) × Heap × (Nat → Buf))
  | [], m, b => some ([], m, b)
  | (i, u) :: l, m, b => (u.answer T fuel depth ⟨m, b i⟩).bind fun r =>
    (answersShared T fuel depth l r.2.mem fun j => if j = i then r.2.b else b j).map fun t => (r.1 :: t.1, t.2)

/-- The call for the machine of v2 with the bytes that its argument, in an array of its own, shows now. -/
def Pool.lower2 (x : Pool) : V2.Op2 → Ref.Op2
  | .writeBytes p src => .writeBytes (p.map Int64.toInt) (((x.arrays src.arr).drop src.off).take src.len) none
  | .writeByte p v => .writeByte (p.map Int64.toInt) v
  | op => .base (x.lower (three op))

/-- What the call means for the buffer with the number: the machine of the v3 `Buffer` for `Buffer`s, and the one of the v2 `MiniBuffer` for `MiniBuffer`s. -/
def Use.means (w : Nat → Slice) (x : Pool) (i : Nat) (u : Use) : Res Ref.Val × Ref.Ref :=
  match u.lib with
  | .v1 | .v2 | .v3 => Ref.step (x.lower (three u.op)) (x.look w i)
  | .v1mini | .v2mini | .v3mini => Ref.miniStep2 u.outs.u64.toNat (V2.nums u.outs u.op) (x.lower2 u.op) (x.look w i)

/-- These machines on slices that share bytes. -/
def outcomes (w : Nat → Slice) : List (Nat × Use) → Pool → List (Res Ref.Val) × Pool
  | [], x => ([], x)
  | (i, u) :: l, x => ((u.means w x i).1 :: (outcomes w l (x.put w i (u.means w x i).2)).1, (outcomes w l (x.put w i (u.means w x i).2)).2)

/-- A method on which the versions agree, for `Buffer`s (C143) or for `MiniBuffer`s (C144). -/
def Agreed (u : Use) : Prop := (Full u.lib ∧ Strict u.lib u.op = true) ∨ Common u.lib u.op = true

/-- No `Buffer` ends in a panic of the runtime. -/
def Calm : List (Nat × Use) → List (Res Ref.Val) → Prop
  | (_, u) :: l, a :: as => (Full u.lib → Tame a) ∧ Calm l as
  | _, _ => True

theorem Pool.Is.lower2 {w : Nat → Slice} {n : Nat} {x : Pool} {m : Heap} {b : Nat → Buf} (h : x.Is w n m b) {i : Nat} {o : V3.Outs} {op : V2.Op2}
    (hs : Sound ⟨m, b i⟩ o op) (ho : ∀ pos src, op = .writeBytes pos src → src.arr < n) : x.lower2 op = V2.lower ⟨m, b i⟩ op := by
  cases op with
  | writeBytes p src =>
    show Ref.Op2.writeBytes _ _ _ = Ref.Op2.writeBytes _ _ _
    rw [h.bytes _ (ho _ _ rfl), place_none hs.2.2.1]; rfl
  | setBit p v => rcases hs with rfl | rfl <;> rfl
  | grow _ => cases hs
  | reset => cases hs
  | _ => rfl

theorem all_outcomes {T : Texts} (hT : T.Parsed) {fuel depth : Nat} (hf : 2 ^ 64 < fuel) (hd : 4 ≤ depth) (w : Nat → Slice) (n : Nat) (l : List (Nat × Use))
    {x : Pool} {m : Heap} {b : Nat → Buf} (h : x.Is w n m b) (hg : Fair n m b l) (ha : ∀ p ∈ l, Agreed p.2) (hc : Calm l (outcomes w l x).1) :
    ∃ m' b', answersShared T fuel depth l m b = some ((outcomes w l x).1, m', b') ∧ (outcomes w l x).2.Is w n m' b' := by
  induction l generalizing x m b with
  | nil => exact ⟨m, b, rfl, h⟩
  | cons p l ih =>
    obtain ⟨i, u⟩ := p
    obtain ⟨hu, ho⟩ := hg _ (List.mem_cons_self ..)
    have hau := ha _ (List.mem_cons_self ..)
    dsimp only at hu ho hau
    unfold outcomes at hc ⊢
    dsimp only at hc ⊢
    obtain ⟨hc1, hc2⟩ := hc
    have key : Answered ⟨m, b i⟩ (u.means w x i) (u.answer T fuel depth ⟨m, b i⟩) := by
      have e1 := h.lower hu.sound ho
      have e2 := h.lower2 hu.sound ho
      have e3 := h.look i
      rcases hau with ⟨h1, h2⟩ | h1
      · have e : u.means w x i = Ref.step ((three u.op).lower m) (abs ⟨m, b i⟩) := by
          unfold Use.means
          rw [e1, e3]
          cases hl : u.lib <;> rw [hl] at h1 <;> first | rfl | cases h1
        have ht := hc1 h1
        rw [e] at ht ⊢
        exact answered hT hf hd (h.wf i) hu h1 h2 ht
      · have e : u.means w x i = Ref.miniStep2 u.outs.u64.toNat (V2.nums u.outs u.op) (V2.lower ⟨m, b i⟩ u.op) (abs ⟨m, b i⟩) := by
          unfold Use.means
          rw [e2, e3]
          cases hl : u.lib <;> rw [hl] at h1 <;> first | rfl | cases h1
        rw [e]
        exact mini_answered hT hf hd (h.wf i) hu h1
    obtain ⟨t, t1, t2, t3, t4⟩ := key.ok
    have k := h.after i t3 t2 (kept_answer hT hf hd (h.wf i) hu t1)
    rw [t4] at k
    obtain ⟨m', b', a1, a2⟩ := ih k (fair_after hg t3) (fun p hp => ha p (List.mem_cons_of_mem _ hp)) hc2
    refine ⟨m', b', ?_, a2⟩
    unfold answersShared
    rw [t1, Option.bind_some]
    dsimp only
    rw [a1]; rfl

/-- C146: the texts of the six buffer types are read as programs, and for these programs, all buffers of these types, whatever bytes they share, and every list of
calls on them by methods on which the versions agree, every panic recovered by the caller: if the machine that keeps all bytes once and two offsets for each
buffer lets no call on a `Buffer` end in a panic of the runtime, no mutex is left taken, each call has the result or the panic that the machine says, and all
bytes of memory and the offsets of each buffer end as there. -/
theorem C146_shared : ∃ T : Texts, T.Parsed ∧ ∀ (fuel depth : Nat), 2 ^ 64 < fuel → 4 ≤ depth → ∀ (w : Nat → Slice) (n : Nat) (x : Pool) (m : Heap) (b : Nat → Buf),
    x.Is w n m b → ∀ (l : List (Nat × Use)), Fair n m b l → (∀ p ∈ l, Agreed p.2) → Calm l (outcomes w l x).1 →
    ∃ m' b', answersShared T fuel depth l m b = some ((outcomes w l x).1, m', b') ∧ (outcomes w l x).2.Is w n m' b' := by
  obtain ⟨T, hT⟩ := parsed
  exact ⟨T, hT, fun fuel depth hf hd w n x m b h l hg ha hc => all_outcomes hT hf hd w n l h hg ha hc⟩

/-- A `Buffer` for a `Buffer`, a `MiniBuffer` for a `MiniBuffer`. -/
def Kin : Lib → Lib → Prop
  | .v1, k | .v2, k | .v3, k => Full k
  | _, k => ¬ Full k

/-- The same calls through types of the same sort. -/
inductive Same : List (Nat × Use) → List (Nat × Use) → Prop
  | nil : Same [] []
  | cons (i : Nat) (u : Use) (lib : Lib) {l l' : List (Nat × Use)} : Kin u.lib lib → Same l l' → Same ((i, u) :: l) ((i, { u with lib := lib }) :: l')

theorem same_means {w : Nat → Slice} {x : Pool} {i : Nat} {u : Use} {lib : Lib} (h : Kin u.lib lib) : Use.means w x i { u with lib := lib } = u.means w x i := by
  unfold Use.means
  cases hl : u.lib <;> rw [hl] at h <;> cases lib <;> first | rfl | cases h | exact absurd trivial h

theorem same_outcomes {w : Nat → Slice} {l l' : List (Nat × Use)} (h : Same l l') (x : Pool) : outcomes w l' x = outcomes w l x := by
  induction h generalizing x with
  | nil => rfl
  | cons i u lib hk _ ih => unfold outcomes; rw [same_means hk, ih]

theorem same_calm {l l' : List (Nat × Use)} (h : Same l l') {as : List (Res Ref.Val)} (hc : Calm l as) : Calm l' as := by
  induction h generalizing as with
  | nil => trivial
  | cons i u lib hk _ ih =>
    cases as with
    | nil => trivial
    | cons a as =>
      refine ⟨fun hf => hc.1 ?_, ih hc.2⟩
      show Full u.lib
      cases hl : u.lib <;> rw [hl] at hk <;> first | trivial | exact absurd hf hk

/-- C146: so `Buffer`s can be exchanged for `Buffer`s and `MiniBuffer`s for `MiniBuffer`s where they share bytes, also if calls are rejected: both lists have the
same results and panics, and all bytes and the offsets of every buffer end the same. -/
theorem C146_exchange : ∃ T : Texts, T.Parsed ∧ ∀ (fuel depth : Nat), 2 ^ 64 < fuel → 4 ≤ depth → ∀ (w : Nat → Slice) (n : Nat) (x : Pool) (m : Heap) (b : Nat → Buf),
    x.Is w n m b → ∀ (l l' : List (Nat × Use)), Same l l' → Fair n m b l → Fair n m b l' → (∀ p ∈ l, Agreed p.2) → (∀ p ∈ l', Agreed p.2) →
    Calm l (outcomes w l x).1 → ∃ as m1 b1 m2 b2, answersShared T fuel depth l m b = some (as, m1, b1) ∧ answersShared T fuel depth l' m b = some (as, m2, b2) ∧
      (∀ a, a < n → m1.array a = m2.array a) ∧ ∀ i, (b1 i).buf = (b2 i).buf ∧ (b1 i).off = (b2 i).off ∧ (b1 i).boff = (b2 i).boff := by
  obtain ⟨T, hT⟩ := parsed
  refine ⟨T, hT, fun fuel depth hf hd w n x m b h l l' hs hg hg' ha ha' hc => ?_⟩
  obtain ⟨m1, b1, r1, i1⟩ := all_outcomes hT hf hd w n l h hg ha hc
  obtain ⟨m2, b2, r2, i2⟩ := all_outcomes hT hf hd w n l' h hg' ha' (by rw [same_outcomes hs]; exact same_calm hs hc)
  rw [same_outcomes hs] at r2 i2
  exact ⟨_, m1, b1, m2, b2, r1, r2, fun a k => (i1.bytes a k).symm.trans (i2.bytes a k), fun i => ⟨(i1.buf i).trans (i2.buf i).symm,
    Int64.toInt_inj.mp ((i1.cur i).symm.trans (i2.cur i)), Int64.toInt_inj.mp ((i1.bcur i).symm.trans (i2.bcur i))⟩⟩

/-- Two integers written with a v1 `MiniBuffer` through the second buffer, where only the first and half of the second fit; an integer that does not fit
written with v1 through the first buffer, and the bytes seen there with v3. -/
def crossUses : List (Nat × Use) :=
  [(1, ⟨.v1mini, .write .u16 .be (some 3) ([0x4142, 0x4344] : List UInt16), oneVar, .other⟩),
   (0, ⟨.v1, .write .u16 .be (some 11) ([0x0102] : List UInt16), oneVar, .other⟩), (0, ⟨.v3, .readBytes (some 5) 3, oneVar, .other⟩)]

theorem crossUses_fair : Fair 2 demo.mem someBufs crossUses := by
  intro p hp
  simp only [crossUses, List.mem_cons, List.not_mem_nil, or_false] at hp
  rcases hp with rfl | rfl | rfl
  · exact ⟨⟨show 2 * 2 ≤ maxAlloc by decide, fun _ => trivial, oneVar_valid⟩, nofun⟩
  · exact ⟨⟨show 1 * 2 ≤ maxAlloc by decide, fun _ => trivial, oneVar_valid⟩, nofun⟩
  · exact ⟨⟨trivial, fun _ => trivial, oneVar_valid⟩, nofun⟩

example : ∃ T : Texts, T.Parsed ∧ ∃ m' b', answersShared T (2 ^ 64 + 1) 4 crossUses demo.mem someBufs =
    some ([.panic .index, .panic (.err V3.BufferOverwriteError), .ok (.bytes [0x41, 0x42, 0x43])], m', b') := by
  obtain ⟨T, hT, h⟩ := C146_shared
  obtain ⟨m', b', a, _⟩ := h (2 ^ 64 + 1) 4 (by decide) (by decide) _ 2 somePool demo.mem someBufs somePool_is crossUses crossUses_fair (by
    intro p hp
    simp only [crossUses, List.mem_cons, List.not_mem_nil, or_false] at hp
    rcases hp with rfl | rfl | rfl
    · exact .inr rfl
    · exact .inl ⟨trivial, rfl⟩
    · exact .inl ⟨trivial, rfl⟩) ⟨fun h => (nomatch h), fun _ => trivial, fun _ => trivial, trivial⟩
  exact ⟨T, hT, m', b', a⟩

end Crunch.Wire
