import Verif.UnlockedFoot
import Verif.Src.MicroCalls
import Verif.Lemmas.LFoot
import Verif.Lemmas.UnlockedApart
import Verif.Props.Happens

/-! From the bytes the statements of a call access to its footprint, and to goroutines with separate footprints. -/

namespace Crunch
open Src (Action)
open V3 (Buf Op)
open V2 (soloRun)

/-- What is known of the places, and what is known of the parts. -/
theorem Prog.Uses.parts {R W : Loc → Prop} {acc chg : Part → Bool} {cp : Bool} {p : Prog α} {s : Sh} (u : p.Uses R W s) (h : p.Only (Action.of acc chg cp)) :
    p.Uses (fun l => acc l.part = true ∧ R l) (fun l => chg l.part = true ∧ W l) s := by
  induction p generalizing s with
  | ret a => trivial
  | panic q => trivial
  | getI f k ih => exact ⟨⟨h.1, u.1⟩, ih _ u.2 (h.2 _)⟩
  | setI f v k ih => exact ⟨⟨h.1, u.1⟩, ih u.2 h.2⟩
  | getBuf k ih => exact ⟨⟨h.1, u.1⟩, ih _ u.2 (h.2 _)⟩
  | setBuf t k ih => exact ⟨⟨h.1, u.1⟩, ih u.2 h.2⟩
  | load t i k ih => exact ⟨⟨h.1, u.1⟩, ih _ u.2 (h.2 _)⟩
  | store t i v k ih => exact ⟨⟨h.1, u.1⟩, ih u.2 h.2⟩
  | append t x k ih =>
    have : acc .bytes = true ∧ chg .bytes = true := by
      have h1 := h.1
      cases x <;> exact (Bool.and_eq_true _ _ ▸ (Bool.and_eq_true _ _ ▸ h1 : _ ∧ _).1 : _ ∧ _)
    exact ⟨⟨u.1.1, fun w hw i hi => ⟨this.1, u.1.2.1 w hw i hi⟩, fun i hi => ⟨this.2, u.1.2.2 i hi⟩⟩, ih _ u.2 (h.2 _)⟩
  | alloc a n k ih => exact u.elim
  | lock k ih => exact h.elim
  | unlock k ih => exact h.elim

end Crunch

namespace Crunch.Src
open V3 (Buf)

/-- The places with the bytes that a call may read: those of the content in `r`, and those of the slice `src`. -/
def RdIn (b : Buf) (r : Int × Int) (src : Option Slice) (l : Loc) : Prop := l.part = .bytes → l.content b r ∨ ∃ t, src = some t ∧ l.of t
/-- The places with the bytes that a call may change. -/
def WrIn (b : Buf) (r : Int × Int) (l : Loc) : Prop := l.part = .bytes → l.content b r

variable {b : Buf} {r : Int × Int} {src : Option Slice}

theorem fieldsAt : Fields (RdIn b r src) (WrIn b r) := fun _ h => ⟨fun h' => absurd h' h, fun h' => absurd h' h⟩

theorem elemsR {o k : Int64} {n : Int} (h : r = (o.toInt, o.toInt + n * k.toInt)) : Elems (RdIn b r src) b o k n :=
  fun x h1 h2 h3 _ => .inl ⟨x, by rw [h]; exact h1, by rw [h]; exact h2, h3, rfl⟩
theorem elemsW {o k : Int64} {n : Int} (h : r = (o.toInt, o.toInt + n * k.toInt)) : Elems (WrIn b r) b o k n :=
  fun x h1 h2 h3 _ => ⟨x, by rw [h]; exact h1, by rw [h]; exact h2, h3, rfl⟩
theorem onesW {o : Int64} {n : Int} (h : r = (o.toInt, o.toInt + n)) : Elems (WrIn b r) b o 1 n :=
  elemsW (by rw [h, show (1 : Int64).toInt = 1 from rfl, Int.mul_one])
theorem bitsR {x y : Int} (h : r = (x.tdiv 8, y.tdiv 8 + 1)) : BitsIn (RdIn b r src) b x y :=
  fun i h1 h2 h3 _ => .inl ⟨i, by rw [h]; exact h1, by rw [h]; exact Int.lt_add_one_of_le h2, h3, rfl⟩
theorem bitsW {x y : Int} (h : r = (x.tdiv 8, y.tdiv 8 + 1)) : BitsIn (WrIn b r) b x y :=
  fun i h1 h2 h3 _ => ⟨i, by rw [h]; exact h1, by rw [h]; exact Int.lt_add_one_of_le h2, h3, rfl⟩
theorem allR (h : r = (0, (b.buf.len : Int))) (i : Nat) (hi : i < b.buf.len) : RdIn b r src (.byte b.buf.arr (b.buf.off + i)) :=
  fun _ => .inl ⟨i, by rw [h]; exact Int.natCast_nonneg _, by rw [h]; exact Int.ofNat_lt.mpr hi, hi, rfl⟩
theorem allW (h : r = (0, (b.buf.len : Int))) (i : Nat) (hi : i < b.buf.len) : WrIn b r (.byte b.buf.arr (b.buf.off + i)) :=
  fun _ => ⟨i, by rw [h]; exact Int.natCast_nonneg _, by rw [h]; exact Int.ofNat_lt.mpr hi, hi, rfl⟩
theorem oneR {o : Int64} (h : r = (o.toInt, o.toInt + 1)) (h0 : 0 ≤ o.toInt) (h1 : o.toInt < b.buf.len) :
    RdIn b r src (.byte b.buf.arr (b.buf.off + o.toInt.toNat)) :=
  fun _ => .inl ⟨o.toInt.toNat, by rw [h]; show o.toInt ≤ _; omega, by rw [h]; show _ < o.toInt + 1; omega, by omega, rfl⟩
theorem srcR {t : Slice} (h : src = some t) (i : Nat) (hi : i < t.len) : RdIn b r src (.byte t.arr (t.off + i)) :=
  fun _ => .inr ⟨t, h, i, hi, rfl⟩
theorem copyW {o : Int64} {n : Nat} (h : r = (o.toInt, o.toInt + n)) (h0 : 0 ≤ o.toInt) (i : Nat) (hi : i < n) (h1 : o.toInt.toNat + i < b.buf.len) :
    WrIn b r (.byte b.buf.arr (b.buf.off + (o.toInt.toNat + i))) :=
  fun _ => ⟨o.toInt.toNat + i, by rw [h]; show o.toInt ≤ _; omega, by rw [h]; show _ < o.toInt + n; omega, h1, rfl⟩

theorem micro_uses {P : Pkg} {fuel d : Nat} {name : Gen.Str} {args : List V} {s : Sh} {R W : Loc → Prop}
    (h : LFoot R W (fun _ _ _ => True) s.st.b .unit (P.call fuel d name args)) :
    (P.micro fuel d name args none).Uses R W s :=
  (foot_bind (f := fun r : V × V => (.ret r.1 : Prog V)) (E := fun _ => True) (Q := fun _ _ _ => True) ((h s.locked).mono (fun _ h => h) fun _ _ _ _ => True.intro)).uses

theorem micro_uses_out {P : Pkg} {fuel d : Nat} {name : Gen.Str} {args : List V} {v : V} {s : Sh} {R W : Loc → Prop}
    (h : LFoot R W (fun _ _ _ => True) s.st.b v (P.call fuel d name (.ptr :: args))) :
    (P.micro fuel d name args (some v)).Uses R W s :=
  (foot_bind (f := fun r : V × V => (.ret r.2 : Prog V)) (E := fun _ => True) (Q := fun _ _ _ => True) ((h s.locked).mono (fun _ h => h) fun _ _ _ _ => True.intro)).uses

end Crunch.Src

namespace Crunch.V3
open Crunch.Src

/-- The places with the bytes that a call may read. -/
abbrev RdAt (b : Buf) (op : Op) : Loc → Prop := RdIn b (bytesOf b op) (sourceOf op)
/-- The places with the bytes that a call may change. -/
abbrev WrAt (b : Buf) (op : Op) : Loc → Prop := WrIn b (bytesOf b op)

variable {b : Buf} {op : Op}

/-- A call that keeps to these bytes and to its parts. -/
theorem uses_of {acc : Op → Part → Bool} {p : Prog V} {s : Sh} {cp : Bool} (h : p.Only (Action.of (acc op) (changes op) cp)) (u : p.Uses (RdAt s.st.b op) (WrAt s.st.b op) s) :
    p.Uses (reads acc s.st.b op) (mayWrite s.st.b op) s := u.parts h

/-- A call that does not access bytes. -/
theorem uses_none {acc : Op → Part → Bool} {p : Prog V} {s : Sh} (h : p.Only (Action.of (acc op) (changes op) false)) (ha : acc op .bytes = false)
    (hc : ∀ k, changes op k = true → acc op k = true) : p.Uses (reads acc s.st.b op) (mayWrite s.st.b op) s :=
  h.uses (fun l hl => ⟨hl, fun e => by rw [e, ha] at hl; exact nomatch hl⟩)
    (fun l hl => ⟨hl, fun e => by have := hc _ hl; rw [e, ha] at this; exact nomatch this⟩) s

end Crunch.V3

namespace Crunch
open V3 (Buf)
open V2 (soloRun)

variable {ex : O → Prog V} {allowed : O → Prop} {c0 c : Conf O V} {τ : Trace O V} {m : O → V3.St → Res V × V3.St} {rd wr : Buf → O → Loc → Prop} {ok : O → Bool}

theorem KeepsTo.keeping {Inv : Buf → Prop} (use : ∀ op, allowed op → ok op = true → ∀ s : Sh, Inv s.st.b → (ex op).Uses (rd s.st.b op) (wr s.st.b op) s)
    (hm : ∀ op, allowed op → ∀ s b, (ex op).run ⟨s, b⟩ = ((m op s).1, ⟨(m op s).2, b⟩))
    (inv : ∀ op, allowed op → ok op = true → ∀ s : V3.St, Inv s.b → Inv (m op s).2.b) {R W : Loc → Prop} {l : List O} {s : V3.St} {b : Bool}
    (ha : ∀ op ∈ l, allowed op) (hi : Inv s.b) (h : KeepsTo m rd wr ok R W l s) : Keeping ex R W l ⟨s, b⟩ := by
  induction l generalizing s with
  | nil => trivial
  | cons op l ih =>
    obtain ⟨⟨h1, h2, h3⟩, h4⟩ := h
    have a := ha op List.mem_cons_self
    refine ⟨(use op a h1 ⟨s, b⟩ hi).mono h2 h3, ?_⟩
    rw [hm op a]
    exact ih (fun o ho => ha o (List.mem_cons_of_mem _ ho)) (inv op a h1 s hi) h4

/-- Goroutines with separate footprints. -/
theorem unnoticedAt {Inv : Buf → Prop} (use : ∀ op, allowed op → ok op = true → ∀ s : Sh, Inv s.st.b → (ex op).Uses (rd s.st.b op) (wr s.st.b op) s)
    (hm : ∀ op, allowed op → ∀ s b, (ex op).run ⟨s, b⟩ = ((m op s).1, ⟨(m op s).2, b⟩))
    (inv : ∀ op, allowed op → ok op = true → ∀ s : V3.St, Inv s.b → Inv (m op s).2.b) (q : Quiet c0) (hi : Inv c0.sh.st.b) (e : Exec ex allowed c0 τ c)
    {R W : Nat → Loc → Prop} (ap : Separate R W) (st : ∀ i, KeepsTo m rd wr ok (R i) (W i) (started i τ) c0.sh.st) :
    UnnoticedAt m W c0 τ c ∧ ∀ i j op op' l, ¬ DataRace ex allowed c0 τ i j op op' l := by
  have kp : ∀ i, Keeping ex (R i) (W i) (started i τ) c0.sh := fun i =>
    (st i).keeping (b := c0.sh.locked) use hm inv (fun op ho => e.allowed_of_started ho) hi
  have s := separate q ap e kp
  have solo : ∀ i, soloRun ex i τ c0.sh = ((byItself m i τ c0.sh.st).1.map fun x => (i, x), ⟨(byItself m i τ c0.sh.st).2, c0.sh.locked⟩) := fun i => by
    have := seqRun_inTurn (i := i) (l := (finished i τ).map (·.1)) (ex := ex) (m := m) (fun op ho => by
      obtain ⟨x, hx, rfl⟩ := List.mem_map.mp ho
      exact hm _ ((exec_allowed q e).2 i x hx)) c0.sh.st c0.sh.locked
    rw [List.map_map] at this
    exact this
  refine ⟨⟨fun i => ?_, fun i hi l hl => ?_, s.rest⟩, fun i j op op' l => separate_hb q ap e kp i j op op' l⟩
  · have := s.outcomes i
    rw [solo i] at this
    exact (List.map_inj_right fun a b h => (Prod.mk.inj h).2).mp this
  · have := s.places i hi l hl
    rw [solo i] at this
    exact this

/-- Footprints that depend on the slice header only, which nobody changes. -/
theorem KeepsTo.fixed {Inv : Buf → Prop} (inv : ∀ op, allowed op → ok op = true → ∀ s : V3.St, Inv s.b → Inv (m op s).2.b ∧ (m op s).2.b.buf = s.b.buf) {pl : O → Bool}
    (hpl : ∀ op, pl op = true → ok op = true) (same : ∀ op, pl op = true → ∀ b b' : Buf, b.buf = b'.buf → rd b op = rd b' op ∧ wr b op = wr b' op)
    {R W : Loc → Prop} {l : List O} {b0 : Buf} {s : V3.St} (ha : ∀ op ∈ l, allowed op) (hb : s.b.buf = b0.buf) (hi : Inv s.b) (h : ∀ op ∈ l, pl op = true)
    (hR : ∀ op ∈ l, ∀ x, rd b0 op x → R x) (hW : ∀ op ∈ l, ∀ x, wr b0 op x → W x) : KeepsTo m rd wr ok R W l s := by
  induction l generalizing s with
  | nil => trivial
  | cons op l ih =>
    have hp := h op List.mem_cons_self
    obtain ⟨e1, e2⟩ := same op hp s.b b0 hb
    obtain ⟨i1, i2⟩ := inv op (ha op List.mem_cons_self) (hpl op hp) s hi
    refine ⟨⟨hpl op hp, fun x hx => hR op List.mem_cons_self x (e1 ▸ hx), fun x hx => hW op List.mem_cons_self x (e2 ▸ hx)⟩, ?_⟩
    exact ih (fun o ho => ha o (List.mem_cons_of_mem _ ho)) (i2.trans hb) i1 (fun o ho => h o (List.mem_cons_of_mem _ ho))
      (fun o ho => hR o (List.mem_cons_of_mem _ ho)) fun o ho => hW o (List.mem_cons_of_mem _ ho)

/-- A call that keeps to places other than the header and the capacities keeps the size of the buffer. -/
theorem keeps_sized_at {R W : Loc → Prop} {p : Prog V} {s : Sh} (u : p.Uses R W s) (w1 : ¬ W .header) (w2 : ¬ W (.field .cap)) (w3 : ¬ W (.field .bcap)) (h : Sized s.st.b) :
    Sized (p.run s).2.st.b ∧ (p.run s).2.st.b.buf = s.st.b.buf := by
  have h2 : Loc.header.same (p.run s).2.st s.st := Loc.same.of_run u w1
  exact ⟨h.of_same h2 (Loc.same.of_run u w2) (Loc.same.of_run u w3), h2⟩

/-- A call that keeps to its footprint keeps the size of the buffer. -/
theorem keeps_sized_of {op : V3.Op} (hp : V3.inPlace op = true) {R : Loc → Prop} {p : Prog V} {s : Sh} (u : p.Uses R (V3.mayWrite s.st.b op) s) (h : Sized s.st.b) :
    Sized (p.run s).2.st.b ∧ (p.run s).2.st.b.buf = s.st.b.buf := by
  have hr : V3.resizes op = false := by
    simp only [V3.inPlace, Bool.and_eq_true, Bool.not_eq_true'] at hp; exact hp.1
  have h1 : V3.changes op .header = false := by cases op <;> first | rfl | exact nomatch hr
  exact keeps_sized_at u (fun h => nomatch h1.symm.trans h.1) (fun h => nomatch hr.symm.trans h.1) (fun h => nomatch hr.symm.trans h.1) h

/-- The footprint of a call with a position depends on the slice header only. -/
theorem V3.placed_same {acc : V3.Op → Part → Bool} (op : V3.Op) (h : V3.placed op = true) (b b' : Buf) (hb : b.buf = b'.buf) :
    V3.reads acc b op = V3.reads acc b' op ∧ V3.mayWrite b op = V3.mayWrite b' op := by
  have e : V3.bytesOf b op = V3.bytesOf b' op := by
    cases op with
    | clearAll | setAll | flipAll => simp only [V3.bytesOf]; rw [hb]
    | _ => first
      | rfl
      | (rename_i p _; cases p <;> first | rfl | cases h)
      | (rename_i p; cases p <;> first | rfl | cases h)
      | (rename_i p _ _; cases p <;> first | rfl | cases h)
  constructor
  · funext l
    unfold V3.reads Loc.content
    rw [e, hb]
  · funext l
    unfold V3.mayWrite Loc.content
    rw [e, hb]

/-- The same for v2 `MiniBuffer`. -/
theorem V2.placedMini_same (op : V2.Op2) (h : V2.placedMini op = true) (b b' : Buf) (hb : b.buf = b'.buf) :
    V2.mayReadMini b op = V2.mayReadMini b' op ∧ V2.mayWriteMini b op = V2.mayWriteMini b' op := by
  have e : V2.bytesOfMini b op = V2.bytesOfMini b' op := by
    cases op with
    | clearAll | setAll | flipAll => simp only [V2.bytesOfMini]; rw [hb]
    | _ => first
      | rfl
      | (rename_i p _; cases p <;> first | rfl | cases h)
      | (rename_i p; cases p <;> first | rfl | cases h)
      | (rename_i p _ _; cases p <;> first | rfl | cases h)
  constructor
  · funext l
    unfold V2.mayReadMini Loc.content
    rw [e, hb]
  · funext l
    unfold V2.mayWriteMini Loc.content
    rw [e, hb]

/-- The same for v1 `MiniBuffer`. -/
theorem V1.placedMini1_same (op : V1.Op1) (h : V1.placedMini1 op = true) (b b' : Buf) (hb : b.buf = b'.buf) :
    V1.mayReadMini1 b op = V1.mayReadMini1 b' op ∧ V1.mayWriteMini1 b op = V1.mayWriteMini1 b' op := by
  have e : V1.bytesOfMini1 b op = V1.bytesOfMini1 b' op := by
    cases op with
    | clearAll | setAll | flipAll => simp only [V1.bytesOfMini1]; rw [hb]
    | _ => first
      | rfl
      | (rename_i p _; cases p <;> first | rfl | cases h)
      | (rename_i p; cases p <;> first | rfl | cases h)
      | (rename_i p _ _; cases p <;> first | rfl | cases h)
      | (rename_i p _ _ _; cases p <;> first | rfl | cases h)
  have e' : V1.complexOf b op = V1.complexOf b' op := by
    cases op with
    | readComplex p _ _ _ => cases p <;> first | rfl | cases h
    | _ => rfl
  constructor
  · funext l
    unfold V1.mayReadMini1 Loc.content Loc.around
    rw [e, e', hb]
  · funext l
    unfold V1.mayWriteMini1 Loc.content
    rw [e, hb]

end Crunch
