import Verif.Lemmas.ExactMini
import Verif.Props.ExactRace
import Verif.Props.UnlockedFootV1
import Verif.Props.UnlockedFootV2

/-!
# C128: the same for v2 and v1 `MiniBuffer`

As `Verif/Props/ExactRace.lean`, for v2/minibuf.go and v1/minibuf.go: each byte of the content that a successful call with a position is about matters to it,
and two such calls can be in a data race exactly when they share one that one of them changes.
-/

namespace Crunch.Src
open _root_.Crunch.V3 (WF Buf)

/-! ## v2 -/

/-- The call has a position and copies only from elsewhere; the result variables are Go values, a bit position is not negative, and the result has
all the bits it reads. -/
structure TestedMini2 (x : V3.Outs × V2.Op2) (s : V3.St) : Prop where
  placed : V2.placedMini x.2 = true
  valid : x.2.Valid s.mem
  foreign : x.2.Foreign s.b.buf
  readable : V2.readable x.2
  outs : x.1.Valid
  bits : V2.bitsFromStart x.2

theorem V2.placedMini_inPlace {op : V2.Op2} (hp : V2.placedMini op = true) : V2.inPlaceMini op = true := by
  simp only [V2.placedMini, Bool.and_eq_true] at hp
  exact hp.1.1

theorem V2.alters_placed {op : V2.Op2} (hp : V2.placedMini op = true) {k : Part} (h : V2.alters op k = true) : k = .bytes := by
  simp only [V2.placedMini, Bool.and_eq_true, Bool.not_eq_true'] at hp
  obtain ⟨⟨hp1, hp2⟩, hp3⟩ := hp
  rcases k with (_ | _ | _ | _) | _ | _
  · exact nomatch hp2.symm.trans (V2.accesses_of_alters h)
  · cases op <;> first | exact Bool.noConfusion (show false = true from hp1) | exact Bool.noConfusion (show false = true from h)
  · exact nomatch hp3.symm.trans (V2.accesses_of_alters h)
  · cases op <;> first | exact Bool.noConfusion (show false = true from hp1) | exact Bool.noConfusion (show false = true from h)
  · cases op <;> first | exact Bool.noConfusion (show false = true from hp1) | exact Bool.noConfusion (show false = true from h)
  · rfl

theorem modelMini2_eq {x : V3.Outs × V2.Op2} {m : GoM V3.St V3.Val} (h : V2.miniCall x.1 x.2 = some m) (t : V3.St) : modelMini2 x t = (goRes (m t).1, (m t).2) := by
  unfold modelMini2
  rw [h]

theorem V2Mini.alters {s : V3.St} (w : WF s) {o : V3.Outs × V2.Op2} (ho : HasMini2 o) (ht : TestedMini2 o s) {u : V} (hok : (modelMini2 o s).1 = .ok u) {x : Nat}
    (hx : V2.In (V2.bytesOfMini s.b o.2) x) (hl : x < s.b.buf.len) (hc : V2.alters o.2 .bytes = true) : Alters modelMini2 o s x := by
  obtain ⟨m, hm⟩ := Option.isSome_iff_exists.mp ho.2
  have st : ∀ t, Shape s t → _ := fun t h => V2.mini_step2_ok (h.wf w) o.1 ht.outs o.2 (ht.valid.shape h) m hm
  rw [modelMini2_eq hm] at hok
  obtain ⟨v, hv⟩ := ok_of_goRes hok (m s).2.mem
  rw [(st s (.refl s)).result] at hv
  refine alters_of w (F := fun t => Ref.miniStep2 o.1.u64.toNat (V2.nums o.1 o.2) (V2.lower t o.2)) (fun t => congrArg Prod.snd (modelMini2_eq hm t)) st
    (fun t h v => congrArg (Ref.miniStep2 _ _) (V2.lower_write h w ht.placed ht.valid ht.foreign hl v)) (fun t h => ?_) hl fun t h => ?_
  · have := (V2Mini.keeps o ho (V2.placedMini_inPlace ht.placed) t (h.wf w).sized).2
    rw [modelMini2_eq hm] at this
    exact this.trans (congrArg Buf.buf h.b)
  · exact V2.miniStep2_changes h ht.placed hc ht.valid ht.bits hv (abs_lengths w h) hx (by rw [V3.abs_len w.ok]; exact hl)

theorem V2Mini.minds {s : V3.St} (w : WF s) {o : V3.Outs × V2.Op2} (ho : HasMini2 o) (ht : TestedMini2 o s) {u : V} (hok : (modelMini2 o s).1 = .ok u) {x : Nat}
    (hx : V2.In (V2.bytesOfMini s.b o.2) x) (hl : x < s.b.buf.len) : Minds modelMini2 o s x := by
  cases hc : V2.alters o.2 .bytes with
  | true => exact .inl (V2Mini.alters w ho ht hok hx hl hc)
  | false =>
    obtain ⟨m, hm⟩ := Option.isSome_iff_exists.mp ho.2
    have st : ∀ t, Shape s t → _ := fun t h => V2.mini_step2_ok (h.wf w) o.1 ht.outs o.2 (ht.valid.shape h) m hm
    rw [modelMini2_eq hm] at hok
    obtain ⟨v, hv⟩ := ok_of_goRes hok (m s).2.mem
    rw [(st s (.refl s)).result] at hv
    exact .inr (minds_of w (F := fun t => Ref.miniStep2 o.1.u64.toNat (V2.nums o.1 o.2) (V2.lower t o.2)) (obs_of_goRes (modelMini2_eq hm)) st
      (fun t h v => congrArg (Ref.miniStep2 _ _) (V2.lower_write h w ht.placed ht.valid ht.foreign hl v)) hl
      (V2.miniStep2_decides (t := s) ht.placed hc ht.readable ht.bits hv rfl hx).2
      fun t h => (V2.miniStep2_decides ht.placed hc ht.readable ht.bits hv (abs_lengths w h) hx).1)

theorem V2Mini.runs (fuel depth : Nat) (hf : 2 ^ 64 < fuel) (hd : 4 ≤ depth) {s : V3.St} (w : WF s) {op : V3.Outs × V2.Op2} (ho : HasMini2 op)
    (hp : V2.placedMini op.2 = true) : Runs (microMini2 V2Mini.P fuel depth) modelMini2 s op :=
  ⟨fun t b => V2Mini.alone fuel depth hf hd op ho t b, fun t b h =>
    ⟨_, _, V2Mini.uses fuel depth hd op ho (V2.placedMini_inPlace hp) ⟨t, b⟩ (h.wf w).sized, fun _ hl => V2.alters_placed hp hl.1⟩⟩

/-- Some byte of the content is one that both calls on a v2 `MiniBuffer` are about, and one of the calls changes bytes. -/
def ShareByte2 (b : Buf) (op op' : V2.Op2) : Prop := Meet b (V2.alters op .bytes) (V2.alters op' .bytes) (V2.bytesOfMini b op) (V2.bytesOfMini b op')

theorem apart_of2 {s : V3.St} (w : WF s) {op op' : V3.Outs × V2.Op2} (ht : TestedMini2 op s) (ht' : TestedMini2 op' s) (h : ¬ ShareByte2 s.b op.2 op'.2) (l : Loc)
    (hl : V2.mayWriteMini s.b op.2 l) : ¬ V2.mayReadMini s.b op'.2 l ∧ ¬ V2.mayWriteMini s.b op'.2 l := by
  have hb := V2.alters_placed ht.placed hl.1
  have hc : V2.alters op.2 .bytes = true := hb ▸ hl.1
  have hl := hl.2 hb
  have no : ¬ l.content s.b (V2.bytesOfMini s.b op'.2) := fun h' => h ⟨.inl hc, l, hl, h'⟩
  refine ⟨fun h => (h.2 hb).elim no fun ⟨t, hs, y, hy, e⟩ => ?_, fun h => no (h.2 hb)⟩
  have hv := ht'.valid; have hf := ht'.foreign
  obtain ⟨x, x1, x2, x3, rfl⟩ := hl
  obtain ⟨o', op'⟩ := op'
  cases op' with
  | writeBytes p src =>
    cases hs
    have h1 : SliceOK s.mem t := hv
    have h2 : V3.Apart t s.b.buf := hf
    have h3 := h1.len_le; have h4 := w.ok.len_le
    unfold V3.Apart at h2
    injection e with e1 e2
    omega
  | _ => exact nomatch hs

/-- C128: each byte of the content that a successful call with a position on a v2 `MiniBuffer` is about matters to it.  A call that changes bytes changes this
one, if it does not happen to be what the call writes; a call that only reads bytes has different results for two values of the byte. -/
theorem C128_v2_bytes {s : V3.St} (w : WF s) {o : V3.Outs × V2.Op2} (ho : HasMini2 o) (ht : TestedMini2 o s) {u : V} (hok : (modelMini2 o s).1 = .ok u) {x : Nat}
    (hx : (V2.bytesOfMini s.b o.2).1 ≤ x ∧ (x : Int) < (V2.bytesOfMini s.b o.2).2) (hl : x < s.b.buf.len) :
    (V2.alters o.2 .bytes = true → ∃ v, ¬ (byteLoc s.b x).same (modelMini2 o (s.write x [v])).2 (s.write x [v])) ∧
    (V2.alters o.2 .bytes = false → ∃ v v', (modelMini2 o (s.write x [v])).1 ≠ (modelMini2 o (s.write x [v'])).1) := by
  refine ⟨fun hc => V2Mini.alters w ho ht hok hx hl hc s (.refl s), fun hc => ?_⟩
  rcases V2Mini.minds w ho ht hok hx hl with h | h
  · obtain ⟨v, hv⟩ := h s (.refl s)
    have := C125_frame (s := s.write x [v]) ((Shape.write s x [v]).wf w) o ho (V2.placedMini_inPlace ht.placed) (l := byteLoc s.b x)
      fun h => nomatch hc.symm.trans h.1
    exact (hv this).elim
  · exact h s (.refl s)

/-- C128: two calls with positions on a v2 `MiniBuffer` that succeed from `s`, run from the text of v2/minibuf.go by two goroutines without a mutex, can be in a
data race exactly when some byte of the content is one that both are about and one of them changes bytes. -/
theorem C128_v2_race :
    ∃ funs, compileAll (V2Utils.text ++ V2Mini.text) = some funs ∧
    ∀ (fuel depth : Nat), 2 ^ 64 < fuel → 4 ≤ depth → ∀ {s : V3.St}, WF s → ∀ {op op' : V3.Outs × V2.Op2}, HasMini2 op → HasMini2 op' →
    TestedMini2 op s → TestedMini2 op' s → ∀ {u u' : V}, (modelMini2 op s).1 = .ok u → (modelMini2 op' s).1 = .ok u' →
    (CanRace (microMini2 ⟨funs, V2Mini.errs⟩ fuel depth) HasMini2 s op op' ↔ ShareByte2 s.b op.2 op'.2) := by
  obtain ⟨funs, hc, h⟩ := C125_placed
  refine ⟨funs, hc, fun fuel depth hf hd s w op op' ho ho' ht ht' u u' hu hu' => ⟨fun ⟨x, v, _, τ, c, E, h0, h1, hk, l, d⟩ => ?_, fun sb => ?_⟩⟩
  · refine Classical.byContradiction fun hn => ?_
    obtain ⟨ap, pl⟩ := apartAt_of (rd := fun b x => V2.mayReadMini b x.2) (wr := fun b x => V2.mayWriteMini b x.2) (pl := fun x => V2.placedMini x.2) (s := s)
      (s' := s.write x [v]) ht.placed ht'.placed (apart_of2 w ht ht' hn) (apart_of2 w ht' ht fun h => hn h.symm) rfl h0 h1 hk
    have nr := (h fuel depth hf hd (rest_quiet _) ((Shape.write s x [v]).wf w) E pl ap).2
    exact d.elim (nr _ _ _ _ _) (nr _ _ _ _ _)
  · cases (compileAll_append V2Utils.link V2Mini.link).symm.trans hc
    exact canRace ho ho' (V2Mini.runs fuel depth hf hd w ho ht.placed) (V2Mini.runs fuel depth hf hd w ho' ht'.placed)
      (fun x hx hl hc => V2Mini.alters w ho ht hu hx hl hc) (fun x hx hl hc => V2Mini.alters w ho' ht' hu' hx hl hc)
      (fun x hx hl => V2Mini.minds w ho ht hu hx hl) (fun x hx hl => V2Mini.minds w ho' ht' hu' hx hl) sb

/-! ## v1 -/

/-- The same for v1. -/
structure TestedMini1 (x : V3.Outs × V1.Any × V1.Op1) (s : V3.St) : Prop where
  placed : V1.placedMini1 x.2.2 = true
  valid : x.2.2.Valid s.mem
  foreign : x.2.2.Foreign s.b.buf
  readable : V1.readable1 x.2.2
  outs : x.1.Valid
  bits : V1.bitsFromStart1 x.2.2

theorem V1.placedMini1_inPlace {op : V1.Op1} (hp : V1.placedMini1 op = true) : V1.inPlaceMini1 op = true := by
  simp only [V1.placedMini1, Bool.and_eq_true] at hp
  exact hp.1.1

theorem V1.alters_placed {op : V1.Op1} (hp : V1.placedMini1 op = true) {k : Part} (h : V1.alters1 op k = true) : k = .bytes := by
  simp only [V1.placedMini1, Bool.and_eq_true, Bool.not_eq_true'] at hp
  obtain ⟨⟨hp1, hp2⟩, hp3⟩ := hp
  rcases k with (_ | _ | _ | _) | _ | _
  · exact nomatch hp2.symm.trans (V1.accesses_of_alters h)
  · cases op <;> first | exact Bool.noConfusion (show false = true from hp1) | exact Bool.noConfusion (show false = true from h)
  · exact nomatch hp3.symm.trans (V1.accesses_of_alters h)
  · cases op <;> first | exact Bool.noConfusion (show false = true from hp1) | exact Bool.noConfusion (show false = true from h)
  · cases op <;> first | exact Bool.noConfusion (show false = true from hp1) | exact Bool.noConfusion (show false = true from h)
  · rfl

theorem goRes1_toRes (r : Res V1.Val1) : goRes1 r = goRes (V1.toRes r) := by
  rcases r with (v | a) | p
  · rfl
  · cases a <;> simp only [goRes1, goRes, goVal1, goAny, V1.toRes, V1.Val1.toVal, goVal, goList]
  · rfl

theorem modelMini1_eq {x : V3.Outs × V1.Any × V1.Op1} {m : GoM V3.St V1.Val1} (h : V1.miniCall1 x.1 x.2.1 x.2.2 = some m) (t : V3.St) :
    modelMini1 x t = (goRes (V1.outM (m t)).1, (V1.outM (m t)).2) := by
  unfold modelMini1
  rw [h]
  exact congrArg (·, (m t).2) (goRes1_toRes (m t).1)

theorem abs_spares {s t : V3.St} (w : WF s) (h : Shape s t) : (V3.abs t).spare.length = (V3.abs s).spare.length := by
  rw [V3.abs_spare (h.wf w).ok, V3.abs_spare w.ok, h.b]

theorem V1Mini.alters {s : V3.St} (w : WF s) {o : V3.Outs × V1.Any × V1.Op1} (ho : HasMini1 o) (ht : TestedMini1 o s) {u : V} (hok : (modelMini1 o s).1 = .ok u) {x : Nat}
    (hx : V2.In (V1.aboutMini1 s.b o.2.2) x) (hl : x < s.b.buf.len) (hc : V1.alters1 o.2.2 .bytes = true) : Alters modelMini1 o s x := by
  obtain ⟨m, hm⟩ := Option.isSome_iff_exists.mp ho.2
  have st : ∀ t, Shape s t → _ := fun t h => V1.mini_step1_ok (h.wf w) o.1 ht.outs o.2.1 o.2.2 (ht.valid.shape h) m hm
  rw [modelMini1_eq hm] at hok
  obtain ⟨v, hv⟩ := ok_of_goRes hok (V1.outM (m s)).2.mem
  rw [(st s (.refl s)).result] at hv
  refine alters_of w (F := fun t => Ref.miniStep1 o.1.u64.toNat (V1.lower1 t o.2.2)) (call := fun t => V1.outM (m t)) (fun t => congrArg Prod.snd (modelMini1_eq hm t)) st
    (fun t h v => congrArg (Ref.miniStep1 _) (V1.lower1_write h w ht.placed ht.valid ht.foreign hl v)) (fun t h => ?_) hl fun t h => ?_
  · have := (V1Mini.keeps o ho (V1.placedMini1_inPlace ht.placed) t (V1Mini.inv (h.wf w))).2
    rw [modelMini1_eq hm] at this
    exact this.trans (congrArg Buf.buf h.b)
  · exact V1.miniStep1_changes h ht.placed hc ht.valid ht.bits hv (abs_lengths w h) hx (by rw [V3.abs_len w.ok]; exact hl)

theorem V1Mini.minds {s : V3.St} (w : WF s) {o : V3.Outs × V1.Any × V1.Op1} (ho : HasMini1 o) (ht : TestedMini1 o s) {u : V} (hok : (modelMini1 o s).1 = .ok u) {x : Nat}
    (hx : V2.In (V1.aboutMini1 s.b o.2.2) x) (hl : x < s.b.buf.len) : Minds modelMini1 o s x := by
  cases hc : V1.alters1 o.2.2 .bytes with
  | true => exact .inl (V1Mini.alters w ho ht hok hx hl hc)
  | false =>
    obtain ⟨m, hm⟩ := Option.isSome_iff_exists.mp ho.2
    have st : ∀ t, Shape s t → _ := fun t h => V1.mini_step1_ok (h.wf w) o.1 ht.outs o.2.1 o.2.2 (ht.valid.shape h) m hm
    rw [modelMini1_eq hm] at hok
    obtain ⟨v, hv⟩ := ok_of_goRes hok (V1.outM (m s)).2.mem
    rw [(st s (.refl s)).result] at hv
    have hb : x < (V3.abs s).data.length := by rw [V3.abs_len w.ok]; exact hl
    exact .inr (minds_of w (F := fun t => Ref.miniStep1 o.1.u64.toNat (V1.lower1 t o.2.2)) (call := fun t => V1.outM (m t)) (obs_of_goRes (modelMini1_eq hm)) st
      (fun t h v => congrArg (Ref.miniStep1 _) (V1.lower1_write h w ht.placed ht.valid ht.foreign hl v)) hl
      (V1.miniStep1_decides (t := s) ht.placed hc ht.readable ht.bits hv rfl rfl hx hb).2
      fun t h => (V1.miniStep1_decides ht.placed hc ht.readable ht.bits hv (abs_lengths w h) (abs_spares w h) hx hb).1)

theorem V1Mini.runs (fuel depth : Nat) (hf : 2 ^ 64 < fuel) (hd : 4 ≤ depth) {s : V3.St} (w : WF s) {op : V3.Outs × V1.Any × V1.Op1} (ho : HasMini1 op)
    (hp : V1.placedMini1 op.2.2 = true) : Runs (microMini1 V1Mini.P fuel depth) modelMini1 s op :=
  ⟨fun t b => V1Mini.alone fuel depth hf hd op ho t b, fun t b h =>
    ⟨_, _, V1Mini.uses fuel depth hd op ho (V1.placedMini1_inPlace hp) ⟨t, b⟩ (V1Mini.inv (h.wf w)), fun _ hl => V1.alters_placed hp hl.1⟩⟩

/-- Some byte of the content is one that both calls on a v1 `MiniBuffer` are about, and one of the calls changes bytes. -/
def ShareByte1 (b : Buf) (op op' : V1.Op1) : Prop := Meet b (V1.alters1 op .bytes) (V1.alters1 op' .bytes) (V1.aboutMini1 b op) (V1.aboutMini1 b op')

theorem apart_of1 {s : V3.St} (w : WF s) {op op' : V3.Outs × V1.Any × V1.Op1} (ht : TestedMini1 op s) (ht' : TestedMini1 op' s) (h : ¬ ShareByte1 s.b op.2.2 op'.2.2)
    (l : Loc) (hl : V1.mayWriteMini1 s.b op.2.2 l) : ¬ V1.mayReadMini1 s.b op'.2.2 l ∧ ¬ V1.mayWriteMini1 s.b op'.2.2 l := by
  have hb := V1.alters_placed ht.placed hl.1
  have hc : V1.alters1 op.2.2 .bytes = true := hb ▸ hl.1
  have hl : l.content s.b (V1.aboutMini1 s.b op.2.2) := by
    have := hl.2 hb
    revert this hc
    cases op.2.2 <;> first | exact fun _ h => h | exact fun h => nomatch h
  have no : ¬ l.content s.b (V1.aboutMini1 s.b op'.2.2) := fun h' => h ⟨.inl hc, l, hl, h'⟩
  obtain ⟨x, x1, x2, x3, rfl⟩ := hl
  have no1 : ¬ (Loc.byte s.b.buf.arr (s.b.buf.off + x)).content s.b (V1.bytesOfMini1 s.b op'.2.2) := by
    revert no
    cases op'.2.2 with
    | readComplex p n w e => exact fun _ ⟨y, y1, y2, _⟩ => by have y1 : (0 : Int) ≤ y := y1; have y2 : (y : Int) < 0 := y2; omega
    | _ => exact id
  have no2 : ¬ (Loc.byte s.b.buf.arr (s.b.buf.off + x)).around s.b (V1.complexOf s.b op'.2.2) := by
    rintro ⟨y, y1, y2, e⟩
    have e : s.b.buf.off + x = s.b.buf.off + y := by injection e
    have : x = y := by omega
    subst this
    revert no y1 y2
    cases op'.2.2 with
    | readComplex p n w e => exact fun no y1 y2 => no ⟨x, y1, y2, x3, rfl⟩
    | _ => exact fun _ y1 y2 => by have y1 : (0 : Int) ≤ x := y1; have y2 : (x : Int) < 0 := y2; omega
  refine ⟨fun h => (h.2 rfl).elim no1 fun h => h.elim no2 fun ⟨t, hs, y, hy, e⟩ => ?_, fun h => no1 (h.2 rfl)⟩
  have hv := ht'.valid; have hf := ht'.foreign
  have far : SliceOK s.mem t → V3.Apart t s.b.buf → False := fun h1 h2 => by
    have h3 := h1.len_le; have h4 := w.ok.len_le
    unfold V3.Apart at h2
    injection e with e1 e2
    omega
  obtain ⟨o', a', op'⟩ := op'
  cases op' with
  | writeBytes p src => cases hs; exact far hv hf
  | writeComplex p d w' e' =>
    cases d with
    | bytes src => cases hs; exact far hv hf
    | _ => exact nomatch hs
  | _ => exact nomatch hs

/-- C128: the same for v1 `MiniBuffer`. -/
theorem C128_v1_bytes {s : V3.St} (w : WF s) {o : V3.Outs × V1.Any × V1.Op1} (ho : HasMini1 o) (ht : TestedMini1 o s) {u : V} (hok : (modelMini1 o s).1 = .ok u) {x : Nat}
    (hx : (V1.aboutMini1 s.b o.2.2).1 ≤ x ∧ (x : Int) < (V1.aboutMini1 s.b o.2.2).2) (hl : x < s.b.buf.len) :
    (V1.alters1 o.2.2 .bytes = true → ∃ v, ¬ (byteLoc s.b x).same (modelMini1 o (s.write x [v])).2 (s.write x [v])) ∧
    (V1.alters1 o.2.2 .bytes = false → ∃ v v', (modelMini1 o (s.write x [v])).1 ≠ (modelMini1 o (s.write x [v'])).1) := by
  refine ⟨fun hc => V1Mini.alters w ho ht hok hx hl hc s (.refl s), fun hc => ?_⟩
  rcases V1Mini.minds w ho ht hok hx hl with h | h
  · obtain ⟨v, hv⟩ := h s (.refl s)
    have := C126_frame (s := s.write x [v]) ((Shape.write s x [v]).wf w) o ho (V1.placedMini1_inPlace ht.placed) (l := byteLoc s.b x)
      fun h => nomatch hc.symm.trans h.1
    exact (hv this).elim
  · exact h s (.refl s)

/-- C128: the same for v1/minibuf.go.  `ReadComplex` may read bytes behind the content as well, which no call with a position changes. -/
theorem C128_v1_race :
    ∃ funs, compileAll (V1Utils.text ++ V1Mini.text) = some funs ∧
    ∀ (fuel depth : Nat), 2 ^ 64 < fuel → 4 ≤ depth → ∀ {s : V3.St}, WF s → ∀ {op op' : V3.Outs × V1.Any × V1.Op1}, HasMini1 op → HasMini1 op' →
    TestedMini1 op s → TestedMini1 op' s → ∀ {u u' : V}, (modelMini1 op s).1 = .ok u → (modelMini1 op' s).1 = .ok u' →
    (CanRace (microMini1 ⟨funs, V1Mini.errs⟩ fuel depth) HasMini1 s op op' ↔ ShareByte1 s.b op.2.2 op'.2.2) := by
  obtain ⟨funs, hc, h⟩ := C126_placed
  refine ⟨funs, hc, fun fuel depth hf hd s w op op' ho ho' ht ht' u u' hu hu' => ⟨fun ⟨x, v, _, τ, c, E, h0, h1, hk, l, d⟩ => ?_, fun sb => ?_⟩⟩
  · refine Classical.byContradiction fun hn => ?_
    obtain ⟨ap, pl⟩ := apartAt_of (rd := fun b x => V1.mayReadMini1 b x.2.2) (wr := fun b x => V1.mayWriteMini1 b x.2.2) (pl := fun x => V1.placedMini1 x.2.2) (s := s)
      (s' := s.write x [v]) ht.placed ht'.placed (apart_of1 w ht ht' hn) (apart_of1 w ht' ht fun h => hn h.symm) rfl h0 h1 hk
    have nr := (h fuel depth hf hd (rest_quiet _) ((Shape.write s x [v]).wf w) E pl ap).2
    exact d.elim (nr _ _ _ _ _) (nr _ _ _ _ _)
  · cases (compileAll_append V1Utils.link V1Mini.link).symm.trans hc
    exact canRace ho ho' (V1Mini.runs fuel depth hf hd w ho ht.placed) (V1Mini.runs fuel depth hf hd w ho' ht'.placed)
      (fun x hx hl hc => V1Mini.alters w ho ht hu hx hl hc) (fun x hx hl hc => V1Mini.alters w ho' ht' hu' hx hl hc)
      (fun x hx hl => V1Mini.minds w ho ht hu hx hl) (fun x hx hl => V1Mini.minds w ho' ht' hu' hx hl) sb

/-! ## examples -/

theorem ok_of_matches {r : Res V} (hr : (r matches .ok _) = true) : ∃ u, r = .ok u := by
  cases r with
  | ok u => exact ⟨u, rfl⟩
  | panic p => exact nomatch hr

theorem demoOuts_valid : demoOuts.Valid := fun k => by show 0 * _ ≤ _; rw [Nat.zero_mul]; exact Nat.zero_le _

/-- On a v2 `MiniBuffer`: inverting a bit can race with copying bytes over it, and not with copying bytes behind it. -/
example : ∃ funs, compileAll (V2Utils.text ++ V2Mini.text) = some funs ∧
    CanRace (microMini2 ⟨funs, V2Mini.errs⟩ (2 ^ 64 + 1) 4) HasMini2 V3.demo (demoOuts, .flipBit (some 17)) (demoOuts, .writeBytes (some 1) V3.demoSrc) ∧
    ¬ CanRace (microMini2 ⟨funs, V2Mini.errs⟩ (2 ^ 64 + 1) 4) HasMini2 V3.demo (demoOuts, .flipBit (some 17)) (demoOuts, .writeBytes (some 3) V3.demoSrc) := by
  obtain ⟨funs, hc, h⟩ := C128_v2_race
  have fb : TestedMini2 (demoOuts, .flipBit (some 17)) V3.demo := ⟨rfl, trivial, trivial, trivial, demoOuts_valid, by show 0 ≤ (17 : Int64).toInt; decide⟩
  have wb : ∀ p, TestedMini2 (demoOuts, .writeBytes (some p) V3.demoSrc) V3.demo := fun p =>
    ⟨rfl, V3.demoSrc_ok, .inl (by decide), trivial, demoOuts_valid, trivial⟩
  obtain ⟨_, kf⟩ := ok_of_matches (r := (modelMini2 (demoOuts, .flipBit (some 17)) V3.demo).1) (by decide +kernel)
  obtain ⟨_, k1⟩ := ok_of_matches (r := (modelMini2 (demoOuts, .writeBytes (some 1) V3.demoSrc) V3.demo).1) (by decide +kernel)
  obtain ⟨_, k3⟩ := ok_of_matches (r := (modelMini2 (demoOuts, .writeBytes (some 3) V3.demoSrc) V3.demo).1) (by decide +kernel)
  have hf : HasMini2 (demoOuts, .flipBit (some 17)) := ⟨by trivial, rfl⟩
  have hw : ∀ p, HasMini2 (demoOuts, .writeBytes (some p) V3.demoSrc) := fun _ => ⟨by trivial, rfl⟩
  refine ⟨funs, hc, (h _ _ (Nat.lt_succ_self _) (Nat.le_refl 4) V3.demo_wf hf (hw 1) fb (wb 1) kf k1).2 ⟨.inl rfl, .byte 0 4, ?_, ?_⟩, fun hn => ?_⟩
  · exact ⟨2, by decide, by decide, by decide, rfl⟩
  · exact ⟨2, by decide, by decide, by decide, rfl⟩
  · obtain ⟨_, l, ⟨x, x1, x2, _, rfl⟩, y, y1, y2, _, e⟩ := (h _ _ (Nat.lt_succ_self _) (Nat.le_refl 4) V3.demo_wf hf (hw 3) fb (wb 3) kf k3).1 hn
    have x2 : (x : Int) < 3 := x2
    have y1 : (3 : Int) ≤ y := y1
    have e : 2 + x = 2 + y := by injection e
    omega

/-- On a v1 `MiniBuffer`: reading two 16-bit values can race with writing a 32-bit value over the second one, and not with setting no bits. -/
example : ∃ funs, compileAll (V1Utils.text ++ V1Mini.text) = some funs ∧
    CanRace (microMini1 ⟨funs, V1Mini.errs⟩ (2 ^ 64 + 1) 4) HasMini1 V3.demo (demoOuts, .other, .readComplex (some 1) 2 2 (some .le))
      (demoOuts, .other, .writeComplex (some 4) (.u32 [7]) 4 (some .be)) ∧
    ¬ CanRace (microMini1 ⟨funs, V1Mini.errs⟩ (2 ^ 64 + 1) 4) HasMini1 V3.demo (demoOuts, .other, .readComplex (some 1) 2 2 (some .le))
      (demoOuts, .other, .setBits (some 20) 1 0) := by
  obtain ⟨funs, hc, h⟩ := C128_v1_race
  have rc : TestedMini1 (demoOuts, .other, .readComplex (some 1) 2 2 (some .le)) V3.demo := ⟨rfl, trivial, trivial, trivial, demoOuts_valid, trivial⟩
  have wc : TestedMini1 (demoOuts, .other, .writeComplex (some 4) (.u32 [7]) 4 (some .be)) V3.demo :=
    ⟨rfl, by show 1 * 4 ≤ maxAlloc; decide, trivial, trivial, demoOuts_valid, trivial⟩
  have sb : TestedMini1 (demoOuts, .other, .setBits (some 20) 1 0) V3.demo := ⟨rfl, trivial, trivial, trivial, demoOuts_valid, by show 0 ≤ (20 : Int64).toInt; decide⟩
  obtain ⟨_, kr⟩ := ok_of_matches (r := (modelMini1 (demoOuts, .other, .readComplex (some 1) 2 2 (some .le)) V3.demo).1) (by decide +kernel)
  obtain ⟨_, kw⟩ := ok_of_matches (r := (modelMini1 (demoOuts, .other, .writeComplex (some 4) (.u32 [7]) 4 (some .be)) V3.demo).1) (by decide +kernel)
  obtain ⟨_, ks⟩ := ok_of_matches (r := (modelMini1 (demoOuts, .other, .setBits (some 20) 1 0) V3.demo).1) (by decide +kernel)
  have hr : HasMini1 (demoOuts, .other, .readComplex (some 1) 2 2 (some .le)) := ⟨fun _ h => (nomatch h), rfl⟩
  refine ⟨funs, hc, (h _ _ (Nat.lt_succ_self _) (Nat.le_refl 4) V3.demo_wf hr ⟨fun _ h => (by cases h), rfl⟩ rc wc kr kw).2 ⟨.inr rfl, .byte 0 6, ?_, ?_⟩, fun hn => ?_⟩
  · exact ⟨4, by decide, by decide, by decide, rfl⟩
  · exact ⟨4, by decide, by decide, by decide, rfl⟩
  · obtain ⟨_, l, _, y, y1, y2, _⟩ := (h _ _ (Nat.lt_succ_self _) (Nat.le_refl 4) V3.demo_wf hr ⟨fun _ h => by cases h; trivial, rfl⟩ rc sb kr ks).1 hn
    have y1 : (0 : Int) ≤ y := y1
    have y2 : (y : Int) < 0 := y2
    omega

end Crunch.Src
