import Verif.Lemmas.ExactRace
import Verif.Props.UnlockedFoot

/-!
# C127: the bytes of the footprints are exact, and calls with positions race exactly about them

C124 says that goroutines whose calls are about different bytes of a v3 buffer are in no data race.  Here the converse: for every byte that a successful
call with a position is about, the call can change it, or its result depends on it; and two calls, one of which changes a byte the other one is about, are
in a data race in some execution.
-/

namespace Crunch.Src
open _root_.Crunch.V3 (WF Buf About StepIs)

theorem goVal_obs {a b : V3.Val} (h : goVal a = goVal b) {m m' : Heap} (hb : ∀ l, a.obs m ≠ .bytes l) : a.obs m = b.obs m' := by
  cases a with
  | slice t => exact (hb _ rfl).elim
  | typed k l =>
    cases b with
    | typed k' l' =>
      cases k <;> cases k' <;> simp only [goVal, goList, V.lu16.injEq, V.li16.injEq, V.lu32.injEq, V.li32.injEq, V.lu64.injEq, V.li64.injEq, V.lf32.injEq, V.lf64.injEq,
        reduceCtorEq] at h <;> subst h <;> rfl
    | _ => cases k <;> exact nomatch h
  | _ =>
    cases b with
    | typed k' l' => cases k' <;> exact nomatch h
    | _ => first | (cases h; rfl) | exact nomatch h

theorem goRes_obs {a b : Res V3.Val} (h : goRes a = goRes b) {m m' : Heap} (hb : ∀ l, V3.obsRes m a ≠ .ok (.bytes l)) : V3.obsRes m a = V3.obsRes m' b := by
  cases a with
  | ok a => cases b with
    | ok b => exact congrArg Res.ok (goVal_obs (Res.ok.inj h) fun l e => hb l (congrArg Res.ok e))
    | panic p => exact nomatch h
  | panic p => cases b with
    | ok b => exact nomatch h
    | panic q => cases h; rfl

section
variable {m : O → V3.St → Res V × V3.St} {o : O} {s : V3.St} {call : V3.St → Res V3.Val × V3.St} {F : V3.St → Ref.Ref → Res Ref.Val × Ref.Ref} {x : Nat}

theorem alters_of (w : WF s) (hm : ∀ t, (m o t).2 = (call t).2) (hF : ∀ t, Shape s t → StepIs t (F t (V3.abs t)) (call t))
    (hk : ∀ t, Shape s t → ∀ v, F (t.write x [v]) = F t) (hb : ∀ t, Shape s t → (call t).2.b.buf = s.b.buf) (hx : x < s.b.buf.len)
    (h : ∀ t, Shape s t → ∃ v, (F t ((V3.abs t).poke x v)).2.data[x]? ≠ some v) : Alters m o s x := by
  intro t ht
  obtain ⟨v, h⟩ := h t ht
  refine ⟨v, fun hs => h ?_⟩
  have hw := ht.trans (.write t x [v])
  have hx' : x < t.b.buf.len := by rw [ht.b]; exact hx
  have k := (hF _ hw).state
  rw [hk t ht, abs_write (ht.wf w).ok hx'] at k
  rw [← k]
  show (call (t.write x [v])).2.bytes[x]? = _
  rw [hm] at hs
  have hs : ((call (t.write x [v])).2.mem.array s.b.buf.arr)[s.b.buf.off + x]? = ((t.write x [v]).mem.array s.b.buf.arr)[s.b.buf.off + x]? := hs
  have e1 := hb _ hw
  rw [← bytes_at (by rw [e1]; exact hx), e1, hs]
  have e2 : (t.write x [v]).b.buf = s.b.buf := congrArg Buf.buf hw.b
  rw [← e2, bytes_at (by rw [e2]; exact hx)]
  have hl := V3.length_bytes (ht.wf w).ok
  show (V3.abs (t.write x [v])).data[x]? = _
  rw [abs_write (ht.wf w).ok hx']
  exact List.getElem?_set_self (by show x < t.bytes.length; omega)

theorem minds_of (w : WF s) (hm : ∀ t t', (m o t).1 = (m o t').1 → (∀ l, V3.obsRes (call t).2.mem (call t).1 ≠ .ok (.bytes l)) →
      V3.obsRes (call t).2.mem (call t).1 = V3.obsRes (call t').2.mem (call t').1)
    (hF : ∀ t, Shape s t → StepIs t (F t (V3.abs t)) (call t)) (hk : ∀ t, Shape s t → ∀ v, F (t.write x [v]) = F t) (hx : x < s.b.buf.len)
    (hn : ∀ t r l, (F t r).1 ≠ .ok (.bytes l)) (h : ∀ t, Shape s t → ∃ v v', (F t ((V3.abs t).poke x v)).1 ≠ (F t ((V3.abs t).poke x v')).1) :
    ∀ t, Shape s t → ∃ v v', (m o (t.write x [v])).1 ≠ (m o (t.write x [v'])).1 := by
  intro t ht
  obtain ⟨v, v', h⟩ := h t ht
  refine ⟨v, v', fun hs => h ?_⟩
  have hx' : x < t.b.buf.len := by rw [ht.b]; exact hx
  have key : ∀ v, V3.obsRes (call (t.write x [v])).2.mem (call (t.write x [v])).1 = (F t ((V3.abs t).poke x v)).1 := fun v => by
    have k := (hF _ (ht.trans (.write t x [v]))).result
    rwa [hk t ht, abs_write (ht.wf w).ok hx'] at k
  rw [← key v, ← key v']
  exact hm _ _ hs fun l => by rw [key v]; exact hn _ _ l

theorem obs_of_goRes (hm : ∀ t, m o t = (goRes (call t).1, (call t).2)) (t t' : V3.St) (h : (m o t).1 = (m o t').1)
    (hb : ∀ l, V3.obsRes (call t).2.mem (call t).1 ≠ .ok (.bytes l)) : V3.obsRes (call t).2.mem (call t).1 = V3.obsRes (call t').2.mem (call t').1 := by
  rw [hm, hm] at h
  exact goRes_obs h hb

end

/-- The call has a position and copies only from elsewhere; and its result has all the bits it reads. -/
structure Tested (op : V3.Op) (s : V3.St) : Prop where
  placed : V3.placed op = true
  valid : op.Valid s.mem
  foreign : op.Foreign s.b.buf
  readable : V3.readable op

theorem ok_of_goRes {a : Res V3.Val} {u : V} (h : goRes a = .ok u) (m : Heap) : ∃ v, V3.obsRes m a = .ok v := by
  cases a with
  | ok a => exact ⟨_, rfl⟩
  | panic p => exact nomatch h

theorem abs_lengths {s t : V3.St} (w : WF s) (h : Shape s t) : (V3.abs t).data.length = (V3.abs s).data.length := by
  rw [V3.abs_len (h.wf w).ok, V3.abs_len w.ok, h.b]

theorem V3Buffer.alters {s : V3.St} (w : WF s) {op : V3.Op} (ho : Fits op) (ht : Tested op s) {u : V} (hok : (modelBuf op s).1 = .ok u) {x : Nat}
    (hx : About s.b op x) (hl : x < s.b.buf.len) (hc : V3.changes op .bytes = true) : Alters modelBuf op s x := by
  obtain ⟨v, hv⟩ := ok_of_goRes hok (V3.exec op s).2.mem
  rw [(V3.step_ok w op ht.valid).result] at hv
  refine alters_of w (F := fun t => Ref.step (op.lower t.mem)) (fun _ => rfl) (fun t h => (V3.step_ok (h.wf w) op (h.valid ht.valid)).is)
    (fun t h v => congrArg Ref.step (lower_write h w ht.valid ht.foreign hl v)) (fun t h => ((V3Buffer.keeps op ho (placed_inPlace ht.placed) t (h.wf w).sized).2).trans (congrArg Buf.buf h.b)) hl fun t h => ?_
  exact V3.step_changes ht.placed hc (h.views ht.valid) hv (abs_lengths w h) hx (by rw [V3.abs_len w.ok]; exact hl)

theorem V3Buffer.minds {s : V3.St} (w : WF s) {op : V3.Op} (ho : Fits op) (ht : Tested op s) {u : V} (hok : (modelBuf op s).1 = .ok u) {x : Nat}
    (hx : About s.b op x) (hl : x < s.b.buf.len) : Minds modelBuf op s x := by
  cases hc : V3.changes op .bytes with
  | true => exact .inl (V3Buffer.alters w ho ht hok hx hl hc)
  | false =>
    obtain ⟨v, hv⟩ := ok_of_goRes hok (V3.exec op s).2.mem
    rw [(V3.step_ok w op ht.valid).result] at hv
    exact .inr (minds_of w (F := fun t => Ref.step (op.lower t.mem)) (obs_of_goRes fun _ => rfl) (fun t h => (V3.step_ok (h.wf w) op (h.valid ht.valid)).is)
      (fun t h v => congrArg Ref.step (lower_write h w ht.valid ht.foreign hl v)) hl
      (fun t r l => V3.step_not_bytes ht.placed hc hx l) fun t h => V3.step_decides ht.placed hc ht.readable hv (abs_lengths w h) hx)

theorem V3.changes_placed {op : V3.Op} (hp : V3.placed op = true) {k : Part} (h : V3.changes op k = true) : k = .bytes := by
  simp only [V3.placed, V3.inPlace, Bool.and_eq_true, Bool.not_eq_true'] at hp
  obtain ⟨⟨⟨hp1, _⟩, hp2⟩, hp3⟩ := hp
  rcases k with (_ | _ | _ | _) | _ | _
  · exact nomatch hp2.symm.trans (V3.accesses_of_changes h)
  · exact nomatch hp1.symm.trans h
  · exact nomatch hp3.symm.trans (V3.accesses_of_changes h)
  · exact nomatch hp1.symm.trans h
  · cases op <;> first | exact Bool.noConfusion (show true = false from hp1) | exact Bool.noConfusion (show false = true from h)
  · rfl

theorem V3Buffer.runs (fuel depth : Nat) (hf : 2 ^ 64 < fuel) (hd : 3 ≤ depth) {s : V3.St} (w : WF s) {op : V3.Op} (ho : Fits op) (hp : V3.placed op = true) :
    Runs (microBuf V3Buffer.P fuel depth) modelBuf s op :=
  ⟨fun t b => V3Buffer.alone fuel depth hf hd op ho t b, fun t b h =>
    ⟨_, _, V3Buffer.uses fuel depth hd op ho (placed_inPlace hp) ⟨t, b⟩ (h.wf w).sized, fun _ hl => V3.changes_placed hp hl.1⟩⟩

/-! ## `MiniBuffer` -/

/-- For `MiniBuffer` also: the result variables are Go values, and a bit position is not negative. -/
structure TestedMini (x : V3.Outs × V3.Op) (s : V3.St) : Prop where
  tested : Tested x.2 s
  outs : x.1.Valid
  bits : V3.bitsFromStart x.2

theorem modelMini_eq {x : V3.Outs × V3.Op} {m : GoM V3.St V3.Val} (h : V3.miniCall x.1 x.2 = some m) (t : V3.St) : modelMini x t = (goRes (m t).1, (m t).2) := by
  unfold modelMini
  rw [h]

theorem V3Mini.alters {s : V3.St} (w : WF s) {o : V3.Outs × V3.Op} (ho : HasMini o) (ht : TestedMini o s) {u : V} (hok : (modelMini o s).1 = .ok u) {x : Nat}
    (hx : About s.b o.2 x) (hl : x < s.b.buf.len) (hc : V3.changes o.2 .bytes = true) : Alters modelMini o s x := by
  obtain ⟨m, hm⟩ := Option.isSome_iff_exists.mp ho.2
  have st : ∀ t, Shape s t → _ := fun t h => V3.mini_step_ok (h.wf w) o.1 ht.outs o.2 (h.valid ht.tested.valid) m hm
  rw [modelMini_eq hm] at hok
  obtain ⟨v, hv⟩ := ok_of_goRes hok (m s).2.mem
  rw [(st s (.refl s)).result] at hv
  refine alters_of w (F := fun t => Ref.miniStep o.1.u64.toNat (o.1.nums o.2) (o.2.lower t.mem)) (fun t => congrArg Prod.snd (modelMini_eq hm t)) st
    (fun t h v => congrArg (Ref.miniStep _ _) (lower_write h w ht.tested.valid ht.tested.foreign hl v)) (fun t h => ?_) hl fun t h => ?_
  · have := (V3Mini.keeps o ho (placed_inPlace ht.tested.placed) t (h.wf w).sized).2
    rw [modelMini_eq hm] at this
    exact this.trans (congrArg Buf.buf h.b)
  · exact V3.miniStep_changes ht.tested.placed hc (h.views ht.tested.valid) ht.bits hv (abs_lengths w h) hx (by rw [V3.abs_len w.ok]; exact hl)

theorem V3Mini.minds {s : V3.St} (w : WF s) {o : V3.Outs × V3.Op} (ho : HasMini o) (ht : TestedMini o s) {u : V} (hok : (modelMini o s).1 = .ok u) {x : Nat}
    (hx : About s.b o.2 x) (hl : x < s.b.buf.len) : Minds modelMini o s x := by
  cases hc : V3.changes o.2 .bytes with
  | true => exact .inl (V3Mini.alters w ho ht hok hx hl hc)
  | false =>
    obtain ⟨m, hm⟩ := Option.isSome_iff_exists.mp ho.2
    have st : ∀ t, Shape s t → _ := fun t h => V3.mini_step_ok (h.wf w) o.1 ht.outs o.2 (h.valid ht.tested.valid) m hm
    rw [modelMini_eq hm] at hok
    obtain ⟨v, hv⟩ := ok_of_goRes hok (m s).2.mem
    rw [(st s (.refl s)).result] at hv
    exact .inr (minds_of w (F := fun t => Ref.miniStep o.1.u64.toNat (o.1.nums o.2) (o.2.lower t.mem)) (obs_of_goRes (modelMini_eq hm)) st
      (fun t h v => congrArg (Ref.miniStep _ _) (lower_write h w ht.tested.valid ht.tested.foreign hl v)) hl
      (fun t r l => V3.miniStep_not_bytes ht.tested.placed hc hx l)
      fun t h => V3.miniStep_decides ht.tested.placed hc ht.tested.readable ht.bits hv (abs_lengths w h) hx)

theorem V3Mini.runs (fuel depth : Nat) (hf : 2 ^ 64 < fuel) (hd : 3 ≤ depth) {s : V3.St} (w : WF s) {op : V3.Outs × V3.Op} (ho : HasMini op) (hp : V3.placed op.2 = true) :
    Runs (microMini V3Mini.P fuel depth) modelMini s op :=
  ⟨fun t b => V3Mini.alone fuel depth hf hd op ho t b, fun t b h =>
    ⟨_, _, V3Mini.uses fuel depth hd op ho (placed_inPlace hp) ⟨t, b⟩ (h.wf w).sized, fun _ hl => V3.changes_placed hp hl.1⟩⟩

/-! ## the theorems -/

/-- C127: each byte of the content that a successful call with a position on a v3 `Buffer` is about matters to it.  A call that changes bytes changes this one,
if it does not happen to be what the call writes; a call that only reads bytes has different results for two values of the byte. -/
theorem C127_buffer_bytes {s : V3.St} (w : WF s) {op : V3.Op} (ho : Fits op) (ht : Tested op s) {u : V} (hok : (modelBuf op s).1 = .ok u) {x : Nat}
    (hx : (V3.bytesOf s.b op).1 ≤ x ∧ (x : Int) < (V3.bytesOf s.b op).2) (hl : x < s.b.buf.len) :
    (V3.changes op .bytes = true → ∃ v, ¬ (byteLoc s.b x).same (modelBuf op (s.write x [v])).2 (s.write x [v])) ∧
    (V3.changes op .bytes = false → ∃ v v', (modelBuf op (s.write x [v])).1 ≠ (modelBuf op (s.write x [v'])).1) := by
  refine ⟨fun hc => V3Buffer.alters w ho ht hok hx hl hc s (.refl s), fun hc => ?_⟩
  rcases V3Buffer.minds w ho ht hok hx hl with h | h
  · obtain ⟨v, hv⟩ := h s (.refl s)
    have := C124_buffer_frame (s := s.write x [v]) ((Shape.write s x [v]).wf w) op ho (placed_inPlace ht.placed) (l := byteLoc s.b x)
      fun h => nomatch hc.symm.trans h.1
    exact (hv this).elim
  · exact h s (.refl s)

/-- C127: the same for `MiniBuffer`. -/
theorem C127_mini_bytes {s : V3.St} (w : WF s) {o : V3.Outs × V3.Op} (ho : HasMini o) (ht : TestedMini o s) {u : V} (hok : (modelMini o s).1 = .ok u) {x : Nat}
    (hx : (V3.bytesOf s.b o.2).1 ≤ x ∧ (x : Int) < (V3.bytesOf s.b o.2).2) (hl : x < s.b.buf.len) :
    (V3.changes o.2 .bytes = true → ∃ v, ¬ (byteLoc s.b x).same (modelMini o (s.write x [v])).2 (s.write x [v])) ∧
    (V3.changes o.2 .bytes = false → ∃ v v', (modelMini o (s.write x [v])).1 ≠ (modelMini o (s.write x [v'])).1) := by
  refine ⟨fun hc => V3Mini.alters w ho ht hok hx hl hc s (.refl s), fun hc => ?_⟩
  rcases V3Mini.minds w ho ht hok hx hl with h | h
  · obtain ⟨v, hv⟩ := h s (.refl s)
    have := C124_mini_frame (s := s.write x [v]) ((Shape.write s x [v]).wf w) o ho (placed_inPlace ht.tested.placed) (l := byteLoc s.b x)
      fun h => nomatch hc.symm.trans h.1
    exact (hv this).elim
  · exact h s (.refl s)

/-- In some execution that starts with `s`, up to the value of one byte of the content, goroutine 0 makes the call `op`, goroutine 1 makes the call `op'`, nobody
else makes a call, and the two calls are in a data race. -/
def CanRace (ex : O → Prog V) (allowed : O → Prop) (s : V3.St) (op op' : O) : Prop :=
  ∃ x v, x < s.b.buf.len ∧ ∃ τ c, Exec ex allowed (rest O V (s.write x [v])) τ c ∧ started 0 τ = [op] ∧ started 1 τ = [op'] ∧ (∀ k, 2 ≤ k → started k τ = []) ∧
    ∃ l, DataRace ex allowed (rest O V (s.write x [v])) τ 0 1 op op' l ∨ DataRace ex allowed (rest O V (s.write x [v])) τ 1 0 op' op l

/-- Some byte of the content is in both ranges, and one of the calls changes bytes. -/
def Meet (b : Buf) (c c' : Bool) (r r' : Int × Int) : Prop := (c = true ∨ c' = true) ∧ ∃ l : Loc, l.content b r ∧ l.content b r'

theorem Meet.symm {b : Buf} {c c' : Bool} {r r' : Int × Int} (h : Meet b c c' r r') : Meet b c' c r' r := ⟨h.1.symm, h.2.imp fun _ h => h.symm⟩

/-- Some byte of the content is one that both calls are about, and one of the calls changes bytes. -/
def ShareByte (b : Buf) (op op' : V3.Op) : Prop := Meet b (V3.changes op .bytes) (V3.changes op' .bytes) (V3.bytesOf b op) (V3.bytesOf b op')

theorem canRace {ex : O → Prog V} {allowed : O → Prop} {m : O → V3.St → Res V × V3.St} {s : V3.St} {op op' : O} (ho : allowed op) (ho' : allowed op')
    (ru : Runs ex m s op) (ru' : Runs ex m s op') {p p' : Int × Int} {c c' : Bool} (ha : ∀ x : Nat, p.1 ≤ x ∧ (x : Int) < p.2 → x < s.b.buf.len → c = true → Alters m op s x)
    (ha' : ∀ x : Nat, p'.1 ≤ x ∧ (x : Int) < p'.2 → x < s.b.buf.len → c' = true → Alters m op' s x)
    (hm : ∀ x : Nat, p.1 ≤ x ∧ (x : Int) < p.2 → x < s.b.buf.len → Minds m op s x) (hm' : ∀ x : Nat, p'.1 ≤ x ∧ (x : Int) < p'.2 → x < s.b.buf.len → Minds m op' s x)
    (h : Meet s.b c c' p p') : CanRace ex allowed s op op' := by
  obtain ⟨hc, l, ⟨x, x1, x2, x3, rfl⟩, ⟨y, y1, y2, _, e⟩⟩ := h
  have : x = y := by injection e with _ e; omega
  subst this
  rcases hc with hc | hc
  · obtain ⟨v, τ, c, E, s0, s1, sk, d⟩ := races (show 0 ≠ 1 by decide) ho ho' ru ru' (ha x ⟨x1, x2⟩ x3 hc) (hm' x ⟨y1, y2⟩ x3)
    exact ⟨x, v, x3, τ, c, E, s0, s1, fun k hk => sk k (by omega) (by omega), _, .inl d⟩
  · obtain ⟨v, τ, c, E, s1, s0, sk, d⟩ := races (show 1 ≠ 0 by decide) ho' ho ru' ru (ha' x ⟨y1, y2⟩ x3 hc) (hm x ⟨x1, x2⟩ x3)
    exact ⟨x, v, x3, τ, c, E, s0, s1, fun k hk => sk k (by omega) (by omega), _, .inr d⟩

/-- Calls with positions whose footprints do not meet: what one of them changes, the other one does not access. -/
theorem apart_of {acc : V3.Op → Part → Bool} {s : V3.St} (w : WF s) {op op' : V3.Op} (ht : Tested op s) (ht' : Tested op' s) (h : ¬ ShareByte s.b op op') (l : Loc)
    (hl : V3.mayWrite s.b op l) : ¬ V3.reads acc s.b op' l ∧ ¬ V3.mayWrite s.b op' l := by
  have hb := V3.changes_placed ht.placed hl.1
  have hc : V3.changes op .bytes = true := hb ▸ hl.1
  have hl := hl.2 hb
  have no : ¬ l.content s.b (V3.bytesOf s.b op') := fun h' => h ⟨.inl hc, l, hl, h'⟩
  refine ⟨fun h => (h.2 hb).elim no fun ⟨t, hs, y, hy, e⟩ => ?_, fun h => no (h.2 hb)⟩
  have hv := ht'.valid; have hf := ht'.foreign
  obtain ⟨x, x1, x2, x3, rfl⟩ := hl
  cases op' with
  | writeBytes p src =>
    cases hs
    have h1 : SliceOK s.mem t := hv
    have h2 : V3.Apart t s.b.buf := hf
    have h3 := h1.len_le; have h4 := w.ok.len_le
    unfold V3.Apart at h2
    injection e with e1 e2
    omega
  | _ => exact nomatch hs

theorem apartAt_of {rd wr : Buf → O → Loc → Prop} {pl : O → Bool} {s s' : V3.St} {op op' : O} (hp : pl op = true) (hp' : pl op' = true)
    (h : ∀ l, wr s.b op l → ¬ rd s.b op' l ∧ ¬ wr s.b op' l) (h' : ∀ l, wr s.b op' l → ¬ rd s.b op l ∧ ¬ wr s.b op l) (hb : s'.b = s.b) {τ : Trace O V}
    (h0 : started 0 τ = [op]) (h1 : started 1 τ = [op']) (hk : ∀ k, 2 ≤ k → started k τ = []) :
    ApartAt rd wr (rest O V s') τ ∧ ∀ i, ∀ o ∈ started i τ, pl o = true := by
  have one : ∀ i, ∀ o ∈ started i τ, (i = 0 ∧ o = op) ∨ (i = 1 ∧ o = op') := fun i o hi => match i, hi with
    | 0, hi => .inl ⟨rfl, by rw [h0] at hi; exact List.mem_singleton.mp hi⟩
    | 1, hi => .inr ⟨rfl, by rw [h1] at hi; exact List.mem_singleton.mp hi⟩
    | k + 2, hi => by rw [hk (k + 2) (by omega)] at hi; exact nomatch hi
  refine ⟨fun i j hij o ho o' ho' l hl => ?_, fun i o ho => ?_⟩
  · have hl : wr s.b o l := hb ▸ hl
    show ¬ rd s'.b o' l ∧ ¬ wr s'.b o' l
    rw [hb]
    rcases one i o ho with ⟨rfl, rfl⟩ | ⟨rfl, rfl⟩ <;> rcases one j o' ho' with ⟨rfl, rfl⟩ | ⟨rfl, rfl⟩
    · exact absurd rfl hij
    · exact h l hl
    · exact h' l hl
    · exact absurd rfl hij
  · rcases one i o ho with ⟨_, rfl⟩ | ⟨_, rfl⟩
    · exact hp
    · exact hp'

/-- C127: two calls with positions on a v3 `Buffer` that succeed from `s`, run from the text of v3/buffer.generated.go by two goroutines without a mutex, can be in a
data race exactly when some byte of the content is one that both are about and one of them changes bytes. -/
theorem C127_buffer_race :
    ∃ funs, compileAll V3Buffer.text = some funs ∧
    ∀ (fuel depth : Nat), 2 ^ 64 < fuel → 3 ≤ depth → ∀ {s : V3.St}, WF s → ∀ {op op' : V3.Op}, Fits op → Fits op' → Tested op s → Tested op' s →
    ∀ {u u' : V}, (modelBuf op s).1 = .ok u → (modelBuf op' s).1 = .ok u' →
    (CanRace (microBuf ⟨funs, V3Buffer.errs⟩ fuel depth) Fits s op op' ↔ ShareByte s.b op op') := by
  obtain ⟨funs, hc, h⟩ := C124_buffer_placed
  refine ⟨funs, hc, fun fuel depth hf hd s w op op' ho ho' ht ht' u u' hu hu' => ⟨fun ⟨x, v, _, τ, c, E, h0, h1, hk, l, d⟩ => ?_, fun sb => ?_⟩⟩
  · refine Classical.byContradiction fun hn => ?_
    obtain ⟨ap, pl⟩ := apartAt_of (rd := V3.mayRead) (wr := V3.mayWrite) (pl := V3.placed) (s := s) (s' := s.write x [v]) ht.placed ht'.placed
      (apart_of (acc := V3.accesses) w ht ht' hn) (apart_of (acc := V3.accesses) w ht' ht fun h => hn h.symm) rfl h0 h1 hk
    have nr := (h fuel depth hf hd (rest_quiet _) ((Shape.write s x [v]).wf w) E pl ap).2
    exact d.elim (nr _ _ _ _ _) (nr _ _ _ _ _)
  · cases (V3Buffer.link).symm.trans hc
    exact canRace ho ho' (V3Buffer.runs fuel depth hf hd w ho ht.placed) (V3Buffer.runs fuel depth hf hd w ho' ht'.placed)
      (fun x hx hl hc => V3Buffer.alters w ho ht hu hx hl hc) (fun x hx hl hc => V3Buffer.alters w ho' ht' hu' hx hl hc)
      (fun x hx hl => V3Buffer.minds w ho ht hu hx hl) (fun x hx hl => V3Buffer.minds w ho' ht' hu' hx hl) sb

/-- C127: the same for v3/minibuf.generated.go. -/
theorem C127_mini_race :
    ∃ funs, compileAll V3Mini.text = some funs ∧
    ∀ (fuel depth : Nat), 2 ^ 64 < fuel → 3 ≤ depth → ∀ {s : V3.St}, WF s → ∀ {op op' : V3.Outs × V3.Op}, HasMini op → HasMini op' →
    TestedMini op s → TestedMini op' s → ∀ {u u' : V}, (modelMini op s).1 = .ok u → (modelMini op' s).1 = .ok u' →
    (CanRace (microMini ⟨funs, V3Mini.errs⟩ fuel depth) HasMini s op op' ↔ ShareByte s.b op.2 op'.2) := by
  obtain ⟨funs, hc, h⟩ := C124_mini_placed
  refine ⟨funs, hc, fun fuel depth hf hd s w op op' ho ho' ht ht' u u' hu hu' => ⟨fun ⟨x, v, _, τ, c, E, h0, h1, hk, l, d⟩ => ?_, fun sb => ?_⟩⟩
  · refine Classical.byContradiction fun hn => ?_
    obtain ⟨ap, pl⟩ := apartAt_of (rd := fun b x => V3.mayReadMini b x.2) (wr := fun b x => V3.mayWrite b x.2) (pl := fun x => V3.placed x.2) (s := s)
      (s' := s.write x [v]) ht.tested.placed ht'.tested.placed (apart_of (acc := V3.accessesMini) w ht.tested ht'.tested hn)
      (apart_of (acc := V3.accessesMini) w ht'.tested ht.tested fun h => hn h.symm) rfl h0 h1 hk
    have nr := (h fuel depth hf hd (rest_quiet _) ((Shape.write s x [v]).wf w) E pl ap).2
    exact d.elim (nr _ _ _ _ _) (nr _ _ _ _ _)
  · cases (V3Mini.link).symm.trans hc
    exact canRace ho ho' (V3Mini.runs fuel depth hf hd w ho ht.tested.placed) (V3Mini.runs fuel depth hf hd w ho' ht'.tested.placed)
      (fun x hx hl hc => V3Mini.alters w ho ht hu hx hl hc) (fun x hx hl hc => V3Mini.alters w ho' ht' hu' hx hl hc)
      (fun x hx hl => V3Mini.minds w ho ht hu hx hl) (fun x hx hl => V3Mini.minds w ho' ht' hu' hx hl) sb

/-- Two goroutines that set bits of one byte of `demo` can be in a data race, two that set bits of different bytes cannot; nor can two that read. -/
example : ∃ funs, compileAll V3Buffer.text = some funs ∧ CanRace (microBuf ⟨funs, V3Buffer.errs⟩ (2 ^ 64 + 1) 3) Fits V3.demo (.setBit (some 3)) (.setBit (some 4)) ∧
    ¬ CanRace (microBuf ⟨funs, V3Buffer.errs⟩ (2 ^ 64 + 1) 3) Fits V3.demo (.setBit (some 3)) (.setBit (some 8)) ∧
    CanRace (microBuf ⟨funs, V3Buffer.errs⟩ (2 ^ 64 + 1) 3) Fits V3.demo (.read .u32 .be (some 3) 2) (.writeBytes (some 8) V3.demoSrc) ∧
    ¬ CanRace (microBuf ⟨funs, V3Buffer.errs⟩ (2 ^ 64 + 1) 3) Fits V3.demo (.read .u32 .be (some 3) 2) (.readBits (some 30) 7) := by
  obtain ⟨funs, hc, h⟩ := C127_buffer_race
  have sb : ∀ p, Tested (.setBit (some p)) V3.demo := fun p => ⟨rfl, trivial, trivial, trivial⟩
  have rd : Tested (.read .u32 .be (some 3) 2) V3.demo := ⟨rfl, trivial, trivial, trivial⟩
  have rb : Tested (.readBits (some 30) 7) V3.demo := ⟨rfl, trivial, trivial, by show (7 : Int64).toInt ≤ 64; decide⟩
  have wb : Tested (.writeBytes (some 8) V3.demoSrc) V3.demo := ⟨rfl, V3.demoSrc_ok, .inl (by decide), trivial⟩
  have ok : ∀ {r : Res V}, (r matches .ok _) = true → ∃ u, r = .ok u := fun {r} hr => by
    cases r with
    | ok u => exact ⟨u, rfl⟩
    | panic p => exact nomatch hr
  obtain ⟨_, k3⟩ := ok (r := (modelBuf (.setBit (some 3)) V3.demo).1) (by decide +kernel)
  obtain ⟨_, k4⟩ := ok (r := (modelBuf (.setBit (some 4)) V3.demo).1) (by decide +kernel)
  obtain ⟨_, k8⟩ := ok (r := (modelBuf (.setBit (some 8)) V3.demo).1) (by decide +kernel)
  obtain ⟨_, kr⟩ := ok (r := (modelBuf (.read .u32 .be (some 3) 2) V3.demo).1) (by decide +kernel)
  obtain ⟨_, kb⟩ := ok (r := (modelBuf (.readBits (some 30) 7) V3.demo).1) (by decide +kernel)
  obtain ⟨_, kw⟩ := ok (r := (modelBuf (.writeBytes (some 8) V3.demoSrc) V3.demo).1) (by decide +kernel)
  refine ⟨funs, hc, (h _ _ (Nat.lt_succ_self _) (Nat.le_refl 3) V3.demo_wf (by trivial) (by trivial) (sb 3) (sb 4) k3 k4).2 ⟨.inl rfl, .byte 0 2, ?_, ?_⟩,
    fun hn => ?_, (h _ _ (Nat.lt_succ_self _) (Nat.le_refl 3) V3.demo_wf (by trivial) (by trivial) rd wb kr kw).2 ⟨.inr rfl, .byte 0 12, ?_, ?_⟩, fun hn => ?_⟩
  · exact ⟨0, by decide, by decide, by decide, rfl⟩
  · exact ⟨0, by decide, by decide, by decide, rfl⟩
  · obtain ⟨_, l, ⟨x, x1, x2, _, rfl⟩, y, y1, y2, _, e⟩ := (h _ _ (Nat.lt_succ_self _) (Nat.le_refl 3) V3.demo_wf (by trivial) (by trivial) (sb 3) (sb 8) k3 k8).1 hn
    have x2 : (x : Int) < 1 := x2
    have y1 : (1 : Int) ≤ y := y1
    have e : 2 + x = 2 + y := by injection e
    omega
  · exact ⟨10, by decide, by decide, by decide, rfl⟩
  · exact ⟨10, by decide, by decide, by decide, rfl⟩
  · exact ((h _ _ (Nat.lt_succ_self _) (Nat.le_refl 3) V3.demo_wf (by trivial) (by trivial) rd rb kr kb).1 hn).1.elim (nomatch ·) (nomatch ·)

/-- Result variables that hold zeros, and a 5 for `ReadBits`. -/
def demoOuts : V3.Outs := ⟨0, 5, 0, ⟨0, 0, 0, 0⟩, fun _ => []⟩

/-- On a `MiniBuffer`: reading a bit field across two bytes can race with inverting everything, and not with a write behind it. -/
example : ∃ funs, compileAll V3Mini.text = some funs ∧
    CanRace (microMini ⟨funs, V3Mini.errs⟩ (2 ^ 64 + 1) 3) HasMini V3.demo (demoOuts, .readBits (some 6) 4) (demoOuts, .flipAll) ∧
    ¬ CanRace (microMini ⟨funs, V3Mini.errs⟩ (2 ^ 64 + 1) 3) HasMini V3.demo (demoOuts, .readBits (some 6) 4) (demoOuts, .write .u16 .le (some 2) [7]) := by
  obtain ⟨funs, hc, h⟩ := C127_mini_race
  have ov : demoOuts.Valid := fun k => by show 0 * _ ≤ _; rw [Nat.zero_mul]; exact Nat.zero_le _
  have rb : TestedMini (demoOuts, .readBits (some 6) 4) V3.demo := ⟨⟨rfl, trivial, trivial, by show (4 : Int64).toInt ≤ 64; decide⟩, ov, by show 0 ≤ (6 : Int64).toInt; decide⟩
  have fa : TestedMini (demoOuts, .flipAll) V3.demo := ⟨⟨rfl, trivial, trivial, trivial⟩, ov, trivial⟩
  have wr : TestedMini (demoOuts, .write .u16 .le (some 2) [7]) V3.demo := ⟨⟨rfl, by show 1 * 2 ≤ maxAlloc; decide, trivial, trivial⟩, ov, trivial⟩
  have ok : ∀ {r : Res V}, (r matches .ok _) = true → ∃ u, r = .ok u := fun {r} hr => by
    cases r with
    | ok u => exact ⟨u, rfl⟩
    | panic p => exact nomatch hr
  obtain ⟨_, kb⟩ := ok (r := (modelMini (demoOuts, .readBits (some 6) 4) V3.demo).1) (by decide +kernel)
  obtain ⟨_, kf⟩ := ok (r := (modelMini (demoOuts, .flipAll) V3.demo).1) (by decide +kernel)
  obtain ⟨_, kw⟩ := ok (r := (modelMini (demoOuts, .write .u16 .le (some 2) [7]) V3.demo).1) (by decide +kernel)
  have hb : HasMini (demoOuts, .readBits (some 6) 4) := ⟨by trivial, rfl⟩
  refine ⟨funs, hc, (h _ _ (Nat.lt_succ_self _) (Nat.le_refl 3) V3.demo_wf hb ⟨by trivial, rfl⟩ rb fa kb kf).2 ⟨.inr rfl, .byte 0 3, ?_, ?_⟩, fun hn => ?_⟩
  · exact ⟨1, by decide, by decide, by decide, rfl⟩
  · exact ⟨1, by decide, by decide, by decide, rfl⟩
  · obtain ⟨_, l, ⟨x, x1, x2, _, rfl⟩, y, y1, y2, _, e⟩ := (h _ _ (Nat.lt_succ_self _) (Nat.le_refl 3) V3.demo_wf hb ⟨by trivial, rfl⟩ rb wr kb kw).1 hn
    have x2 : (x : Int) < 2 := x2
    have y1 : (2 : Int) ≤ y := y1
    have e : 2 + x = 2 + y := by injection e
    omega

end Crunch.Src
