import Verif.Props.Bench
import Verif.Lemmas.V1MiniStep

/-!
# C137: the calls of the benchmarks

Each call, run from the text, does what the reference machine does; and the reference machine carries out the calls of the benchmarks.
-/

namespace Crunch.Src.Tests

open Crunch.Gen Crunch.V3

/-- Running the method succeeds, with a value with `Q`, and leads to the state `q` of the reference machine. -/
def Leads (r : Runner) (f : Str) (args : List V) (out : Option V) (s : V3.St) (q : Ref.Ref) (Q : V → Prop) : Prop :=
  ∃ v s', r f args out s = some (.ok v, s') ∧ WF s' ∧ abs s' = q ∧ Q v

theorem of_obs {m : Heap} {x : Res V3.Val} {u : Ref.Val} (h : obsRes m x = .ok u) : ∃ v, x = .ok v ∧ v.obs m = u := by
  cases x with
  | panic p => cases h
  | ok v => exact ⟨v, rfl, Res.ok.inj h⟩

/-! ## the six packages -/

theorem leads_v3 {s : V3.St} (op : V3.Op) (hf : Fits op) (hw : WF s) (hv : op.Valid s.mem) {u : Ref.Val} {q : Ref.Ref}
    (hq : Ref.step (op.lower s.mem) (abs s) = (.ok u, q)) :
    Leads (runBuf V3Buffer.P) (goName op) (goArgs op) none s q fun _ => True := by
  obtain ⟨funs, hc, h⟩ := C81_buffer_text
  rw [V3Buffer.link] at hc
  cases hc
  have hs := (V3.step_ok hw op hv).is
  rw [hq] at hs
  obtain ⟨v, hx, _⟩ := of_obs hs.result
  refine ⟨goVal v, (V3.exec op s).2, ?_, hs.wf, hs.state, trivial⟩
  have e := h fuel 4 fuel_ok (by decide) op hf s .unit
  rw [hx] at e
  show some ((V3Buffer.P.callBuf fuel 4 (goName op) (goArgs op) (s, .unit)).1, (V3Buffer.P.callBuf fuel 4 (goName op) (goArgs op) (s, .unit)).2.1) = _
  rw [show V3Buffer.P.callBuf fuel 4 (goName op) (goArgs op) (s, .unit) = _ from e]
  rfl

theorem leads_v2 {s : V3.St} (op : V2.Op2) (hf : Two.Fits op) (hw : WF s) (hv : op.Valid s.mem) {u : Ref.Val} {q : Ref.Ref}
    (hq : Ref.step2 (V2.lower s op) (abs s) = (.ok u, q)) :
    Leads (runProg V2Buffer.P) (Two.goName op) (Two.goArgs op) none s q fun _ => True := by
  obtain ⟨funs, hc, h⟩ := C86_alone_text
  rw [compileAll_append V2Utils.link V2Buffer.link] at hc
  cases hc
  have hs := V2.step2_ok hw op hv
  rw [hq] at hs
  obtain ⟨v, hx, _⟩ := of_obs hs.result
  refine ⟨goVal v, (V2.seq op s).2, ?_, hs.wf, hs.state, trivial⟩
  have e := h fuel 4 fuel_ok (by decide) op hf ⟨s, false⟩
  rw [V2.exec_run op s, hx] at e
  unfold runProg
  simp only
  rw [show (V2Buffer.P.call fuel 4 (Two.goName op) (Two.goArgs op) : Prog V).run ⟨s, false⟩ = _ from e]
  simp [goRes, Res.runtime]

theorem leads_v1 {s : V3.St} (op : V1.Op1) (hf : One.Fits op) (hw : WF s) (hv : op.Valid s.mem) {u : Ref.Val} {q : Ref.Ref}
    (hq : Ref.step1 (V1.lower1 s op) (abs s) = (.ok u, q)) (hk : Ref.sticks1 (V1.lower1 s op) (.ok u) = false) :
    Leads (runProg V1Buffer.P) (One.goName op) (One.goArgs op) none s q fun _ => True := by
  obtain ⟨funs, hc, h⟩ := C87_alone_text
  rw [compileAll_append V1Utils.link V1Buffer.link] at hc
  cases hc
  obtain ⟨hs, hl⟩ := V1.step1_ok hw op hv
  rw [hq] at hs hl
  rw [hk] at hl
  have e := h fuel 4 fuel_ok (by decide) op hf ⟨s, false⟩
  unfold V1.outRes at hs hl
  generalize (V1.exec1 op).run ⟨s, false⟩ = x at *
  obtain ⟨x, sh⟩ := x
  obtain ⟨v, hx, _⟩ := of_obs hs.result
  have hl : sh.locked = false := hl
  cases x with
  | panic p => cases hx
  | ok w =>
    refine ⟨goVal1 w, sh.st, ?_, hs.wf, hs.state, trivial⟩
    unfold runProg
    simp only
    rw [show (V1Buffer.P.call fuel 4 (One.goName op) (One.goArgs op) : Prog V).run ⟨s, false⟩ = _ from e]
    simp only [goRes1]
    rw [if_neg (by rw [show sh.locked = false from hl]; decide)]

theorem leads_v3m {s : V3.St} (o : V3.Outs) (ho : o.Valid) (op : V3.Op) (hf : Fits op) (hw : WF s) (hv : op.Valid s.mem)
    {m : GoM V3.St V3.Val} (hm : V3.miniCall o op = some m) {u : Ref.Val} {q : Ref.Ref}
    (hq : Ref.miniStep o.u64.toNat (o.nums op) (op.lower s.mem) (abs s) = (.ok u, q)) :
    Leads (runMini V3Mini.P) (goName op) (goArgs op) (goOut o op) s q fun v => ∃ x s', v = goVal x ∧ m s = (.ok x, s') ∧ x.obs s'.mem = u := by
  obtain ⟨funs, hc, h⟩ := C82_mini_text
  rw [V3Mini.link] at hc
  cases hc
  have hs := V3.mini_step_ok hw o ho op hv m hm
  rw [hq] at hs
  obtain ⟨v, hx, hu⟩ := of_obs hs.result
  refine ⟨goVal v, (m s).2, ?_, hs.wf, hs.state, v, (m s).2, rfl, Prod.ext hx rfl, hu⟩
  have e := h fuel 4 fuel_ok (by decide) o op hf m hm s .unit
  rw [hx] at e
  unfold runMini
  rw [show V3Mini.P.callMini fuel 4 (goName op) (goArgs op) (goOut o op) (s, .unit) = _ from e]
  rfl

theorem leads_v2m {s : V3.St} (o : V3.Outs) (ho : o.Valid) (op : V2.Op2) (hf : Two.Fits op) (hw : WF s) (hv : op.Valid s.mem)
    {m : GoM V3.St V3.Val} (hm : V2.miniCall o op = some m) {u : Ref.Val} {q : Ref.Ref}
    (hq : Ref.miniStep2 o.u64.toNat (V2.nums o op) (V2.lower s op) (abs s) = (.ok u, q)) :
    Leads (runMini V2Mini.P) (Two.goName op) (Two.goArgs op) (Two.goOut o op) s q fun v =>
      ∃ x s', v = goVal x ∧ m s = (.ok x, s') ∧ x.obs s'.mem = u := by
  obtain ⟨funs, hc, h⟩ := C84_mini_text
  rw [compileAll_append V2Utils.link V2Mini.link] at hc
  cases hc
  have hs := V2.mini_step2_ok hw o ho op hv m hm
  rw [hq] at hs
  obtain ⟨v, hx, hu⟩ := of_obs hs.result
  refine ⟨goVal v, (m s).2, ?_, hs.wf, hs.state, v, (m s).2, rfl, Prod.ext hx rfl, hu⟩
  have e := h fuel 4 fuel_ok (by decide) o op hf m hm s .unit
  rw [hx] at e
  unfold runMini
  rw [show V2Mini.P.callMini fuel 4 (Two.goName op) (Two.goArgs op) (Two.goOut o op) (s, .unit) = _ from e]
  rfl

theorem leads_v1m {s : V3.St} (o : V3.Outs) (ho : o.Valid) (any : V1.Any) (op : V1.Op1) (hf : One.Fits op) (hw : WF s) (hv : op.Valid s.mem)
    {m : GoM V3.St V1.Val1} (hm : V1.miniCall1 o any op = some m) {u : Ref.Val} {q : Ref.Ref}
    (hq : Ref.miniStep1 o.u64.toNat (V1.lower1 s op) (abs s) = (.ok u, q)) :
    Leads (runMini V1Mini.P) (One.goName op) (One.goArgs op) (One.goOut o any op) s q fun v =>
      ∃ x s', v = goVal1 x ∧ m s = (.ok x, s') ∧ x.toVal.obs s'.mem = u := by
  obtain ⟨funs, hc, h⟩ := C85_mini_text
  rw [compileAll_append V1Utils.link V1Mini.link] at hc
  cases hc
  have hs := V1.mini_step1_ok hw o ho any op hv m hm
  rw [hq] at hs
  have e := h fuel 4 fuel_ok (by decide) o any op hf m hm s .unit
  unfold V1.outM at hs
  rcases hx : m s with ⟨x, s'⟩
  rw [hx] at hs e
  obtain ⟨v, hv', hu⟩ := of_obs hs.result
  cases x with
  | panic p => cases hv'
  | ok w =>
    cases hv'
    refine ⟨goVal1 w, s', ?_, hs.wf, hs.state, w, s', rfl, rfl, hu⟩
    unfold runMini
    rw [show V1Mini.P.callMini fuel 4 (One.goName op) (One.goArgs op) (One.goOut o any op) (s, .unit) = _ from e]
    rfl

/-! ## calls without a result variable -/

/-- The machine carries the call out, and what it leads to has `S'`. -/
def Goes (st : Ref.Ref → Res Ref.Val × Ref.Ref) (S S' : Ref.Ref → Prop) : Prop :=
  ∀ a, S a → ∃ u q, st a = (.ok u, q) ∧ S' q

/-- A state whose buffer is one of the machine with `S`. -/
def On (S : Ref.Ref → Prop) (s : V3.St) : Prop := WF s ∧ S (abs s)

theorem On.alloc {S : Ref.Ref → Prop} {s : V3.St} (h : On S s) {bs : List UInt8} (hb : bs.length ≤ maxAlloc) :
    On S { s with mem := s.mem.alloc bs } := by
  obtain ⟨hw, hs⟩ := h
  refine ⟨⟨SliceOK.alloc hw.ok hb, hw.cap, hw.bcap⟩, ?_⟩
  have : abs { s with mem := s.mem.alloc bs } = abs s := by
    unfold abs V3.St.bytes
    rw [show (s.mem.alloc bs).view s.b.buf = s.mem.view s.b.buf from view_alloc hw.ok bs,
      show (s.mem.alloc bs).window s.b.buf = s.mem.window s.b.buf from window_alloc hw.ok bs]
  rw [this]; exact hs

/-- What the evaluation of the arguments does to memory: nothing, or a literal is put there. -/
def Adds (s : V3.St) (m : Heap) : Prop := m = s.mem ∨ ∃ bs : List UInt8, bs.length ≤ maxAlloc ∧ m = s.mem.alloc bs

theorem On.adds {S : Ref.Ref → Prop} {s : V3.St} (h : On S s) {m : Heap} (hm : Adds s m) : On S { s with mem := m } := by
  rcases hm with rfl | ⟨bs, hb, rfl⟩
  · exact h
  · exact h.alloc hb

variable {S S' : Ref.Ref → Prop} {c : MCall}

theorem calls_v3 (op : V3.St → V3.Op) (m : V3.St → Heap) (h : c.out = none ∧ c.as = none ∧ ∀ s, c.name = goName (op s))
    (hc : ∀ env s, callArgs V3Buffer.P env s c = some (goArgs (op s), m s)) (hm : ∀ s, Adds s (m s) ∧ (op s).Valid (m s) ∧ Fits (op s))
    (hg : ∀ s, Goes (Ref.step ((op s).lower (m s))) S S') : Calls V3Buffer.P (runBuf V3Buffer.P) (On S) (On S') c := by
  refine ⟨h.1, h.2.1, fun env s hs => ?_⟩
  have hs := hs.adds (hm s).1
  obtain ⟨u, q, hq, hS⟩ := hg s _ hs.2
  obtain ⟨v, s', e, hw, ha, _⟩ := leads_v3 (op s) (hm s).2.2 hs.1 (hm s).2.1 hq
  rw [h.2.2 s]
  exact ⟨_, _, v, s', hc env s, e, hw, by rw [ha]; exact hS⟩

theorem calls_v2 (op : V3.St → V2.Op2) (m : V3.St → Heap) (h : c.out = none ∧ c.as = none ∧ ∀ s, c.name = Two.goName (op s))
    (hc : ∀ env s, callArgs V2Buffer.P env s c = some (Two.goArgs (op s), m s))
    (hm : ∀ s, Adds s (m s) ∧ (op s).Valid (m s) ∧ Two.Fits (op s))
    (hg : ∀ s, Goes (Ref.step2 (V2.lower { s with mem := m s } (op s))) S S') :
    Calls V2Buffer.P (runProg V2Buffer.P) (On S) (On S') c := by
  refine ⟨h.1, h.2.1, fun env s hs => ?_⟩
  have hs := hs.adds (hm s).1
  obtain ⟨u, q, hq, hS⟩ := hg s _ hs.2
  obtain ⟨v, s', e, hw, ha, _⟩ := leads_v2 (op s) (hm s).2.2 hs.1 (hm s).2.1 hq
  rw [h.2.2 s]
  exact ⟨_, _, v, s', hc env s, e, hw, by rw [ha]; exact hS⟩

theorem calls_v1 (op : V3.St → V1.Op1) (m : V3.St → Heap) (h : c.out = none ∧ c.as = none ∧ ∀ s, c.name = One.goName (op s))
    (hc : ∀ env s, callArgs V1Buffer.P env s c = some (One.goArgs (op s), m s))
    (hm : ∀ s, Adds s (m s) ∧ (op s).Valid (m s) ∧ One.Fits (op s))
    (hk : ∀ s s' u, Ref.sticks1 (V1.lower1 s' (op s)) (.ok u) = false)
    (hg : ∀ s, Goes (Ref.step1 (V1.lower1 { s with mem := m s } (op s))) S S') :
    Calls V1Buffer.P (runProg V1Buffer.P) (On S) (On S') c := by
  refine ⟨h.1, h.2.1, fun env s hs => ?_⟩
  have hs := hs.adds (hm s).1
  obtain ⟨u, q, hq, hS⟩ := hg s _ hs.2
  obtain ⟨v, s', e, hw, ha, _⟩ := leads_v1 (op s) (hm s).2.2 hs.1 (hm s).2.1 hq (hk _ _ _)
  rw [h.2.2 s]
  exact ⟨_, _, v, s', hc env s, e, hw, by rw [ha]; exact hS⟩

theorem calls_v3m (o : V3.Outs) (ho : o.Valid) (op : V3.St → V3.Op) (m : V3.St → Heap)
    (h : c.out = none ∧ c.as = none ∧ ∀ s, c.name = goName (op s) ∧ goOut o (op s) = none ∧ (V3.miniCall o (op s)).isSome = true)
    (hc : ∀ env s, callArgs V3Mini.P env s c = some (goArgs (op s), m s)) (hm : ∀ s, Adds s (m s) ∧ (op s).Valid (m s) ∧ Fits (op s))
    (hg : ∀ s, Goes (Ref.miniStep o.u64.toNat (o.nums (op s)) ((op s).lower (m s))) S S') :
    Calls V3Mini.P (runMini V3Mini.P) (On S) (On S') c := by
  refine ⟨h.1, h.2.1, fun env s hs => ?_⟩
  have hs := hs.adds (hm s).1
  obtain ⟨u, q, hq, hS⟩ := hg s _ hs.2
  obtain ⟨g, hk⟩ := Option.isSome_iff_exists.1 (h.2.2 s).2.2
  obtain ⟨v, s', e, hw, ha, _⟩ := leads_v3m o ho (op s) (hm s).2.2 hs.1 (hm s).2.1 hk hq
  rw [(h.2.2 s).2.1] at e
  rw [(h.2.2 s).1]
  exact ⟨_, _, v, s', hc env s, e, hw, by rw [ha]; exact hS⟩

theorem calls_v2m (o : V3.Outs) (ho : o.Valid) (op : V3.St → V2.Op2) (m : V3.St → Heap)
    (h : c.out = none ∧ c.as = none ∧ ∀ s, c.name = Two.goName (op s) ∧ Two.goOut o (op s) = none ∧ (V2.miniCall o (op s)).isSome = true)
    (hc : ∀ env s, callArgs V2Mini.P env s c = some (Two.goArgs (op s), m s))
    (hm : ∀ s, Adds s (m s) ∧ (op s).Valid (m s) ∧ Two.Fits (op s))
    (hg : ∀ s, Goes (Ref.miniStep2 o.u64.toNat (V2.nums o (op s)) (V2.lower { s with mem := m s } (op s))) S S') :
    Calls V2Mini.P (runMini V2Mini.P) (On S) (On S') c := by
  refine ⟨h.1, h.2.1, fun env s hs => ?_⟩
  have hs := hs.adds (hm s).1
  obtain ⟨u, q, hq, hS⟩ := hg s _ hs.2
  obtain ⟨g, hk⟩ := Option.isSome_iff_exists.1 (h.2.2 s).2.2
  obtain ⟨v, s', e, hw, ha, _⟩ := leads_v2m o ho (op s) (hm s).2.2 hs.1 (hm s).2.1 hk hq
  rw [(h.2.2 s).2.1] at e
  rw [(h.2.2 s).1]
  exact ⟨_, _, v, s', hc env s, e, hw, by rw [ha]; exact hS⟩

theorem calls_v1m (o : V3.Outs) (ho : o.Valid) (any : V1.Any) (op : V3.St → V1.Op1) (m : V3.St → Heap)
    (h : c.out = none ∧ c.as = none ∧ ∀ s, c.name = One.goName (op s) ∧ One.goOut o any (op s) = none ∧
      (V1.miniCall1 o any (op s)).isSome = true)
    (hc : ∀ env s, callArgs V1Mini.P env s c = some (One.goArgs (op s), m s))
    (hm : ∀ s, Adds s (m s) ∧ (op s).Valid (m s) ∧ One.Fits (op s))
    (hg : ∀ s, Goes (Ref.miniStep1 o.u64.toNat (V1.lower1 { s with mem := m s } (op s))) S S') :
    Calls V1Mini.P (runMini V1Mini.P) (On S) (On S') c := by
  refine ⟨h.1, h.2.1, fun env s hs => ?_⟩
  have hs := hs.adds (hm s).1
  obtain ⟨u, q, hq, hS⟩ := hg s _ hs.2
  obtain ⟨g, hk⟩ := Option.isSome_iff_exists.1 (h.2.2 s).2.2
  obtain ⟨v, s', e, hw, ha, _⟩ := leads_v1m o ho any (op s) (hm s).2.2 hs.1 (hm s).2.1 hk hq
  rw [(h.2.2 s).2.1] at e
  rw [(h.2.2 s).1]
  exact ⟨_, _, v, s', hc env s, e, hw, by rw [ha]; exact hS⟩

/-! ## calls with a result variable -/

/-- What is in a result variable, as the variable the model starts from. -/
structure Var (Q : V → Prop) (U : Ref.Val → Prop) (name : V3.Outs → Option V) (f : α → V3.Val) : Prop where
  outs : ∀ v, Q v → ∃ o : V3.Outs, o.Valid ∧ name o = some v
  back : ∀ a m, U ((f a).obs m) → Q (goVal (f a))

theorem wrapVal_ok {f : α → V3.Val} {g : GoM V3.St α} {s s' : V3.St} {x : V3.Val} (h : V3.wrapVal f g s = (.ok x, s')) : ∃ a, x = f a := by
  rw [wrapVal_run] at h
  rcases hg : g s with ⟨r | p, s1⟩ <;> rw [hg] at h <;> cases h
  exact ⟨_, rfl⟩

/-- The same with a condition on the result. -/
def GoesTo (st : Ref.Ref → Res Ref.Val × Ref.Ref) (S : Ref.Ref → Prop) (U : Ref.Val → Prop) : Prop :=
  ∀ a, S a → ∃ u q, st a = (.ok u, q) ∧ S q ∧ U u

variable {Q : V → Prop} {U : Ref.Val → Prop} {y : Str}

theorem out_v3m (op : V3.Op) {f : α → V3.Val} (hV : Var Q U (fun o => goOut o op) f) (g : V3.Outs → GoM V3.St α)
    (h : c.out = some y ∧ c.as = none ∧ c.name = goName op) (hk : ∀ o, V3.miniCall o op = some (V3.wrapVal f (g o)))
    (hc : ∀ env s, callArgs V3Mini.P env s c = some (goArgs op, s.mem)) (hm : ∀ m, op.Valid m ∧ Fits op)
    (hg : ∀ o m v, goOut o op = some v → Q v → GoesTo (Ref.miniStep o.u64.toNat (o.nums op) (op.lower m)) S U) :
    CallsOut V3Mini.P (runMini V3Mini.P) (On S) Q c y := by
  refine ⟨h.1, h.2.1, fun env s v hs hv => ?_⟩
  obtain ⟨o, ho, hov⟩ := hV.outs v hv
  obtain ⟨u, q, hq, hS, hu⟩ := hg o s.mem v hov hv _ hs.2
  obtain ⟨w, s', e, hw, ha, x, s2, rfl, hx, hux⟩ := leads_v3m o ho op (hm s.mem).2 hs.1 (hm s.mem).1 (hk o) hq
  obtain ⟨a, rfl⟩ := wrapVal_ok hx
  rw [show goOut o op = some v from hov] at e
  rw [h.2.2]
  exact ⟨_, _, _, s', hc env s, e, ⟨hw, by rw [ha]; exact hS⟩, hV.back a _ (by rw [hux]; exact hu)⟩

theorem out_v2m (op : V2.Op2) {f : α → V3.Val} (hV : Var Q U (fun o => Two.goOut o op) f) (g : V3.Outs → GoM V3.St α)
    (h : c.out = some y ∧ c.as = none ∧ c.name = Two.goName op) (hk : ∀ o, V2.miniCall o op = some (V3.wrapVal f (g o)))
    (hc : ∀ env s, callArgs V2Mini.P env s c = some (Two.goArgs op, s.mem)) (hm : ∀ m, op.Valid m ∧ Two.Fits op)
    (hg : ∀ o s v, Two.goOut o op = some v → Q v → GoesTo (Ref.miniStep2 o.u64.toNat (V2.nums o op) (V2.lower s op)) S U) :
    CallsOut V2Mini.P (runMini V2Mini.P) (On S) Q c y := by
  refine ⟨h.1, h.2.1, fun env s v hs hv => ?_⟩
  obtain ⟨o, ho, hov⟩ := hV.outs v hv
  obtain ⟨u, q, hq, hS, hu⟩ := hg o s v hov hv _ hs.2
  obtain ⟨w, s', e, hw, ha, x, s2, rfl, hx, hux⟩ := leads_v2m o ho op (hm s.mem).2 hs.1 (hm s.mem).1 (hk o) hq
  obtain ⟨a, rfl⟩ := wrapVal_ok hx
  rw [show Two.goOut o op = some v from hov] at e
  rw [h.2.2]
  exact ⟨_, _, _, s', hc env s, e, ⟨hw, by rw [ha]; exact hS⟩, hV.back a _ (by rw [hux]; exact hu)⟩

theorem wrapG_ok {f : α → V1.Val1} {g : GoM V3.St α} {s s' : V3.St} {x : V1.Val1} (h : V1.wrapG f g s = (.ok x, s')) : ∃ a, x = f a := by
  unfold V1.wrapG at h
  rw [bind_run] at h
  rcases hg : g s with ⟨r | p, s1⟩ <;> rw [hg] at h <;> cases h
  exact ⟨_, rfl⟩

theorem out_v1m (any : V1.Any) (op : V1.Op1) {f : α → V3.Val} (hV : Var Q U (fun o => One.goOut o any op) f) (g : V3.Outs → GoM V3.St α)
    (h : c.out = some y ∧ c.as = none ∧ c.name = One.goName op) (hk : ∀ o, V1.miniCall1 o any op = some (V1.wrapG (fun a => .val (f a)) (g o)))
    (hc : ∀ env s, callArgs V1Mini.P env s c = some (One.goArgs op, s.mem)) (hm : ∀ m, op.Valid m ∧ One.Fits op)
    (hg : ∀ o s v, One.goOut o any op = some v → Q v → GoesTo (Ref.miniStep1 o.u64.toNat (V1.lower1 s op)) S U) :
    CallsOut V1Mini.P (runMini V1Mini.P) (On S) Q c y := by
  refine ⟨h.1, h.2.1, fun env s v hs hv => ?_⟩
  obtain ⟨o, ho, hov⟩ := hV.outs v hv
  obtain ⟨u, q, hq, hS, hu⟩ := hg o s v hov hv _ hs.2
  obtain ⟨w, s', e, hw, ha, x, s2, rfl, hx, hux⟩ := leads_v1m o ho any op (hm s.mem).2 hs.1 (hm s.mem).1 (hk o) hq
  obtain ⟨a, rfl⟩ := wrapG_ok hx
  rw [show One.goOut o any op = some v from hov] at e
  rw [h.2.2]
  exact ⟨_, _, _, s', hc env s, e, ⟨hw, by rw [ha]; exact hS⟩, hV.back a _ (by rw [← hux] at hu; exact hu)⟩

end Crunch.Src.Tests
