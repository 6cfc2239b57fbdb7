import Verif.Lemmas.RoomMini
import Verif.Props.Room

/-!
# Who can see the room behind the bytes of a MiniBuffer (C136)

Without range checks more calls reach it: `ReadBytes` of every version, v1 `ReadComplex`, v3 `TruncateRight` of a negative number, and v3
`Grow` as for `Buffer`.  Calls that keep to the bytes do not show it.
-/

namespace Crunch.V3
open Spec
open Ref (Zeros)
open V2 (Since)

/-- The calls keep to the bytes and give up nothing but zeros at the end: `ReadBytes` reads bytes of the buffer only, unless its offset or
number is negative; `TruncateRight` gets no negative number; the last bytes that `TruncateRight`, `Grow` of a negative number or `Reset`
give up are zero. -/
def KeepsInside : List (Outs × Op) → St → Prop
  | [], _ => True
  | (o, op) :: ops, s => match miniCall o op with
    | none => KeepsInside ops s
    | some m =>
      (match op with
        | .readBytes pos n => 0 ≤ n.toInt → 0 ≤ (pos.getD s.b.off).toInt → (pos.getD s.b.off).toInt + n.toInt ≤ s.bytes.length
        | .truncateRight n => 0 ≤ n.toInt ∧ (n.toInt ≤ s.bytes.length → Zeros (s.bytes.drop (s.bytes.length - n.toInt.toNat)))
        | .grow n => n.toInt < 0 → 0 ≤ s.bytes.length + n.toInt → Zeros (s.bytes.drop (s.bytes.length + n.toInt).toNat)
        | .reset => Zeros s.bytes
        | _ => True) ∧ KeepsInside ops (m s).2

theorem keeps_lower {s : St} (h : WF s) (ops : List (Outs × Op)) (hv : MiniValid ops s) (hk : KeepsInside ops s) :
    Ref.MiniKeeps (miniLower ops s) (abs s) := by
  induction ops generalizing s with
  | nil => trivial
  | cons x ops ih =>
    obtain ⟨o, op⟩ := x
    unfold miniLower
    unfold MiniValid at hv
    unfold KeepsInside at hk
    cases hc : miniCall o op with
    | none => rw [hc] at hv hk; exact ih h hv hk
    | some m =>
      rw [hc] at hv hk
      have h1 := mini_step_ok h o hv.1 op hv.2.1 m hc
      have := hk.1
      refine ⟨?_, ?_, ?_⟩
      · cases op <;> first | trivial | exact this.1 | skip
        rename_i pos n
        cases pos <;> exact this
      · cases op <;> first | trivial | exact this.2 | exact this
      · rw [← h1.state]
        exact ih h1.wf hv.2.2 hk.2

/-- C136: on two v3 MiniBuffers that show the same and have zeros behind their bytes, as many as they like, the same calls give the same
results, and the MiniBuffers show the same afterwards: if the calls keep to the bytes, and memory does not run out. -/
theorem C136_v3_room {s t : St} (h : WF s) (g : WF t) (e : Shows s t) (zs : Zeros s.room) (zt : Zeros t.room)
    {ops ops' : List (Outs × Op)} (hv : MiniValid ops s) (gv : MiniValid ops' t) (same : miniLower ops' t = miniLower ops s) (hk : KeepsInside ops s)
    (ms : ∀ x ∈ miniObserved ops s, x ≠ .panic .makeSlice) (mt : ∀ x ∈ miniObserved ops' t, x ≠ .panic .makeSlice) :
    miniObserved ops' t = miniObserved ops s ∧ Shows (miniAll ops s).2 (miniAll ops' t).2 ∧
    Zeros (miniAll ops s).2.room ∧ Zeros (miniAll ops' t).2.room := by
  have h1 := C64_mini_history h ops hv
  have g1 := C64_mini_history g ops' gv
  rw [same] at g1
  have := Ref.miniRun_alike (miniLower ops s) ((shows_alike h g).mp e) zs zt (keeps_lower h ops hv hk) (by rw [h1]; exact ms) (by rw [g1]; exact mt)
  rw [h1, g1] at this
  exact ⟨this.1, (shows_alike (mini_history_ok h ops hv).1 (mini_history_ok g ops' gv).1).mpr this.2.1, this.2.2⟩

/-- C136: every byte behind the bytes can be seen: `ReadBytes` gives it, and panics on a MiniBuffer that shows the same and does not have it. -/
theorem C136_v3_seen {s t : St} (h : WF s) (g : WF t) (e : Shows s t) (o : Outs) (ho : o.Valid) {k : Nat} {b : UInt8} (hk : s.room[k]? = some b)
    (ht : t.room.length ≤ k) {off : Int64} (hoff : off.toInt = s.bytes.length + k) :
    miniObserved [(o, .readBytes (some off) 1)] s = [.ok (.bytes [b])] ∧ miniObserved [(o, .readBytes (some off) 1)] t = [.panic .sliceBounds] := by
  have key : ∀ u : St, WF u → miniObserved [(o, .readBytes (some off) 1)] u = [(Ref.miniReadBytes off.toInt 1 (abs u)).1] := by
    intro u w
    have hv : MiniValid [(o, .readBytes (some off) 1)] u := ⟨ho, trivial, trivial⟩
    exact (congrArg Prod.fst (C64_mini_history w _ hv)).symm
  obtain ⟨a, c⟩ := Ref.miniReadBytes_sees (r := abs s) hk
  rw [key s h, key t g, hoff]
  refine ⟨by rw [← a]; rfl, ?_⟩
  rw [((shows_alike h g).mp e).eq, ← c t.room ht]
  rfl

/-- As `Op.Valid`, and the bytes to write are in an array of memory `m`. -/
def Op.Of (m : Heap) : Op → Prop
  | .writeBytes _ src => SliceOK m src ∧ src.arr < m.arrays.length
  | op => op.Valid m

theorem since_valid {m0 : Heap} {s : St} (h : Since m0 s) {op : Op} (ho : op.Of m0) : op.Valid s.mem := by
  cases op <;> first | trivial | exact ho | exact h.slice ho.1 ho.2

theorem miniValid_since {m0 : Heap} {s : St} (w : WF s) (h : Since m0 s) (ops : List (Outs × Op)) (ho : ∀ x ∈ ops, x.1.Valid ∧ x.2.Of m0) :
    MiniValid ops s := by
  induction ops generalizing s with
  | nil => trivial
  | cons x ops ih =>
    obtain ⟨o, op⟩ := x
    obtain ⟨h0, hm⟩ := ho _ (List.mem_cons_self ..)
    have ho' := fun x hx => ho x (List.mem_cons_of_mem _ hx)
    unfold MiniValid
    cases hc : miniCall o op with
    | none => exact ih w h ho'
    | some m =>
      have h1 := mini_step_ok w o h0 op (since_valid h hm) m hc
      exact ⟨h0, since_valid h hm, ih h1.wf (h.iso h1.iso) ho'⟩

theorem miniLower_since {m0 : Heap} {s t : St} (w : WF s) (v : WF t) (h : Since m0 s) (g : Since m0 t) (ops : List (Outs × Op))
    (ho : ∀ x ∈ ops, x.1.Valid ∧ x.2.Of m0) : miniLower ops t = miniLower ops s := by
  induction ops generalizing s t with
  | nil => rfl
  | cons x ops ih =>
    obtain ⟨o, op⟩ := x
    obtain ⟨h0, hm⟩ := ho _ (List.mem_cons_self ..)
    have ho' := fun x hx => ho x (List.mem_cons_of_mem _ hx)
    unfold miniLower
    cases hc : miniCall o op with
    | none => exact ih w v h g ho'
    | some m =>
      have h1 := mini_step_ok w o h0 op (since_valid h hm) m hc
      have g1 := mini_step_ok v o h0 op (since_valid g hm) m hc
      have el : op.lower t.mem = op.lower s.mem := by
        cases op <;> first | rfl | skip
        simp only [Op.lower, h.ext.view_ok hm.1, g.ext.view_ok hm.1]
      show _ :: _ = _ :: _
      rw [el, ih h1.wf g1.wf (h.iso h1.iso) (g.iso g1.iso) ho']

/-- C136: what a program that makes a v3 MiniBuffer of several slices (or of none) and calls its methods is told does not depend on what
`append` allocates ahead, if the calls keep to the bytes and memory does not run out. -/
theorem C136_v3_policy {s s' : St} (q : Nat → Nat → Nat) {slices : List Slice} (hl : slices.length ≤ maxAlloc) (h1 : slices.length ≠ 1)
    (hs : ∀ t ∈ slices, SliceOK s.mem t) (e : Mini.NewMiniBuffer slices s = (.ok (), s')) (ops : List (Outs × Op))
    (ho : ∀ x ∈ ops, x.1.Valid ∧ x.2.Of s.mem) (hk : KeepsInside ops s') (ms : ∀ x ∈ miniObserved ops s', x ≠ .panic .makeSlice) :
    ∃ t', Mini.NewMiniBuffer slices (s.under q) = (.ok (), t') ∧
      ((∀ x ∈ miniObserved ops t', x ≠ .panic .makeSlice) → miniObserved ops t' = miniObserved ops s' ∧ Shows (miniAll ops s').2 (miniAll ops t').2) := by
  rw [C43_constructors] at e ⊢
  obtain ⟨t', e', w1, w2, sh, z1, z2, x1, x2, n1, n2, _⟩ := new_under q hl h1 hs e
  refine ⟨t', e', fun mt => ?_⟩
  have a : Since s.mem s' := ⟨x1, n1⟩
  have b : Since s.mem t' := ⟨x2, n2⟩
  obtain ⟨r1, r2, _⟩ := C136_v3_room w1 w2 sh z1 z2 (miniValid_since w1 a ops ho) (miniValid_since w2 b ops ho) (miniLower_since w1 w2 a b ops ho) hk ms mt
  exact ⟨r1, r2⟩

/-- The byte behind `demo` is 15. -/
example : miniObserved [(demoOuts 0 0, .readBytes (some 12) 1)] demo = [.ok (.bytes [15])] ∧
    miniObserved [(demoOuts 0 0, .readBytes (some 12) 1)] demoTight = [.panic .sliceBounds] :=
  C136_v3_seen demo_wf demoTight_wf demo_shows _ (demoOuts_valid _ _ (by decide)) (k := 0) (by decide) (by decide) (by decide)

/-- A history that shrinks and grows the MiniBuffer by zeros, and reads up to its end. -/
def demoKeeps : List (Outs × Op) :=
  [(demoOuts 0 0, .grow 4), (demoOuts 0 0, .writeBytes (some 5) demoSrc), (demoOuts 0 0, .grow (-1)), (demoOuts 0 0, .truncateRight 1),
   (demoOuts 0 0, .grow 3), (demoOuts 0 0, .readBytes (some 7) 4)]

example : ∃ s' t', Mini.NewMiniBuffer [demoSrc, demoSrc] demo = (.ok (), s') ∧ Mini.NewMiniBuffer [demoSrc, demoSrc] (demo.under fun _ _ => 100) = (.ok (), t') ∧
    s'.room.length = 0 ∧ t'.room.length = 97 ∧ miniObserved demoKeeps t' = miniObserved demoKeeps s' := by
  obtain ⟨t', e, h⟩ := C136_v3_policy (s := demo) (fun _ _ => 100) (slices := [demoSrc, demoSrc]) (by decide) (by decide)
    (by intro t ht; simp at ht; subst ht; exact demoSrc_ok) (s' := (Mini.NewMiniBuffer [demoSrc, demoSrc] demo).2) (Prod.ext (by decide +kernel) rfl)
    demoKeeps (by
      intro x hx; unfold demoKeeps at hx; simp only [List.mem_cons, List.not_mem_nil, or_false] at hx
      rcases hx with rfl | rfl | rfl | rfl | rfl | rfl <;> refine ⟨demoOuts_valid _ _ (by decide), ?_⟩ <;> first | trivial | exact ⟨demoSrc_ok, by decide⟩)
    ⟨fun h => absurd h (by decide), trivial, fun _ _ => by decide +kernel, ⟨by decide, fun _ => by decide +kernel⟩, fun h => absurd h (by decide),
      fun _ _ => by decide +kernel, trivial⟩ (by decide +kernel)
  have et : t' = (Mini.NewMiniBuffer [demoSrc, demoSrc] (demo.under fun _ _ => 100)).2 := by rw [e]
  refine ⟨_, t', Prod.ext (by decide +kernel) rfl, e, by decide +kernel, by rw [et]; decide +kernel, (h ?_).1⟩
  rw [et]; decide +kernel

end Crunch.V3

namespace Crunch.V2
open V3 (St WF Iso abs Shows shows_alike Extends Outs demo demo_wf demoTight demoTight_wf demo_shows demoOuts)

/-- `ReadBytes` reads bytes of the buffer only, unless its offset or number is negative. -/
def KeepsInside : List (Outs × Op2) → St → Prop
  | [], _ => True
  | (o, op) :: ops, s => match miniCall o op with
    | none => KeepsInside ops s
    | some m =>
      (match op with
        | .readBytes pos n => 0 ≤ n.toInt → 0 ≤ (pos.getD s.b.off).toInt → (pos.getD s.b.off).toInt + n.toInt ≤ s.bytes.length
        | _ => True) ∧ KeepsInside ops (m s).2

theorem inside_lower (s : St) (op : Op2)
    (h : match op with
      | .readBytes pos n => 0 ≤ n.toInt → 0 ≤ (pos.getD s.b.off).toInt → (pos.getD s.b.off).toInt + n.toInt ≤ s.bytes.length
      | _ => True) : Ref.Inside2 (lower s op) (abs s) := by
  cases op with
  | readBytes pos n => cases pos <;> exact h
  | setBit pos v => simp only [lower]; split <;> (try split) <;> trivial
  | _ => trivial

theorem keeps_lower {s : St} (h : WF s) (ops : List (Outs × Op2)) (hv : MiniValid ops s) (hk : KeepsInside ops s) :
    Ref.MiniKeeps2 (miniLower ops s) (abs s) := by
  induction ops generalizing s with
  | nil => trivial
  | cons x ops ih =>
    obtain ⟨o, op⟩ := x
    unfold miniLower
    unfold MiniValid at hv
    unfold KeepsInside at hk
    cases hc : miniCall o op with
    | none => rw [hc] at hv hk; exact ih h hv hk
    | some m =>
      rw [hc] at hv hk
      have h1 := mini_step2_ok h o hv.1 op hv.2.1 m hc
      refine ⟨inside_lower s op hk.1, ?_⟩
      rw [← h1.state]
      exact ih h1.wf hv.2.2 hk.2

theorem miniLower_plain (ops : List (Outs × Op2)) (s : St) : ∀ x ∈ miniLower ops s, x.2.2.plain = true := by
  induction ops generalizing s with
  | nil => intro _ h; exact nomatch h
  | cons x ops ih =>
    obtain ⟨o, op⟩ := x
    unfold miniLower
    cases miniCall o op with
    | none => exact ih s
    | some m =>
      intro y hy
      rcases List.mem_cons.mp hy with rfl | hy
      · exact lower_plain s op
      · exact ih _ y hy

/-- C136: on two v2 MiniBuffers that show the same, whatever lies behind their bytes and whatever `append` allocates ahead, the same calls
give the same results, and the MiniBuffers show the same afterwards: if `ReadBytes` keeps to the bytes. -/
theorem C136_v2_room {s t : St} (h : WF s) (g : WF t) (e : Shows s t) {ops ops' : List (Outs × Op2)} (hv : MiniValid ops s) (gv : MiniValid ops' t)
    (same : (miniLower ops' t).map Ref.forgetMini = (miniLower ops s).map Ref.forgetMini) (hk : KeepsInside ops s) :
    miniObserved ops' t = miniObserved ops s ∧ Shows (miniAll ops s).2 (miniAll ops' t).2 := by
  obtain ⟨a, b⟩ := Ref.miniRun2_alike same (miniLower_plain ops s) ((shows_alike h g).mp e) (keeps_lower h ops hv hk)
  rw [C79_v2_mini_history h ops hv, C79_v2_mini_history g ops' gv] at a b
  exact ⟨a, (shows_alike (mini_history2_ok h ops hv).1 (mini_history2_ok g ops' gv).1).mpr b⟩

/-- C136: every byte behind the bytes can be seen: `ReadBytes` gives it, and panics on a MiniBuffer that shows the same and does not have it. -/
theorem C136_v2_seen {s t : St} (h : WF s) (g : WF t) (e : Shows s t) (o : Outs) (ho : o.Valid) {k : Nat} {b : UInt8} (hk : s.room[k]? = some b)
    (ht : t.room.length ≤ k) {off : Int64} (hoff : off.toInt = s.bytes.length + k) :
    miniObserved [(o, .readBytes (some off) 1)] s = [.ok (.bytes [b])] ∧ miniObserved [(o, .readBytes (some off) 1)] t = [.panic .sliceBounds] := by
  have key : ∀ u : St, WF u → miniObserved [(o, .readBytes (some off) 1)] u = [(Ref.miniReadBytes off.toInt 1 (abs u)).1] := by
    intro u w
    have hv : MiniValid [(o, .readBytes (some off) 1)] u := ⟨ho, trivial, trivial⟩
    exact (congrArg Prod.fst (C79_v2_mini_history w _ hv)).symm
  obtain ⟨a, c⟩ := Ref.miniReadBytes_sees (r := abs s) hk
  rw [key s h, key t g, hoff]
  refine ⟨by rw [← a]; rfl, ?_⟩
  rw [((shows_alike h g).mp e).eq, ← c t.room ht]
  rfl

theorem miniValid_since {m0 : Heap} {s : St} (w : WF s) (h : Since m0 s) (ops : List (Outs × Op2)) (ho : ∀ x ∈ ops, x.1.Valid ∧ x.2.Of m0) :
    MiniValid ops s := by
  induction ops generalizing s with
  | nil => trivial
  | cons x ops ih =>
    obtain ⟨o, op⟩ := x
    obtain ⟨h0, hm⟩ := ho _ (List.mem_cons_self ..)
    have ho' := fun x hx => ho x (List.mem_cons_of_mem _ hx)
    unfold MiniValid
    cases hc : miniCall o op with
    | none => exact ih w h ho'
    | some m =>
      have h1 := mini_step2_ok w o h0 op (h.valid hm) m hc
      exact ⟨h0, h.valid hm, ih h1.wf (h.iso h1.iso) ho'⟩

theorem miniLower_since {m0 : Heap} {s t : St} (w : WF s) (v : WF t) (h : Since m0 s) (g : Since m0 t) (ops : List (Outs × Op2))
    (ho : ∀ x ∈ ops, x.1.Valid ∧ x.2.Of m0) : (miniLower ops t).map Ref.forgetMini = (miniLower ops s).map Ref.forgetMini := by
  induction ops generalizing s t with
  | nil => rfl
  | cons x ops ih =>
    obtain ⟨o, op⟩ := x
    obtain ⟨h0, hm⟩ := ho _ (List.mem_cons_self ..)
    have ho' := fun x hx => ho x (List.mem_cons_of_mem _ hx)
    unfold miniLower
    cases hc : miniCall o op with
    | none => exact ih w v h g ho'
    | some m =>
      have h1 := mini_step2_ok w o h0 op (h.valid hm) m hc
      have g1 := mini_step2_ok v o h0 op (g.valid hm) m hc
      simp only [List.map_cons, Ref.forgetMini, lower_since h g hm]
      congr 1
      exact ih h1.wf g1.wf (h.iso h1.iso) (g.iso g1.iso) ho'

/-- C136: what a program that makes a v2 MiniBuffer of several slices (or of none) and calls its methods is told does not depend on what
`append` allocates ahead, in the constructor and in every `Grow`, if `ReadBytes` keeps to the bytes. -/
theorem C136_v2_policy {s s' : St} (q : Nat → Nat → Nat) {slices : List Slice} (hl : slices.length ≤ maxAlloc) (h1 : slices.length ≠ 1)
    (hs : ∀ t ∈ slices, SliceOK s.mem t) (e : Mini.NewMiniBuffer slices s = (.ok (), s')) (ops : List (Outs × Op2))
    (ho : ∀ x ∈ ops, x.1.Valid ∧ x.2.Of s.mem) (hk : KeepsInside ops s') :
    ∃ t', Mini.NewMiniBuffer slices (s.under q) = (.ok (), t') ∧ miniObserved ops t' = miniObserved ops s' ∧
      Shows (miniAll ops s').2 (miniAll ops t').2 := by
  rw [C76_constructor slices hl, V3.C43_constructors] at e ⊢
  obtain ⟨t', e', w1, w2, sh, _, _, x1, x2, n1, n2, _⟩ := V3.new_under q hl h1 hs e
  have a : Since s.mem s' := ⟨x1, n1⟩
  have b : Since s.mem t' := ⟨x2, n2⟩
  exact ⟨t', e', C136_v2_room w1 w2 sh (miniValid_since w1 a ops ho) (miniValid_since w2 b ops ho) (miniLower_since w1 w2 a b ops ho) hk⟩

example : miniObserved [(demoOuts 0 0, .readBytes (some 15) 1)] demo = [.ok (.bytes [18])] ∧
    miniObserved [(demoOuts 0 0, .readBytes (some 15) 1)] demoTight = [.panic .sliceBounds] :=
  C136_v2_seen demo_wf demoTight_wf demo_shows _ (V3.demoOuts_valid _ _ (by decide)) (k := 3) (by decide) (by decide) (by decide)

/-- `Grow` reallocates, `Reset` and a second `Grow` follow; nothing of the policies is seen. -/
def demoKeeps : List (Outs × Op2) :=
  [(demoOuts 0 0, .grow 4), (demoOuts 0 0, .writeBytes (some 5) V3.demoSrc), (demoOuts 0 0, .reset), (demoOuts 0 0, .grow 3), (demoOuts 0 0, .readBytes (some 0) 3)]

example : ∃ t', Mini.NewMiniBuffer [V3.demoSrc, V3.demoSrc] (demo.under fun _ _ => 100) = (.ok (), t') ∧
    miniObserved demoKeeps t' = [.ok .unit, .ok .unit, .ok .unit, .ok .unit, .ok (.bytes [0, 0, 0])] := by
  obtain ⟨t', e, h, _⟩ := C136_v2_policy (s := demo) (fun _ _ => 100) (slices := [V3.demoSrc, V3.demoSrc]) (by decide) (by decide)
    (by intro t ht; simp at ht; subst ht; exact V3.demoSrc_ok) (s' := (Mini.NewMiniBuffer [V3.demoSrc, V3.demoSrc] demo).2) (Prod.ext (by decide +kernel) rfl)
    demoKeeps (by
      intro x hx; unfold demoKeeps at hx; simp only [List.mem_cons, List.not_mem_nil, or_false] at hx
      rcases hx with rfl | rfl | rfl | rfl | rfl <;> refine ⟨V3.demoOuts_valid _ _ (by decide), ?_⟩ <;> first | trivial | exact ⟨V3.demoSrc_ok, by decide⟩)
    ⟨trivial, trivial, trivial, trivial, fun _ _ => by decide +kernel, trivial⟩
  exact ⟨t', e, h.trans (by decide +kernel)⟩

end Crunch.V2

namespace Crunch.V1
open V3 (St WF Iso abs Shows shows_alike Extends Outs demo demo_wf demoTight demoTight_wf demo_shows demoOuts)
open V2 (Since)

/-- `ReadBytes` and `ReadComplex` read bytes of the buffer only, unless their offset or number is negative. -/
def KeepsInside1 : List (Outs × Any × Op1) → St → Prop
  | [], _ => True
  | (o, any, op) :: ops, s => match miniCall1 o any op with
    | none => KeepsInside1 ops s
    | some m =>
      (match op with
        | .readBytes pos n => 0 ≤ n.toInt → 0 ≤ (pos.getD s.b.off).toInt → (pos.getD s.b.off).toInt + n.toInt ≤ s.bytes.length
        | .readComplex pos n size _ => 0 ≤ n.toInt → 0 ≤ (pos.getD s.b.off).toInt → (pos.getD s.b.off).toInt + n.toInt ≤ s.bytes.length ∧
            (size.toInt = 2 ∨ size.toInt = 4 ∨ size.toInt = 8 → (pos.getD s.b.off).toInt + n.toInt * size.toInt ≤ s.bytes.length)
        | _ => True) ∧ KeepsInside1 ops (m s).2

theorem keeps1_lower {s : St} (h : WF s) (ops : List (Outs × Any × Op1)) (hv : MiniValid1 ops s) (hk : KeepsInside1 ops s) :
    Ref.MiniKeeps1 (miniLower1 ops s) (abs s) := by
  induction ops generalizing s with
  | nil => trivial
  | cons x ops ih =>
    obtain ⟨o, any, op⟩ := x
    unfold miniLower1
    unfold MiniValid1 at hv
    unfold KeepsInside1 at hk
    cases hc : miniCall1 o any op with
    | none => rw [hc] at hv hk; exact ih h hv hk
    | some m =>
      rw [hc] at hv hk
      have h1 := mini_step1_ok h o hv.1 any op hv.2.1 m hc
      refine ⟨?_, ?_⟩
      · have := hk.1
        cases op <;> first | trivial | skip
        all_goals first
          | (rename_i pos n size order; cases pos <;> exact this)
          | (rename_i pos n; cases pos <;> exact this)
          | exact V2.inside_lower s (.setBit _ _) trivial
      · rw [← h1.state]
        exact ih h1.wf hv.2.2 hk.2

theorem miniLower1_plain (ops : List (Outs × Any × Op1)) (s : St) : ∀ x ∈ miniLower1 ops s, x.2.plain = true := by
  induction ops generalizing s with
  | nil => intro _ h; exact nomatch h
  | cons x ops ih =>
    obtain ⟨o, any, op⟩ := x
    unfold miniLower1
    cases miniCall1 o any op with
    | none => exact ih s
    | some m =>
      intro y hy
      rcases List.mem_cons.mp hy with rfl | hy
      · exact lower1_plain s op
      · exact ih _ y hy

/-- C136: on two v1 MiniBuffers that show the same, whatever lies behind their bytes and whatever `append` allocates ahead, the same calls
give the same results, and the MiniBuffers show the same afterwards: if `ReadBytes` and `ReadComplex` keep to the bytes. -/
theorem C136_v1_room {s t : St} (h : WF s) (g : WF t) (e : Shows s t) {ops ops' : List (Outs × Any × Op1)} (hv : MiniValid1 ops s) (gv : MiniValid1 ops' t)
    (same : (miniLower1 ops' t).map Ref.forgetMini1 = (miniLower1 ops s).map Ref.forgetMini1) (hk : KeepsInside1 ops s) :
    miniObserved1 ops' t = miniObserved1 ops s ∧ Shows (miniAll1 ops s).2 (miniAll1 ops' t).2 := by
  obtain ⟨a, b⟩ := Ref.miniRun1_alike same (miniLower1_plain ops s) ((shows_alike h g).mp e) (keeps1_lower h ops hv hk)
  rw [C95_v1_mini_history h ops hv, C95_v1_mini_history g ops' gv] at a b
  exact ⟨a, (shows_alike (mini_history1_ok h ops hv).1 (mini_history1_ok g ops' gv).1).mpr b⟩

/-- C136: every byte behind the bytes can be seen: `ReadBytes` gives it, and panics on a MiniBuffer that shows the same and does not have it. -/
theorem C136_v1_seen {s t : St} (h : WF s) (g : WF t) (e : Shows s t) (o : Outs) (any : Any) (ho : o.Valid) {k : Nat} {b : UInt8} (hk : s.room[k]? = some b)
    (ht : t.room.length ≤ k) {off : Int64} (hoff : off.toInt = s.bytes.length + k) :
    miniObserved1 [(o, any, .readBytes (some off) 1)] s = [.ok (.bytes [b])] ∧
    miniObserved1 [(o, any, .readBytes (some off) 1)] t = [.panic .sliceBounds] := by
  have key : ∀ u : St, WF u → miniObserved1 [(o, any, .readBytes (some off) 1)] u = [(Ref.miniReadBytes off.toInt 1 (abs u)).1] := by
    intro u w
    have hv : MiniValid1 [(o, any, .readBytes (some off) 1)] u := ⟨ho, trivial, trivial⟩
    exact (congrArg Prod.fst (C95_v1_mini_history w _ hv)).symm
  obtain ⟨a, c⟩ := Ref.miniReadBytes_sees (r := abs s) hk
  rw [key s h, key t g, hoff]
  refine ⟨by rw [← a]; rfl, ?_⟩
  rw [((shows_alike h g).mp e).eq, ← c t.room ht]
  rfl

theorem miniValid1_since {m0 : Heap} {s : St} (w : WF s) (h : Since m0 s) (ops : List (Outs × Any × Op1)) (ho : ∀ x ∈ ops, x.1.Valid ∧ x.2.2.Of m0) :
    MiniValid1 ops s := by
  induction ops generalizing s with
  | nil => trivial
  | cons x ops ih =>
    obtain ⟨o, any, op⟩ := x
    obtain ⟨h0, hm⟩ := ho _ (List.mem_cons_self ..)
    have ho' := fun x hx => ho x (List.mem_cons_of_mem _ hx)
    unfold MiniValid1
    cases hc : miniCall1 o any op with
    | none => exact ih w h ho'
    | some m =>
      have h1 := mini_step1_ok w o h0 any op (Op1.Of.valid h hm) m hc
      exact ⟨h0, Op1.Of.valid h hm, ih h1.wf (h.iso h1.iso) ho'⟩

theorem miniLower1_since {m0 : Heap} {s t : St} (w : WF s) (v : WF t) (h : Since m0 s) (g : Since m0 t) (ops : List (Outs × Any × Op1))
    (ho : ∀ x ∈ ops, x.1.Valid ∧ x.2.2.Of m0) : (miniLower1 ops t).map Ref.forgetMini1 = (miniLower1 ops s).map Ref.forgetMini1 := by
  induction ops generalizing s t with
  | nil => rfl
  | cons x ops ih =>
    obtain ⟨o, any, op⟩ := x
    obtain ⟨h0, hm⟩ := ho _ (List.mem_cons_self ..)
    have ho' := fun x hx => ho x (List.mem_cons_of_mem _ hx)
    unfold miniLower1
    cases hc : miniCall1 o any op with
    | none => exact ih w v h g ho'
    | some m =>
      have h1 := mini_step1_ok w o h0 any op (Op1.Of.valid h hm) m hc
      have g1 := mini_step1_ok v o h0 any op (Op1.Of.valid g hm) m hc
      simp only [List.map_cons, Ref.forgetMini1, lower1_since h g hm]
      congr 1
      exact ih h1.wf g1.wf (h.iso h1.iso) (g.iso g1.iso) ho'

/-- C136: what a program that makes a v1 MiniBuffer of several slices (or of none) and calls its methods is told does not depend on what
`append` allocates ahead, in the constructor and in every `Grow`, if `ReadBytes` and `ReadComplex` keep to the bytes. -/
theorem C136_v1_policy {s s' : St} (q : Nat → Nat → Nat) {slices : List Slice} (hl : slices.length ≤ maxAlloc) (h1 : slices.length ≠ 1)
    (hs : ∀ t ∈ slices, SliceOK s.mem t) (e : Mini.NewMiniBuffer slices s = (.ok (), s')) (ops : List (Outs × Any × Op1))
    (ho : ∀ x ∈ ops, x.1.Valid ∧ x.2.2.Of s.mem) (hk : KeepsInside1 ops s') :
    ∃ t', Mini.NewMiniBuffer slices (s.under q) = (.ok (), t') ∧ miniObserved1 ops t' = miniObserved1 ops s' ∧
      Shows (miniAll1 ops s').2 (miniAll1 ops t').2 := by
  rw [C77_mini_constructor, V2.C76_constructor slices hl, V3.C43_constructors] at e ⊢
  obtain ⟨t', e', w1, w2, sh, _, _, x1, x2, n1, n2, _⟩ := V3.new_under q hl h1 hs e
  have a : Since s.mem s' := ⟨x1, n1⟩
  have b : Since s.mem t' := ⟨x2, n2⟩
  exact ⟨t', e', C136_v1_room w1 w2 sh (miniValid1_since w1 a ops ho) (miniValid1_since w2 b ops ho) (miniLower1_since w1 w2 a b ops ho) hk⟩

example : miniObserved1 [(demoOuts 0 0, .other, .readBytes (some 13) 1)] demo = [.ok (.bytes [16])] ∧
    miniObserved1 [(demoOuts 0 0, .other, .readBytes (some 13) 1)] demoTight = [.panic .sliceBounds] :=
  C136_v1_seen demo_wf demoTight_wf demo_shows _ _ (V3.demoOuts_valid _ _ (by decide)) (k := 1) (by decide) (by decide) (by decide)

/-- Bytes and integers up to the end. -/
def demoKeeps1 : List (Outs × Any × Op1) :=
  [(demoOuts 0 0, .other, .grow 4), (demoOuts 0 0, .other, .writeComplex (some 5) (.bytes V3.demoSrc) Unsigned8 none),
   (demoOuts 0 0, .other, .readComplex (some 4) 3 Unsigned16 (some .be)), (demoOuts 0 0, .other, .readBytes (some 6) 4)]

example : ∃ t', Mini.NewMiniBuffer [V3.demoSrc, V3.demoSrc] (demo.under fun _ _ => 100) = (.ok (), t') ∧
    miniObserved1 demoKeeps1 t' = [.ok .unit, .ok .unit, .ok (.nums [0xBBAA, 0xBBCC, 0]), .ok (.bytes [0xBB, 0xCC, 0, 0])] := by
  obtain ⟨t', e, h, _⟩ := C136_v1_policy (s := demo) (fun _ _ => 100) (slices := [V3.demoSrc, V3.demoSrc]) (by decide) (by decide)
    (by intro t ht; simp at ht; subst ht; exact V3.demoSrc_ok) (s' := (Mini.NewMiniBuffer [V3.demoSrc, V3.demoSrc] demo).2) (Prod.ext (by decide +kernel) rfl)
    demoKeeps1 (by
      intro x hx; unfold demoKeeps1 at hx; simp only [List.mem_cons, List.not_mem_nil, or_false] at hx
      rcases hx with rfl | rfl | rfl | rfl <;> refine ⟨V3.demoOuts_valid _ _ (by decide), ?_⟩ <;> first | trivial | exact ⟨V3.demoSrc_ok, by decide⟩)
    ⟨trivial, trivial, fun _ _ => by decide +kernel, fun _ _ => by decide +kernel, trivial⟩
  exact ⟨t', e, h.trans (by decide +kernel)⟩

end Crunch.V1

namespace Crunch.Src

/-! ## run from the texts -/

/-- C136: the same for the text of v3/minibuf.generated.go. -/
theorem C136_v3_text :
    ∃ funs, compileAll V3Mini.text = some funs ∧
    ∀ (fuel depth : Nat), 2 ^ 64 < fuel → 3 ≤ depth → ∀ (s s' : V3.St) (q : Nat → Nat → Nat) (slices : List Slice), slices.length ≤ maxAlloc →
    slices.length ≠ 1 → (∀ t ∈ slices, SliceOK s.mem t) →
    (⟨funs, V3Mini.errs⟩ : Pkg).callBuf fuel depth (str% "NewMiniBuffer") [.ptr, .slices slices] (s, .unit) = (.ok .unit, (s', .unit)) →
    ∀ (ops : List (V3.Outs × V3.Op)), (∀ x ∈ ops, Fits x.2) → (∀ x ∈ ops, x.1.Valid ∧ x.2.Of s.mem) → V3.KeepsInside ops s' →
    (∀ x ∈ (textMini3 ⟨funs, V3Mini.errs⟩ fuel depth ops s').1, x ≠ .panic .makeSlice) →
    ∃ t', (⟨funs, V3Mini.errs⟩ : Pkg).callBuf fuel depth (str% "NewMiniBuffer") [.ptr, .slices slices] (s.under q, .unit) = (.ok .unit, (t', .unit)) ∧
      ((∀ x ∈ (textMini3 ⟨funs, V3Mini.errs⟩ fuel depth ops t').1, x ≠ .panic .makeSlice) →
        (textMini3 ⟨funs, V3Mini.errs⟩ fuel depth ops t').1 = (textMini3 ⟨funs, V3Mini.errs⟩ fuel depth ops s').1 ∧
        V3.Shows (textMini3 ⟨funs, V3Mini.errs⟩ fuel depth ops s').2 (textMini3 ⟨funs, V3Mini.errs⟩ fuel depth ops t').2) := by
  have hM := maxAlloc_lt
  obtain ⟨funs, hc, hcall⟩ := C82_mini_text
  obtain ⟨funs', hc', hnew⟩ := C82_constructor_text
  obtain rfl : funs = funs' := Option.some.inj (hc.symm.trans hc')
  refine ⟨funs, hc, fun fuel depth hf hd s s' q slices hl h1 hs e ops ho hv hk ms => ?_⟩
  have key : ∀ (ops : List (V3.Outs × V3.Op)) (s : V3.St), (∀ x ∈ ops, Fits x.2) →
      textMini3 ⟨funs, V3Mini.errs⟩ fuel depth ops s = (V3.miniObserved ops s, (V3.miniAll ops s).2) := by
    intro ops
    induction ops with
    | nil => intros; rfl
    | cons x ops ih =>
      obtain ⟨o, op⟩ := x
      intro s ho
      have ih' := fun s => ih s fun x h => ho x (List.mem_cons_of_mem _ h)
      unfold textMini3 V3.miniObserved V3.miniAll
      cases hm : V3.miniCall o op with
      | none => exact ih' s
      | some m => simp only [hcall fuel depth hf hd o op (ho _ (List.mem_cons_self ..)) m hm, seenRes_goRes, ih']
  have new : ∀ u u' : V3.St, (⟨funs, V3Mini.errs⟩ : Pkg).callBuf fuel depth (str% "NewMiniBuffer") [.ptr, .slices slices] (u, .unit) = (.ok .unit, (u', .unit)) ↔
      V3.Mini.NewMiniBuffer slices u = (.ok (), u') := by
    intro u u'
    rw [hnew fuel depth hf hd slices (by omega) u .unit]
    exact done3_iff
  rw [key ops s' ho] at ms ⊢
  obtain ⟨t', a, b⟩ := V3.C136_v3_policy q hl h1 hs ((new s s').mp e) ops hv hk ms
  refine ⟨t', (new _ t').mpr a, fun mt => ?_⟩
  rw [key ops t' ho] at mt ⊢
  exact b mt

/-- C136: the same for the texts of v2/minibuf.go and v2/utils.go. -/
theorem C136_v2_text :
    ∃ funs, compileAll (V2Utils.text ++ V2Mini.text) = some funs ∧
    ∀ (fuel depth : Nat), 2 ^ 64 < fuel → 4 ≤ depth → ∀ (s s' : V3.St) (q : Nat → Nat → Nat) (slices : List Slice), slices.length ≤ maxAlloc →
    slices.length ≠ 1 → (∀ t ∈ slices, SliceOK s.mem t) →
    (⟨funs, V2Mini.errs⟩ : Pkg).callBuf fuel depth (str% "NewMiniBuffer") [.ptr, .slices slices] (s, .unit) = (.ok .unit, (s', .unit)) →
    ∀ (ops : List (V3.Outs × V2.Op2)), (∀ x ∈ ops, Two.Fits x.2) → (∀ x ∈ ops, x.1.Valid ∧ x.2.Of s.mem) → V2.KeepsInside ops s' →
    ∃ t', (⟨funs, V2Mini.errs⟩ : Pkg).callBuf fuel depth (str% "NewMiniBuffer") [.ptr, .slices slices] (s.under q, .unit) = (.ok .unit, (t', .unit)) ∧
      (textMini2 ⟨funs, V2Mini.errs⟩ fuel depth ops t').1 = (textMini2 ⟨funs, V2Mini.errs⟩ fuel depth ops s').1 ∧
        V3.Shows (textMini2 ⟨funs, V2Mini.errs⟩ fuel depth ops s').2 (textMini2 ⟨funs, V2Mini.errs⟩ fuel depth ops t').2 := by
  have hM := maxAlloc_lt
  obtain ⟨funs, hc, hcall⟩ := C84_mini_text
  obtain ⟨funs', hc', hnew⟩ := C84_constructor_text
  obtain rfl : funs = funs' := Option.some.inj (hc.symm.trans hc')
  refine ⟨funs, hc, fun fuel depth hf hd s s' q slices hl h1 hs e ops ho hv hk => ?_⟩
  have key : ∀ (ops : List (V3.Outs × V2.Op2)) (s : V3.St), (∀ x ∈ ops, Two.Fits x.2) →
      textMini2 ⟨funs, V2Mini.errs⟩ fuel depth ops s = (V2.miniObserved ops s, (V2.miniAll ops s).2) := by
    intro ops
    induction ops with
    | nil => intros; rfl
    | cons x ops ih =>
      obtain ⟨o, op⟩ := x
      intro s ho
      have ih' := fun s => ih s fun x h => ho x (List.mem_cons_of_mem _ h)
      unfold textMini2 V2.miniObserved V2.miniAll
      cases hm : V2.miniCall o op with
      | none => exact ih' s
      | some m => simp only [hcall fuel depth hf hd o op (ho _ (List.mem_cons_self ..)) m hm, seenRes_goRes, ih']
  have new : ∀ u u' : V3.St, (⟨funs, V2Mini.errs⟩ : Pkg).callBuf fuel depth (str% "NewMiniBuffer") [.ptr, .slices slices] (u, .unit) = (.ok .unit, (u', .unit)) ↔
      V2.Mini.NewMiniBuffer slices u = (.ok (), u') := by
    intro u u'
    rw [hnew fuel depth hf hd slices (by omega) u .unit]
    exact done3_iff
  obtain ⟨t', a, b⟩ := V2.C136_v2_policy q hl h1 hs ((new s s').mp e) ops hv hk
  refine ⟨t', (new _ t').mpr a, ?_⟩
  rw [key ops s' ho, key ops t' ho]
  exact b

/-- C136: the same for the texts of v1/minibuf.go and v1/utils.go. -/
theorem C136_v1_text :
    ∃ funs, compileAll (V1Utils.text ++ V1Mini.text) = some funs ∧
    ∀ (fuel depth : Nat), 2 ^ 64 < fuel → 4 ≤ depth → ∀ (s s' : V3.St) (q : Nat → Nat → Nat) (slices : List Slice), slices.length ≤ maxAlloc →
    slices.length ≠ 1 → (∀ t ∈ slices, SliceOK s.mem t) →
    (⟨funs, V1Mini.errs⟩ : Pkg).callBuf fuel depth (str% "NewMiniBuffer") [.ptr, .slices slices] (s, .unit) = (.ok .unit, (s', .unit)) →
    ∀ (ops : List (V3.Outs × V1.Any × V1.Op1)), (∀ x ∈ ops, One.Fits x.2.2) → (∀ x ∈ ops, x.1.Valid ∧ x.2.2.Of s.mem) → V1.KeepsInside1 ops s' →
    ∃ t', (⟨funs, V1Mini.errs⟩ : Pkg).callBuf fuel depth (str% "NewMiniBuffer") [.ptr, .slices slices] (s.under q, .unit) = (.ok .unit, (t', .unit)) ∧
      (textMini1 ⟨funs, V1Mini.errs⟩ fuel depth ops t').1 = (textMini1 ⟨funs, V1Mini.errs⟩ fuel depth ops s').1 ∧
        V3.Shows (textMini1 ⟨funs, V1Mini.errs⟩ fuel depth ops s').2 (textMini1 ⟨funs, V1Mini.errs⟩ fuel depth ops t').2 := by
  have hM := maxAlloc_lt
  obtain ⟨funs, hc, hcall⟩ := C85_mini_text
  obtain ⟨funs', hc', hnew⟩ := C85_constructor_text
  obtain rfl : funs = funs' := Option.some.inj (hc.symm.trans hc')
  refine ⟨funs, hc, fun fuel depth hf hd s s' q slices hl h1 hs e ops ho hv hk => ?_⟩
  have key : ∀ (ops : List (V3.Outs × V1.Any × V1.Op1)) (s : V3.St), (∀ x ∈ ops, One.Fits x.2.2) →
      textMini1 ⟨funs, V1Mini.errs⟩ fuel depth ops s = (V1.miniObserved1 ops s, (V1.miniAll1 ops s).2) := by
    intro ops
    induction ops with
    | nil => intros; rfl
    | cons x ops ih =>
      obtain ⟨o, any, op⟩ := x
      intro s ho
      have ih' := fun s => ih s fun x h => ho x (List.mem_cons_of_mem _ h)
      unfold textMini1 V1.miniObserved1 V1.miniAll1
      cases hm : V1.miniCall1 o any op with
      | none => exact ih' s
      | some m => simp only [hcall fuel depth hf hd o any op (ho _ (List.mem_cons_self ..)) m hm, seenRes_goRes1, ih']
  have new : ∀ u u' : V3.St, (⟨funs, V1Mini.errs⟩ : Pkg).callBuf fuel depth (str% "NewMiniBuffer") [.ptr, .slices slices] (u, .unit) = (.ok .unit, (u', .unit)) ↔
      V1.Mini.NewMiniBuffer slices u = (.ok (), u') := by
    intro u u'
    rw [hnew fuel depth hf hd slices (by omega) u .unit]
    exact done3_iff
  obtain ⟨t', a, b⟩ := V1.C136_v1_policy q hl h1 hs ((new s s').mp e) ops hv hk
  refine ⟨t', (new _ t').mpr a, ?_⟩
  rw [key ops s' ho, key ops t' ho]
  exact b

end Crunch.Src
