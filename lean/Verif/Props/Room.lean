import Verif.Lemmas.Room
import Verif.Props.History
import Verif.Props.V2Mini
import Verif.Props.SourceHist

/-!
# Who can see the room behind the bytes of a Buffer (C135)

`append` may allocate more than it is asked for (`slack` of the memory, any function), `Grow` of v3 allocates twice as much on purpose,
and a slice given to `NewBuffer` may have capacity beyond its length.  None of the documented results speaks of this room.  v2 never
shows it; v3 shows it through `Grow`, and only if there is something other than zeros; v1 shows it through `ReadComplex` of several
bytes each, and only if the integers reach beyond the bytes.
-/

namespace Crunch.V3
open Spec
open Ref (Zeros)

/-- The bytes between the end of the buffer and the end of its capacity. -/
def St.room (s : St) : List UInt8 := (s.mem.window s.b.buf).drop s.b.buf.len

/-- The states show the same to all methods that only look: the bytes, both offsets and both capacities. -/
def Shows (s t : St) : Prop :=
  s.bytes = t.bytes ∧ s.b.off = t.b.off ∧ s.b.boff = t.b.boff ∧ s.b.cap = t.b.cap ∧ s.b.bcap = t.b.bcap

theorem shows_alike {s t : St} (h : WF s) (g : WF t) : Shows s t ↔ Ref.Alike (abs s) (abs t) := by
  constructor
  · rintro ⟨a, b, c, _⟩
    exact ⟨a, congrArg Int64.toInt b, congrArg Int64.toInt c⟩
  · rintro ⟨a, b, c⟩
    have a : s.bytes = t.bytes := a
    have hl : s.b.buf.len = t.b.buf.len := by rw [← length_bytes h.ok, ← length_bytes g.ok, a]
    exact ⟨a, Int64.toInt_inj.mp b, Int64.toInt_inj.mp c,
      Int64.toInt_inj.mp (by rw [h.cap_toInt, g.cap_toInt, hl]), Int64.toInt_inj.mp (by rw [h.bcap_toInt, g.bcap_toInt, hl])⟩

/-- Only zeros are given up at the end of the buffer: by `TruncateRight` the last bytes, by `Reset` all of them. -/
def CutsZeros : List Op → St → Prop
  | [], _ => True
  | op :: ops, s =>
    (match op with
      | .truncateRight n => 0 ≤ n.toInt → n.toInt ≤ s.bytes.length → Zeros (s.bytes.drop (s.bytes.length - n.toInt.toNat))
      | .reset => Zeros s.bytes
      | _ => True) ∧ CutsZeros ops (exec op s).2

theorem cuts_lower {s : St} (h : WF s) (ops : List Op) (hv : ValidAll ops s) (hc : CutsZeros ops s) : Ref.Cuts (lowerAll ops s) (abs s) := by
  induction ops generalizing s with
  | nil => trivial
  | cons op ops ih =>
    have h1 := step_ok h op hv.1
    refine ⟨?_, ?_⟩
    · have := hc.1
      cases op <;> first | trivial | exact this
    · rw [← h1.state]
      exact ih h1.wf hv.2 hc.2

theorem affords_run (ops : List Ref.Op) (r : Ref.Ref) (h : ∀ x ∈ (Ref.run ops r).1, x ≠ .panic .makeSlice) : Ref.Affords ops r := by
  induction ops generalizing r with
  | nil => trivial
  | cons op ops ih =>
    exact ⟨h _ (List.mem_cons_self ..), ih _ fun x hx => h x (List.mem_cons_of_mem _ hx)⟩

/-- C135: on two v3 Buffers that show the same and have zeros behind their bytes, as many as they like, the same calls give the same
results, and the Buffers show the same afterwards: unless bytes that are not zero are given up at the end, or memory runs out. -/
theorem C135_v3_room {s t : St} (h : WF s) (g : WF t) (e : Shows s t) (zs : Zeros s.room) (zt : Zeros t.room)
    {ops ops' : List Op} (hv : ValidAll ops s) (gv : ValidAll ops' t) (same : lowerAll ops' t = lowerAll ops s) (hc : CutsZeros ops s)
    (ms : ∀ x ∈ observed ops s, x ≠ .panic .makeSlice) (mt : ∀ x ∈ observed ops' t, x ≠ .panic .makeSlice) :
    observed ops' t = observed ops s ∧ Shows (execAll ops s).2 (execAll ops' t).2 ∧
    Zeros (execAll ops s).2.room ∧ Zeros (execAll ops' t).2.room := by
  obtain ⟨h1, h2⟩ := C38_history h ops hv
  obtain ⟨g1, g2⟩ := C38_history g ops' gv
  rw [h1] at ms
  rw [g1, same] at mt
  obtain ⟨a, b, c, d⟩ := Ref.run_alike (lowerAll ops s) ((shows_alike h g).mp e) zs zt (cuts_lower h ops hv hc) (affords_run _ _ ms) (affords_run _ _ mt)
  rw [← same, ← g1, same, ← h1] at a
  rw [← h2] at b c
  rw [← same, ← g2] at b
  rw [← same, ← g2] at d
  exact ⟨a, (shows_alike (history_ok h ops hv).1 (history_ok g ops' gv).1).mpr b, c, d⟩

/-- C135: a byte that is not zero behind the bytes can be seen: a Buffer that shows the same and has less room answers
`Grow(k + 1); Bytes()` differently. -/
theorem C135_v3_seen {s t : St} (h : WF s) (g : WF t) (e : Shows s t) {k : Int64} {b : UInt8} (h0 : 0 ≤ k.toInt) (hk : s.room[k.toInt.toNat]? = some b) (hb : b ≠ 0)
    (ht : t.room = s.room.take k.toInt.toNat) (hm : 2 * (s.bytes.length + k.toInt + (k.toInt + 1)) ≤ maxAlloc) :
    observed [.grow (k + 1), .bytes] s ≠ observed [.grow (k + 1), .bytes] t := by
  have hM := maxAlloc_lt
  have hk1 : (k + 1).toInt = k.toInt + 1 := by
    rw [Int64.toInt_add, show (1 : Int64).toInt = 1 from rfl]
    apply Int.bmod_eq_of_le <;> omega
  have hv : ∀ u : St, ValidAll [.grow (k + 1), .bytes] u := fun u => ⟨trivial, trivial, trivial⟩
  have hlow : ∀ u : St, lowerAll [.grow (k + 1), .bytes] u = [.grow ((k.toInt.toNat : Int) + 1), .bytes] := by
    intro u
    show [Ref.Op.grow (k + 1).toInt, Ref.Op.bytes] = _
    rw [hk1, Int.toNat_of_nonneg h0]
  have ea : abs t = (abs s).room ((abs s).spare.take k.toInt.toNat) := by
    rw [((shows_alike h g).mp e).eq]
    show Ref.Ref.room _ t.room = _
    rw [ht]; rfl
  rw [(C38_history h _ (hv s)).1, (C38_history g _ (hv t)).1, hlow, hlow, ea]
  exact Ref.run_sees (r := abs s) hk hb (by show 2 * (s.bytes.length + k.toInt.toNat + (k.toInt.toNat + 1)) ≤ maxAlloc; omega)

/-- `demo` without its four spare bytes. -/
def demoTight : St := { demo with b := { demo.b with buf := { demo.b.buf with cap := 12 } } }
theorem demoTight_wf : WF demoTight := ⟨⟨by decide, by decide, by decide⟩, by decide, by decide⟩
theorem demo_shows : Shows demo demoTight := ⟨by decide, rfl, rfl, rfl, rfl⟩

/-- Behind `demo` there is a 15, and `demoTight` does not have it. -/
example : demo.room = [15, 16, 17, 18] ∧ demoTight.room = [] ∧
    observed [.grow 1, .bytes] demo ≠ observed [.grow 1, .bytes] demoTight :=
  ⟨by decide, by decide, C135_v3_seen demo_wf demoTight_wf demo_shows (k := 0) (b := 15) (by decide) (by decide) (by decide) (by decide) (by decide)⟩

/-- `demo` with zeros behind its bytes, and with none. -/
def demoZeros : St := { demo with mem := { demo.mem with arrays := [[1, 2, 3, 4, 5, 6, 7, 8, 9, 10, 11, 12, 13, 14, 0, 0, 0, 0, 19, 20]] } }
theorem demoZeros_wf : WF demoZeros := ⟨⟨by decide, by decide, by decide⟩, by decide, by decide⟩

instance (l : List UInt8) : Decidable (Zeros l) := inferInstanceAs (Decidable (∀ b ∈ l, b = 0))

/-- There it cannot be told apart, whatever is written into the new bytes. -/
example : observed [.grow 2, .writeByte (some 13) 7, .bytes] demoTight = observed [.grow 2, .writeByte (some 13) 7, .bytes] demoZeros :=
  (C135_v3_room (s := demoZeros) (t := demoTight) (ops := [.grow 2, .writeByte (some 13) 7, .bytes]) (ops' := [.grow 2, .writeByte (some 13) 7, .bytes]) demoZeros_wf demoTight_wf ⟨by decide, rfl, rfl, rfl, rfl⟩ (by decide +kernel) (by decide +kernel)
    ⟨trivial, trivial, trivial, trivial⟩ ⟨trivial, trivial, trivial, trivial⟩ rfl ⟨trivial, trivial, trivial, trivial⟩ (by decide +kernel) (by decide +kernel)).1

/-! ## from the constructor on -/

theorem append_zeros {m m' : Heap} {t t' : Slice} {data : List UInt8} (w : SliceOK m t) (hz : Zeros ((m.window t).drop t.len))
    (e : appendBytes t data m = (.ok t', m')) : Zeros ((m'.window t').drop t'.len) := by
  have hv := length_view w
  unfold appendBytes at e
  by_cases hc : t.len + data.length ≤ t.cap
  · simp only [hc, if_true] at e
    injection e with e1 e2
    injection e1 with e1
    subst e1 e2
    have w' : SliceOK m (t.withLen t.cap) := w.withLen (Nat.le_refl _)
    have hw : (m.blit t.arr (t.off + t.len) data).window t = patch (m.window t) t.len data :=
      view_blit_self (s := t.withLen t.cap) w' hc
    show Zeros (((m.blit t.arr (t.off + t.len) data).window t).drop (t.len + data.length))
    rw [hw]
    have hl : (m.window t).length = t.cap := length_view w'
    unfold patch
    intro b hb
    rw [List.append_assoc, List.drop_append, List.drop_of_length_le (by rw [List.length_take]; omega), List.nil_append, List.length_take, Nat.min_eq_left (by omega),
      Nat.add_sub_cancel_left, List.drop_append, List.drop_of_length_le (Nat.le_refl _), List.nil_append, Nat.sub_self, List.drop_zero] at hb
    refine hz b ?_
    rw [← List.drop_drop] at hb
    exact List.mem_of_mem_drop hb
  · simp only [hc, if_false] at e
    split at e
    · injection e with e1; exact nomatch e1
    · injection e with e1 e2
      injection e1 with e1
      subst e1 e2
      intro b hb
      simp only [Heap.window, array_alloc_self, List.drop_zero] at hb
      rw [List.drop_take] at hb
      have hb := List.mem_of_mem_take hb
      rw [List.drop_append, List.drop_of_length_le (by rw [List.length_append, hv]; exact Nat.le_refl _), List.nil_append] at hb
      exact (List.mem_replicate.mp (List.mem_of_mem_drop hb)).2

theorem appendBody_zeros {m0 : Heap} {s s' : St} {content : List UInt8} (h : Built m0 s content) (hz : Zeros s.room) {slices : List Slice}
    (hl : slices.length < 2 ^ 63) {i : Nat} (hi : i < slices.length) (e : appendBody slices (Int64.ofNat i) s = (.ok (), s')) : Zeros s'.room := by
  have e1 : appendBody slices (Int64.ofNat i) s = (onMem (appendBytes s.b.buf (s.mem.view slices[i])) >>= fun r =>
      modB fun b => { b with buf := r }) s := by
    unfold appendBody
    rw [idx_ofNat hi hl]
    rfl
  rw [e1] at e
  rcases ha : appendBytes s.b.buf (s.mem.view slices[i]) s.mem with ⟨t | p, m⟩
  · simp only [bind_run, onMem, ha, modB] at e
    injection e with _ e
    subst e
    exact append_zeros h.ok hz ha
  · simp only [bind_run, onMem, ha] at e
    injection e with e
    exact nomatch e

theorem appendLoop_zeros {m0 : Heap} (slices : List Slice) (hl : slices.length < 2 ^ 63) (hs : ∀ t ∈ slices, SliceOK m0 t) :
    ∀ (c i : Nat) (s s' : St), i + c = slices.length → Built m0 s (cat m0 (slices.take i)) → Zeros s.room →
      iter (fun k _ => appendBody slices (Int64.ofNat k)) c i () s = (.ok (), s') → Zeros s'.room := by
  intro c
  induction c with
  | zero => intro i s s' _ _ hz e; injection e with _ e; subst e; exact hz
  | succ c ih =>
    intro i s s' hi hb hz e
    have hi' : i < slices.length := by omega
    have ec : cat m0 (slices.take (i + 1)) = cat m0 (slices.take i) ++ m0.view slices[i] := by
      unfold cat; rw [List.take_succ_eq_append_getElem hi', List.flatMap_append, List.flatMap_singleton]
    obtain ⟨r1, r2⟩ := appendBody_run hb slices hl hs hi'
    unfold iter at e
    by_cases hf : (cat m0 (slices.take i)).length + (m0.view slices[i]).length ≤ maxAlloc
    · obtain ⟨s1, h1, h2⟩ := r1 hf
      rw [bind_ok h1] at e
      exact ih (i + 1) s1 s' (by omega) (by rw [ec]; exact h2) (appendBody_zeros hb hz hl hi' h1) e
    · rw [bind_panic (r2 (by omega))] at e
      injection e with e; exact nomatch e

/-- C135: behind the bytes of a Buffer made of several slices, or of none, there are only zeros. -/
theorem C135_new {s s' : St} {slices : List Slice} (hl : slices.length ≤ maxAlloc) (h1 : slices.length ≠ 1)
    (hs : ∀ t ∈ slices, SliceOK s.mem t) (e : Buffer.NewBuffer slices s = (.ok (), s')) : Zeros s'.room := by
  have hM := maxAlloc_lt
  have hz : Zeros (emptyAt s.mem).room := by
    intro b hb
    have : (emptyAt s.mem).room = [] := by
      unfold St.room emptyAt Heap.window; simp
    rw [this] at hb
    exact nomatch hb
  match slices, hl, hs, h1 with
  | [], _, _, _ =>
    have : Buffer.Refresh (emptyAt s.mem) = (.ok (), s') := e
    rw [buffer_refresh_run] at this
    injection this with _ this
    subst this
    exact hz
  | [_], _, _, h => exact absurd rfl h
  | x :: y :: l, hl, hs, _ =>
    have e' : Buffer.NewBuffer (x :: y :: l) s =
        (doLoop (fun i _ => appendBody (x :: y :: l) i) (len (x :: y :: l)) 0 () >>= fun _ => Buffer.Refresh) (emptyAt s.mem) := rfl
    rw [e'] at e
    unfold len at e
    rw [doLoop_pos _ _ (by simp) (by omega)] at e
    rcases hi : iter (fun k _ => appendBody (x :: y :: l) (Int64.ofNat k)) (x :: y :: l).length 0 () (emptyAt s.mem) with ⟨u | p, s1⟩
    · rw [bind_ok hi, buffer_refresh_run] at e
      injection e with _ e
      subst e
      exact appendLoop_zeros (x :: y :: l) (by omega) hs _ 0 _ s1 (by omega) (by simpa [cat] using emptyAt_built s.mem) hz hi
    · rw [bind_panic hi] at e
      injection e with e; exact nomatch e

/-- The same memory under another allocation policy. -/
def St.under (s : St) (q : Nat → Nat → Nat) : St := { s with mem := { s.mem with slack := q } }

/-- The constructor does the same under every policy, but for the room. -/
theorem new_under {s s' : St} (q : Nat → Nat → Nat) {slices : List Slice} (hl : slices.length ≤ maxAlloc) (h1 : slices.length ≠ 1)
    (hs : ∀ t ∈ slices, SliceOK s.mem t) (e : Buffer.NewBuffer slices s = (.ok (), s')) :
    ∃ t', Buffer.NewBuffer slices (s.under q) = (.ok (), t') ∧ WF s' ∧ WF t' ∧ Shows s' t' ∧ Zeros s'.room ∧ Zeros t'.room ∧
      Extends s.mem s'.mem ∧ Extends s.mem t'.mem ∧ s.mem.arrays.length ≤ s'.b.buf.arr ∧ s.mem.arrays.length ≤ t'.b.buf.arr ∧
      (∀ u, SliceOK s.mem u → SliceOK s'.mem u) ∧ ∀ u, SliceOK s.mem u → SliceOK t'.mem u := by
  have hs' : ∀ t ∈ slices, SliceOK (s.under q).mem t := fun t ht => ⟨(hs t ht).len_le, (hs t ht).fits, (hs t ht).small⟩
  obtain ⟨_, r1, r2⟩ := newBuffer_run s slices hl hs
  obtain ⟨_, q1, q2⟩ := newBuffer_run (s.under q) slices hl hs'
  have ec : cat (s.under q).mem slices = cat s.mem slices := rfl
  rw [ec] at q1 q2
  by_cases hf : (cat s.mem slices).length ≤ maxAlloc
  · obtain ⟨s1, a1, a2, a3⟩ := r1 h1 hf
    obtain ⟨t', b1, b2, b3⟩ := q1 h1 hf
    rw [e] at a1
    injection a1 with _ a1
    subst a1
    refine ⟨t', b1, a2, b2, ?_, C135_new hl h1 hs e, C135_new hl h1 hs' b1, a3.ext, ⟨b3.ext.length, b3.ext.array⟩, a3.new, b3.new, a3.slices,
      fun u hu => b3.slices u ⟨hu.len_le, hu.fits, hu.small⟩⟩
    exact (shows_alike a2 b2).mpr ⟨a3.view.trans b3.view.symm, by show _ = _; rw [abs, abs, a3.zero.1, b3.zero.1], by show _ = _; rw [abs, abs, a3.zero.2, b3.zero.2]⟩
  · obtain ⟨s1, a1, _⟩ := r2 h1 (by omega)
    rw [e] at a1
    injection a1 with a1
    exact nomatch a1

theorem lowerAll_foreign (ops : List Op) (s : St) (h : WF s) (hv : ∀ op ∈ ops, op.Valid s.mem) (hf : ∀ op ∈ ops, op.Foreign s.b.buf) :
    lowerAll ops s = ops.map (Op.lower s.mem) := by
  induction ops generalizing s with
  | nil => rfl
  | cons op ops ih =>
    have h1 := step_ok h op (hv op (List.mem_cons_self ..))
    have hv' : ∀ o ∈ ops, o.Valid (exec op s).2.mem := fun o ho => (hv o (List.mem_cons_of_mem _ ho)).mono h1.iso.slices
    have hf' : ∀ o ∈ ops, o.Foreign (exec op s).2.b.buf := by
      intro o ho
      have a := hv o (List.mem_cons_of_mem _ ho); have b := hf o (List.mem_cons_of_mem _ ho)
      cases o <;> first | trivial | exact h1.iso.apart a b
    show _ :: _ = _ :: _
    rw [ih _ h1.wf hv' hf']
    congr 1
    apply List.map_congr_left
    intro o ho
    apply lower_same
    intro pos src e
    subst e
    have a := hv _ (List.mem_cons_of_mem _ ho); have b := hf _ (List.mem_cons_of_mem _ ho)
    exact view_of_window (SliceOK.len_le a) (h1.iso.keeps a b)

/-- C135: what a program that makes a v3 Buffer of several slices (or of none) and calls its methods is told does not depend on what
`append` allocates ahead, unless it gives up bytes that are not zero at the end, or memory runs out. -/
theorem C135_v3_policy {s s' : St} (q : Nat → Nat → Nat) {slices : List Slice} (hl : slices.length ≤ maxAlloc) (h1 : slices.length ≠ 1)
    (hs : ∀ t ∈ slices, SliceOK s.mem t) (e : Buffer.NewBuffer slices s = (.ok (), s')) (ops : List Op) (hv : ∀ op ∈ ops, op.Valid s.mem)
    (hc : CutsZeros ops s') (ms : ∀ x ∈ observed ops s', x ≠ .panic .makeSlice) :
    ∃ t', Buffer.NewBuffer slices (s.under q) = (.ok (), t') ∧
      ((∀ x ∈ observed ops t', x ≠ .panic .makeSlice) → observed ops t' = observed ops s' ∧ Shows (execAll ops s').2 (execAll ops t').2) := by
  obtain ⟨t', e', w1, w2, sh, z1, z2, x1, x2, n1, n2, v1, v2⟩ := new_under q hl h1 hs e
  refine ⟨t', e', fun mt => ?_⟩
  have hv1 : ∀ op ∈ ops, op.Valid s'.mem := fun op ho => by
    have := hv op ho
    cases op <;> first | trivial | exact v1 _ this | exact this
  have hv2 : ∀ op ∈ ops, op.Valid t'.mem := fun op ho => by
    have := hv op ho
    cases op <;> first | trivial | exact v2 _ this | exact this
  have foreign : ∀ u : St, s.mem.arrays.length ≤ u.b.buf.arr → ∀ op ∈ ops, op.Foreign u.b.buf := by
    intro u hu op ho
    have := hv op ho
    cases op <;> first | trivial | skip
    rename_i pos src
    have this : SliceOK s.mem src := this
    by_cases hx : src.arr < s.mem.arrays.length
    · exact .inl (by omega)
    · have h1 := this.fits
      rw [array_nil_of_ge (h := s.mem) (a := src.arr) (by omega)] at h1
      exact .inr (.inr (.inr (.inl (by simp at h1; omega))))
  obtain ⟨a1, a2⟩ := C38_history_foreign w1 ops hv1 (foreign s' n1)
  obtain ⟨b1, b2⟩ := C38_history_foreign w2 ops hv2 (foreign t' n2)
  have same : ops.map (Op.lower t'.mem) = ops.map (Op.lower s'.mem) := by
    apply List.map_congr_left
    intro op ho
    apply lower_same
    rintro pos src rfl
    rw [x1.view_ok (hv _ ho), x2.view_ok (hv _ ho)]
  have va := validAll_of_valid w1 ops hv1
  have cuts := cuts_lower w1 ops va hc
  have el : lowerAll ops s' = ops.map (Op.lower s'.mem) := lowerAll_foreign ops s' w1 hv1 (foreign s' n1)
  rw [el] at cuts
  rw [a1] at ms
  rw [b1, same] at mt
  obtain ⟨a, b, _⟩ := Ref.run_alike _ ((shows_alike w1 w2).mp sh) z1 z2 cuts (affords_run _ _ ms) (affords_run _ _ mt)
  rw [← a2] at b
  rw [← same, ← b2] at b
  rw [b1, same, a, ← a1]
  exact ⟨rfl, (shows_alike (history_ok w1 ops va).1 (history_ok w2 ops (validAll_of_valid w2 ops hv2)).1).mpr b⟩

/-- Two slices of three bytes, room by different policies, and a history that gives up two zeros at its end. -/
example : ∃ s' t', Buffer.NewBuffer [demoSrc, demoSrc] demo = (.ok (), s') ∧ Buffer.NewBuffer [demoSrc, demoSrc] (demo.under fun _ _ => 100) = (.ok (), t') ∧
    s'.room.length = 0 ∧ t'.room.length = 97 ∧ observed [.grow 4, .writeBytes (some 5) demoSrc, .truncateRight 2, .grow 3, .bytes] t' =
      observed [.grow 4, .writeBytes (some 5) demoSrc, .truncateRight 2, .grow 3, .bytes] s' := by
  obtain ⟨t', e, h⟩ := C135_v3_policy (s := demo) (fun _ _ => 100) (slices := [demoSrc, demoSrc]) (by decide) (by decide)
    (by intro t ht; simp at ht; subst ht; exact demoSrc_ok) (s' := (Buffer.NewBuffer [demoSrc, demoSrc] demo).2) (Prod.ext (by decide +kernel) rfl)
    [.grow 4, .writeBytes (some 5) demoSrc, .truncateRight 2, .grow 3, .bytes]
    (by intro op ho; simp only [List.mem_cons, List.not_mem_nil, or_false] at ho; rcases ho with rfl | rfl | rfl | rfl | rfl <;> first | trivial | exact demoSrc_ok)
    ⟨trivial, trivial, fun _ _ => by decide +kernel, trivial, trivial, trivial⟩ (by decide +kernel)
  have et : t' = (Buffer.NewBuffer [demoSrc, demoSrc] (demo.under fun _ _ => 100)).2 := by rw [e]
  refine ⟨_, t', Prod.ext (by decide +kernel) rfl, e, by decide +kernel, by rw [et]; decide +kernel, (h ?_).1⟩
  rw [et]; decide +kernel

end Crunch.V3

namespace Crunch.V2
open V3 (St WF Iso abs Shows shows_alike Extends)

/-- What existed in memory `m0` is as it was, and the buffer lies elsewhere. -/
structure Since (m0 : Heap) (s : St) : Prop where
  ext : Extends m0 s.mem
  new : m0.arrays.length ≤ s.b.buf.arr

theorem Since.iso {m0 : Heap} {s s' : St} (h : Since m0 s) (i : Iso s s') : Since m0 s' := by
  have h1 := h.ext.length; have h2 := h.new; have h3 := i.more
  refine ⟨⟨by omega, fun a ha => ?_⟩, ?_⟩
  · rw [← h.ext.array a ha]
    apply List.ext_getElem?
    intro k
    exact i.outside a k (by omega) (.inl (by omega))
  · rcases i.place with ⟨p, _⟩ | p <;> omega

theorem Since.slice {m0 : Heap} {s : St} (h : Since m0 s) {t : Slice} (w : SliceOK m0 t) (ht : t.arr < m0.arrays.length) : SliceOK s.mem t :=
  ⟨w.len_le, by rw [h.ext.array _ ht]; exact w.fits, by rw [h.ext.array _ ht]; exact w.small⟩

theorem Since.place {m0 : Heap} {s : St} (h : Since m0 s) {t : Slice} (ht : t.arr < m0.arrays.length) : place s t = none := by
  have := h.new
  unfold V2.place
  rw [if_neg (by omega)]

/-- The argument slice of a call is a slice of an array of memory `m`. -/
def Op2.Of (m : Heap) : Op2 → Prop
  | .writeBytes _ src => SliceOK m src ∧ src.arr < m.arrays.length
  | op => op.Valid m

theorem Since.valid {m0 : Heap} {s : St} (h : Since m0 s) {op : Op2} (ho : op.Of m0) : op.Valid s.mem := by
  cases op <;> first | trivial | exact ho | exact h.slice ho.1 ho.2

theorem lower_plain (s : St) (op : Op2) : (lower s op).plain = true := by
  cases op <;> first | rfl | skip
  simp only [lower]
  split
  · rfl
  · split <;> rfl

theorem lower_since {m0 : Heap} {s t : St} (h : Since m0 s) (g : Since m0 t) {op : Op2} (ho : op.Of m0) :
    (lower t op).forget = (lower s op).forget := by
  cases op <;> first | rfl | skip
  rename_i p src
  simp only [lower, h.place ho.2, g.place ho.2, h.ext.view_ok ho.1, g.ext.view_ok ho.1]

theorem validAll_since {m0 : Heap} {s : St} (w : WF s) (h : Since m0 s) (ops : List Op2) (ho : ∀ op ∈ ops, op.Of m0) : ValidAll ops s := by
  induction ops generalizing s with
  | nil => trivial
  | cons op ops ih =>
    have hv := h.valid (ho op (List.mem_cons_self ..))
    have h1 := step2_ok w op hv
    have e := exec_run op s
    refine ⟨hv, fun _ => ih ?_ ?_ fun o m => ho o (List.mem_cons_of_mem _ m)⟩
    · rw [e]; exact h1.wf
    · rw [e]; exact h.iso h1.iso

theorem lowerAll_since {m0 : Heap} {s t : St} (w : WF s) (v : WF t) (h : Since m0 s) (g : Since m0 t) (ops : List Op2) (ho : ∀ op ∈ ops, op.Of m0) :
    (lowerAll ops t).map Ref.Op2.forget = (lowerAll ops s).map Ref.Op2.forget := by
  induction ops generalizing s t with
  | nil => rfl
  | cons op ops ih =>
    have hm := ho op (List.mem_cons_self ..)
    have h1 := step2_ok w op (h.valid hm)
    have g1 := step2_ok v op (g.valid hm)
    have e := exec_run op s
    have e' := exec_run op t
    simp only [lowerAll, List.map_cons, lower_since h g hm]
    congr 1
    refine ih ?_ ?_ ?_ ?_ fun o m => ho o (List.mem_cons_of_mem _ m)
    · rw [e]; exact h1.wf
    · rw [e']; exact g1.wf
    · rw [e]; exact h.iso h1.iso
    · rw [e']; exact g.iso g1.iso

theorem lowerAll_plain (ops : List Op2) (s : St) : ∀ op ∈ lowerAll ops s, op.plain = true := by
  induction ops generalizing s with
  | nil => intro _ h; exact nomatch h
  | cons op ops ih =>
    intro o ho
    rcases List.mem_cons.mp ho with rfl | ho
    · exact lower_plain s op
    · exact ih _ o ho

/-- C135: on two v2 Buffers that show the same, whatever lies behind their bytes and whatever `append` allocates ahead, the same calls
give the same results and leave the mutex in the same state, and the Buffers show the same afterwards. -/
theorem C135_v2_room {s t : St} (h : WF s) (g : WF t) (e : Shows s t) {ops ops' : List Op2} (hv : ValidAll ops s) (gv : ValidAll ops' t)
    (same : (lowerAll ops' t).map Ref.Op2.forget = (lowerAll ops s).map Ref.Op2.forget) :
    observed ops' t = observed ops s ∧ (execAll ops' t).2.locked = (execAll ops s).2.locked ∧
    Shows (execAll ops s).2.st (execAll ops' t).2.st := by
  obtain ⟨a, b, c⟩ := Ref.run2_alike same (lowerAll_plain ops s) ((shows_alike h g).mp e)
  rw [C78_v2_history h ops hv, C78_v2_history g ops' gv] at a b c
  exact ⟨a, c, (shows_alike (history2_ok h ops hv).1 (history2_ok g ops' gv).1).mpr b⟩

/-- The constructor of v2 does the same under every policy, but for the room. -/
theorem new_under {s : St} {s' : Sh} (q : Nat → Nat → Nat) {slices : List Slice} (hl : slices.length ≤ maxAlloc) (h1 : slices.length ≠ 1)
    (hs : ∀ t ∈ slices, SliceOK s.mem t) (e : (Buffer.NewBuffer slices).run ⟨s, false⟩ = (.ok (), s')) :
    ∃ t', (Buffer.NewBuffer slices).run ⟨s.under q, false⟩ = (.ok (), ⟨t', false⟩) ∧ s'.locked = false ∧ WF s'.st ∧ WF t' ∧ Shows s'.st t' ∧
      Since s.mem s'.st ∧ Since s.mem t' := by
  have hM := maxAlloc_lt
  have hs' : ∀ t ∈ slices, SliceOK (s.under q).mem t := fun t ht => ⟨(hs t ht).len_le, (hs t ht).fits, (hs t ht).small⟩
  rw [newBuffer_v3 slices s (by omega) hs] at e
  injection e with e1 e2
  have e3 : V3.Buffer.NewBuffer slices s = (.ok (), s'.st) := by rw [← e2]; exact Prod.ext e1 rfl
  obtain ⟨t', a1, a2, a3, a4, _, _, a7, a8, a9, a10, _⟩ := V3.new_under q hl h1 hs e3
  refine ⟨t', ?_, by rw [← e2], a2, a3, a4, ⟨a7, a9⟩, ⟨a8, a10⟩⟩
  rw [newBuffer_v3 slices (s.under q) (by omega) hs', a1]

/-- C135: what a program that makes a v2 Buffer of several slices (or of none) and calls its methods is told does not depend on what
`append` allocates ahead, in the constructor and in every `Grow`. -/
theorem C135_v2_policy {s : St} {s' : Sh} (q : Nat → Nat → Nat) {slices : List Slice} (hl : slices.length ≤ maxAlloc) (h1 : slices.length ≠ 1)
    (hs : ∀ t ∈ slices, SliceOK s.mem t) (e : (Buffer.NewBuffer slices).run ⟨s, false⟩ = (.ok (), s')) (ops : List Op2) (ho : ∀ op ∈ ops, op.Of s.mem) :
    ∃ t', (Buffer.NewBuffer slices).run ⟨s.under q, false⟩ = (.ok (), ⟨t', false⟩) ∧ observed ops t' = observed ops s'.st ∧
      (execAll ops t').2.locked = (execAll ops s'.st).2.locked ∧ Shows (execAll ops s'.st).2.st (execAll ops t').2.st := by
  obtain ⟨t', a, _, w, v, sh, b1, b2⟩ := new_under q hl h1 hs e
  exact ⟨t', a, C135_v2_room w v sh (validAll_since w b1 ops ho) (validAll_since v b2 ops ho) (lowerAll_since w v b1 b2 ops ho)⟩

/-- `Grow` reallocates, `Reset` and a second `Grow` follow; nothing of the policies is seen. -/
example : ∃ t', (Buffer.NewBuffer [V3.demoSrc, V3.demoSrc]).run ⟨V3.demo.under fun _ _ => 100, false⟩ = (.ok (), ⟨t', false⟩) ∧
    observed [.grow 4, .writeBytes (some 5) V3.demoSrc, .reset, .grow 3, .bytes] t' =
      [.ok .unit, .ok .unit, .ok .unit, .ok .unit, .ok (.bytes [0, 0, 0])] := by
  obtain ⟨t', e, h, _⟩ := C135_v2_policy (s := V3.demo) (fun _ _ => 100) (slices := [V3.demoSrc, V3.demoSrc]) (by decide) (by decide)
    (by intro t ht; simp at ht; subst ht; exact V3.demoSrc_ok) (s' := ((Buffer.NewBuffer [V3.demoSrc, V3.demoSrc]).run ⟨V3.demo, false⟩).2)
    (Prod.ext (by decide +kernel) rfl) [.grow 4, .writeBytes (some 5) V3.demoSrc, .reset, .grow 3, .bytes]
    (by intro op ho; simp only [List.mem_cons, List.not_mem_nil, or_false] at ho
        rcases ho with rfl | rfl | rfl | rfl | rfl <;> first | trivial | exact ⟨V3.demoSrc_ok, by decide⟩)
  exact ⟨t', e, h.trans (by decide +kernel)⟩

end Crunch.V2

namespace Crunch.V1
open V3 (St WF Iso abs Shows shows_alike Extends)
open V2 (Since)

/-- The argument of a call is a slice of an array of memory `m`, or no slice of bytes. -/
def Op1.Of (m : Heap) : Op1 → Prop
  | .writeBytes _ src | .writeComplex _ (.bytes src) _ _ => SliceOK m src ∧ src.arr < m.arrays.length
  | op => op.Valid m

theorem Op1.Of.valid {m0 : Heap} {s : St} (h : Since m0 s) {op : Op1} (ho : op.Of m0) : op.Valid s.mem := by
  cases op <;> first | trivial | skip
  · rename_i p d size o
    cases d <;> first | exact h.slice ho.1 ho.2 | exact ho
  · exact h.slice ho.1 ho.2

theorem lower1_plain (s : St) (op : Op1) : (lower1 s op).plain = true := by
  cases op <;> first | rfl | exact V2.lower_plain s _

theorem lower1_since {m0 : Heap} {s t : St} (h : Since m0 s) (g : Since m0 t) {op : Op1} (ho : op.Of m0) :
    (lower1 t op).forget = (lower1 s op).forget := by
  cases op <;> first | rfl | skip
  · rename_i p d size o
    cases d <;> first | rfl | skip
    simp only [lower1, argOf, h.place ho.2, g.place ho.2, h.ext.view_ok ho.1, g.ext.view_ok ho.1]
  · exact congrArg Ref.Op1.base (V2.lower_since h g (op := .writeBytes _ _) ho)

theorem validAll1_since {m0 : Heap} {s : St} (w : WF s) (h : Since m0 s) (ops : List Op1) (ho : ∀ op ∈ ops, op.Of m0) : ValidAll1 ops s := by
  induction ops generalizing s with
  | nil => trivial
  | cons op ops ih =>
    have hv := Op1.Of.valid h (ho op (List.mem_cons_self ..))
    have h1 := (step1_ok w op hv).is
    exact ⟨hv, fun _ => ih h1.wf (h.iso h1.iso) fun o m => ho o (List.mem_cons_of_mem _ m)⟩

theorem lowerAll1_since {m0 : Heap} {s t : St} (w : WF s) (v : WF t) (h : Since m0 s) (g : Since m0 t) (ops : List Op1) (ho : ∀ op ∈ ops, op.Of m0) :
    (lowerAll1 ops t).map Ref.Op1.forget = (lowerAll1 ops s).map Ref.Op1.forget := by
  induction ops generalizing s t with
  | nil => rfl
  | cons op ops ih =>
    have hm := ho op (List.mem_cons_self ..)
    have h1 := (step1_ok w op (Op1.Of.valid h hm)).is
    have g1 := (step1_ok v op (Op1.Of.valid g hm)).is
    simp only [lowerAll1, List.map_cons, lower1_since h g hm]
    congr 1
    exact ih h1.wf g1.wf (h.iso h1.iso) (g.iso g1.iso) fun o m => ho o (List.mem_cons_of_mem _ m)

theorem lowerAll1_plain (ops : List Op1) (s : St) : ∀ op ∈ lowerAll1 ops s, op.plain = true := by
  induction ops generalizing s with
  | nil => intro _ h; exact nomatch h
  | cons op ops ih =>
    intro o ho
    rcases List.mem_cons.mp ho with rfl | ho
    · exact lower1_plain s op
    · exact ih _ o ho

/-- The integers of two, four or eight bytes that `ReadComplex` is asked for lie within the bytes, unless it rejects the call; all along a
history, up to the call that leaves the mutex locked. -/
def ReadsWithin : List Op1 → St → Prop
  | [], _ => True
  | op :: ops, s =>
    (match op with
      | .readComplex pos n size _ =>
        size.toInt = 2 ∨ size.toInt = 4 ∨ size.toInt = 8 → 0 ≤ n.toInt → 0 ≤ (pos.getD s.b.off).toInt →
          (pos.getD s.b.off).toInt + n.toInt ≤ s.bytes.length → (pos.getD s.b.off).toInt + n.toInt * size.toInt ≤ s.bytes.length
      | _ => True) ∧
    (((exec1 op).run ⟨s, false⟩).2.locked = false → ReadsWithin ops ((exec1 op).run ⟨s, false⟩).2.st)

theorem within_lower {s : St} (h : WF s) (ops : List Op1) (hv : ValidAll1 ops s) (hr : ReadsWithin ops s) : Ref.Withins (lowerAll1 ops s) (abs s) := by
  induction ops generalizing s with
  | nil => trivial
  | cons op ops ih =>
    have h1 := step1_ok h op hv.1
    refine ⟨?_, fun hl => ?_⟩
    · have := hr.1
      cases op <;> first | trivial | skip
      rename_i pos n size o
      cases pos <;> exact this
    · have hl : ((exec1 op).run ⟨s, false⟩).2.locked = false := h1.locked.trans hl
      have hst : (Ref.step1 (lower1 s op) (abs s)).2 = abs ((exec1 op).run ⟨s, false⟩).2.st := h1.is.state.symm
      rw [hst]
      exact ih h1.is.wf (hv.2 hl) (hr.2 hl)

/-- C135: on two v1 Buffers that show the same the same calls give the same results and leave the mutex in the same state, and the Buffers
show the same afterwards: unless `ReadComplex` is asked for integers that reach beyond the bytes. -/
theorem C135_v1_room {s t : St} (h : WF s) (g : WF t) (e : Shows s t) {ops ops' : List Op1} (hv : ValidAll1 ops s) (gv : ValidAll1 ops' t)
    (same : (lowerAll1 ops' t).map Ref.Op1.forget = (lowerAll1 ops s).map Ref.Op1.forget) (hr : ReadsWithin ops s) :
    observed1 ops' t = observed1 ops s ∧ (execAll1 ops' t).2.locked = (execAll1 ops s).2.locked ∧
    Shows (execAll1 ops s).2.st (execAll1 ops' t).2.st := by
  obtain ⟨a, b, c⟩ := Ref.run1_alike same (lowerAll1_plain ops s) ((shows_alike h g).mp e) (within_lower h ops hv hr)
  rw [C94_v1_history h ops hv, C94_v1_history g ops' gv] at a b c
  exact ⟨a, c, (shows_alike (history1_ok h ops hv).1 (history1_ok g ops' gv).1).mpr b⟩

/-- C135: there it is seen: on a Buffer without room the call panics, on one that shows the same and has enough room it does not. -/
theorem C135_v1_seen {s t : St} (h : WF s) (g : WF t) (e : Shows s t) (off n size : Int64) (o : Spec.Endian)
    (hs : size.toInt = 2 ∨ size.toInt = 4 ∨ size.toInt = 8) (hn : 0 ≤ n.toInt) (h0 : 0 ≤ off.toInt) (hf : off.toInt + n.toInt ≤ s.bytes.length)
    (hx : s.bytes.length < off.toInt + n.toInt * size.toInt) (hm : n.toInt * size.toInt ≤ maxAlloc) (zs : s.room = [])
    (zt : off.toInt + n.toInt * size.toInt ≤ t.bytes.length + t.room.length) :
    observed1 [.readComplex (some off) n size (some o)] s = [.panic .sliceBounds] ∧
    observed1 [.readComplex (some off) n size (some o)] t =
      [.ok (.nums ((List.range n.toInt.toNat).map fun i =>
        Spec.decode o (Spec.slice (t.bytes ++ t.room) (off.toInt.toNat + i * size.toInt.toNat) size.toInt.toNat)))] := by
  have key : ∀ u : St, WF u → observed1 [.readComplex (some off) n size (some o)] u =
      [(Ref.step1 (.readComplex (some off.toInt) n.toInt size.toInt (some o)) (abs u)).1] := by
    intro u w
    have hv : ValidAll1 [.readComplex (some off) n size (some o)] u := ⟨trivial, fun _ => trivial⟩
    have e := congrArg Prod.fst (C94_v1_history w _ hv)
    simp only at e
    rw [← e]
    simp only [lowerAll1, Ref.run1]
    rw [if_neg (by simp [lower1, Ref.sticks1])]
    rfl
  obtain ⟨a, _⟩ := Ref.readComplex_sees (r := abs s) (o := off.toInt) (n := n.toInt) (size := size.toInt) o hs hn h0 hf hx hm
  have eb : t.bytes = s.bytes := e.1.symm
  obtain ⟨_, b⟩ := Ref.readComplex_sees (r := abs t) (o := off.toInt) (n := n.toInt) (size := size.toInt) o hs hn h0
    (by show _ ≤ (t.bytes.length : Int); rw [eb]; exact hf) (by show (t.bytes.length : Int) < _; rw [eb]; exact hx) hm
  rw [key s h, key t g]
  refine ⟨?_, ?_⟩
  · have : abs s = (abs s).room [] := by unfold Ref.Ref.room; rw [← zs]; rfl
    rw [this, a]
  · have : abs t = (abs t).room t.room := rfl
    rw [this, b t.room zt]
    rfl

/-- C135: what a program that makes a v1 Buffer of several slices (or of none) and calls its methods is told does not depend on what
`append` allocates ahead, unless it asks `ReadComplex` for integers that reach beyond the bytes. -/
theorem C135_v1_policy {s : St} {s' : Sh} (q : Nat → Nat → Nat) {slices : List Slice} (hl : slices.length ≤ maxAlloc) (h1 : slices.length ≠ 1)
    (hs : ∀ t ∈ slices, SliceOK s.mem t) (e : (Buffer.NewBuffer slices).run ⟨s, false⟩ = (.ok (), s')) (ops : List Op1) (ho : ∀ op ∈ ops, op.Of s.mem)
    (hr : ReadsWithin ops s'.st) :
    ∃ t', (Buffer.NewBuffer slices).run ⟨s.under q, false⟩ = (.ok (), ⟨t', false⟩) ∧ observed1 ops t' = observed1 ops s'.st ∧
      (execAll1 ops t').2.locked = (execAll1 ops s'.st).2.locked ∧ Shows (execAll1 ops s'.st).2.st (execAll1 ops t').2.st := by
  rw [C69_constructor] at e ⊢
  obtain ⟨t', a, _, w, v, sh, b1, b2⟩ := V2.new_under q hl h1 hs e
  exact ⟨t', a, C135_v1_room w v sh (validAll1_since w b1 ops ho) (validAll1_since v b2 ops ho) (lowerAll1_since w v b1 b2 ops ho) hr⟩

end Crunch.V1

namespace Crunch.V1
open V3 (demo demo_wf demoTight demoTight_wf demo_shows)

/-- The last two bytes are read as two integers of two bytes each: the second lies behind the bytes. -/
example : observed1 [.readComplex (some 10) 2 Unsigned16 (some .be)] demoTight = [.panic .sliceBounds] ∧
    observed1 [.readComplex (some 10) 2 Unsigned16 (some .be)] demo = [.ok (.nums [0x0D0E, 0x0F10])] := by
  obtain ⟨a, b⟩ := C135_v1_seen demoTight_wf demo_wf ⟨by decide, rfl, rfl, rfl, rfl⟩ 10 2 Unsigned16 .be (.inl (by decide)) (by decide) (by decide) (by decide)
    (by decide) (by decide) (by decide) (by decide)
  exact ⟨a, b.trans (by decide +kernel)⟩

/-- Integers within the bytes are read the same under every policy. -/
example : ∃ t', (Buffer.NewBuffer [V3.demoSrc, V3.demoSrc]).run ⟨demo.under fun _ _ => 100, false⟩ = (.ok (), ⟨t', false⟩) ∧
    observed1 [.grow 4, .writeComplex (some 5) (.bytes V3.demoSrc) Unsigned8 none, .readComplex (some 4) 3 Unsigned16 (some .be)] t' =
      [.ok .unit, .ok .unit, .ok (.nums [0xBBAA, 0xBBCC, 0])] := by
  obtain ⟨t', e, h, _⟩ := C135_v1_policy (s := demo) (fun _ _ => 100) (slices := [V3.demoSrc, V3.demoSrc]) (by decide) (by decide)
    (by intro t ht; simp at ht; subst ht; exact V3.demoSrc_ok) (s' := ((Buffer.NewBuffer [V3.demoSrc, V3.demoSrc]).run ⟨demo, false⟩).2)
    (Prod.ext (by decide +kernel) rfl) [.grow 4, .writeComplex (some 5) (.bytes V3.demoSrc) Unsigned8 none, .readComplex (some 4) 3 Unsigned16 (some .be)]
    (by intro op ho; simp only [List.mem_cons, List.not_mem_nil, or_false] at ho
        rcases ho with rfl | rfl | rfl <;> first | trivial | exact ⟨V3.demoSrc_ok, by decide⟩)
    ⟨trivial, fun _ => ⟨trivial, fun _ => ⟨fun _ _ _ _ => by decide +kernel, fun _ => trivial⟩⟩⟩
  exact ⟨t', e, h.trans (by decide +kernel)⟩

end Crunch.V1

namespace Crunch.Src

/-! ## run from the texts -/

theorem done_iff {σ : Type} {x : Res Unit × σ} {u : σ} : (x.1.map (fun _ => V.unit), x.2) = (.ok .unit, u) ↔ x = (.ok (), u) := by
  obtain ⟨r | p, v⟩ := x
  · constructor
    · intro h; injection h with _ h; exact Prod.ext rfl h
    · intro h; injection h with _ h; rw [h]; rfl
  · constructor <;> (intro h; injection h with h; exact nomatch h)

theorem done3_iff {m : GoM V3.St Unit} {s u : V3.St} :
    (goRes (V3.wrapVal (fun _ => .unit) m s).1, ((m s).2, V.unit)) = (.ok .unit, (u, .unit)) ↔ m s = (.ok (), u) := by
  unfold V3.wrapVal
  rw [bind_run]
  rcases m s with ⟨r | p, v⟩
  · constructor
    · intro h; injection h with _ h; injection h with h; exact Prod.ext rfl h
    · intro h; injection h with _ h; rw [h]; rfl
  · constructor <;> (intro h; injection h with h; exact nomatch h)

/-- C135: the same for the text of v3/buffer.generated.go. -/
theorem C135_v3_text :
    ∃ funs, compileAll V3Buffer.text = some funs ∧
    ∀ (fuel depth : Nat), 2 ^ 64 < fuel → 3 ≤ depth → ∀ (s s' : V3.St) (q : Nat → Nat → Nat) (slices : List Slice), slices.length ≤ maxAlloc →
    slices.length ≠ 1 → (∀ t ∈ slices, SliceOK s.mem t) →
    (⟨funs, V3Buffer.errs⟩ : Pkg).callBuf fuel depth (str% "NewBuffer") [.slices slices] (s, .unit) = (.ok .unit, (s', .unit)) →
    ∀ (ops : List V3.Op), (∀ op ∈ ops, Fits op) → (∀ op ∈ ops, op.Valid s.mem) → V3.CutsZeros ops s' →
    (∀ x ∈ (textAll ⟨funs, V3Buffer.errs⟩ fuel depth ops s').1, x ≠ .panic .makeSlice) →
    ∃ t', (⟨funs, V3Buffer.errs⟩ : Pkg).callBuf fuel depth (str% "NewBuffer") [.slices slices] (s.under q, .unit) = (.ok .unit, (t', .unit)) ∧
      ((∀ x ∈ (textAll ⟨funs, V3Buffer.errs⟩ fuel depth ops t').1, x ≠ .panic .makeSlice) →
        (textAll ⟨funs, V3Buffer.errs⟩ fuel depth ops t').1 = (textAll ⟨funs, V3Buffer.errs⟩ fuel depth ops s').1 ∧
        V3.Shows (textAll ⟨funs, V3Buffer.errs⟩ fuel depth ops s').2 (textAll ⟨funs, V3Buffer.errs⟩ fuel depth ops t').2) := by
  have hM := maxAlloc_lt
  obtain ⟨funs, hc, hcall⟩ := C81_buffer_text
  obtain ⟨funs', hc', hnew⟩ := C81_constructor_text
  obtain rfl : funs = funs' := Option.some.inj (hc.symm.trans hc')
  refine ⟨funs, hc, fun fuel depth hf hd s s' q slices hl h1 hs e ops ho hv cz ms => ?_⟩
  have key : ∀ (ops : List V3.Op) (s : V3.St), (∀ op ∈ ops, Fits op) →
      textAll ⟨funs, V3Buffer.errs⟩ fuel depth ops s = (V3.observed ops s, (V3.execAll ops s).2) := by
    intro ops
    induction ops with
    | nil => intros; rfl
    | cons op ops ih =>
      intro s ho
      simp only [textAll, hcall fuel depth hf hd op (ho op (List.mem_cons_self ..)), seenRes_goRes,
        ih _ fun o h => ho o (List.mem_cons_of_mem _ h)]
      rfl
  have new : ∀ u u' : V3.St, (⟨funs, V3Buffer.errs⟩ : Pkg).callBuf fuel depth (str% "NewBuffer") [.slices slices] (u, .unit) = (.ok .unit, (u', .unit)) ↔
      V3.Buffer.NewBuffer slices u = (.ok (), u') := by
    intro u u'
    rw [hnew fuel depth hf hd slices (by omega) u .unit]
    exact done3_iff
  rw [key ops s' ho] at ms ⊢
  obtain ⟨t', a, b⟩ := V3.C135_v3_policy q hl h1 hs ((new s s').mp e) ops hv cz ms
  refine ⟨t', (new _ t').mpr a, fun mt => ?_⟩
  rw [key ops t' ho] at mt ⊢
  exact b mt

/-- C135: the same for the texts of v2/buffer.go and v2/utils.go. -/
theorem C135_v2_text :
    ∃ funs, compileAll (V2Utils.text ++ V2Buffer.text) = some funs ∧
    ∀ (fuel depth : Nat), 2 ^ 64 < fuel → 4 ≤ depth → ∀ (s : V3.St) (s' : Sh) (q : Nat → Nat → Nat) (slices : List Slice), slices.length ≤ maxAlloc →
    slices.length ≠ 1 → (∀ t ∈ slices, SliceOK s.mem t) →
    ((⟨funs, V2Buffer.errs⟩ : Pkg).call fuel depth (str% "NewBuffer") [.slices slices] : Prog V).run ⟨s, false⟩ = (.ok .unit, s') →
    ∀ (ops : List V2.Op2), (∀ op ∈ ops, Two.Fits op) → (∀ op ∈ ops, op.Of s.mem) →
    ∃ t', ((⟨funs, V2Buffer.errs⟩ : Pkg).call fuel depth (str% "NewBuffer") [.slices slices] : Prog V).run ⟨s.under q, false⟩ = (.ok .unit, ⟨t', false⟩) ∧
      (textHist (textCall ⟨funs, V2Buffer.errs⟩ fuel depth) ops t').1 = (textHist (textCall ⟨funs, V2Buffer.errs⟩ fuel depth) ops s'.st).1 ∧
      (textHist (textCall ⟨funs, V2Buffer.errs⟩ fuel depth) ops t').2.locked = (textHist (textCall ⟨funs, V2Buffer.errs⟩ fuel depth) ops s'.st).2.locked ∧
      V3.Shows (textHist (textCall ⟨funs, V2Buffer.errs⟩ fuel depth) ops s'.st).2.st (textHist (textCall ⟨funs, V2Buffer.errs⟩ fuel depth) ops t').2.st := by
  have hM := maxAlloc_lt
  obtain ⟨funs, hc, hcall⟩ := C86_alone_text
  obtain ⟨funs', hc', hnew⟩ := C86_constructor_text
  obtain rfl : funs = funs' := Option.some.inj (hc.symm.trans hc')
  refine ⟨funs, hc, fun fuel depth hf hd s s' q slices hl h1 hs e ops ho hv => ?_⟩
  have key : ∀ (ops : List V2.Op2) (s : V3.St), (∀ op ∈ ops, Two.Fits op) →
      textHist (textCall ⟨funs, V2Buffer.errs⟩ fuel depth) ops s = (V2.observed ops s, (V2.execAll ops s).2) := by
    intro ops
    induction ops with
    | nil => intros; rfl
    | cons op ops ih =>
      intro s ho
      have ih' := fun s => ih s fun x h => ho x (List.mem_cons_of_mem _ h)
      unfold textHist V2.observed V2.execAll
      simp only [hcall fuel depth hf hd op (ho _ (List.mem_cons_self ..)), seenRes_goRes, ih']
      split <;> rfl
  have new : ∀ u u' : Sh, ((⟨funs, V2Buffer.errs⟩ : Pkg).call fuel depth (str% "NewBuffer") [.slices slices] : Prog V).run u = (.ok .unit, u') ↔
      (V2.Buffer.NewBuffer slices).run u = (.ok (), u') := by
    intro u u'
    rw [hnew fuel depth hf hd slices (by omega), Prog.run_map]
    exact done_iff
  obtain ⟨t', a, b⟩ := V2.C135_v2_policy q hl h1 hs ((new _ s').mp e) ops hv
  refine ⟨t', (new _ _).mpr a, ?_⟩
  rw [key ops s'.st ho, key ops t' ho]
  exact b

/-- C135: the same for the texts of v1/buffer.go and v1/utils.go. -/
theorem C135_v1_text :
    ∃ funs, compileAll (V1Utils.text ++ V1Buffer.text) = some funs ∧
    ∀ (fuel depth : Nat), 2 ^ 64 < fuel → 4 ≤ depth → ∀ (s : V3.St) (s' : Sh) (q : Nat → Nat → Nat) (slices : List Slice), slices.length ≤ maxAlloc →
    slices.length ≠ 1 → (∀ t ∈ slices, SliceOK s.mem t) →
    ((⟨funs, V1Buffer.errs⟩ : Pkg).call fuel depth (str% "NewBuffer") [.slices slices] : Prog V).run ⟨s, false⟩ = (.ok .unit, s') →
    ∀ (ops : List V1.Op1), (∀ op ∈ ops, One.Fits op) → (∀ op ∈ ops, op.Of s.mem) → V1.ReadsWithin ops s'.st →
    ∃ t', ((⟨funs, V1Buffer.errs⟩ : Pkg).call fuel depth (str% "NewBuffer") [.slices slices] : Prog V).run ⟨s.under q, false⟩ = (.ok .unit, ⟨t', false⟩) ∧
      (textHist (textCall1 ⟨funs, V1Buffer.errs⟩ fuel depth) ops t').1 = (textHist (textCall1 ⟨funs, V1Buffer.errs⟩ fuel depth) ops s'.st).1 ∧
      (textHist (textCall1 ⟨funs, V1Buffer.errs⟩ fuel depth) ops t').2.locked = (textHist (textCall1 ⟨funs, V1Buffer.errs⟩ fuel depth) ops s'.st).2.locked ∧
      V3.Shows (textHist (textCall1 ⟨funs, V1Buffer.errs⟩ fuel depth) ops s'.st).2.st (textHist (textCall1 ⟨funs, V1Buffer.errs⟩ fuel depth) ops t').2.st := by
  have hM := maxAlloc_lt
  obtain ⟨funs, hc, hcall⟩ := C87_alone_text
  obtain ⟨funs', hc', hnew⟩ := C87_constructor_text
  obtain rfl : funs = funs' := Option.some.inj (hc.symm.trans hc')
  refine ⟨funs, hc, fun fuel depth hf hd s s' q slices hl h1 hs e ops ho hv hr => ?_⟩
  have key : ∀ (ops : List V1.Op1) (s : V3.St), (∀ op ∈ ops, One.Fits op) →
      textHist (textCall1 ⟨funs, V1Buffer.errs⟩ fuel depth) ops s = (V1.observed1 ops s, (V1.execAll1 ops s).2) := by
    intro ops
    induction ops with
    | nil => intros; rfl
    | cons op ops ih =>
      intro s ho
      have ih' := fun s => ih s fun x h => ho x (List.mem_cons_of_mem _ h)
      unfold textHist V1.observed1 V1.execAll1
      simp only [hcall fuel depth hf hd op (ho _ (List.mem_cons_self ..)), seenRes_goRes1, ih']
      split <;> rfl
  have new : ∀ u u' : Sh, ((⟨funs, V1Buffer.errs⟩ : Pkg).call fuel depth (str% "NewBuffer") [.slices slices] : Prog V).run u = (.ok .unit, u') ↔
      (V1.Buffer.NewBuffer slices).run u = (.ok (), u') := by
    intro u u'
    rw [hnew fuel depth hf hd slices (by omega), Prog.run_map]
    exact done_iff
  obtain ⟨t', a, b⟩ := V1.C135_v1_policy q hl h1 hs ((new _ s').mp e) ops hv hr
  refine ⟨t', (new _ _).mpr a, ?_⟩
  rw [key ops s'.st ho, key ops t' ho]
  exact b

end Crunch.Src
