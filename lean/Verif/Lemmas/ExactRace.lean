import Verif.Lemmas.Touch
import Verif.Lemmas.Exact
import Verif.Props.History

/-! From what calls do to the bytes they are about to data races. -/

namespace Crunch
open V3 (St Buf WF)

/-- The same buffer value, and arrays of the same lengths. -/
structure Shape (s t : St) : Prop where
  b : t.b = s.b
  len : SameLengths t s

theorem Shape.refl (s : St) : Shape s s := ⟨rfl, fun _ => rfl⟩
theorem Shape.trans {s t u : St} (h : Shape s t) (k : Shape t u) : Shape s u := ⟨k.b.trans h.b, fun a => (k.len a).trans (h.len a)⟩

theorem Shape.slice {s t : St} (h : Shape s t) {u : Slice} (w : SliceOK s.mem u) : SliceOK t.mem u :=
  ⟨w.len_le, by rw [h.len]; exact w.fits, by rw [h.len]; exact w.small⟩

theorem Shape.wf {s t : St} (h : Shape s t) (w : WF s) : WF t :=
  ⟨by show SliceOK _ _; rw [h.b]; exact h.slice w.ok, by rw [h.b]; exact w.cap, by rw [h.b]; exact w.bcap⟩

theorem Shape.write (s : St) (x : Nat) (bs : List UInt8) : Shape s (s.write x bs) := ⟨rfl, fun _ => length_array_blit ..⟩

theorem Shape.valid {s t : St} (h : Shape s t) {op : V3.Op} (w : op.Valid s.mem) : op.Valid t.mem := by
  cases op with
  | writeBytes p src => exact h.slice w
  | _ => exact w

theorem Shape.views {s t : St} (h : Shape s t) {op : V3.Op} (w : op.Valid s.mem) : V3.SameViews s.mem t.mem op := by
  intro src e
  cases op with
  | writeBytes p src' => cases e; exact ⟨length_view w, length_view (h.slice w)⟩
  | _ => exact nomatch e

/-- Byte `x` of the content. -/
abbrev byteLoc (b : Buf) (x : Nat) : Loc := .byte b.buf.arr (b.buf.off + x)

theorem write_elsewhere (s : St) (x : Nat) (v : UInt8) {l : Loc} (h : l ≠ byteLoc s.b x) : l.same (s.write x [v]) s :=
  changed_blit fun k hk => by rw [show k = 0 by simpa using hk]; exact h

theorem bytes_at {s : St} {x : Nat} (hx : x < s.b.buf.len) : (s.mem.array s.b.buf.arr)[s.b.buf.off + x]? = s.bytes[x]? := by
  unfold St.bytes Heap.view
  rw [List.getElem?_take, if_pos hx, List.getElem?_drop]

theorem abs_write {s : St} (h : s.OK) {x : Nat} (hx : x < s.b.buf.len) (v : UInt8) : V3.abs (s.write x [v]) = (V3.abs s).poke x v := by
  have hb := V3.length_bytes h
  rw [V3.write_eq_put h (by rw [List.length_singleton]; omega), V3.abs_put h (by rw [length_patch (by rw [List.length_singleton]; omega)]; exact hb)]
  unfold Ref.Ref.poke
  rw [set_eq_patch (by show x < s.bytes.length; omega)]
  rfl

/-- Poking a byte of the content leaves the source of a call as it is. -/
theorem lower_write {s t : St} (h : Shape s t) (w : WF s) {op : V3.Op} (hv : op.Valid s.mem) (hf : op.Foreign s.b.buf) {x : Nat} (hx : x < s.b.buf.len) (v : UInt8) :
    op.lower (t.write x [v]).mem = op.lower t.mem := by
  refine V3.lower_same fun pos src e => ?_
  subst e
  have h1 : SliceOK t.mem src := h.slice hv
  have h2 := w.ok.len_le
  have h3 := h1.len_le
  have h4 : t.b.buf.off + x + [v].length ≤ (t.mem.array t.b.buf.arr).length := by
    have := (h.wf w).ok.fits
    rw [h.b] at this ⊢
    rw [List.length_singleton]; omega
  refine view_blit_disj h4 ?_
  rw [h.b, List.length_singleton]
  have : V3.Apart src s.b.buf := hf
  unfold V3.Apart at this
  omega

variable {ex : O → Prog V} {allowed : O → Prop} {m : O → St → Res V × St}

/-- The call changes byte `x` of the content, unless that byte happens to be what it writes. -/
def Alters (m : O → St → Res V × St) (op : O) (s : St) (x : Nat) : Prop :=
  ∀ t, Shape s t → ∃ v, ¬ (byteLoc s.b x).same (m op (t.write x [v])).2 (t.write x [v])

/-- Or its outcome depends on the byte. -/
def Minds (m : O → St → Res V × St) (op : O) (s : St) (x : Nat) : Prop :=
  Alters m op s x ∨ ∀ t, Shape s t → ∃ v v', (m op (t.write x [v])).1 ≠ (m op (t.write x [v'])).1

/-- A call that runs by itself as the model says and keeps to the bytes. -/
structure Runs (ex : O → Prog V) (m : O → St → Res V × St) (s : St) (op : O) : Prop where
  alone : ∀ t b, (ex op).run ⟨t, b⟩ = ((m op t).1, ⟨(m op t).2, b⟩)
  uses : ∀ t b, Shape s t → ∃ R W, (ex op).Uses R W ⟨t, b⟩ ∧ ∀ l, W l → l.part = .bytes

theorem Runs.hits {op : O} {s : St} {x : Nat} (ru : Runs ex m s op) (h : Minds m op s x) {t : Sh} (ht : Shape s t.st) : (ex op).Hits t (byteLoc s.b x) := by
  have back : ∀ v, (ex op).Hits ⟨t.st.write x [v], t.locked⟩ (byteLoc s.b x) → (ex op).Hits t (byteLoc s.b x) := fun v hv => by
    obtain ⟨R, W, u, _⟩ := ru.uses t.st t.locked ht
    refine u.hits_any (t := ⟨t.st.write x [v], t.locked⟩) (fun l hl => write_elsewhere t.st x v ?_) rfl hv
    rw [ht.b]; exact hl
  rcases h with h | h
  · obtain ⟨v, hv⟩ := h _ ht
    obtain ⟨R, W, u, _⟩ := ru.uses (t.st.write x [v]) t.locked (ht.trans (.write ..))
    obtain ⟨q, t', r, hw⟩ := u.writes_of_changed (l := byteLoc s.b x) (by rw [ru.alone]; exact hv)
    exact back v ⟨q, t', r, .inr hw⟩
  · obtain ⟨v, v', hv⟩ := h _ ht
    obtain ⟨R, W, u, _⟩ := ru.uses (t.st.write x [v']) t.locked (ht.trans (.write ..))
    refine back v' (u.hits_of_depends (t := ⟨t.st.write x [v], t.locked⟩) (fun l hl => ?_) rfl (by rw [ru.alone, ru.alone]; exact hv))
    have hl' : l ≠ byteLoc t.st.b x := by rw [ht.b]; exact hl
    exact Loc.same_trans (write_elsewhere t.st x v hl') (Loc.same_symm (write_elsewhere t.st x v' hl'))

theorem Shape.of_reach {s : St} {b : Bool} {p q : Prog V} {t : Sh} {R W : Loc → Prop} (r : p.Reach ⟨s, b⟩ q t) (u : p.Uses R W ⟨s, b⟩) (hW : ∀ l, W l → l.part = .bytes) :
    Shape s t.st := by
  obtain ⟨_, h1, h2⟩ := r.uses u
  have hf : ∀ f, (Loc.field f).same t.st s := fun f => h1 _ fun h => nomatch hW _ h
  have hh : Loc.header.same t.st s := h1 _ fun h => nomatch hW _ h
  refine ⟨?_, h2⟩
  have e : ∀ b c : Buf, (∀ f : Field, f.get b = f.get c) → b.buf = c.buf → b = c := by
    intro b c h hb
    have h3 := h .cap; have h4 := h .bcap; have h5 := h .off; have h6 := h .boff
    cases b; cases c
    simp only [Field.get] at h3 h4 h5 h6
    simp only at hb
    subst h3 h4 h5 h6 hb
    rfl
  exact e _ _ hf hh

/-- Two calls, one of which changes a byte that the other one minds, are in a data race in some execution, from the state with a suitable value of this byte. -/
theorem races {op op' : O} {s : St} {x : Nat} {i j : Nat} (hij : i ≠ j) (ho : allowed op) (ho' : allowed op') (ru : Runs ex m s op) (ru' : Runs ex m s op')
    (h : Alters m op s x) (h' : Minds m op' s x) :
    ∃ v τ c, Exec ex allowed (rest O V (s.write x [v])) τ c ∧ started i τ = [op] ∧ started j τ = [op'] ∧ (∀ k, k ≠ i → k ≠ j → started k τ = []) ∧
      DataRace ex allowed (rest O V (s.write x [v])) τ i j op op' (byteLoc s.b x) := by
  obtain ⟨v, hv⟩ := h s (.refl s)
  obtain ⟨R, W, u, hW⟩ := ru.uses (s.write x [v]) false (.write ..)
  obtain ⟨q, t, r, hw⟩ := u.writes_of_changed (l := byteLoc s.b x) (by rw [ru.alone]; exact hv)
  exact ⟨v, race_between hij ho ho' r hw (ru'.hits h' ((Shape.write s x [v]).trans (.of_reach r u hW)))⟩

end Crunch
