import Verif.Props.Cursors
import Verif.Props.V1Hist

/-!
# Shared buffers follow the reference machine (C112)

C67 and C110 compare concurrent calls with the same calls made one after another, C78 and C94 compare those with the reference
machine.  Together: what goroutines get from a shared buffer is what the reference machine answers.
-/

namespace Crunch

theorem mem_ofThread {L : List (Nat × α)} {a : Nat × α} (h : a ∈ L) : a.2 ∈ ofThread a.1 L := by
  exact List.mem_map.mpr ⟨a, List.mem_filter.mpr ⟨h, beq_self_eq_true _⟩, rfl⟩

theorem of_mem_ofThread {L : List (Nat × α)} {i : Nat} {x : α} (h : x ∈ ofThread i L) : (i, x) ∈ L := by
  obtain ⟨a, ha, rfl⟩ := List.mem_map.mp h
  obtain ⟨h1, h2⟩ := List.mem_filter.mp ha
  cases eq_of_beq h2
  exact h1

theorem Sh.free_eq {s : Sh} (h : s.locked = false) : s = ⟨s.st, false⟩ := by
  cases s; cases h; rfl

end Crunch

namespace Crunch.V2
open Spec
open V3 (St WF Val demo demo_wf Iso abs obsRes)

/-- Argument slices that exist still exist later. -/
theorem Op2.Valid.mono {op : Op2} {m m' : Heap} (h : ∀ t, SliceOK m t → SliceOK m' t) (hv : op.Valid m) : op.Valid m' := by
  cases op <;> first | exact hv | exact h _ hv

theorem unlocked_of (op : Op2) (s : St) (h : leaks op = true → ((exec op).run ⟨s, false⟩).1.runtime = false) :
    ((exec op).run ⟨s, false⟩).2.locked = false := by
  rw [C55_releases_lock_partial]
  cases hl : leaks op with
  | false => rfl
  | true => rw [h hl]; rfl

theorem step_next {s : St} (h : WF s) (op : Op2) (hv : op.Valid s.mem) :
    WF ((exec op).run ⟨s, false⟩).2.st ∧ Iso s ((exec op).run ⟨s, false⟩).2.st := by
  rw [exec_run op s]
  exact ⟨(step2_ok h op hv).wf, (step2_ok h op hv).iso⟩

/-- Calls one after another that leave the mutex free are a history in the sense of C78. -/
theorem seq_history {s : St} (h : WF s) (L : List (Nat × Op2)) (hv : ∀ a ∈ L, a.2.Valid s.mem)
    (hc : ∀ x ∈ (seqRun exec L ⟨s, false⟩).1, leaks x.2.1 = true → x.2.2.runtime = false) :
    ValidAll (L.map (·.2)) s ∧ (execAll (L.map (·.2)) s).2 = (seqRun exec L ⟨s, false⟩).2 ∧ (seqRun exec L ⟨s, false⟩).2.locked = false ∧
      ∀ k, (observed (L.map (·.2)) s)[k]? =
        ((seqRun exec L ⟨s, false⟩).1[k]?).map fun x => obsRes (seqRun exec (L.take (k + 1)) ⟨s, false⟩).2.st.mem x.2.2 := by
  induction L generalizing s with
  | nil => exact ⟨trivial, rfl, rfl, fun _ => rfl⟩
  | cons a L ih =>
    obtain ⟨i, op⟩ := a
    have hl := unlocked_of op s (hc (i, op, _) List.mem_cons_self)
    obtain ⟨h1, h2⟩ := step_next h op (hv (i, op) List.mem_cons_self)
    have e : ((exec op).run ⟨s, false⟩).2 = ⟨((exec op).run ⟨s, false⟩).2.st, false⟩ := Sh.free_eq hl
    have hc' : ∀ x ∈ (seqRun exec L ((exec op).run ⟨s, false⟩).2).1, leaks x.2.1 = true → x.2.2.runtime = false :=
      fun x hx => hc x (List.mem_cons_of_mem _ hx)
    rw [e] at hc'
    obtain ⟨k1, k2, k3, k4⟩ := ih h1 (fun a ha => (hv a (List.mem_cons_of_mem _ ha)).mono h2.slices) hc'
    rw [← e] at k2 k3 k4
    refine ⟨⟨hv (i, op) List.mem_cons_self, fun _ => k1⟩, ?_, k3, fun k => ?_⟩
    · show (execAll (op :: L.map (·.2)) s).2 = _
      unfold execAll
      rw [hl, if_neg Bool.false_ne_true]
      exact k2
    · show (observed (op :: L.map (·.2)) s)[k]? = _
      unfold observed
      rw [hl, if_neg Bool.false_ne_true]
      cases k with
      | zero => rfl
      | succ k => exact k4 k

/-- Goroutines have got from a shared buffer, and left in it, what the reference machine says of the calls in the order `L`: each
goroutine has the outcomes of its calls in `L` executed alone one after another; those are the answers of the machine, a slice that is
returned being looked at when its call is over; and the machine ends in the state of the buffer, with the mutex free. -/
structure Follows (c0 c : Conf Op2 Val) (τ : Trace Op2 Val) (L : List (Nat × Op2)) : Prop where
  outcomes : ∀ i, finished i τ = ofThread i (seqRun exec L c0.sh).1
  answers : ∀ k, (Ref.run2 (lowerAll (L.map (·.2)) c0.sh.st) (abs c0.sh.st)).1[k]? =
    ((seqRun exec L c0.sh).1[k]?).map fun x => obsRes (seqRun exec (L.take (k + 1)) c0.sh).2.st.mem x.2.2
  state : (Ref.run2 (lowerAll (L.map (·.2)) c0.sh.st) (abs c0.sh.st)).2 = (abs c.sh.st, false)
  free : c.sh.locked = false
  good : WF c.sh.st

theorem follows {c0 c : Conf Op2 Val} {τ : Trace Op2 Val} {L : List (Nat × Op2)} (q : Quiet c0) (hw : WF c0.sh.st)
    (hL : ∀ i, finished i τ = ofThread i (seqRun exec L c0.sh).1) (hs : ∀ i, started i τ = ofThread i L) (hf : c.sh = (seqRun exec L c0.sh).2)
    (args : ∀ i, ∀ op ∈ started i τ, op.Valid c0.sh.st.mem)
    (clean : ∀ i, ∀ x ∈ finished i τ, leaks x.1 = true → x.2.runtime = false) : Follows c0 c τ L := by
  have e : c0.sh = ⟨c0.sh.st, false⟩ := Sh.free_eq q.free
  have hv : ∀ a ∈ L, a.2.Valid c0.sh.st.mem := fun a ha => args a.1 a.2 (by rw [hs]; exact mem_ofThread ha)
  have hc : ∀ x ∈ (seqRun exec L c0.sh).1, leaks x.2.1 = true → x.2.2.runtime = false := fun x hx =>
    clean x.1 x.2 (by rw [hL]; exact mem_ofThread hx)
  rw [e] at hc
  obtain ⟨k1, k2, k3, k4⟩ := seq_history hw L hv hc
  rw [← e] at k2 k3 k4
  have hr := C78_v2_history hw (L.map (·.2)) k1
  refine ⟨hL, fun k => by rw [hr]; exact k4 k, by rw [hr, k2, ← hf]; exact congrArg _ (hf ▸ k3), hf ▸ k3, ?_⟩
  have := (history2_ok hw (L.map (·.2)) k1).1
  rw [k2, ← hf] at this
  exact this

/-- C112: goroutines make calls with a single locked section, in any interleaving.  When all have returned, and no call has failed inside
its section, they have got the answers of the reference machine for the calls in the order in which they took the mutex. -/
theorem C112_reference {c0 c : Conf Op2 Val} {τ : Trace Op2 Val} (q : Quiet c0) (hw : WF c0.sh.st) (e : Exec exec Atomic c0 τ c)
    (hi : ∀ i, c.thr i = .idle) (args : ∀ i, ∀ op ∈ started i τ, op.Valid c0.sh.st.mem)
    (clean : ∀ i, ∀ x ∈ finished i τ, leaks x.1 = true → x.2.runtime = false) : Follows c0 c τ (points τ) := by
  obtain ⟨h1, h2, h3⟩ := C67_linearizable q e
  refine follows q hw (fun i => ?_) (fun i => ?_) (h3 hi) args clean
  · obtain ⟨p, hp, _, h0⟩ := h1 i
    rw [hp, h0 (hi i), List.append_nil]
  · obtain ⟨p, hp, _, h0⟩ := h2 i
    rw [hp, h0 (hi i), List.append_nil]

/-- C112: the same with Next calls, when each offset is used by one goroutine at most (C110). -/
theorem C112_own_cursor_reference {own : Nat → Field → Bool} (disj : ∀ i j f, own i f = true → own j f = true → i = j)
    {c0 c : Conf Op2 Val} {τ : Trace Op2 Val} (q : Quiet c0) (hw : WF c0.sh.st) (e : Exec exec Whole c0 τ c)
    (hu : ∀ i, ∀ op ∈ started i τ, ∀ f, uses op f = true → own i f = true)
    (hi : ∀ i, c.thr i = .idle) (args : ∀ i, ∀ op ∈ started i τ, op.Valid c0.sh.st.mem)
    (clean : ∀ i, ∀ x ∈ finished i τ, leaks x.1 = true → x.2.runtime = false) : Follows c0 c τ (points τ) := by
  obtain ⟨h1, h2, h3⟩ := C110_own_cursor disj q e hu
  refine follows q hw (fun i => ?_) (fun i => ?_) (h3 hi) args clean
  · obtain ⟨p, hp, _, h0⟩ := h1 i
    rw [hp, h0 (hi i), List.append_nil]
  · obtain ⟨p, hp, _, h0⟩ := h2 i
    rw [hp, h0 (hi i), List.append_nil]

/-- In the execution of C110's case, one goroutine writing on and one setting the next bit, the machine answers both calls and ends with
the bytes of the buffer. -/
example : ∃ τ c, Exec exec Whole (rest _ _ demo) τ c ∧ (∀ i, c.thr i = .idle) ∧ started 0 τ ≠ [] ∧ started 1 τ ≠ [] ∧
    Follows (rest _ _ demo) c τ (points τ) := by
  obtain ⟨τ, c, e, hi, hu, hp⟩ := demoOwn_runs (fun _ => True) trivial trivial
  have e := e.mono (Q := Whole) fun _ h => h.1
  obtain ⟨h1, h2, _⟩ := C110_own_cursor demoOwner_one (rest_quiet demo) e hu
  have hs : ∀ i, started i τ = ofThread i (points τ) := fun i => by
    obtain ⟨p, hp, _, h0⟩ := h2 i
    rw [hp, h0 (hi i), List.append_nil]
  have hf : ∀ i, finished i τ = ofThread i (seqRun exec (points τ) (rest _ _ demo).sh).1 := fun i => by
    obtain ⟨p, hp, _, h0⟩ := h1 i
    rw [hp, h0 (hi i), List.append_nil]
  refine ⟨τ, c, e, hi, by rw [hs, hp]; exact List.cons_ne_nil _ _, by rw [hs, hp]; exact List.cons_ne_nil _ _,
    C112_own_cursor_reference demoOwner_one (rest_quiet demo) demo_wf e hu hi (fun i op ho => ?_) fun i x hx hl => ?_⟩
  · rw [hs, hp] at ho
    rcases List.mem_cons.mp (of_mem_ofThread ho) with h | h
    · cases h; trivial
    · cases List.mem_singleton.mp h
      exact ⟨by decide, by decide, by decide⟩
  · rw [hf, hp] at hx
    have ha : ((seqRun exec [(1, .setBit none 1), (0, .writeBytes none ⟨1, 0, 1, 3⟩)] (rest Op2 Val demo).sh).1.all
      fun x => !x.2.2.runtime) = true := by decide +kernel
    simpa using List.all_eq_true.mp ha _ (of_mem_ofThread hx)

end Crunch.V2

namespace Crunch.V1
open Spec
open V3 (St WF Val demo demo_wf Iso abs obsRes)

/-- Argument slices that exist still exist later. -/
theorem Op1.Valid.mono {op : Op1} {m m' : Heap} (h : ∀ t, SliceOK m t → SliceOK m' t) (hv : op.Valid m) : op.Valid m' := by
  cases op with
  | writeComplex p d w e => cases d <;> first | exact hv | exact h _ hv
  | writeBytes p src => exact h _ hv
  | _ => trivial

theorem unlocked1_of (op : Op1) (s : St) (h : leaks1 op = true → ((exec1 op).run ⟨s, false⟩).1.runtime = false) :
    ((exec1 op).run ⟨s, false⟩).2.locked = false := by
  obtain ⟨h1, h2, h3⟩ := C73_releases_lock_partial op s
  cases hl : leaks1 op with
  | false => exact h3 hl
  | true =>
    have h := h hl
    generalize hr : ((exec1 op).run ⟨s, false⟩).1 = r at h
    match r, h with
    | .ok v, _ => exact h1 v hr
    | .panic (.err x), _ => exact h2 x hr

theorem step1_next {s : St} (h : WF s) (op : Op1) (hv : op.Valid s.mem) :
    WF ((exec1 op).run ⟨s, false⟩).2.st ∧ Iso s ((exec1 op).run ⟨s, false⟩).2.st :=
  ⟨(step1_ok h op hv).is.wf, (step1_ok h op hv).is.iso⟩

/-- Calls one after another that leave the mutex free are a history in the sense of C94. -/
theorem seq1_history {s : St} (h : WF s) (L : List (Nat × Op1)) (hv : ∀ a ∈ L, a.2.Valid s.mem)
    (hc : ∀ x ∈ (seqRun exec1 L ⟨s, false⟩).1, leaks1 x.2.1 = true → x.2.2.runtime = false) :
    ValidAll1 (L.map (·.2)) s ∧ (execAll1 (L.map (·.2)) s).2 = (seqRun exec1 L ⟨s, false⟩).2 ∧ (seqRun exec1 L ⟨s, false⟩).2.locked = false ∧
      ∀ k, (observed1 (L.map (·.2)) s)[k]? =
        ((seqRun exec1 L ⟨s, false⟩).1[k]?).map fun x => obsRes (seqRun exec1 (L.take (k + 1)) ⟨s, false⟩).2.st.mem (toRes x.2.2) := by
  induction L generalizing s with
  | nil => exact ⟨trivial, rfl, rfl, fun _ => rfl⟩
  | cons a L ih =>
    obtain ⟨i, op⟩ := a
    have hl := unlocked1_of op s (hc (i, op, _) List.mem_cons_self)
    obtain ⟨h1, h2⟩ := step1_next h op (hv (i, op) List.mem_cons_self)
    have e : ((exec1 op).run ⟨s, false⟩).2 = ⟨((exec1 op).run ⟨s, false⟩).2.st, false⟩ := Sh.free_eq hl
    have hc' : ∀ x ∈ (seqRun exec1 L ((exec1 op).run ⟨s, false⟩).2).1, leaks1 x.2.1 = true → x.2.2.runtime = false :=
      fun x hx => hc x (List.mem_cons_of_mem _ hx)
    rw [e] at hc'
    obtain ⟨k1, k2, k3, k4⟩ := ih h1 (fun a ha => (hv a (List.mem_cons_of_mem _ ha)).mono h2.slices) hc'
    rw [← e] at k2 k3 k4
    refine ⟨⟨hv (i, op) List.mem_cons_self, fun _ => k1⟩, ?_, k3, fun k => ?_⟩
    · show (execAll1 (op :: L.map (·.2)) s).2 = _
      unfold execAll1
      rw [hl, if_neg Bool.false_ne_true]
      exact k2
    · show (observed1 (op :: L.map (·.2)) s)[k]? = _
      unfold observed1
      rw [hl, if_neg Bool.false_ne_true]
      cases k with
      | zero => rfl
      | succ k => exact k4 k

/-- Goroutines have got from a shared buffer, and left in it, what the reference machine says of the calls in the order `L`: each
goroutine has the outcomes of its calls in `L` executed alone one after another; those are the answers of the machine, a slice that is
returned being looked at when its call is over; and the machine ends in the state of the buffer, with the mutex free. -/
structure Follows1 (c0 c : Conf Op1 Val1) (τ : Trace Op1 Val1) (L : List (Nat × Op1)) : Prop where
  outcomes : ∀ i, finished i τ = ofThread i (seqRun exec1 L c0.sh).1
  answers : ∀ k, (Ref.run1 (lowerAll1 (L.map (·.2)) c0.sh.st) (abs c0.sh.st)).1[k]? =
    ((seqRun exec1 L c0.sh).1[k]?).map fun x => obsRes (seqRun exec1 (L.take (k + 1)) c0.sh).2.st.mem (toRes x.2.2)
  state : (Ref.run1 (lowerAll1 (L.map (·.2)) c0.sh.st) (abs c0.sh.st)).2 = (abs c.sh.st, false)
  free : c.sh.locked = false
  good : WF c.sh.st

theorem follows1 {c0 c : Conf Op1 Val1} {τ : Trace Op1 Val1} {L : List (Nat × Op1)} (q : Quiet c0) (hw : WF c0.sh.st)
    (hL : ∀ i, finished i τ = ofThread i (seqRun exec1 L c0.sh).1) (hs : ∀ i, started i τ = ofThread i L) (hf : c.sh = (seqRun exec1 L c0.sh).2)
    (args : ∀ i, ∀ op ∈ started i τ, op.Valid c0.sh.st.mem)
    (clean : ∀ i, ∀ x ∈ finished i τ, leaks1 x.1 = true → x.2.runtime = false) : Follows1 c0 c τ L := by
  have e : c0.sh = ⟨c0.sh.st, false⟩ := Sh.free_eq q.free
  have hv : ∀ a ∈ L, a.2.Valid c0.sh.st.mem := fun a ha => args a.1 a.2 (by rw [hs]; exact mem_ofThread ha)
  have hc : ∀ x ∈ (seqRun exec1 L c0.sh).1, leaks1 x.2.1 = true → x.2.2.runtime = false := fun x hx =>
    clean x.1 x.2 (by rw [hL]; exact mem_ofThread hx)
  rw [e] at hc
  obtain ⟨k1, k2, k3, k4⟩ := seq1_history hw L hv hc
  rw [← e] at k2 k3 k4
  have hr := C94_v1_history hw (L.map (·.2)) k1
  refine ⟨hL, fun k => by rw [hr]; exact k4 k, by rw [hr, k2, ← hf]; exact congrArg _ (hf ▸ k3), hf ▸ k3, ?_⟩
  have := (history1_ok hw (L.map (·.2)) k1).1
  rw [k2, ← hf] at this
  exact this

/-- C112: goroutines make calls with a single locked section, in any interleaving.  When all have returned, and no call has failed inside
its section, they have got the answers of the reference machine for the calls in the order in which they took the mutex. -/
theorem C112_v1_reference {c0 c : Conf Op1 Val1} {τ : Trace Op1 Val1} (q : Quiet c0) (hw : WF c0.sh.st) (e : Exec exec1 Atomic1 c0 τ c)
    (hi : ∀ i, c.thr i = .idle) (args : ∀ i, ∀ op ∈ started i τ, op.Valid c0.sh.st.mem)
    (clean : ∀ i, ∀ x ∈ finished i τ, leaks1 x.1 = true → x.2.runtime = false) : Follows1 c0 c τ (points τ) := by
  obtain ⟨h1, h2, h3⟩ := C72_linearizable q e
  refine follows1 q hw (fun i => ?_) (fun i => ?_) (h3 hi) args clean
  · obtain ⟨p, hp, _, h0⟩ := h1 i
    rw [hp, h0 (hi i), List.append_nil]
  · obtain ⟨p, hp, _, h0⟩ := h2 i
    rw [hp, h0 (hi i), List.append_nil]

/-- C112: the same with Next calls, when each offset is used by one goroutine at most (C110). -/
theorem C112_v1_own_cursor_reference {own : Nat → Field → Bool} (disj : ∀ i j f, own i f = true → own j f = true → i = j)
    {c0 c : Conf Op1 Val1} {τ : Trace Op1 Val1} (q : Quiet c0) (hw : WF c0.sh.st) (e : Exec exec1 Whole1 c0 τ c)
    (hu : ∀ i, ∀ op ∈ started i τ, ∀ f, uses1 op f = true → own i f = true)
    (hi : ∀ i, c.thr i = .idle) (args : ∀ i, ∀ op ∈ started i τ, op.Valid c0.sh.st.mem)
    (clean : ∀ i, ∀ x ∈ finished i τ, leaks1 x.1 = true → x.2.runtime = false) : Follows1 c0 c τ (points τ) := by
  obtain ⟨h1, h2, h3⟩ := C110_v1_own_cursor disj q e hu
  refine follows1 q hw (fun i => ?_) (fun i => ?_) (h3 hi) args clean
  · obtain ⟨p, hp, _, h0⟩ := h1 i
    rw [hp, h0 (hi i), List.append_nil]
  · obtain ⟨p, hp, _, h0⟩ := h2 i
    rw [hp, h0 (hi i), List.append_nil]

/-- In the execution of C110's case, one goroutine appending an integer and one writing a byte, the machine answers both calls and ends with
the bytes of the buffer. -/
example : ∃ τ c, Exec exec1 Whole1 (rest _ _ demo) τ c ∧ (∀ i, c.thr i = .idle) ∧ started 0 τ ≠ [] ∧ started 1 τ ≠ [] ∧
    Follows1 (rest _ _ demo) c τ (points τ) := by
  obtain ⟨τ, c, e, hi, hu, hp, _⟩ := demoOwn1_runs (fun _ => True) trivial trivial
  have e := e.mono (Q := Whole1) fun _ h => h.1
  obtain ⟨h1, h2, _⟩ := C110_v1_own_cursor V2.demoOwner_one (rest_quiet demo) e hu
  have hs : ∀ i, started i τ = ofThread i (points τ) := fun i => by
    obtain ⟨p, hp, _, h0⟩ := h2 i
    rw [hp, h0 (hi i), List.append_nil]
  have hf : ∀ i, finished i τ = ofThread i (seqRun exec1 (points τ) (rest _ _ demo).sh).1 := fun i => by
    obtain ⟨p, hp, _, h0⟩ := h1 i
    rw [hp, h0 (hi i), List.append_nil]
  refine ⟨τ, c, e, hi, by rw [hs, hp]; exact List.cons_ne_nil _ _, by rw [hs, hp]; exact List.cons_ne_nil _ _,
    C112_v1_own_cursor_reference V2.demoOwner_one (rest_quiet demo) demo_wf e hu hi (fun i op ho => ?_) fun i x hx hl => ?_⟩
  · rw [hs, hp] at ho
    rcases List.mem_cons.mp (of_mem_ofThread ho) with h | h
    · cases h; trivial
    · cases List.mem_singleton.mp h
      show 1 * 2 ≤ maxAlloc
      decide
  · rw [hf, hp] at hx
    have ha : ((seqRun exec1 [(1, .writeByte (some 3) 9), (0, .writeComplex none (.u16 [0x1122]) 2 (some .be))] (rest Op1 Val1 demo).sh).1.all
      fun x => !x.2.2.runtime) = true := by decide +kernel
    simpa using List.all_eq_true.mp ha _ (of_mem_ofThread hx)

end Crunch.V1
