import Verif.Lemmas.Calm
import Verif.Props.Footprints

/-!
# Calls that are not disturbed (C117)

A call during which no other goroutine changes what it reads; and `ReadByte`, which looks at the content once, after its section.
-/

namespace Crunch.V2
open V3 (Buf Val St WF demo)

/-- C117: a call of v2 `Buffer` other than `Grow` and `Reset` during which no other goroutine changes a place the call may read has the outcome it would
have alone at its start, and leaves these places, and all others in `P`, as it would alone. -/
theorem C117_calm {c0 c c' : Conf Op2 Val} {τ0 τ : Trace Op2 Val} {i : Nat} {P : Loc → Prop} {op : Op2} {r : Res Val} (q : Quiet c0)
    (e : Exec exec anyOp c0 τ0 c) (h : WF c.sh.st) (hp : inPlace op = true) (hP : ∀ l, mayRead c.sh.st.b op l → P l)
    (d : CalmCall exec anyOp i P c op τ r c') :
    r = ((exec op).run ⟨c.sh.st, false⟩).1 ∧ ∀ l, P l → l.same c'.sh.st ((exec op).run ⟨c.sh.st, false⟩).2.st :=
  calm (fun op _ => exec_brk op) q e (C113_footprint (s := ⟨c.sh.st, false⟩) h op hp) hP d

theorem late_ReadByte (o : Int64) (s : Sh) : (Buffer.ReadByte o).Late Loc.shape s := by
  refine ⟨trivial, ?_⟩
  by_cases h1 : o + 1 > s.st.b.cap
  · simp [Prog.panicIf, h1, Prog.bind, Field.get, Bind.bind, Prog.Late]
  · by_cases h2 : o < 0
    · simp [Prog.panicIf, h1, h2, Prog.bind, Field.get, Bind.bind, Prog.Late]
    · simp [Prog.panicIf, h1, h2, Prog.bind, Field.get, Bind.bind, Prog.Late, Prog.locked, Prog.buf, Prog.reslice]
      intro hl
      refine ⟨trivial, ?_⟩
      dsimp only
      split
      · refine ⟨rfl, ?_⟩
        simp only [Prog.loadAt, Prog.bind]
        split
        · exact fun v => ⟨_, rfl⟩
        · exact True.intro
      · exact ⟨rfl, True.intro⟩

/-- C117: `ReadByte` takes effect at one moment: whatever the others do, as long as none of them changes the capacity or which memory is the
content, its outcome is that of a call made alone at some moment between its start and its end. -/
theorem C117_moment {c0 c c' : Conf Op2 Val} {τ0 τ : Trace Op2 Val} {i : Nat} {o : Int64} {r : Res Val} (q : Quiet c0)
    (e : Exec exec anyOp c0 τ0 c) (d : CalmCall exec anyOp i Loc.shape c (.readByte (some o)) τ r c') :
    ∃ m, DuringCall exec anyOp i Loc.shape c (.readByte (some o)) τ r m ∧ r = ((exec (.readByte (some o))).run ⟨m.sh.st, false⟩).1 :=
  late (fun op _ => exec_brk op) q e ((late_ReadByte o _).map _) d

/-- `ReadByte` of the first byte: its checks, its section, and its load at the end, while another goroutine writes the byte at the offset. -/
def demoCalm : List (Nat × Option Op2) := steps 0 4 ++ (1, some (.writeByte none 9)) :: steps 1 11 ++ steps 0 1

/-- What `ReadByte` of the first byte may read. -/
def demoCalmP : List Loc := [.header, .field .cap, .field .bcap, .byte 0 2]

theorem demoCalm_reads (l : Loc) (h : mayRead demo.b (.readByte (some 0)) l) : l ∈ demoCalmP := by
  cases l with
  | header => simp [demoCalmP]
  | field f =>
    cases f with
    | cap | bcap => simp [demoCalmP]
    | off | boff => exact nomatch h
  | byte a i =>
    rcases h with ⟨x, h1, h2, _, h3⟩ | ⟨t, h, _⟩
    · have h2 : (x : Int) < 1 := h2
      have : x = 0 := by omega
      subst this
      rw [h3]; simp [demoCalmP, demo]
    · exact nomatch h

/-- A case for C117. -/
theorem demoCalm_runs : ∃ τ r c', CalmCall exec anyOp 0 (· ∈ demoCalmP) (rest _ _ demo) (.readByte (some 0)) τ r c' ∧
    c'.sh.st.bytes = [3, 4, 5, 9, 7, 8, 9, 10, 11, 12, 13, 14] := by
  obtain ⟨τ, r, c', d, h⟩ := calmCall_sound (allowed := anyOp) (exe := exec) (c := rest _ _ demo) (i := 0) (ps := demoCalmP)
    (op := .readByte (some 0)) (l := demoCalm) (fun _ c => c.sh.st.bytes == [3, 4, 5, 9, 7, 8, 9, 10, 11, 12, 13, 14])
    trivial (fun _ _ _ _ => trivial) (by decide +kernel)
  exact ⟨τ, r, c', d, by simpa using h⟩

example : ∃ τ c', CalmCall exec anyOp 0 (· ∈ demoCalmP) (rest _ _ demo) (.readByte (some 0)) τ (.ok (.u8 3)) c' := by
  obtain ⟨τ, r, c', d, _⟩ := demoCalm_runs
  have := (C117_calm (rest_quiet demo) .nil V3.demo_wf rfl demoCalm_reads d).1
  subst this
  exact ⟨τ, c', d⟩

/-- The byte is written between the section and the load, by a goroutine that does not touch the slice. -/
theorem demoMoment_runs : ∃ τ c', CalmCall exec anyOp 0 (· ∈ [Loc.header, .field .cap]) (rest _ _ demo) (.readByte (some 3)) τ (.ok (.u8 9)) c' := by
  obtain ⟨τ, r, c', d, h⟩ := calmCall_sound (allowed := anyOp) (exe := exec) (c := rest _ _ demo) (i := 0) (ps := [Loc.header, .field .cap])
    (op := .readByte (some 3)) (l := demoCalm) (fun r _ => r matches .ok (.u8 9)) trivial (fun _ _ _ _ => trivial) (by decide +kernel)
  split at h
  · exact ⟨τ, c', d⟩
  · exact nomatch h

theorem shape_list : (fun l => l ∈ [Loc.header, .field .cap]) = Loc.shape := by
  funext l
  cases l with
  | header => simp [Loc.shape]
  | field f => cases f <;> simp [Loc.shape]
  | byte a i => simp [Loc.shape]

/-- A case for the moment: the outcome is not that of a call made at the start. -/
example : ∃ m : Conf Op2 Val, ((exec (.readByte (some 3))).run ⟨m.sh.st, false⟩).1 = .ok (.u8 9) ∧
    ((exec (.readByte (some 3))).run ⟨demo, false⟩).1 = .ok (.u8 6) := by
  obtain ⟨τ, c', d⟩ := demoMoment_runs
  rw [shape_list] at d
  obtain ⟨m, _, hm⟩ := C117_moment (rest_quiet demo) .nil d
  exact ⟨m, hm.symm, rfl⟩

end Crunch.V2

namespace Crunch.V1
open V3 (Buf Val St WF demo)

/-- C117: a call of v1 `Buffer` other than `Grow` during which no other goroutine changes a place the call may read has the outcome it would
have alone at its start, and leaves these places, and all others in `P`, as it would alone. -/
theorem C117_v1_calm {c0 c c' : Conf Op1 Val1} {τ0 τ : Trace Op1 Val1} {i : Nat} {P : Loc → Prop} {op : Op1} {r : Res Val1} (q : Quiet c0)
    (e : Exec exec1 anyOp1 c0 τ0 c) (h : WF c.sh.st) (hp : inPlace1 op = true) (hP : ∀ l, mayRead1 c.sh.st.b op l → P l)
    (d : CalmCall exec1 anyOp1 i P c op τ r c') :
    r = ((exec1 op).run ⟨c.sh.st, false⟩).1 ∧ ∀ l, P l → l.same c'.sh.st ((exec1 op).run ⟨c.sh.st, false⟩).2.st :=
  calm (fun op _ => exec1_brk op) q e (C113_v1_footprint (s := ⟨c.sh.st, false⟩) h op hp) hP d

theorem late_ReadByte (o : Int64) (s : Sh) : (Buffer.ReadByte o).Late Loc.shape s := by
  refine ⟨trivial, ?_⟩
  by_cases h1 : o + 1 > s.st.b.cap
  · simp [Prog.panicIf, h1, Prog.bind, Field.get, Bind.bind, Prog.Late]
  · by_cases h2 : o < 0
    · simp [Prog.panicIf, h1, h2, Prog.bind, Field.get, Bind.bind, Prog.Late]
    · simp [Prog.panicIf, h1, h2, Prog.bind, Field.get, Bind.bind, Prog.Late, Prog.locked, Prog.buf, Prog.reslice]
      intro hl
      refine ⟨trivial, ?_⟩
      dsimp only
      split
      · refine ⟨rfl, ?_⟩
        simp only [Prog.loadAt, Prog.bind]
        split
        · exact fun v => ⟨_, rfl⟩
        · exact True.intro
      · exact ⟨rfl, True.intro⟩

/-- C117: `ReadByte` takes effect at one moment: whatever the others do, as long as none of them changes the capacity or which memory is the
content, its outcome is that of a call made alone at some moment between its start and its end. -/
theorem C117_v1_moment {c0 c c' : Conf Op1 Val1} {τ0 τ : Trace Op1 Val1} {i : Nat} {o : Int64} {r : Res Val1} (q : Quiet c0)
    (e : Exec exec1 anyOp1 c0 τ0 c) (d : CalmCall exec1 anyOp1 i Loc.shape c (.readByte (some o)) τ r c') :
    ∃ m, DuringCall exec1 anyOp1 i Loc.shape c (.readByte (some o)) τ r m ∧ r = ((exec1 (.readByte (some o))).run ⟨m.sh.st, false⟩).1 :=
  late (fun op _ => exec1_brk op) q e ((late_ReadByte o _).map _) d

/-- C75, what holds of overlapping calls: `ReadComplex`, though it loads the bytes after its section, reads what it would read alone at its
start, if no other goroutine changes during the call what it reads: the fields it looks at, which memory is the content, and the bytes. -/
theorem C75_calm_partial {c0 c c' : Conf Op1 Val1} {τ0 τ : Trace Op1 Val1} {i : Nat} {p : Option Int64} {n w : Int64} {en : ByteOrder} {r : Res Val1}
    (q : Quiet c0) (e : Exec exec1 anyOp1 c0 τ0 c) (h : WF c.sh.st)
    (d : CalmCall exec1 anyOp1 i (mayRead1 c.sh.st.b (.readComplex p n w en)) c (.readComplex p n w en) τ r c') :
    r = ((exec1 (.readComplex p n w en)).run ⟨c.sh.st, false⟩).1 := (C117_v1_calm q e h rfl (fun _ hl => hl) d).1

/-- `ReadComplex` of the first two bytes while another goroutine writes two integers at the offset. -/
def demoCalm : List (Nat × Option Op1) :=
  steps 0 5 ++ (1, some (.writeComplex none (.u16 [0x1122, 0x3344]) Unsigned16 (some .le))) :: steps 1 17 ++ steps 0 1

/-- What it may read. -/
def demoCalmP : List Loc := [.header, .field .cap, .field .bcap, .byte 0 2, .byte 0 3]

theorem demoCalm_reads (l : Loc) (h : mayRead1 demo.b (.readComplex (some 0) 1 Unsigned16 (some .be)) l) : l ∈ demoCalmP := by
  cases l with
  | header => simp [demoCalmP]
  | field f =>
    cases f with
    | cap | bcap => simp [demoCalmP]
    | off | boff => exact nomatch h
  | byte a i =>
    rcases h with ⟨x, h1, h2, _, h3⟩ | ⟨x, h1, h2, h3⟩ | ⟨t, h, _⟩
    · have h2 : (x : Int) < 0 := h2
      omega
    · have h2 : (x : Int) < 2 := h2
      have : x = 0 ∨ x = 1 := by omega
      rcases this with rfl | rfl <;> (rw [h3]; simp [demoCalmP, demo])
    · exact nomatch h

/-- A case for C117 and C75. -/
theorem demoCalm_runs : ∃ τ c', CalmCall exec1 anyOp1 0 (· ∈ demoCalmP) (rest _ _ demo) (.readComplex (some 0) 1 Unsigned16 (some .be)) τ
      (.ok (.any (.u16 [0x0304]))) c' ∧ c'.sh.st.bytes = [3, 4, 5, 0x22, 0x11, 0x44, 0x33, 10, 11, 12, 13, 14] := by
  obtain ⟨τ, r, c', d, h⟩ := calmCall_sound (allowed := anyOp1) (exe := exec1) (c := rest _ _ demo) (i := 0) (ps := demoCalmP)
    (op := .readComplex (some 0) 1 Unsigned16 (some .be)) (l := demoCalm)
    (fun r c => (r matches .ok (.any (.u16 [0x0304]))) && c.sh.st.bytes == [3, 4, 5, 0x22, 0x11, 0x44, 0x33, 10, 11, 12, 13, 14])
    trivial (fun _ _ _ _ => trivial) (by decide +kernel)
  simp only [Bool.and_eq_true, beq_iff_eq] at h
  obtain ⟨h1, h2⟩ := h
  split at h1
  · exact ⟨τ, c', d, h2⟩
  · exact nomatch h1

example : ((exec1 (.readComplex (some 0) 1 Unsigned16 (some .be))).run ⟨demo, false⟩).1 = .ok (.any (.u16 [0x0304])) := by
  obtain ⟨τ, c', d, _⟩ := demoCalm_runs
  exact (C117_v1_calm (rest_quiet demo) .nil V3.demo_wf rfl demoCalm_reads d).1.symm

end Crunch.V1
