import Verif.Lemmas.V2FootOps
import Verif.Lemmas.V1FootOps
import Verif.Lemmas.Reading
import Verif.Lemmas.Sched
import Verif.Props.Apart

/-!
# What calls on a shared `Buffer` access

C113: the footprints of `Verif/Footprints.lean` are right.  C114: goroutines with separate footprints do not notice one another, also
with Next methods and with the methods that look at the content without the mutex.  C115: neither do goroutines that only read.
-/

namespace Crunch.V2
open V3 (Buf Val St WF demo)

/-- With the capacities of the content, `Refresh` changes nothing. -/
theorem refresh_same {s : Sh} (h : Sized s.st.b) : ((exec .refresh).run s).2.st = s.st := by
  obtain ⟨⟨m, b⟩, l⟩ := s
  have h1 : Int64.ofNat b.buf.len = b.cap := Int64.toInt_inj.mp (by
    have := h.small
    rw [h.cap, toInt_ofNat (by change b.buf.len < 2 ^ 50 at this; omega)])
  have h2 : Int64.ofNat b.buf.len * 8 = b.bcap := Int64.toInt_inj.mp (by
    have := h.small
    change b.buf.len < 2 ^ 50 at this
    have h3 := h.cap
    change b.cap.toInt = b.buf.len at h3
    have e8 : (8 : Int64).toInt = 8 := rfl
    rw [h1, show b.bcap.toInt = 8 * b.buf.len from h.bcap, toInt_mul, h3, e8]
    omega)
  cases l with
  | true => rfl
  | false =>
    show (⟨m, ⟨b.buf, b.off, Int64.ofNat b.buf.len, b.boff, Int64.ofNat b.buf.len * 8⟩⟩ : St) = _
    rw [h2, h1]

theorem uses_footprint (op : Op2) (hp : inPlace op = true) (s : Sh) (hi : (Sized) s.st.b) :
    (exec op).Uses (mayRead s.st.b op) (mayWrite s.st.b op) s := (exec_foot hi op hp).uses

theorem keeps_sized (op : Op2) (hp : inPlace op = true) (s : Sh) (hi : (Sized) s.st.b) : (Sized) ((exec op).run s).2.st.b := by
  by_cases hr : op = .refresh
  · subst hr; rw [refresh_same hi]; exact hi
  · have u := (exec_foot (l := s.locked) hi op hp).uses
    exact hi.of_same (Loc.same.of_run u (l := .header) id) (Loc.same.of_run u (l := .field .cap) hr) (Loc.same.of_run u (l := .field .bcap) hr)

/-- C113: a call of v2 `Buffer` other than `Grow` and `Reset` accesses only its footprint, whatever the state and the mutex. -/
theorem C113_footprint {s : Sh} (h : WF s.st) (op : Op2) (hp : inPlace op = true) :
    (exec op).Uses (mayRead s.st.b op) (mayWrite s.st.b op) s := uses_footprint op hp s h.sized

/-- C113: so it leaves every other place as it is. -/
theorem C113_frame {s : Sh} (h : WF s.st) (op : Op2) (hp : inPlace op = true) {l : Loc} (hl : ¬ mayWrite s.st.b op l) :
    l.same ((exec op).run s).2.st s.st := Loc.same.of_run (C113_footprint h op hp) hl

/-- C113: and it depends on nothing else: from two states that are the same at the places it may read, with the mutex in the same
condition, it has the same outcome and leaves the same places the same. -/
theorem C113_depends {s t : Sh} (h : WF t.st) (op : Op2) (hp : inPlace op = true) (hs : ∀ l, mayRead t.st.b op l → l.same s.st t.st)
    (hl : s.locked = t.locked) :
    ((exec op).run s).1 = ((exec op).run t).1 ∧ ((exec op).run s).2.locked = ((exec op).run t).2.locked ∧
      ∀ l : Loc, l.same s.st t.st → l.same ((exec op).run s).2.st ((exec op).run t).2.st := by
  exact (C113_footprint h op hp).agree hs hl

/-- C114: goroutines on a shared v2 `Buffer` none of which changes a place another one accesses, in the footprints of their calls made
alone, get and leave what they would alone, and do not race. -/
theorem C114_separate {c0 c : Conf Op2 Val} {τ : Trace Op2 Val} {R W : Nat → Loc → Prop} (q : Quiet c0) (h0 : WF c0.sh.st)
    (e : Exec exec anyOp c0 τ c) (ap : Separate R W)
    (st : ∀ i, Stays exec mayRead mayWrite inPlace (R i) (W i) (started i τ) c0.sh) : AsAlone exec R W c0 τ c :=
  separate q ap e fun i => (st i).keeping (Inv := Sized) uses_footprint keeps_sized h0.sized

theorem placed_same (op : Op2) (h : placed op = true) (b b' : Buf) (hb : b.buf = b'.buf) : mayRead b op = mayRead b' op ∧ mayWrite b op = mayWrite b' op := by
  have e : bytesOf b op = bytesOf b' op := by
    cases op with
    | clearAll | setAll | flipAll => simp only [bytesOf]; rw [hb]
    | _ => first
      | rfl
      | (rename_i p _; cases p <;> first | rfl | cases h)
      | (rename_i p; cases p <;> first | rfl | cases h)
      | (rename_i p _ _; cases p <;> first | rfl | cases h)
  constructor
  · funext l
    cases l with
    | byte a i =>
      unfold mayRead Loc.content
      simp only []
      rw [e, hb]
    | header => rfl
    | field f => cases f <;> rfl
  · funext l
    cases l with
    | byte a i =>
      unfold mayWrite Loc.content
      simp only []
      rw [e, hb]
    | header => rfl
    | field f => cases f <;> rfl

/-- C114: for calls with positions the footprints do not depend on the run. -/
theorem C114_placed {c0 c : Conf Op2 Val} {τ : Trace Op2 Val} (q : Quiet c0) (h0 : WF c0.sh.st) (e : Exec exec anyOp c0 τ c)
    (pl : ∀ i, ∀ op ∈ started i τ, placed op = true)
    (ap : ∀ i j, i ≠ j → ∀ op ∈ started i τ, ∀ op' ∈ started j τ, ∀ l, mayWrite c0.sh.st.b op l →
      ¬ mayRead c0.sh.st.b op' l ∧ ¬ mayWrite c0.sh.st.b op' l) :
    AsAlone exec (fun i l => ∃ op ∈ started i τ, mayRead c0.sh.st.b op l) (fun i l => ∃ op ∈ started i τ, mayWrite c0.sh.st.b op l) c0 τ c := by
  refine C114_separate q h0 e (fun i j hij l ⟨op, ho, hw⟩ => ⟨fun ⟨op', ho', hr⟩ => (ap i j hij op ho op' ho' l hw).1 hr,
    fun ⟨op', ho', hr⟩ => (ap i j hij op ho op' ho' l hw).2 hr⟩) fun i => ?_
  exact Stays.fixed (Inv := Sized) (pl := placed) uses_footprint keeps_sized (fun _ _ h => h) (fun op h => by
    simp only [placed, Bool.and_eq_true] at h; exact h.1.1.1) placed_same rfl h0.sized (pl i)
    (fun op ho x hx => ⟨op, ho, hx⟩) fun op ho x hx => ⟨op, ho, hx⟩

theorem onlyReads_none (op : Op2) (h : onlyReads op = true) (b : Buf) (l : Loc) : ¬ mayWrite b op l := by
  simp only [onlyReads, Bool.and_eq_true, Bool.not_eq_true'] at h
  obtain ⟨⟨⟨⟨_, h1⟩, h2⟩, h3⟩, h4⟩ := h
  have h4 : op ≠ .refresh := fun e => by subst e; exact nomatch h4
  cases l with
  | header => exact id
  | field f =>
    cases f with
    | cap | bcap => exact h4
    | off => exact fun h => nomatch h2.symm.trans h
    | boff => exact fun h => nomatch h3.symm.trans h
  | byte a i => exact fun h => nomatch h1.symm.trans h.1

/-- C115: goroutines that only read a shared v2 `Buffer` change nothing, each call gets what it would get as the only one, and nobody
races, though `ReadByte` looks at the content without the mutex. -/
theorem C115_readers {c0 c : Conf Op2 Val} {τ : Trace Op2 Val} (q : Quiet c0) (h0 : WF c0.sh.st) (e : Exec exec anyOp c0 τ c)
    (rd : ∀ i, ∀ op ∈ started i τ, onlyReads op = true) : Reading exec c0 τ c :=
  reading (R := fun _ => True) q e fun i op ho => (C113_footprint h0 op (by
    have := rd i op ho
    simp only [onlyReads, Bool.and_eq_true] at this
    exact this.1.1.1.1)).mono (fun _ _ => trivial) fun l h => onlyReads_none op (rd i op ho) _ l h

/-- `ReadByte` waits before its load while the other goroutine writes two bytes at the offset. -/
def demoSep : List (Nat × Option Op2) :=
  (1, some (.readByte (some 0))) :: steps 1 4 ++ (0, some (.writeByte none 9)) :: steps 0 11 ++ (0, some (.writeByte none 10)) :: steps 0 5 ++
    steps 1 2 ++ steps 0 6

/-- The footprints of the calls of `demoSep`; the second write starts at offset 4. -/
def demoSepR (i : Nat) (l : Loc) : Prop :=
  match i with
  | 0 => mayRead demo.b (.writeByte none 9) l ∨ mayRead { demo.b with off := 4 } (.writeByte none 10) l
  | 1 => mayRead demo.b (.readByte (some 0)) l
  | _ => False
def demoSepW (i : Nat) (l : Loc) : Prop :=
  match i with
  | 0 => mayWrite demo.b (.writeByte none 9) l ∨ mayWrite { demo.b with off := 4 } (.writeByte none 10) l
  | 1 => mayWrite demo.b (.readByte (some 0)) l
  | _ => False

theorem demoSepW_one (l : Loc) : ¬ demoSepW 1 l := onlyReads_none (.readByte (some 0)) rfl demo.b l

theorem demoSepW_zero {l : Loc} (h : demoSepW 0 l) : l = .field .off ∨ ∃ n : Nat, 5 ≤ n ∧ l = .byte 0 n := by
  have e : ∀ {b : Buf} {v : UInt8}, b.buf = demo.b.buf → 3 ≤ b.off.toInt → mayWrite b (.writeByte none v) l → l = .field .off ∨ ∃ n : Nat, 5 ≤ n ∧ l = .byte 0 n := by
    intro b v hb ho h
    cases l with
    | header => exact h.elim
    | field f =>
      cases f with
      | off => exact .inl rfl
      | boff | cap | bcap => exact nomatch h
    | byte a n =>
      obtain ⟨_, x, hx, _, _, he⟩ := h
      have hx : b.off.toInt ≤ x := hx
      rw [hb] at he
      exact .inr ⟨2 + x, by omega, he⟩
  rcases h with h | h
  · exact e (b := demo.b) rfl (by decide) h
  · exact e (b := { demo.b with off := 4 }) rfl (by decide) h

theorem demoSep_separate : Separate demoSepR demoSepW := by
  intro i j hij l hw
  match i with
  | 0 =>
    match j with
    | 0 => exact absurd rfl hij
    | 1 =>
      refine ⟨fun hr => ?_, demoSepW_one l⟩
      rcases demoSepW_zero hw with rfl | ⟨n, hn, rfl⟩
      · exact nomatch hr
      · rcases hr with ⟨x, h1, h2, _, h3⟩ | ⟨t, h, _⟩
        · have h2 : (x : Int) < 1 := h2
          have h3 : n = 2 + x := by injection h3
          omega
        · exact nomatch h
    | j + 2 => exact ⟨id, id⟩
  | 1 => exact (demoSepW_one l hw).elim
  | i + 2 => exact hw.elim

/-- A case for C114: `WriteByteNext` twice beside `ReadByte`, which is after its section when the bytes are written. -/
theorem demoSep_runs : ∃ τ c, Exec exec anyOp (rest _ _ demo) τ c ∧ (∀ i, c.thr i = .idle) ∧ Separate demoSepR demoSepW ∧
    (∀ i, Stays exec mayRead mayWrite inPlace (demoSepR i) (demoSepW i) (started i τ) (rest Op2 Val demo).sh) ∧
    (∀ i, ∀ op ∈ started i τ, op = .writeByte none 9 ∨ op = .writeByte none 10 ∨ op = .readByte (some 0)) ∧
    (finished 1 τ).map (·.2) = [.ok (.u8 3)] ∧ c.sh.st.bytes = [3, 4, 5, 9, 10, 8, 9, 10, 11, 12, 13, 14] ∧ c.sh.st.b.off = 5 := by
  obtain ⟨τ, c, e, hi, hn, h⟩ := sched_ex_only (allowed := anyOp) (ex := exec) (rest_quiet demo) 2 demoSep
    (fun τ c => (started 0 τ matches [.writeByte none 9, .writeByte none 10]) && (started 1 τ matches [.readByte (some 0)]) &&
      (finished 1 τ matches [(_, .ok (.u8 3))]) && c.sh.st.bytes == [3, 4, 5, 9, 10, 8, 9, 10, 11, 12, 13, 14] && c.sh.st.b.off == 5)
    (fun _ _ _ _ => trivial) (by decide) (by decide +kernel)
  simp only [Bool.and_eq_true, beq_iff_eq] at h
  obtain ⟨⟨⟨⟨h0, h1⟩, h2⟩, h3⟩, h4⟩ := h
  have s0 : started 0 τ = [.writeByte none 9, .writeByte none 10] := by split at h0 <;> first | assumption | exact nomatch h0
  have s1 : started 1 τ = [.readByte (some 0)] := by split at h1 <;> first | assumption | exact nomatch h1
  refine ⟨τ, c, e, hi, demoSep_separate, fun i => ?_, fun i op ho => ?_, ?_, h3, h4⟩
  · match i with
    | 0 =>
      rw [s0]
      have eb : ((exec (.writeByte none 9)).run (rest Op2 Val demo).sh).2.st.b = { demo.b with off := 4 } := by decide +kernel
      refine ⟨⟨rfl, fun _ h => .inl h, fun _ h => .inl h⟩, ⟨rfl, fun _ h => .inr ?_, fun _ h => .inr ?_⟩, trivial⟩
      · rw [eb] at h; exact h
      · rw [eb] at h; exact h
    | 1 => rw [s1]; exact ⟨⟨rfl, fun _ h => h, fun _ h => h⟩, trivial⟩
    | i + 2 => rw [(hn (i + 2) (by omega)).1]; trivial
  · match i with
    | 0 => rw [s0] at ho; simp at ho; rcases ho with rfl | rfl <;> simp
    | 1 => rw [s1] at ho; simp at ho; subst ho; simp
    | i + 2 => rw [(hn (i + 2) (by omega)).1] at ho; exact nomatch ho
  · split at h2
    · rename_i he; rw [he]; rfl
    · exact nomatch h2

example : ∃ τ c, AsAlone exec demoSepR demoSepW (rest _ _ demo) τ c ∧ c.sh.st.bytes = [3, 4, 5, 9, 10, 8, 9, 10, 11, 12, 13, 14] := by
  obtain ⟨τ, c, e, _, hs, hk, _, _, hb, _⟩ := demoSep_runs
  exact ⟨τ, c, C114_separate (rest_quiet demo) V3.demo_wf e hs hk, hb⟩

/-- Without the separation the conclusion fails: `ReadByte` of the byte that is written returns the new value. -/
example : ∃ τ c, Exec exec anyOp (rest _ _ demo) τ c ∧ (finished 1 τ).map (·.2) = [.ok (.u8 9)] ∧
    ((exec (.readByte (some 3))).run (rest Op2 Val demo).sh).1 = .ok (.u8 6) := by
  obtain ⟨τ, c, e, _, _, h⟩ := sched_ex_only (allowed := anyOp) (ex := exec) (rest_quiet demo) 2
    ((1, some (.readByte (some 3))) :: steps 1 4 ++ (0, some (.writeByte none 9)) :: steps 0 11 ++ steps 1 2)
    (fun τ c => (finished 1 τ matches [(_, .ok (.u8 9))])) (fun _ _ _ _ => trivial) (by decide) (by decide +kernel)
  refine ⟨τ, c, e, ?_, rfl⟩
  split at h
  · rename_i he; rw [he]; rfl
  · exact nomatch h

/-- Two goroutines that read: `ReadByte` is between its section and its load while `ReadBits` reads the same byte. -/
def demoReaders : List (Nat × Option Op2) :=
  (0, some (.readByte (some 3))) :: steps 0 4 ++ (1, some (.readBits (some 24) 2)) :: steps 1 6 ++ steps 0 2 ++ steps 1 5

/-- A case for C115. -/
theorem demoReaders_runs : ∃ τ c, Exec exec anyOp (rest _ _ demo) τ c ∧ (∀ i, c.thr i = .idle) ∧ (∀ i, ∀ op ∈ started i τ, onlyReads op = true) ∧
    (∀ i, ∀ op ∈ started i τ, op = .readByte (some 3) ∨ op = .readBits (some 24) 2) ∧ (finished 0 τ).map (·.2) = [.ok (.u8 6)] ∧ (finished 1 τ).length = 1 := by
  obtain ⟨τ, c, e, hi, hn, h⟩ := sched_ex_only (allowed := anyOp) (ex := exec) (rest_quiet demo) 2 demoReaders
    (fun τ c => (started 0 τ matches [.readByte (some 3)]) && (started 1 τ matches [.readBits (some 24) 2]) &&
      (finished 0 τ matches [(_, .ok (.u8 6))]) && (finished 1 τ).length == 1)
    (fun _ _ _ _ => trivial) (by decide) (by decide +kernel)
  simp only [Bool.and_eq_true, beq_iff_eq] at h
  obtain ⟨⟨⟨h0, h1⟩, h2⟩, h3⟩ := h
  have s0 : started 0 τ = [.readByte (some 3)] := by split at h0 <;> first | assumption | exact nomatch h0
  have s1 : started 1 τ = [.readBits (some 24) 2] := by split at h1 <;> first | assumption | exact nomatch h1
  have all : ∀ i, ∀ op ∈ started i τ, op = .readByte (some 3) ∨ op = .readBits (some 24) 2 := fun i op ho => by
    match i with
    | 0 => rw [s0] at ho; simp at ho; exact .inl ho
    | 1 => rw [s1] at ho; simp at ho; exact .inr ho
    | i + 2 => rw [(hn (i + 2) (by omega)).1] at ho; exact nomatch ho
  refine ⟨τ, c, e, hi, fun i op ho => ?_, all, ?_, h3⟩
  · rcases all i op ho with rfl | rfl <;> rfl
  · split at h2
    · rename_i he; rw [he]; rfl
    · exact nomatch h2

example : ∃ τ c, Reading exec (rest _ _ demo) τ c ∧ (finished 0 τ).map (·.2) = [.ok (.u8 6)] := by
  obtain ⟨τ, c, e, _, hr, _, hf, _⟩ := demoReaders_runs
  exact ⟨τ, c, C115_readers (rest_quiet demo) V3.demo_wf e hr, hf⟩

/-- A case for C113: the byte behind the one that is written does not change. -/
example : (Loc.byte 0 6).same ((exec (.writeByte (some 3) 9)).run ⟨demo, false⟩).2.st demo :=
  C113_frame (s := ⟨demo, false⟩) V3.demo_wf _ rfl (by
    rintro ⟨_, x, _, h2, _, h3⟩
    have h2 : (x : Int) < 4 := h2
    have h3 : 6 = 2 + x := by injection h3
    omega)

end Crunch.V2

namespace Crunch.V1
open V3 (Buf Val St WF demo)

theorem _root_.Crunch.V3.WF.cap_lt {s : St} (h : WF s) : s.b.buf.cap < 2 ^ 50 :=
  Nat.lt_of_le_of_lt h.ok.cap_le (by decide)

/-- With the capacities of the content, `Refresh` changes nothing. -/
theorem refresh_same {s : Sh} (h : Sized s.st.b) : ((exec1 .refresh).run s).2.st = s.st := by
  obtain ⟨⟨m, b⟩, l⟩ := s
  have h1 : Int64.ofNat b.buf.len = b.cap := Int64.toInt_inj.mp (by
    have := h.small
    rw [h.cap, toInt_ofNat (by change b.buf.len < 2 ^ 50 at this; omega)])
  have h2 : Int64.ofNat b.buf.len * 8 = b.bcap := Int64.toInt_inj.mp (by
    have := h.small
    change b.buf.len < 2 ^ 50 at this
    have h3 := h.cap
    change b.cap.toInt = b.buf.len at h3
    have e8 : (8 : Int64).toInt = 8 := rfl
    rw [h1, show b.bcap.toInt = 8 * b.buf.len from h.bcap, toInt_mul, h3, e8]
    omega)
  cases l with
  | true => rfl
  | false =>
    show (⟨m, ⟨b.buf, b.off, Int64.ofNat b.buf.len, b.boff, Int64.ofNat b.buf.len * 8⟩⟩ : St) = _
    rw [h2, h1]

theorem uses_footprint (op : Op1) (hp : inPlace1 op = true) (s : Sh) (hi : (fun b : Buf => Sized b ∧ b.buf.cap < 2 ^ 50) s.st.b) :
    (exec1 op).Uses (mayRead1 s.st.b op) (mayWrite1 s.st.b op) s := (exec1_foot hi.1 hi.2 op hp).uses

theorem keeps_sized (op : Op1) (hp : inPlace1 op = true) (s : Sh) (hi : (fun b : Buf => Sized b ∧ b.buf.cap < 2 ^ 50) s.st.b) : (fun b : Buf => Sized b ∧ b.buf.cap < 2 ^ 50) ((exec1 op).run s).2.st.b := by
  by_cases hr : op = .refresh
  · subst hr; rw [refresh_same hi.1]; exact hi
  · have u := (exec1_foot (l := s.locked) hi.1 hi.2 op hp).uses
    have e := Loc.same.of_run u (l := .header) id
    refine ⟨hi.1.of_same e (Loc.same.of_run u (l := .field .cap) hr) (Loc.same.of_run u (l := .field .bcap) hr), ?_⟩
    rw [show ((exec1 op).run s).2.st.b.buf = s.st.b.buf from e]; exact hi.2

/-- C113: a call of v1 `Buffer` other than `Grow` accesses only its footprint, whatever the state and the mutex. -/
theorem C113_v1_footprint {s : Sh} (h : WF s.st) (op : Op1) (hp : inPlace1 op = true) :
    (exec1 op).Uses (mayRead1 s.st.b op) (mayWrite1 s.st.b op) s := uses_footprint op hp s ⟨h.sized, h.cap_lt⟩

/-- C113: so it leaves every other place as it is. -/
theorem C113_v1_frame {s : Sh} (h : WF s.st) (op : Op1) (hp : inPlace1 op = true) {l : Loc} (hl : ¬ mayWrite1 s.st.b op l) :
    l.same ((exec1 op).run s).2.st s.st := Loc.same.of_run (C113_v1_footprint h op hp) hl

/-- C113: and it depends on nothing else: from two states that are the same at the places it may read, with the mutex in the same
condition, it has the same outcome and leaves the same places the same. -/
theorem C113_v1_depends {s t : Sh} (h : WF t.st) (op : Op1) (hp : inPlace1 op = true) (hs : ∀ l, mayRead1 t.st.b op l → l.same s.st t.st)
    (hl : s.locked = t.locked) :
    ((exec1 op).run s).1 = ((exec1 op).run t).1 ∧ ((exec1 op).run s).2.locked = ((exec1 op).run t).2.locked ∧
      ∀ l : Loc, l.same s.st t.st → l.same ((exec1 op).run s).2.st ((exec1 op).run t).2.st := by
  exact (C113_v1_footprint h op hp).agree hs hl

/-- C114: goroutines on a shared v1 `Buffer` none of which changes a place another one accesses, in the footprints of their calls made
alone, get and leave what they would alone, and do not race. -/
theorem C114_v1_separate {c0 c : Conf Op1 Val1} {τ : Trace Op1 Val1} {R W : Nat → Loc → Prop} (q : Quiet c0) (h0 : WF c0.sh.st)
    (e : Exec exec1 anyOp1 c0 τ c) (ap : Separate R W)
    (st : ∀ i, Stays exec1 mayRead1 mayWrite1 inPlace1 (R i) (W i) (started i τ) c0.sh) : AsAlone exec1 R W c0 τ c :=
  separate q ap e fun i => (st i).keeping (Inv := fun b : Buf => Sized b ∧ b.buf.cap < 2 ^ 50) uses_footprint keeps_sized ⟨h0.sized, h0.cap_lt⟩

theorem placed_same (op : Op1) (h : placed1 op = true) (b b' : Buf) (hb : b.buf = b'.buf) : mayRead1 b op = mayRead1 b' op ∧ mayWrite1 b op = mayWrite1 b' op := by
  have e : bytesOf1 b op = bytesOf1 b' op ∧ complexOf b op = complexOf b' op := by
    cases op with
    | clearAll | setAll | flipAll => exact ⟨by simp only [bytesOf1, toV2, V2.bytesOf]; rw [hb], rfl⟩
    | _ => first
      | exact ⟨rfl, rfl⟩
      | (rename_i p _ _ _; cases p <;> first | exact ⟨rfl, rfl⟩ | cases h)
      | (rename_i p _ _; cases p <;> first | exact ⟨rfl, rfl⟩ | cases h)
      | (rename_i p _; cases p <;> first | exact ⟨rfl, rfl⟩ | cases h)
      | (rename_i p; cases p <;> first | exact ⟨rfl, rfl⟩ | cases h)
  constructor
  · funext l
    cases l with
    | byte a i =>
      unfold mayRead1 Loc.content Loc.around
      simp only []
      rw [e.1, e.2, hb]
    | header => rfl
    | field f => cases f <;> rfl
  · funext l
    cases l with
    | byte a i =>
      unfold mayWrite1 Loc.content
      simp only []
      rw [e.1, hb]
    | header => rfl
    | field f => cases f <;> rfl

/-- C114: for calls with positions the footprints do not depend on the run. -/
theorem C114_v1_placed {c0 c : Conf Op1 Val1} {τ : Trace Op1 Val1} (q : Quiet c0) (h0 : WF c0.sh.st) (e : Exec exec1 anyOp1 c0 τ c)
    (pl : ∀ i, ∀ op ∈ started i τ, placed1 op = true)
    (ap : ∀ i j, i ≠ j → ∀ op ∈ started i τ, ∀ op' ∈ started j τ, ∀ l, mayWrite1 c0.sh.st.b op l →
      ¬ mayRead1 c0.sh.st.b op' l ∧ ¬ mayWrite1 c0.sh.st.b op' l) :
    AsAlone exec1 (fun i l => ∃ op ∈ started i τ, mayRead1 c0.sh.st.b op l) (fun i l => ∃ op ∈ started i τ, mayWrite1 c0.sh.st.b op l) c0 τ c := by
  refine C114_v1_separate q h0 e (fun i j hij l ⟨op, ho, hw⟩ => ⟨fun ⟨op', ho', hr⟩ => (ap i j hij op ho op' ho' l hw).1 hr,
    fun ⟨op', ho', hr⟩ => (ap i j hij op ho op' ho' l hw).2 hr⟩) fun i => ?_
  exact Stays.fixed (Inv := fun b : Buf => Sized b ∧ b.buf.cap < 2 ^ 50) (pl := placed1) uses_footprint keeps_sized (fun _ _ h => h) (fun op h => by
    simp only [placed1, Bool.and_eq_true] at h; exact h.1.1.1) placed_same rfl ⟨h0.sized, h0.cap_lt⟩ (pl i)
    (fun op ho x hx => ⟨op, ho, hx⟩) fun op ho x hx => ⟨op, ho, hx⟩

theorem onlyReads_none (op : Op1) (h : onlyReads1 op = true) (b : Buf) (l : Loc) : ¬ mayWrite1 b op l := by
  simp only [onlyReads1, Bool.and_eq_true, Bool.not_eq_true'] at h
  obtain ⟨⟨⟨⟨_, h1⟩, h2⟩, h3⟩, h4⟩ := h
  have h4 : op ≠ .refresh := fun e => by subst e; exact nomatch h4
  cases l with
  | header => exact id
  | field f =>
    cases f with
    | cap | bcap => exact h4
    | off => exact fun h => nomatch h2.symm.trans h
    | boff => exact fun h => nomatch h3.symm.trans h
  | byte a i => exact fun h => nomatch h1.symm.trans h.1

/-- C115: goroutines that only read a shared v1 `Buffer` change nothing, each call gets what it would get as the only one, and nobody
races, though `ReadByte` and `ReadComplex` look at the content without the mutex. -/
theorem C115_v1_readers {c0 c : Conf Op1 Val1} {τ : Trace Op1 Val1} (q : Quiet c0) (h0 : WF c0.sh.st) (e : Exec exec1 anyOp1 c0 τ c)
    (rd : ∀ i, ∀ op ∈ started i τ, onlyReads1 op = true) : Reading exec1 c0 τ c :=
  reading (R := fun _ => True) q e fun i op ho => (C113_v1_footprint h0 op (by
    have := rd i op ho
    simp only [onlyReads1, Bool.and_eq_true] at this
    exact this.1.1.1.1)).mono (fun _ _ => trivial) fun l h => onlyReads_none op (rd i op ho) _ l h

/-- `ReadComplex` of the last two bytes and the two behind the content waits before its loads while the other goroutine writes at the
offset. -/
def demoSep : List (Nat × Option Op1) :=
  (1, some (.readComplex (some 10) 2 Unsigned16 (some .le))) :: steps 1 4 ++
    (0, some (.writeComplex none (.u16 [0x1122, 0x3344]) Unsigned16 (some .le))) :: steps 0 5 ++ steps 1 3 ++ steps 0 12 ++ steps 1 2

/-- The footprints of the calls of `demoSep`. -/
def demoSepR (i : Nat) (l : Loc) : Prop :=
  match i with
  | 0 => mayRead1 demo.b (.writeComplex none (.u16 [0x1122, 0x3344]) Unsigned16 (some .le)) l
  | 1 => mayRead1 demo.b (.readComplex (some 10) 2 Unsigned16 (some .le)) l
  | _ => False
def demoSepW (i : Nat) (l : Loc) : Prop :=
  match i with
  | 0 => mayWrite1 demo.b (.writeComplex none (.u16 [0x1122, 0x3344]) Unsigned16 (some .le)) l
  | 1 => mayWrite1 demo.b (.readComplex (some 10) 2 Unsigned16 (some .le)) l
  | _ => False

theorem demoSepW_one (l : Loc) : ¬ demoSepW 1 l := onlyReads_none (.readComplex (some 10) 2 Unsigned16 (some .le)) rfl demo.b l

theorem demoSep_separate : Separate demoSepR demoSepW := by
  intro i j hij l hw
  match i with
  | 0 =>
    match j with
    | 0 => exact absurd rfl hij
    | 1 =>
      refine ⟨fun hr => ?_, demoSepW_one l⟩
      cases l with
      | header => exact hw.elim
      | field f =>
        cases f with
        | off | boff => exact nomatch hr
        | cap | bcap => exact nomatch hw
      | byte a n =>
        obtain ⟨_, x, _, h2, _, h3⟩ := hw
        have h2 : (x : Int) < 7 := h2
        have h3 : n = 2 + x := by injection h3
        rcases hr with ⟨y, h1, h4, _, h5⟩ | ⟨y, h1, h4, h5⟩ | ⟨t, h, _⟩
        · have h4 : (y : Int) < 0 := h4
          omega
        · have h1 : 10 ≤ (y : Int) := h1
          have h5 : n = 2 + y := by injection h5
          omega
        · exact nomatch h
    | j + 2 => exact ⟨id, id⟩
  | 1 => exact (demoSepW_one l hw).elim
  | i + 2 => exact hw.elim

/-- A case for C114: `WriteComplexNext` beside `ReadComplex`, which is after its section when the integers are written. -/
theorem demoSep_runs : ∃ τ c, Exec exec1 anyOp1 (rest _ _ demo) τ c ∧ (∀ i, c.thr i = .idle) ∧ Separate demoSepR demoSepW ∧
    (∀ i, Stays exec1 mayRead1 mayWrite1 inPlace1 (demoSepR i) (demoSepW i) (started i τ) (rest Op1 Val1 demo).sh) ∧
    (∀ i, ∀ op ∈ started i τ, op = .writeComplex none (.u16 [0x1122, 0x3344]) Unsigned16 (some .le) ∨
      op = .readComplex (some 10) 2 Unsigned16 (some .le)) ∧
    (finished 1 τ).map (·.2) = [.ok (.any (.u16 [0x0E0D, 0x100F]))] ∧ c.sh.st.bytes = [3, 4, 5, 0x22, 0x11, 0x44, 0x33, 10, 11, 12, 13, 14] ∧
    c.sh.st.b.off = 7 := by
  obtain ⟨τ, c, e, hi, hn, h⟩ := sched_ex_only (allowed := anyOp1) (ex := exec1) (rest_quiet demo) 2 demoSep
    (fun τ c => (started 0 τ matches [.writeComplex none (.u16 [0x1122, 0x3344]) 2 (some .le)]) &&
      (started 1 τ matches [.readComplex (some 10) 2 2 (some .le)]) &&
      (finished 1 τ matches [(_, .ok (.any (.u16 [0x0E0D, 0x100F])))]) && c.sh.st.bytes == [3, 4, 5, 0x22, 0x11, 0x44, 0x33, 10, 11, 12, 13, 14] &&
      c.sh.st.b.off == 7)
    (fun _ _ _ _ => trivial) (by decide) (by decide +kernel)
  simp only [Bool.and_eq_true, beq_iff_eq] at h
  obtain ⟨⟨⟨⟨h0, h1⟩, h2⟩, h3⟩, h4⟩ := h
  have s0 : started 0 τ = [.writeComplex none (.u16 [0x1122, 0x3344]) Unsigned16 (some .le)] := by split at h0 <;> first | assumption | exact nomatch h0
  have s1 : started 1 τ = [.readComplex (some 10) 2 Unsigned16 (some .le)] := by split at h1 <;> first | assumption | exact nomatch h1
  refine ⟨τ, c, e, hi, demoSep_separate, fun i => ?_, fun i op ho => ?_, ?_, h3, h4⟩
  · match i with
    | 0 => rw [s0]; exact ⟨⟨rfl, fun _ h => h, fun _ h => h⟩, trivial⟩
    | 1 => rw [s1]; exact ⟨⟨rfl, fun _ h => h, fun _ h => h⟩, trivial⟩
    | i + 2 => rw [(hn (i + 2) (by omega)).1]; trivial
  · match i with
    | 0 => rw [s0] at ho; exact .inl (List.mem_singleton.mp ho)
    | 1 => rw [s1] at ho; exact .inr (List.mem_singleton.mp ho)
    | i + 2 => rw [(hn (i + 2) (by omega)).1] at ho; exact nomatch ho
  · split at h2
    · rename_i he; rw [he]; rfl
    · exact nomatch h2

example : ∃ τ c, AsAlone exec1 demoSepR demoSepW (rest _ _ demo) τ c ∧ c.sh.st.bytes = [3, 4, 5, 0x22, 0x11, 0x44, 0x33, 10, 11, 12, 13, 14] := by
  obtain ⟨τ, c, e, _, hs, hk, _, _, hb, _⟩ := demoSep_runs
  exact ⟨τ, c, C114_v1_separate (rest_quiet demo) V3.demo_wf e hs hk, hb⟩

/-- Two goroutines that read: `ReadComplex` is between its loads while `ReadBytes` takes a slice of the same bytes. -/
def demoReaders : List (Nat × Option Op1) :=
  (0, some (.readComplex (some 0) 1 Unsigned16 (some .be))) :: steps 0 5 ++ (1, some (.readBytes (some 0) 4)) :: steps 1 5 ++ steps 0 2

/-- A case for C115. -/
theorem demoReaders_runs : ∃ τ c, Exec exec1 anyOp1 (rest _ _ demo) τ c ∧ (∀ i, c.thr i = .idle) ∧ (∀ i, ∀ op ∈ started i τ, onlyReads1 op = true) ∧
    (∀ i, ∀ op ∈ started i τ, op = .readComplex (some 0) 1 Unsigned16 (some .be) ∨ op = .readBytes (some 0) 4) ∧
    (finished 0 τ).map (·.2) = [.ok (.any (.u16 [0x0304]))] ∧ (finished 1 τ).length = 1 := by
  obtain ⟨τ, c, e, hi, hn, h⟩ := sched_ex_only (allowed := anyOp1) (ex := exec1) (rest_quiet demo) 2 demoReaders
    (fun τ c => (started 0 τ matches [.readComplex (some 0) 1 2 (some .be)]) && (started 1 τ matches [.readBytes (some 0) 4]) &&
      (finished 0 τ matches [(_, .ok (.any (.u16 [0x0304])))]) && (finished 1 τ).length == 1)
    (fun _ _ _ _ => trivial) (by decide) (by decide +kernel)
  simp only [Bool.and_eq_true, beq_iff_eq] at h
  obtain ⟨⟨⟨h0, h1⟩, h2⟩, h3⟩ := h
  have s0 : started 0 τ = [.readComplex (some 0) 1 Unsigned16 (some .be)] := by split at h0 <;> first | assumption | exact nomatch h0
  have s1 : started 1 τ = [.readBytes (some 0) 4] := by split at h1 <;> first | assumption | exact nomatch h1
  have all : ∀ i, ∀ op ∈ started i τ, op = .readComplex (some 0) 1 Unsigned16 (some .be) ∨ op = .readBytes (some 0) 4 := fun i op ho => by
    match i with
    | 0 => rw [s0] at ho; exact .inl (List.mem_singleton.mp ho)
    | 1 => rw [s1] at ho; exact .inr (List.mem_singleton.mp ho)
    | i + 2 => rw [(hn (i + 2) (by omega)).1] at ho; exact nomatch ho
  refine ⟨τ, c, e, hi, fun i op ho => ?_, all, ?_, h3⟩
  · rcases all i op ho with rfl | rfl <;> rfl
  · split at h2
    · rename_i he; rw [he]; rfl
    · exact nomatch h2

example : ∃ τ c, Reading exec1 (rest _ _ demo) τ c ∧ (finished 0 τ).map (·.2) = [.ok (.any (.u16 [0x0304]))] := by
  obtain ⟨τ, c, e, _, hr, _, hf, _⟩ := demoReaders_runs
  exact ⟨τ, c, C115_v1_readers (rest_quiet demo) V3.demo_wf e hr, hf⟩

/-- A case for C113: the byte behind the ones that are written does not change. -/
example : (Loc.byte 0 9).same ((exec1 (.writeComplex none (.u16 [0x1122, 0x3344]) Unsigned16 (some .le))).run ⟨demo, false⟩).2.st demo :=
  C113_v1_frame (s := ⟨demo, false⟩) V3.demo_wf _ rfl (by
    rintro ⟨_, x, _, h2, _, h3⟩
    have h2 : (x : Int) < 7 := h2
    have h3 : 9 = 2 + x := by injection h3
    omega)

end Crunch.V1
