import Verif.Lemmas.V2Own
import Verif.Props.Nexts

/-!
# Offsets used by one goroutine only (C110)

C54 fails because two goroutines move one offset.  When each offset is used by one goroutine at most, whole Next calls are
linearizable.
-/

namespace Crunch.V2
open Spec
open V3 (St WF Val demo demo_wf)

/-- The offsets a call uses. -/
def uses : Op2 → Field → Bool
  | .write _ _ p _, f => p.isNone && f == .off
  | .read _ _ p _, f => p.isNone && f == .off
  | .writeBytes p _, f => p.isNone && f == .off
  | .writeByte p _, f => p.isNone && f == .off
  | .readBytes p _, f => p.isNone && f == .off
  | .readBit p, f => p.isNone && f == .boff
  | .setBit p _, f => p.isNone && f == .boff
  | .flipBit p, f => p.isNone && f == .boff
  | .seek .., f => f == .off
  | .seekBit .., f => f == .boff
  | .after o, f => o.isEmpty && f == .off
  | .afterBit o, f => o.isEmpty && f == .boff
  | .alignByte, f => f.isOff
  | .alignBit, f => f.isOff
  | .offset, f => f == .off
  | .bitOffset, f => f == .boff
  | _, _ => false

/-- Every call but `ReadByte` and `ReadByteNext`, which load the byte without the mutex, `ReadBits`, `SetBits` and their Next
variants, which take it bit by bit, and those that change the size. -/
def Whole : Op2 → Prop
  | .readByte _ => False
  | .readBits .. => False
  | .setBits .. => False
  | .grow _ => False
  | .refresh => False
  | .reset => False
  | _ => True

theorem exec_pre (op : Op2) (h : Whole op) : Pre (uses op) (exec op) := by
  have offs : ∀ (f : Field), onlyOff f = true → (f == .off) = true := fun f hf => by cases f <;> first | rfl | exact nomatch hf
  have boffs : ∀ (f : Field), onlyBoff f = true → (f == .boff) = true := fun f hf => by cases f <;> first | rfl | exact nomatch hf
  have good : ∀ {α : Type} {p : Prog α} {f : α → Val} {w : Field → Bool}, Good p → Pre w (wrapVal f p) := fun g => (g.pre _).map _
  have next : ∀ {α β : Type} {P : Int64 → Prog α} {f : β → Val} {g : α → Prog β}, (∀ o, Good (P o)) → (∀ a, Tail onlyOff (g a)) →
      Pre (fun f => f == .off) (wrapVal f ((Prog.field .off).bind fun o => (P o).bind g)) := fun hP hg =>
    ((pre_next rfl (fun o => (hP o).pre _) hg).map _).mono offs
  have nextb : ∀ {α β : Type} {P : Int64 → Prog α} {f : β → Val} {g : α → Prog β}, (∀ o, Good (P o)) → (∀ a, Tail onlyBoff (g a)) →
      Pre (fun f => f == .boff) (wrapVal f ((Prog.field .boff).bind fun o => (P o).bind g)) := fun hP hg =>
    ((pre_next rfl (fun o => (hP o).pre _) hg).map _).mono boffs
  have sets : ∀ {w : Field → Bool} {f g : Field} {k : Int64 → Int64} {u : Val}, w f = true → w g = true → g.isOff = true →
      Pre w (Prog.lock (Prog.getI f fun o => Prog.setI g (k o) (Prog.unlock (Prog.ret u)))) := fun h1 h2 h3 =>
    ⟨fun _ => h1, fun _ => ⟨h3, h2, by show Tail _ (Prog.ret _); simp only [Tail]⟩⟩
  cases op with
  | write k e p d =>
    cases p with
    | some o => exact good (write_good k e o d)
    | none =>
      show Pre _ (wrapVal _ (Buffer.WriteNext k e d))
      rw [writeNext_eq]
      exact next (fun o => write_good k e o d) fun _ => tail_seek _
  | read k e p n =>
    cases p with
    | some o => exact good (read_good k e o n)
    | none =>
      show Pre _ (wrapVal _ (Buffer.ReadNext k e n))
      rw [readNext_eq]
      exact next (fun o => read_good k e o n) fun _ => tail_ret (tail_seek _) _
  | writeBytes p s =>
    cases p with
    | some o => exact good (writeSrc_good o _)
    | none => exact next (fun o => writeSrc_good o _) fun _ => tail_seek _
  | writeByte p v =>
    cases p with
    | some o => exact good (writeSrc_good o _)
    | none => exact next (fun o => writeSrc_good o _) fun _ => tail_seek _
  | readBytes p n =>
    cases p with
    | some o => exact good (readRaw_good o n)
    | none => exact next (fun o => readRaw_good o n) fun _ => tail_ret (tail_seek _) _
  | readBit p =>
    cases p with
    | some o => exact good (readbit_good o)
    | none => exact nextb (fun o => readbit_good o) fun _ => tail_ret (tail_seekbit _) _
  | setBit p v =>
    cases p with
    | some o => exact good (setbit_good o v)
    | none => exact nextb (fun o => setbit_good o v) fun _ => tail_seekbit _
  | flipBit p =>
    cases p with
    | some o => exact good (flipbit_good o)
    | none => exact nextb (fun o => flipbit_good o) fun _ => tail_seekbit _
  | clearAll => exact good clear_good
  | setAll => exact good setall_good
  | flipAll => exact good flipall_good
  | seek o r =>
    cases r
    · exact ⟨rfl, rfl, by show Tail _ (Prog.ret _); simp only [Tail]⟩
    · exact sets rfl rfl rfl
  | seekBit o r =>
    cases r
    · exact ⟨rfl, rfl, by show Tail _ (Prog.ret _); simp only [Tail]⟩
    · exact sets rfl rfl rfl
  | after o =>
    cases o with
    | nil => exact ⟨fun hf => (nomatch hf), fun _ => ⟨fun _ => rfl, fun _ => trivial⟩⟩
    | cons x l => exact ⟨fun hf => (nomatch hf), fun _ => trivial⟩
  | afterBit o =>
    cases o with
    | nil => exact ⟨fun hf => (nomatch hf), fun _ => ⟨fun _ => rfl, fun _ => trivial⟩⟩
    | cons x l => exact ⟨fun hf => (nomatch hf), fun _ => trivial⟩
  | alignByte => exact sets rfl rfl rfl
  | alignBit => exact sets rfl rfl rfl
  | bytes => exact fun _ => trivial
  | capacity => exact ⟨fun hf => (nomatch hf), fun _ => trivial⟩
  | bitCapacity => exact ⟨fun hf => (nomatch hf), fun _ => trivial⟩
  | offset => exact ⟨fun _ => rfl, fun _ => trivial⟩
  | bitOffset => exact ⟨fun _ => rfl, fun _ => trivial⟩
  | _ => exact h.elim

/-- Goroutines calling `Whole` methods, where an offset is used by one goroutine at most (`own` says by whom; positioned calls use
none): put the calls in the order `points τ`, in which they take the mutex first (or end, if they never do).  Executed alone in that
order they have the same outcomes, and when nobody is running memory, fields and mutex are the same. -/
theorem C110_own_cursor {own : Nat → Field → Bool} (disj : ∀ i j f, own i f = true → own j f = true → i = j) {c0 c : Conf Op2 Val}
    {τ : Trace Op2 Val} (q : Quiet c0) (e : Exec exec Whole c0 τ c)
    (hu : ∀ i, ∀ op ∈ started i τ, ∀ f, uses op f = true → own i f = true) :
    (∀ i, ∃ pending, ofThread i (seqRun exec (points τ) c0.sh).1 = finished i τ ++ pending ∧ pending.length ≤ 1 ∧
      (c.thr i = .idle → pending = [])) ∧
    (∀ i, ∃ waiting, started i τ = ofThread i (points τ) ++ waiting ∧ waiting.length ≤ 1 ∧ (c.thr i = .idle → waiting = [])) ∧
    ((∀ i, c.thr i = .idle) → c.sh = (seqRun exec (points τ) c0.sh).2) :=
  owned_linearizable disj q e fun i op ho => (exec_pre op (e.allowed_of_started ho)).mono (hu i op ho)

/-- The order respects real time. -/
theorem C110_real_time (τ τ' : Trace Op2 Val) : ∃ later, points (τ ++ τ') = points τ ++ later := points_prefix τ τ'

/-- Goroutine 0 looks at the byte offset; then goroutine 1 looks at the bit offset and takes the mutex first. -/
def demoOwn : List (Nat × Option Op2) :=
  (0, some (.writeBytes none ⟨1, 0, 1, 3⟩)) :: (1, some (.setBit none 1)) :: (0, none) :: (1, none) :: steps 1 5 ++ steps 0 1 ++ steps 1 7 ++ steps 0 10

/-- Goroutine 0 uses the byte offset, goroutine 1 the bit offset. -/
def demoOwner (i : Nat) (f : Field) : Bool := if i = 0 then f == .off else if i = 1 then f == .boff else false

theorem demoOwner_one (i j : Nat) (f : Field) (hi : demoOwner i f = true) (hj : demoOwner j f = true) : i = j := by
  unfold demoOwner at hi hj
  cases f <;> split at hi <;> split at hj <;> simp_all

/-- The theorem applies to this execution, whatever else is asked of the two calls. -/
theorem demoOwn_runs (P : Op2 → Prop) (h0 : P (.writeBytes none ⟨1, 0, 1, 3⟩)) (h1 : P (.setBit none 1)) :
    ∃ τ c, Exec exec (fun op => Whole op ∧ P op) (rest _ _ demo) τ c ∧ (∀ i, c.thr i = .idle) ∧
    (∀ i, ∀ op ∈ started i τ, ∀ f, uses op f = true → demoOwner i f = true) ∧
    points τ = [(1, .setBit none 1), (0, .writeBytes none ⟨1, 0, 1, 3⟩)] := by
  obtain ⟨τ, c, e, hi, hn, h⟩ := sched_ex_only (allowed := fun op => Whole op ∧ P op) (ex := exec) (rest_quiet demo) 2 demoOwn
    (fun τ _ => (points τ matches [(1, .setBit none 1), (0, .writeBytes none ⟨1, 0, 1, 3⟩)]) &&
      (started 0 τ matches [.writeBytes none _]) && (started 1 τ matches [.setBit none _]))
    (allowed_of fun op ho => by
      rcases (by simpa [demoOwn, steps, List.filterMap_cons, List.filterMap_append, List.filterMap_replicate_of_none] using ho :
        op = _ ∨ op = _) with rfl | rfl
      · exact ⟨trivial, h0⟩
      · exact ⟨trivial, h1⟩) (by decide) (by decide +kernel)
  simp only [Bool.and_eq_true] at h
  obtain ⟨⟨hp, h0⟩, h1⟩ := h
  refine ⟨τ, c, e, hi, ?_, by split at hp <;> first | assumption | exact nomatch hp⟩
  intro i op ho f hf
  match i with
  | 0 =>
    split at h0
    · rename_i e0
      rw [e0] at ho
      rcases List.mem_cons.mp ho with rfl | ho
      · exact hf
      · exact nomatch ho
    · exact nomatch h0
  | 1 =>
    split at h1
    · rename_i e1
      rw [e1] at ho
      rcases List.mem_cons.mp ho with rfl | ho
      · exact hf
      · exact nomatch ho
    · exact nomatch h1
  | k + 2 =>
    rw [(hn (k + 2) (by omega)).1] at ho
    exact nomatch ho

end Crunch.V2

namespace Crunch.V1
open V3 (St WF Val demo demo_wf)

/-- The offsets a call uses. -/
def uses1 : Op1 → Field → Bool
  | .writeComplex p .., f => p.isNone && f == .off
  | .readComplex p .., f => p.isNone && f == .off
  | .writeBytes p _, f => p.isNone && f == .off
  | .writeByte p _, f => p.isNone && f == .off
  | .readBytes p _, f => p.isNone && f == .off
  | .readBit p, f => p.isNone && f == .boff
  | .setBit p _, f => p.isNone && f == .boff
  | .flipBit p, f => p.isNone && f == .boff
  | .seek .., f => f == .off
  | .seekBit .., f => f == .boff
  | .after o, f => o.isEmpty && f == .off
  | .afterBit o, f => o.isEmpty && f == .boff
  | .alignByte, f => f.isOff
  | .alignBit, f => f.isOff
  | .offset, f => f == .off
  | .bitOffset, f => f == .boff
  | _, _ => false

/-- Every call but those that load bytes without the mutex, `ReadBits`, `SetBits` and their Next variants, and those that change the
size. -/
def Whole1 : Op1 → Prop
  | .readComplex _ _ w _ => w = Unsigned8
  | .readByte _ => False
  | .readBits .. => False
  | .setBits .. => False
  | .grow _ => False
  | .refresh => False
  | _ => True

theorem exec1_pre (op : Op1) (h : Whole1 op) : Pre (uses1 op) (exec1 op) := by
  have offs : ∀ (f : Field), onlyOff f = true → (f == .off) = true := fun f hf => by cases f <;> first | rfl | exact nomatch hf
  have key : ∀ op2, toV2 op = some op2 → Shared op = true → V2.Whole op2 → uses1 op = V2.uses op2 → Pre (uses1 op) (exec1 op) := by
    intro op2 h1 h2 h3 h4
    rw [exec1_v2 op op2 h1 h2, h4]
    exact (V2.exec_pre op2 h3).map _
  have good : ∀ {α : Type} {p : Prog α} {f : α → Val} {w : Field → Bool}, V2.Good p → Pre w (wrap1 f p) := fun g => (g.pre _).map _
  cases op with
  | writeComplex p d w e =>
    cases p with
    | some o => exact good (writeComplex_good o d w e)
    | none =>
      show Pre _ (wrap1 _ (Buffer.WriteComplexNext d w e))
      rw [writeComplexNext_eq]
      exact ((pre_next rfl (fun o => (writeComplex_good o d w e).pre _) fun _ => tail_seek _).map _).mono offs
  | readComplex p n w e =>
    cases h
    cases p with
    | some o =>
      show Pre _ ((Buffer.read o n >>= fun data => Prog.ret (Any.bytes data)).bind fun a => Prog.ret (Val1.any a))
      exact (((V2.readRaw_good o n).pre _).map Any.bytes).map _
    | none =>
      refine (Pre.map (pre_next (f := .off) (P := fun o => Buffer.readComplex o n Unsigned8 e) (w := onlyOff) rfl (fun o => ?_)
        (g := fun a => (Buffer.seek (n * Unsigned8) true).bind fun _ => .ret a) fun a => tail_ret (tail_seek _) _) Val1.any).mono offs
      show Pre _ (Buffer.read o n >>= fun data => Prog.ret (Any.bytes data))
      exact ((V2.readRaw_good o n).pre _).map Any.bytes
  | clearAll => exact good clear_good
  | setAll => exact good setall_good
  | flipAll => exact good flipall_good
  | readByte p => exact h.elim
  | readBits p n => exact h.elim
  | setBits p d n => exact h.elim
  | grow n => exact h.elim
  | refresh => exact h.elim
  | _ => exact key _ rfl rfl trivial rfl

/-- The same for v1, where `ReadComplex` and `ReadComplexNext` are included for bytes only. -/
theorem C110_v1_own_cursor {own : Nat → Field → Bool} (disj : ∀ i j f, own i f = true → own j f = true → i = j) {c0 c : Conf Op1 Val1}
    {τ : Trace Op1 Val1} (q : Quiet c0) (e : Exec exec1 Whole1 c0 τ c)
    (hu : ∀ i, ∀ op ∈ started i τ, ∀ f, uses1 op f = true → own i f = true) :
    (∀ i, ∃ pending, ofThread i (seqRun exec1 (points τ) c0.sh).1 = finished i τ ++ pending ∧ pending.length ≤ 1 ∧
      (c.thr i = .idle → pending = [])) ∧
    (∀ i, ∃ waiting, started i τ = ofThread i (points τ) ++ waiting ∧ waiting.length ≤ 1 ∧ (c.thr i = .idle → waiting = [])) ∧
    ((∀ i, c.thr i = .idle) → c.sh = (seqRun exec1 (points τ) c0.sh).2) :=
  owned_linearizable disj q e fun i op ho => (exec1_pre op (e.allowed_of_started ho)).mono (hu i op ho)

/-- Goroutine 0 appends 16-bit integers; goroutine 1 writes a byte between its look and its write. -/
def demoOwn1 : List (Nat × Option Op1) :=
  (0, some (.writeComplex none (.u16 [0x1122]) Unsigned16 (some .be))) :: (0, none) :: (1, some (.writeByte (some 3) 9)) :: steps 1 6 ++ steps 0 12

theorem demoOwn1_runs (P : Op1 → Prop) (h0 : P (.writeComplex none (.u16 [0x1122]) Unsigned16 (some .be))) (h1 : P (.writeByte (some 3) 9)) :
    ∃ τ c, Exec exec1 (fun op => Whole1 op ∧ P op) (rest _ _ demo) τ c ∧ (∀ i, c.thr i = .idle) ∧
    (∀ i, ∀ op ∈ started i τ, ∀ f, uses1 op f = true → V2.demoOwner i f = true) ∧
    points τ = [(1, .writeByte (some 3) 9), (0, .writeComplex none (.u16 [0x1122]) 2 (some .be))] ∧ c.sh.st.bytes = [3, 4, 5, 0x11, 0x22, 8, 9, 10, 11, 12, 13, 14] := by
  obtain ⟨τ, c, e, hi, hn, h⟩ := sched_ex_only (allowed := fun op => Whole1 op ∧ P op) (ex := exec1) (rest_quiet demo) 2 demoOwn1
    (fun τ c => (points τ matches [(1, .writeByte (some 3) 9), (0, .writeComplex none (.u16 [0x1122]) 2 (some .be))]) && (c.sh.st.bytes == [3, 4, 5, 0x11, 0x22, 8, 9, 10, 11, 12, 13, 14]) &&
      (started 0 τ matches [.writeComplex none ..]) && (started 1 τ matches [.writeByte (some _) _]))
    (allowed_of fun op ho => by
      rcases (by simpa [demoOwn1, steps, List.filterMap_cons, List.filterMap_append, List.filterMap_replicate_of_none] using ho :
        op = _ ∨ op = _) with rfl | rfl
      · exact ⟨trivial, h0⟩
      · exact ⟨trivial, h1⟩) (by decide) (by decide +kernel)
  simp only [Bool.and_eq_true, beq_iff_eq] at h
  obtain ⟨⟨⟨hp, hb⟩, h0⟩, h1⟩ := h
  refine ⟨τ, c, e, hi, ?_, by split at hp <;> first | assumption | exact (nomatch hp), hb⟩
  intro i op ho f hf
  match i with
  | 0 =>
    split at h0
    · rename_i e0
      rw [e0] at ho
      rcases List.mem_cons.mp ho with rfl | ho
      · exact hf
      · exact nomatch ho
    · exact nomatch h0
  | 1 =>
    split at h1
    · rename_i e1
      rw [e1] at ho
      rcases List.mem_cons.mp ho with rfl | ho
      · exact nomatch hf
      · exact nomatch ho
    · exact nomatch h1
  | k + 2 =>
    rw [(hn (k + 2) (by omega)).1] at ho
    exact nomatch ho

end Crunch.V1
