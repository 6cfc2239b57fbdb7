import Verif.Props.Parts
import Verif.Lemmas.V2Look

/-!
# Next calls on a shared buffer (C109)

A `…Next` call looks at the offset without the mutex, makes the call of the same name at the position it saw, and moves the
offset relatively; each of the three is one step for the other goroutines.
-/

namespace Crunch.V2
open Spec
open V3 (St WF Val demo demo_wf)

/-- A call that moves the byte offset: the call it makes at a position, and how far it moves. -/
def byteNext : Op2 → Option ((Int64 → Op2) × Int64)
  | .write k e none d => some (fun o => .write k e (some o) d, Int64.ofNat d.length * Int64.ofNat k.kind.size)
  | .read k e none n => some (fun o => .read k e (some o) n, n * Int64.ofNat k.kind.size)
  | .writeBytes none s => some (fun o => .writeBytes (some o) s, Int64.ofNat s.len)
  | .writeByte none v => some (fun o => .writeByte (some o) v, 1)
  | .readBytes none n => some (fun o => .readBytes (some o) n, n)
  | _ => none

/-- The same for the bit offset. -/
def bitNext : Op2 → Option ((Int64 → Op2) × Int64)
  | .readBit none => some (fun o => .readBit (some o), 1)
  | .readBits none n => some (fun o => .readBits (some o) n, n)
  | .setBit none v => some (fun o => .setBit (some o) v, 1)
  | .flipBit none => some (fun o => .flipBit (some o), 1)
  | .setBits none d n => some (fun o => .setBits (some o) d n, n)
  | _ => none

/-- What `Offset` or `BitOffset` returned. -/
def posOf : Val → Int64
  | .i64 x => x
  | _ => 0

/-- The calls a call is made of: for a Next call those at the offset seen, between a look at it and a relative move. -/
def parts (op : Op2) : Script Op2 Val Val :=
  match byteNext op, bitNext op with
  | some (f, n), _ => .call .offset fun v => (bits (f (posOf v))).andThen fun out => .call (.seek n true) fun _ => .done out
  | none, some (f, n) => .call .bitOffset fun v => (bits (f (posOf v))).andThen fun out => .call (.seekBit n true) fun _ => .done out
  | none, none => bits op

/-- Every call but `ReadByte` and `ReadByteNext`, which load the byte without the mutex, and those that change the size. -/
def Steady : Op2 → Prop
  | .readByte _ => False
  | .grow _ => False
  | .refresh => False
  | .reset => False
  | _ => True

theorem writeNext_eq (k : UKind) (e : Endian) (d : List k.kind.Ty) : Buffer.WriteNext k e d = (Prog.field .off).bind fun o =>
    (Buffer.Write k e o d).bind fun _ => Buffer.seek (Int64.ofNat d.length * Int64.ofNat k.kind.size) true := by
  cases k <;> cases e <;> rfl

theorem readNext_eq (k : UKind) (e : Endian) (n : Int64) : Buffer.ReadNext k e n = (Prog.field .off).bind fun o =>
    (Buffer.Read k e o n).bind fun a => (Buffer.seek (n * Int64.ofNat k.kind.size) true).bind fun _ => .ret a := by
  cases k <;> cases e <;> rfl

theorem exec_parts (op : Op2) (h : Steady op) : exec op = Prog.script exec (parts op) := by
  cases op with
  | write k e p d =>
    cases p with
    | some o => exact exec_bits _ rfl
    | none =>
      show wrapVal _ (Buffer.WriteNext k e d) = _
      rw [writeNext_eq]
      exact next_script_unit (ex := exec) (wr := Val.i64) (look := .offset) (mv := .seek _ true) (pos := posOf) (fun _ => rfl) rfl rfl fun o => exec_bits (.write k e (some o) d) rfl
  | read k e p n =>
    cases p with
    | some o => exact exec_bits _ rfl
    | none =>
      show wrapVal _ (Buffer.ReadNext k e n) = _
      rw [readNext_eq]
      exact next_script (ex := exec) (wr := Val.i64) (look := .offset) (mv := .seek _ true) (pos := posOf) (fun _ => rfl) rfl rfl fun o => exec_bits (.read k e (some o) n) rfl
  | writeBytes p s =>
    cases p with
    | some o => exact exec_bits _ rfl
    | none => exact next_script_unit (ex := exec) (wr := Val.i64) (look := .offset) (mv := .seek _ true) (pos := posOf) (fun _ => rfl) rfl rfl fun o => exec_bits (.writeBytes (some o) s) rfl
  | writeByte p s =>
    cases p with
    | some o => exact exec_bits _ rfl
    | none => exact next_script_unit (ex := exec) (wr := Val.i64) (look := .offset) (mv := .seek _ true) (pos := posOf) (fun _ => rfl) rfl rfl fun o => exec_bits (.writeByte (some o) s) rfl
  | readBytes p n =>
    cases p with
    | some o => exact exec_bits _ rfl
    | none => exact next_script (ex := exec) (wr := Val.i64) (look := .offset) (mv := .seek _ true) (pos := posOf) (fun _ => rfl) rfl rfl fun o => exec_bits (.readBytes (some o) n) rfl
  | readBit p =>
    cases p with
    | some o => exact exec_bits _ rfl
    | none => exact next_script (ex := exec) (wr := Val.i64) (look := .bitOffset) (mv := .seekBit _ true) (pos := posOf) (fun _ => rfl) rfl rfl fun o => exec_bits (.readBit (some o)) rfl
  | readBits p n =>
    cases p with
    | some o => exact exec_bits _ rfl
    | none => exact next_script (ex := exec) (wr := Val.i64) (look := .bitOffset) (mv := .seekBit _ true) (pos := posOf) (fun _ => rfl) rfl rfl fun o => exec_bits (.readBits (some o) n) rfl
  | setBit p v =>
    cases p with
    | some o => exact exec_bits _ rfl
    | none => exact next_script_unit (ex := exec) (wr := Val.i64) (look := .bitOffset) (mv := .seekBit _ true) (pos := posOf) (fun _ => rfl) rfl rfl fun o => exec_bits (.setBit (some o) v) rfl
  | flipBit p =>
    cases p with
    | some o => exact exec_bits _ rfl
    | none => exact next_script_unit (ex := exec) (wr := Val.i64) (look := .bitOffset) (mv := .seekBit _ true) (pos := posOf) (fun _ => rfl) rfl rfl fun o => exec_bits (.flipBit (some o)) rfl
  | setBits p d n =>
    cases p with
    | some o => exact exec_bits _ rfl
    | none => exact next_script_unit (ex := exec) (wr := Val.i64) (look := .bitOffset) (mv := .seekBit _ true) (pos := posOf) (fun _ => rfl) rfl rfl fun o => exec_bits (.setBits (some o) d n) rfl
  | readByte p => exact h.elim
  | grow n => exact h.elim
  | refresh => exact h.elim
  | reset => exact h.elim
  | _ => exact (bind_ret _).symm

theorem bits_single (op : Op2) (h : Bitwise op) (e : Op2) (u : (bits op).Uses e) : Single e := by
  have := bits_atomic op h e u
  cases e <;> first | trivial | exact this

theorem parts_single (op : Op2) (h : Steady op) (e : Op2) (u : (parts op).Uses e) : Single e := by
  have next : ∀ {look mv : Op2} {f : Int64 → Op2}, (Script.call look fun v => (bits (f (posOf v))).andThen fun out => .call mv fun _ => .done out).Uses e →
      Single look → Single mv → (∀ o, Bitwise (f o)) → Single e := by
    intro look mv f u h1 h2 h3
    cases u with
    | here => exact h1
    | later u =>
      rcases uses_andThen u with u | ⟨v, u⟩
      · exact bits_single _ (h3 _) e u
      · cases u with
        | here => exact h2
        | later u => exact nomatch u
  have plain : Bitwise op → (bits op).Uses e → Single e := fun h u => bits_single op h e u
  have one : ∀ {op' : Op2}, (Script.call op' Script.done : Script Op2 Val Val).Uses e → Single op' → Single e := by
    intro op' hu ha
    cases hu with
    | here => exact ha
    | later hu => exact nomatch hu
  cases op with
  | write k en p d => cases p with | some o => exact plain rfl u | none => exact next (f := fun o => .write k en (some o) d) u trivial trivial (fun _ => rfl)
  | read k en p n => cases p with | some o => exact plain rfl u | none => exact next (f := fun o => .read k en (some o) n) u trivial trivial (fun _ => rfl)
  | writeBytes p s => cases p with | some o => exact plain rfl u | none => exact next (f := fun o => .writeBytes (some o) s) u trivial trivial (fun _ => rfl)
  | writeByte p v => cases p with | some o => exact plain rfl u | none => exact next (f := fun o => .writeByte (some o) v) u trivial trivial (fun _ => rfl)
  | readBytes p n => cases p with | some o => exact plain rfl u | none => exact next (f := fun o => .readBytes (some o) n) u trivial trivial (fun _ => rfl)
  | readBit p => cases p with | some o => exact plain rfl u | none => exact next (f := fun o => .readBit (some o)) u trivial trivial (fun _ => rfl)
  | readBits p n => cases p with | some o => exact plain rfl u | none => exact next (f := fun o => .readBits (some o) n) u trivial trivial (fun _ => rfl)
  | setBit p v => cases p with | some o => exact plain rfl u | none => exact next (f := fun o => .setBit (some o) v) u trivial trivial (fun _ => rfl)
  | flipBit p => cases p with | some o => exact plain rfl u | none => exact next (f := fun o => .flipBit (some o)) u trivial trivial (fun _ => rfl)
  | setBits p d n => cases p with | some o => exact plain rfl u | none => exact next (f := fun o => .setBits (some o) d n) u trivial trivial (fun _ => rfl)
  | readByte p => exact h.elim
  | grow n => exact h.elim
  | refresh => exact h.elim
  | reset => exact h.elim
  | _ => exact one u trivial

/-- Goroutines calling any methods but `ReadByte`, `ReadByteNext`, `Grow`, `Refresh` and `Reset`: the looks at the offsets, the calls at
positions, bit by bit for `ReadBits` and `SetBits`, and the moves of the offsets have an order `L` in which, executed alone one after
another, they have the same outcomes, and when nobody is running leave memory, fields and mutex the same.  The order agrees with
time: what had happened at any earlier moment is explained by a beginning of it. -/
theorem C109_look_act_move {c0 c : Conf Op2 Val} {τ : Trace Op2 Val} (q : Quiet c0) (e : Exec exec Steady c0 τ c) :
    ∃ L : List (Nat × Op2), (∀ a ∈ L, Single a.2) ∧ Explains exec parts c0.sh τ L ∧
      (∀ τ1 τ2, τ = τ1 ++ τ2 → ∃ L1 L2, L = L1 ++ L2 ∧ Explains exec parts c0.sh τ1 L1) ∧
      (∀ i, c.thr i = .idle → Pieces parts (finished i τ) (ofThread i (seqRun exec L c0.sh).1)) ∧
      ((∀ i, c.thr i = .idle) → c.sh = (seqRun exec L c0.sh).2) :=
  parts_look exec_parts parts_single exec_onceP q e

/-- In the execution that refutes C54, one byte is overwritten and one skipped: both goroutines look, then each writes at what it
saw and moves. -/
example : (∃ τ c, Exec exec Steady (rest _ _ demo) τ c ∧ (∀ i, c.thr i = .idle) ∧ c.sh.st.bytes = [3, 4, 5, 0xBB, 7, 8, 9, 10, 11, 12, 13, 14]) ∧
    (seqRun exec [(0, .offset), (1, .offset), (0, .writeBytes (some 3) ⟨1, 0, 1, 3⟩), (0, .seek 1 true),
      (1, .writeBytes (some 3) ⟨1, 1, 1, 2⟩), (1, .seek 1 true)] (rest Op2 Val demo).sh).2.st.bytes = [3, 4, 5, 0xBB, 7, 8, 9, 10, 11, 12, 13, 14] ∧
    Pieces parts [(.writeBytes none ⟨1, 1, 1, 2⟩, .ok .unit)]
      [(.offset, .ok (.i64 3)), (.writeBytes (some 3) ⟨1, 1, 1, 2⟩, .ok .unit), (.seek 1 true, .ok .unit)] := by
  refine ⟨?_, by decide +kernel, ?_⟩
  · obtain ⟨τ, c, e, hi, h⟩ := sched_ex_done (allowed := Steady) (ex := exec) (rest_quiet demo) 2 demoLost
      (fun _ c => c.sh.st.bytes == [3, 4, 5, 0xBB, 7, 8, 9, 10, 11, 12, 13, 14])
      (allowed_of fun op ho => by
        rcases (by simpa [demoLost, steps, List.filterMap_cons, List.filterMap_append, List.filterMap_replicate_of_none] using ho :
          op = _ ∨ op = _) with rfl | rfl <;> trivial) (by decide) (by decide +kernel)
    exact ⟨τ, c, e, hi, eq_of_beq h⟩
  · exact .snoc (fs := []) (es := []) .nil (.more (.more (.more .done)))

end Crunch.V2

namespace Crunch.V1
open V3 (St WF Val demo demo_wf)

/-- The number of elements of a list of integers. -/
def Any.len : Any → Nat
  | .bytes s => s.len
  | .u16 l => l.length
  | .u32 l => l.length
  | .u64 l => l.length
  | .other => 0

/-- A call that moves the byte offset: the call it makes at a position, and how far it moves. -/
def byteNext1 : Op1 → Option ((Int64 → Op1) × Int64)
  | .writeComplex none d w e => some (fun o => .writeComplex (some o) d w e, Int64.ofNat d.len * w)
  | .readComplex none n w e => some (fun o => .readComplex (some o) n w e, n * w)
  | .writeBytes none s => some (fun o => .writeBytes (some o) s, Int64.ofNat s.len)
  | .writeByte none v => some (fun o => .writeByte (some o) v, 1)
  | .readBytes none n => some (fun o => .readBytes (some o) n, n)
  | _ => none

/-- The same for the bit offset. -/
def bitNext1 : Op1 → Option ((Int64 → Op1) × Int64)
  | .readBit none => some (fun o => .readBit (some o), 1)
  | .readBits none n => some (fun o => .readBits (some o) n, n)
  | .setBit none v => some (fun o => .setBit (some o) v, 1)
  | .flipBit none => some (fun o => .flipBit (some o), 1)
  | .setBits none d n => some (fun o => .setBits (some o) d n, n)
  | _ => none

/-- What `Offset` or `BitOffset` returned. -/
def posOf1 : Val1 → Int64
  | .val (.i64 x) => x
  | _ => 0

/-- The calls a call is made of. -/
def parts1 (op : Op1) : Script Op1 Val1 Val1 :=
  match byteNext1 op, bitNext1 op with
  | some (f, n), _ => .call .offset fun v => (bits1 (f (posOf1 v))).andThen fun out => .call (.seek n true) fun _ => .done out
  | none, some (f, n) => .call .bitOffset fun v => (bits1 (f (posOf1 v))).andThen fun out => .call (.seekBit n true) fun _ => .done out
  | none, none => bits1 op

/-- Every call but those that load bytes without the mutex and those that change the size. -/
def Steady1 : Op1 → Prop
  | .readByte _ => False
  | .readComplex _ _ w _ => w = Unsigned8
  | .grow _ => False
  | .refresh => False
  | _ => True

theorem writeComplexNext_eq (d : Any) (w : Int64) (e : ByteOrder) : Buffer.WriteComplexNext d w e = (Prog.field .off).bind fun o =>
    (Buffer.writeComplex o d w e).bind fun _ => Buffer.seek (Int64.ofNat d.len * w) true := by
  unfold Buffer.WriteComplexNext
  show Prog.bind _ _ = Prog.bind _ _
  congr 1
  funext o
  unfold Buffer.writeComplex
  by_cases h8 : w = Unsigned8
  · subst h8; cases d <;> rfl
  · by_cases h16 : w = Unsigned16
    · subst h16; cases d <;> rfl
    · by_cases h32 : w = Unsigned32
      · subst h32; cases d <;> rfl
      · by_cases h64 : w = Unsigned64
        · subst h64; cases d <;> rfl
        · rw [if_neg h8, if_neg h16, if_neg h32, if_neg h64, if_neg h8, if_neg h16, if_neg h32, if_neg h64]
          rfl

theorem exec1_parts (op : Op1) (h : Steady1 op) : exec1 op = Prog.script exec1 (parts1 op) := by
  cases op with
  | writeComplex p d w e =>
    cases p with
    | some o => exact exec1_bits _ rfl
    | none =>
      show wrap1 _ (Buffer.WriteComplexNext d w e) = _
      rw [writeComplexNext_eq]
      exact next_script_unit (ex := exec1) (wr := fun x => Val1.val (.i64 x)) (look := .offset) (mv := .seek _ true) (pos := posOf1) (fun _ => rfl) rfl rfl
        fun o => exec1_bits (.writeComplex (some o) d w e) rfl
  | readComplex p n w e =>
    cases h
    cases p with
    | some o => exact exec1_bits _ ⟨rfl, rfl⟩
    | none =>
      exact next_script (ex := exec1) (wr := fun x => Val1.val (.i64 x)) (look := .offset) (mv := .seek (n * Unsigned8) true) (pos := posOf1)
        (P := fun o => Buffer.readComplex o n Unsigned8 e) (f := Val1.any) (sk := Buffer.seek (n * Unsigned8) true)
        (u := Val1.val .unit) (S := fun o => bits1 (.readComplex (some o) n Unsigned8 e)) (fun _ => rfl) rfl rfl
        fun o => exec1_bits (.readComplex (some o) n Unsigned8 e) ⟨rfl, rfl⟩
  | writeBytes p s =>
    cases p with
    | some o => exact exec1_bits _ rfl
    | none =>
      exact next_script_unit (ex := exec1) (wr := fun x => Val1.val (.i64 x)) (look := .offset) (mv := .seek _ true) (pos := posOf1) (fun _ => rfl) rfl rfl
        fun o => exec1_bits (.writeBytes (some o) s) rfl
  | writeByte p v =>
    cases p with
    | some o => exact exec1_bits _ rfl
    | none =>
      exact next_script_unit (ex := exec1) (wr := fun x => Val1.val (.i64 x)) (look := .offset) (mv := .seek _ true) (pos := posOf1) (fun _ => rfl) rfl rfl
        fun o => exec1_bits (.writeByte (some o) v) rfl
  | readBytes p n =>
    cases p with
    | some o => exact exec1_bits _ rfl
    | none =>
      exact next_script (ex := exec1) (wr := fun x => Val1.val (.i64 x)) (look := .offset) (mv := .seek _ true) (pos := posOf1) (fun _ => rfl) rfl rfl
        fun o => exec1_bits (.readBytes (some o) n) rfl
  | readBit p =>
    cases p with
    | some o => exact exec1_bits _ rfl
    | none =>
      exact next_script (ex := exec1) (wr := fun x => Val1.val (.i64 x)) (look := .bitOffset) (mv := .seekBit _ true) (pos := posOf1) (fun _ => rfl) rfl rfl
        fun o => exec1_bits (.readBit (some o)) rfl
  | readBits p n =>
    cases p with
    | some o => exact exec1_bits _ rfl
    | none =>
      exact next_script (ex := exec1) (wr := fun x => Val1.val (.i64 x)) (look := .bitOffset) (mv := .seekBit _ true) (pos := posOf1) (fun _ => rfl) rfl rfl
        fun o => exec1_bits (.readBits (some o) n) rfl
  | setBit p v =>
    cases p with
    | some o => exact exec1_bits _ rfl
    | none =>
      exact next_script_unit (ex := exec1) (wr := fun x => Val1.val (.i64 x)) (look := .bitOffset) (mv := .seekBit _ true) (pos := posOf1) (fun _ => rfl) rfl rfl
        fun o => exec1_bits (.setBit (some o) v) rfl
  | flipBit p =>
    cases p with
    | some o => exact exec1_bits _ rfl
    | none =>
      exact next_script_unit (ex := exec1) (wr := fun x => Val1.val (.i64 x)) (look := .bitOffset) (mv := .seekBit _ true) (pos := posOf1) (fun _ => rfl) rfl rfl
        fun o => exec1_bits (.flipBit (some o)) rfl
  | setBits p d n =>
    cases p with
    | some o => exact exec1_bits _ rfl
    | none =>
      exact next_script_unit (ex := exec1) (wr := fun x => Val1.val (.i64 x)) (look := .bitOffset) (mv := .seekBit _ true) (pos := posOf1) (fun _ => rfl) rfl rfl
        fun o => exec1_bits (.setBits (some o) d n) rfl
  | readByte p => exact h.elim
  | grow n => exact h.elim
  | refresh => exact h.elim
  | _ => exact (bind_ret _).symm

/-- One locked section, or looks at fields of which only the last is an offset. -/
def Single1 : Op1 → Prop
  | .offset => True
  | .bitOffset => True
  | .after _ => True
  | .afterBit _ => True
  | op => Atomic1 op

theorem exec1_onceP (op : Op1) (h : Single1 op) : OnceP (exec1 op) := by
  have key : ∀ op2, toV2 op = some op2 → Shared op = true → V2.Single op2 → OnceP (exec1 op) := by
    intro op2 h1 h2 h3
    rw [exec1_v2 op op2 h1 h2]
    exact (V2.exec_onceP op2 h3).map _
  have good : ∀ {α : Type} {p : Prog α} {f : α → Val}, V2.Good p → OnceP (wrap1 f p) := fun g =>
    (g.once.toP (g.neutral _) (g.neutral _)).map _
  cases op with
  | writeComplex p d w e =>
    cases p with
    | none => exact nomatch h
    | some o => exact good (writeComplex_good o d w e)
  | readComplex p n w e =>
    cases p with
    | none => exact nomatch h.1
    | some o =>
      obtain ⟨_, rfl⟩ := h
      have g := V2.readRaw_good o n
      show OnceP ((Buffer.read o n >>= fun data => Prog.ret (Any.bytes data)).bind fun a => Prog.ret (Val1.any a))
      exact ((g.once.toP (g.neutral _) (g.neutral _)).map Any.bytes).map _
  | clearAll => exact good clear_good
  | setAll => exact good setall_good
  | flipAll => exact good flipall_good
  | readByte p => exact h.elim
  | readBits p n => exact h.elim
  | setBits p d n => exact h.elim
  | grow n => exact h.elim
  | refresh => exact h.elim
  | _ => exact key _ rfl rfl h

theorem bits1_single (op : Op1) (h : Bitwise1 op) (e : Op1) (u : (bits1 op).Uses e) : Single1 e := by
  have := bits1_atomic op h e u
  cases e <;> first | trivial | exact this

theorem parts1_single (op : Op1) (h : Steady1 op) (e : Op1) (u : (parts1 op).Uses e) : Single1 e := by
  have next : ∀ {look mv : Op1} {f : Int64 → Op1},
      (Script.call look fun v => (bits1 (f (posOf1 v))).andThen fun out => .call mv fun _ => .done out).Uses e →
      Single1 look → Single1 mv → (∀ o, Bitwise1 (f o)) → Single1 e := by
    intro look mv f u h1 h2 h3
    cases u with
    | here => exact h1
    | later u =>
      rcases uses_andThen u with u | ⟨v, u⟩
      · exact bits1_single _ (h3 _) e u
      · cases u with
        | here => exact h2
        | later u => exact nomatch u
  have plain : Bitwise1 op → (bits1 op).Uses e → Single1 e := fun h u => bits1_single op h e u
  have one : ∀ {op' : Op1}, (Script.call op' Script.done : Script Op1 Val1 Val1).Uses e → Single1 op' → Single1 e := by
    intro op' hu ha
    cases hu with
    | here => exact ha
    | later hu => exact nomatch hu
  cases op with
  | writeComplex p d w en => cases p with | some o => exact plain rfl u | none => exact next (f := fun o => .writeComplex (some o) d w en) u trivial trivial (fun _ => rfl)
  | readComplex p n w en =>
    cases h
    cases p with
    | some o => exact plain ⟨rfl, rfl⟩ u
    | none => exact next (f := fun o => .readComplex (some o) n Unsigned8 en) u trivial trivial (fun _ => ⟨rfl, rfl⟩)
  | writeBytes p s => cases p with | some o => exact plain rfl u | none => exact next (f := fun o => .writeBytes (some o) s) u trivial trivial (fun _ => rfl)
  | writeByte p v => cases p with | some o => exact plain rfl u | none => exact next (f := fun o => .writeByte (some o) v) u trivial trivial (fun _ => rfl)
  | readBytes p n => cases p with | some o => exact plain rfl u | none => exact next (f := fun o => .readBytes (some o) n) u trivial trivial (fun _ => rfl)
  | readBit p => cases p with | some o => exact plain rfl u | none => exact next (f := fun o => .readBit (some o)) u trivial trivial (fun _ => rfl)
  | readBits p n => cases p with | some o => exact plain rfl u | none => exact next (f := fun o => .readBits (some o) n) u trivial trivial (fun _ => rfl)
  | setBit p v => cases p with | some o => exact plain rfl u | none => exact next (f := fun o => .setBit (some o) v) u trivial trivial (fun _ => rfl)
  | flipBit p => cases p with | some o => exact plain rfl u | none => exact next (f := fun o => .flipBit (some o)) u trivial trivial (fun _ => rfl)
  | setBits p d n => cases p with | some o => exact plain rfl u | none => exact next (f := fun o => .setBits (some o) d n) u trivial trivial (fun _ => rfl)
  | readByte p => exact h.elim
  | grow n => exact h.elim
  | refresh => exact h.elim
  | _ => exact one u trivial

/-- The same for v1, where `ReadComplex` and `ReadComplexNext` are included for bytes only: for wider integers they load the bytes
without the mutex. -/
theorem C109_v1_look_act_move {c0 c : Conf Op1 Val1} {τ : Trace Op1 Val1} (q : Quiet c0) (e : Exec exec1 Steady1 c0 τ c) :
    ∃ L : List (Nat × Op1), (∀ a ∈ L, Single1 a.2) ∧ Explains exec1 parts1 c0.sh τ L ∧
      (∀ τ1 τ2, τ = τ1 ++ τ2 → ∃ L1 L2, L = L1 ++ L2 ∧ Explains exec1 parts1 c0.sh τ1 L1) ∧
      (∀ i, c.thr i = .idle → Pieces parts1 (finished i τ) (ofThread i (seqRun exec1 L c0.sh).1)) ∧
      ((∀ i, c.thr i = .idle) → c.sh = (seqRun exec1 L c0.sh).2) :=
  parts_look exec1_parts parts1_single exec1_onceP q e

/-- Two goroutines write one 16-bit integer each at the offset both have seen. -/
def demoLost1 : List (Nat × Option Op1) :=
  (0, some (.writeComplex none (.u16 [0x1122]) Unsigned16 (some .be))) :: (1, some (.writeComplex none (.u16 [0x3344]) Unsigned16 (some .be))) :: (0, none) ::
    (1, none) :: steps 0 12 ++ steps 1 12

example : (∃ τ c, Exec exec1 Steady1 (rest _ _ demo) τ c ∧ (∀ i, c.thr i = .idle) ∧
      c.sh.st.bytes = [3, 4, 5, 0x33, 0x44, 8, 9, 10, 11, 12, 13, 14] ∧ c.sh.st.b.off = 7) ∧
    Pieces parts1 [(.writeComplex none (.u16 [0x3344]) Unsigned16 (some .be), .ok (.val .unit))]
      [(.offset, .ok (.val (.i64 3))), (.writeComplex (some 3) (.u16 [0x3344]) Unsigned16 (some .be), .ok (.val .unit)),
        (.seek (1 * Unsigned16) true, .ok (.val .unit))] := by
  constructor
  · obtain ⟨τ, c, e, hi, h⟩ := sched_ex_done (allowed := Steady1) (ex := exec1) (rest_quiet demo) 2 demoLost1
      (fun _ c => c.sh.st.bytes == [3, 4, 5, 0x33, 0x44, 8, 9, 10, 11, 12, 13, 14] && c.sh.st.b.off == 7)
      (allowed_of fun op ho => by
        rcases (by simpa [demoLost1, steps, List.filterMap_cons, List.filterMap_append, List.filterMap_replicate_of_none] using ho :
          op = _ ∨ op = _) with rfl | rfl <;> trivial) (by decide) (by decide +kernel)
    simp only [Bool.and_eq_true, beq_iff_eq] at h
    exact ⟨τ, c, e, hi, h.1, h.2⟩
  · exact .snoc (fs := []) (es := []) .nil (.more (.more (.more .done)))

end Crunch.V1
