import Verif.Lemmas.V2Conc

/-! Relative moves of an offset by concurrent Next calls are never lost. -/

namespace Crunch
open V3 (St)

/-- `b.f = b.f + n` up to the unlock, followed by a return. -/
def SeekSec (f : Field) (n : Int64) : Prog α → Prop
  | .getI g k => g = f ∧ ∀ v, ∃ a, k v = .setI f (v + n) (.unlock (.ret a))
  | _ => False

/-- Ends in a panic, or moves field `f` by `n` in its last section. -/
def Adv (f : Field) (n : Int64) : Prog α → Prop
  | .ret _ => False
  | .panic _ => True
  | .getI _ k => ∀ v, Adv f n (k v)
  | .setI g _ k => g ≠ f ∧ Adv f n k
  | .getBuf k => ∀ s, Adv f n (k s)
  | .setBuf _ k => Adv f n k
  | .load _ _ k => ∀ v, Adv f n (k v)
  | .store _ _ _ k => Adv f n k
  | .append _ _ k => ∀ s, Adv f n (k s)
  | .alloc _ _ k => ∀ s, Adv f n (k s)
  | .lock k => SeekSec f n k ∨ Adv f n k
  | .unlock k => Adv f n k

/-- Nothing left but to finish the last section and return. -/
def Past : Prog α → Prop
  | .ret _ => True
  | .getI _ k => ∀ v, Past (k v)
  | .setI _ _ k => Past k
  | .unlock k => Past k
  | _ => False

theorem SeekSec.past {f : Field} {n : Int64} {p : Prog α} (h : SeekSec f n p) : Past p := by
  cases p with
  | getI g k =>
    intro v
    obtain ⟨a, e⟩ := h.2 v
    rw [e]
    trivial
  | _ => exact h.elim

theorem Field.get_set (f : Field) (b : V3.Buf) (v : Int64) : f.get (f.set b v) = v := by cases f <;> rfl
theorem Field.get_set_ne {f g : Field} (h : g ≠ f) (b : V3.Buf) (v : Int64) : f.get (g.set b v) = f.get b := by
  cases f <;> cases g <;> first | rfl | exact absurd rfl h
theorem Field.get_buf (f : Field) (b : V3.Buf) (t : Slice) : f.get { b with buf := t } = f.get b := by cases f <;> rfl

theorem SeekSec.secRun {f : Field} {n : Int64} {p : Prog α} (h : SeekSec f n p) (s : St) :
    f.get (secRun p s).b = f.get s.b + n := by
  cases p with
  | getI g k =>
    obtain ⟨a, e⟩ := h.2 (f.get s.b)
    rw [h.1]
    show f.get (Crunch.secRun (k (f.get s.b)) s).b = _
    rw [e]
    exact Field.get_set f _ _
  | _ => exact h.elim

theorem Adv.secRun {f : Field} {n : Int64} {p : Prog α} (h : Adv f n p) (s : St) : f.get (secRun p s).b = f.get s.b := by
  induction p generalizing s with
  | ret a => rfl
  | panic q => rfl
  | getI x k ih => exact ih _ (h _) s
  | setI x v k ih => exact (ih h.2 _).trans (Field.get_set_ne h.1 _ _)
  | getBuf k ih => exact ih _ (h _) s
  | setBuf t k ih => exact (ih h _).trans (Field.get_buf f _ _)
  | load t i k ih => exact ih _ (h _) s
  | store t i v k ih => exact ih h _
  | append t x k ih => exact ih _ (h _) _
  | alloc a n k ih => exact ih _ (h _) _
  | lock k ih => rfl
  | unlock k ih => rfl

theorem Neutral.secRun {f : Field} {p : Prog α} (h : Neutral f p) (s : St) : f.get (secRun p s).b = f.get s.b := by
  induction p generalizing s with
  | ret a => rfl
  | panic q => rfl
  | getI x k ih => exact ih _ (h _) s
  | setI x v k ih => exact (ih h.2 _).trans (Field.get_set_ne h.1 _ _)
  | getBuf k ih => exact ih _ (h _) s
  | setBuf t k ih => exact (ih h _).trans (Field.get_buf f _ _)
  | load t i k ih => exact ih _ (h _) s
  | store t i v k ih => exact ih h _
  | append t x k ih => exact ih _ (h _) _
  | alloc a n k ih => exact ih _ (h _) _
  | lock k ih => rfl
  | unlock k ih => rfl

theorem Adv.bind {f : Field} {n : Int64} {p : Prog α} {g : α → Prog β} (hp : Neutral f p) (hg : ∀ a, Adv f n (g a)) : Adv f n (p.bind g) := by
  induction p with
  | ret a => exact hg a
  | panic q => trivial
  | getI x k ih => exact fun v => ih v (hp v)
  | setI x v k ih => exact ⟨hp.1, ih hp.2⟩
  | getBuf k ih => exact fun v => ih v (hp v)
  | setBuf t k ih => exact ih hp
  | load t i k ih => exact fun v => ih v (hp v)
  | store t i v k ih => exact ih hp
  | append t x k ih => exact fun v => ih v (hp v)
  | alloc a n k ih => exact fun v => ih v (hp v)
  | lock k ih => exact .inr (ih hp)
  | unlock k ih => exact ih hp

theorem SeekSec.map {f : Field} {n : Int64} {p : Prog α} (h : SeekSec f n p) (g : α → β) : SeekSec f n (p.bind fun a => .ret (g a)) := by
  cases p with
  | getI x k =>
    refine ⟨h.1, fun v => ?_⟩
    obtain ⟨a, e⟩ := h.2 v
    exact ⟨g a, by show (k v).bind _ = _; rw [e]; rfl⟩
  | _ => exact h.elim

theorem Adv.map {f : Field} {n : Int64} {p : Prog α} (h : Adv f n p) (g : α → β) : Adv f n (p.bind fun a => .ret (g a)) := by
  induction p with
  | ret a => exact h.elim
  | panic q => trivial
  | getI x k ih => exact fun v => ih v (h v)
  | setI x v k ih => exact ⟨h.1, ih h.2⟩
  | getBuf k ih => exact fun v => ih v (h v)
  | setBuf t k ih => exact ih h
  | load t i k ih => exact fun v => ih v (h v)
  | store t i v k ih => exact ih h
  | append t x k ih => exact fun v => ih v (h v)
  | alloc a n k ih => exact fun v => ih v (h v)
  | lock k ih =>
    rcases h with h | h
    · exact .inl (h.map g)
    · exact .inr (ih h)
  | unlock k ih => exact ih h

/-! ## steps -/

theorem Neutral.step {f : Field} {p p' : Prog α} {e : Event} {s s' : Sh} (h : Neutral f p) (st : p.step s = some (e, p', s')) :
    Neutral f p' := by
  cases p with
  | ret a => exact nomatch st
  | panic q => exact nomatch st
  | getI x k => cases st; exact h _
  | setI x v k => cases st; exact h.2
  | getBuf k => cases st; exact h _
  | setBuf t k => cases st; exact h
  | load t i k => cases st; exact h _
  | store t i v k => cases st; exact h
  | append t x k => cases st; exact h _
  | alloc a n k => cases st; exact h _
  | lock k =>
    change (if s.locked = true then none else some (Event.lock, k, (⟨s.st, true⟩ : Sh))) = _ at st
    split at st
    · exact nomatch st
    · cases st; exact h
  | unlock k => cases st; exact h

theorem Past.step {p p' : Prog α} {e : Event} {s s' : Sh} (h : Past p) (st : p.step s = some (e, p', s')) : e ≠ .lock ∧ Past p' := by
  cases p with
  | ret a => exact nomatch st
  | getI x k => cases st; exact ⟨by decide, h _⟩
  | setI x v k => cases st; exact ⟨by decide, h⟩
  | unlock k => cases st; exact ⟨by decide, h⟩
  | _ => exact h.elim

theorem Adv.step {f : Field} {n : Int64} {p p' : Prog α} {e : Event} {s s' : Sh} (h : Adv f n p) (st : p.step s = some (e, p', s')) :
    Adv f n p' ∨ (e = .lock ∧ SeekSec f n p') := by
  cases p with
  | ret a => exact nomatch st
  | panic q => exact nomatch st
  | getI x k => cases st; exact .inl (h _)
  | setI x v k => cases st; exact .inl h.2
  | getBuf k => cases st; exact .inl (h _)
  | setBuf t k => cases st; exact .inl h
  | load t i k => cases st; exact .inl (h _)
  | store t i v k => cases st; exact .inl h
  | append t x k => cases st; exact .inl (h _)
  | alloc a n k => cases st; exact .inl (h _)
  | lock k =>
    change (if s.locked = true then none else some (Event.lock, k, (⟨s.st, true⟩ : Sh))) = _ at st
    split at st
    · exact nomatch st
    · cases st
      rcases h with h | h
      · exact .inr ⟨rfl, h⟩
      · exact .inl h
  | unlock k => cases st; exact .inl h

/-! ## accounting -/

/-- `x0 + x1 + …` -/
def total (l : List Int64) : Int64 := l.foldl (· + ·) 0

theorem total_snoc (l : List Int64) (n : Int64) : total (l ++ [n]) = total l + n := by
  unfold total; rw [List.foldl_append]; rfl

/-- The moves of the calls goroutine `i` has completed without panic. -/
def moves (adv : O → Option Int64) (i : Nat) (τ : Trace O V) : List Int64 :=
  (finished i τ).filterMap fun x =>
    match x.2 with
    | .ok _ => adv x.1
    | .panic _ => none

inductive AWhere (adv : O → Option Int64) (f : Field) (done moved : List Int64) : Thr O V → Prop
  | idle : moved = done → AWhere adv f done moved .idle
  | todo {op : O} {p : Prog V} {n : Int64} : adv op = some n → Adv f n p → moved = done → AWhere adv f done moved (.busy op p)
  | past {op : O} {p : Prog V} {n : Int64} : adv op = some n → Past p → moved = done ++ [n] → AWhere adv f done moved (.busy op p)
  | neutral {op : O} {p : Prog V} : adv op = none → Neutral f p → moved = done → AWhere adv f done moved (.busy op p)

/-- `A` lists the moves in the order of their sections. -/
structure AInv (adv : O → Option Int64) (f : Field) (s0 : St) (τ : Trace O V) (c : Conf O V) (A : List (Nat × Int64)) : Prop where
  value : f.get (after τ s0).b = f.get s0.b + total (A.map (·.2))
  place : ∀ i, AWhere adv f (moves adv i τ) (ofThread i A) (c.thr i)

theorem AInv.step {ex : O → Prog V} {allowed : O → Prop} {adv : O → Option Int64} {f : Field}
    (h1 : ∀ op, allowed op → ∀ n, adv op = some n → Adv f n (ex op)) (h2 : ∀ op, allowed op → adv op = none → Neutral f (ex op))
    {s0 : St} {τ : Trace O V} {c c' : Conf O V} {A : List (Nat × Int64)} (v : AInv adv f s0 τ c A) {i : Nat} {x : Act O V}
    (st : Step ex allowed c i x c') : ∃ A, AInv adv f s0 (τ ++ [(i, x)]) c' A := by
  have w := v.place i
  have hmoves : (∀ op r, x ≠ .finish op r) → ∀ j, moves adv j (τ ++ [(i, x)]) = moves adv j τ := by
    intro hx j
    unfold moves
    rw [finished_snoc]
    have : finished j [(i, x)] = [] := by
      cases x with
      | start op => rfl
      | did e p => rfl
      | finish op r => exact absurd rfl (hx op r)
    rw [this, List.append_nil]
  have hafter : (∀ p, x ≠ .did .lock p) → after (τ ++ [(i, x)]) s0 = after τ s0 := by
    intro hx
    rw [after_snoc]
    cases x with
    | start op => rfl
    | did e p =>
      cases e with
      | lock => exact absurd rfl (hx p)
      | _ => rfl
    | finish op r => rfl
  cases st with
  | start op hi hop =>
    refine ⟨A, by rw [hafter (fun _ h => nomatch h)]; exact v.value, fun j => ?_⟩
    rw [hmoves (fun _ _ h => nomatch h), set_thr]
    by_cases hj : j = i
    · subst hj
      rw [if_pos rfl]
      rw [hi] at w
      cases w with
      | idle e =>
        cases ha : adv op with
        | none => exact .neutral ha (h2 op hop ha) e
        | some n => exact .todo ha (h1 op hop n ha) e
    · rw [if_neg hj]; exact v.place j
  | @finish op p r hi hr =>
    refine ⟨A, by rw [hafter (fun _ h => nomatch h)]; exact v.value, fun j => ?_⟩
    have hm : moves adv j (τ ++ [(i, .finish op r)]) = moves adv j τ ++
        (if i = j then (match r with | .ok _ => (adv op).toList | .panic _ => []) else []) := by
      unfold moves
      rw [finished_snoc, List.filterMap_append]
      congr 1
      show List.filterMap _ (if i = j then [(op, r)] else []) = _
      split
      · cases r with
        | ok a => show List.filterMap _ [(op, Res.ok a)] = _; cases ha : adv op <;> simp [ha]
        | panic q => rfl
      · rfl
    rw [hm, set_thr]
    by_cases hj : j = i
    · subst hj
      rw [if_pos rfl, if_pos rfl]
      rw [hi] at w
      cases w with
      | todo ha hp e =>
        cases p with
        | ret a => exact hp.elim
        | panic q => cases hr; exact .idle (by rw [e]; exact (List.append_nil _).symm)
        | _ => exact nomatch hr
      | past ha hp e =>
        cases p with
        | ret a => cases hr; exact .idle (by rw [e, ha]; rfl)
        | panic q => exact hp.elim
        | _ => exact nomatch hr
      | neutral ha hp e =>
        cases r with
        | ok a => exact .idle (by rw [e, ha]; exact (List.append_nil _).symm)
        | panic q => exact .idle (by rw [e]; exact (List.append_nil _).symm)
    · rw [if_neg hj, if_neg (fun h => hj h.symm), List.append_nil]; exact v.place j
  | @did op p p' ev sh hi hs =>
    rw [hi] at w
    -- a step after which the list of moves is the same
    have keep : f.get (after (τ ++ [(i, .did ev p')]) s0).b = f.get (after τ s0).b →
        AWhere adv f (moves adv i τ) (ofThread i A) (.busy op p') →
        ∃ A, AInv adv f s0 (τ ++ [(i, .did ev p')]) (c.set i (.busy op p') sh) A := by
      intro hv hw
      refine ⟨A, hv.trans v.value, fun j => ?_⟩
      rw [hmoves (fun _ _ h => nomatch h), set_thr]
      by_cases hj : j = i
      · subst hj; rw [if_pos rfl]; exact hw
      · rw [if_neg hj]; exact v.place j
    have same : ∀ (_ : ∀ s : St, f.get (secRun p' s).b = f.get s.b), f.get (after (τ ++ [(i, .did ev p')]) s0).b = f.get (after τ s0).b := by
      intro h
      rw [after_snoc]
      cases ev with
      | lock => exact h _
      | _ => rfl
    cases w with
    | @todo _ _ n ha hp e =>
      rcases hp.step hs with h | ⟨h, h'⟩
      · exact keep (same h.secRun) (.todo ha h e)
      · subst h
        refine ⟨A ++ [(i, n)], ?_, fun j => ?_⟩
        · rw [after_snoc, List.map_append, List.map_cons, List.map_nil, total_snoc, ← Int64.add_assoc, ← v.value]
          exact h'.secRun _
        · rw [hmoves (fun _ _ h => nomatch h), set_thr, ofThread_snoc]
          by_cases hj : j = i
          · subst hj
            rw [if_pos rfl, if_pos rfl]
            exact .past ha h'.past (by rw [e])
          · rw [if_neg hj, if_neg (fun h => hj h.symm)]; exact v.place j
    | past ha hp e =>
      obtain ⟨h3, h4⟩ := hp.step hs
      refine keep ?_ (.past ha h4 e)
      rw [hafter (fun q hq => h3 (by cases hq; rfl))]
    | neutral ha hp e => exact keep (same (hp.step hs).secRun) (.neutral ha (hp.step hs) e)

theorem exec_adv {ex : O → Prog V} {allowed : O → Prop} {adv : O → Option Int64} {f : Field}
    (h1 : ∀ op, allowed op → ∀ n, adv op = some n → Adv f n (ex op)) (h2 : ∀ op, allowed op → adv op = none → Neutral f (ex op))
    {c0 c : Conf O V} {τ : Trace O V} (q : Quiet c0) (e : Exec ex allowed c0 τ c) : ∃ A, AInv adv f c0.sh.st τ c A := by
  induction e with
  | nil => exact ⟨[], (Int64.add_zero _).symm, fun i => (by rw [q.idle i]; exact .idle rfl)⟩
  | snoc _ st ih =>
    obtain ⟨A, v⟩ := ih
    exact v.step h1 h2 st

namespace V2
open Spec
open V3 (Val)

/-- How far a call moves the byte offset: the Next calls on bytes. -/
def advOff : Op2 → Option Int64
  | .write k _ none d => some (Int64.ofNat d.length * Int64.ofNat k.kind.size)
  | .read k _ none n => some (n * Int64.ofNat k.kind.size)
  | .writeBytes none s => some (Int64.ofNat s.len)
  | .writeByte none _ => some 1
  | .readBytes none n => some n
  | .readByte none => some 1
  | _ => none

/-- How far a call moves the bit offset: the Next calls on bits. -/
def advBoff : Op2 → Option Int64
  | .readBit none => some 1
  | .readBits none n => some n
  | .setBit none _ => some 1
  | .flipBit none => some 1
  | .setBits none _ n => some n
  | _ => none

/-- The calls that do not set the byte offset to something new. -/
def NoSeek : Op2 → Prop
  | .seek .. => False
  | .alignByte => False
  | .reset => False
  | _ => True

/-- The calls that do not set the bit offset to something new. -/
def NoSeekBit : Op2 → Prop
  | .seekBit .. => False
  | .alignBit => False
  | .reset => False
  | _ => True

theorem seek_adv (n : Int64) : Adv .off n (Buffer.seek n true) := .inl ⟨rfl, fun _ => ⟨_, rfl⟩⟩
theorem seek_adv_ret (n : Int64) (a : α) : Adv .off n ((Buffer.seek n true).bind fun _ => .ret a) := .inl ⟨rfl, fun _ => ⟨_, rfl⟩⟩
theorem seekbit_adv (n : Int64) : Adv .boff n (Buffer.seekbit n true) := .inl ⟨rfl, fun _ => ⟨_, rfl⟩⟩
theorem seekbit_adv_ret (n : Int64) (a : α) : Adv .boff n ((Buffer.seekbit n true).bind fun _ => .ret a) := .inl ⟨rfl, fun _ => ⟨_, rfl⟩⟩

theorem neutral_ret (f : Field) (a : α) : Neutral f (.ret a) := trivial
theorem neutral_field (f g : Field) : Neutral f (Prog.field g) := fun _ => neutral_ret _ _
theorem alignbit_neutral : Neutral .off Buffer.alignbit := fun _ => ⟨by decide, trivial⟩
theorem alignbyte_neutral : Neutral .boff Buffer.alignbyte := fun _ => ⟨by decide, trivial⟩

theorem seek_neutral (off : Int64) (r : Bool) : Neutral .boff (Buffer.seek off r) := by
  cases r
  · exact ⟨by decide, trivial⟩
  · exact fun _ => ⟨by decide, trivial⟩
theorem seekbit_neutral (off : Int64) (r : Bool) : Neutral .off (Buffer.seekbit off r) := by
  cases r
  · exact ⟨by decide, trivial⟩
  · exact fun _ => ⟨by decide, trivial⟩

theorem readbits_neutral (f : Field) (off n : Int64) : Neutral f (Buffer.readbits off n) :=
  Neutral.doLoop (fun _ _ => ((readbit_good _).neutral f).bind fun _ => neutral_ret _ _) _ _ _
theorem setbits_neutral (f : Field) (off : Int64) (d : UInt64) (n : Int64) : Neutral f (Buffer.setbits off d n) :=
  Neutral.doLoop (fun _ _ => (setbit_good _ _).neutral f) _ _ _

theorem refresh_neutral {f : Field} (h : f.isOff = true) : Neutral f Buffer.refresh := by
  refine Neutral.locked fun _ => ⟨?_, fun _ => ⟨?_, trivial⟩⟩
  · rintro rfl; exact nomatch h
  · rintro rfl; exact nomatch h

theorem grow_neutral {f : Field} (h : f.isOff = true) (n : Int64) : Neutral f (Buffer.grow n) := by
  intro s
  refine Neutral.bind trivial fun s => Neutral.bind ?_ fun z => Neutral.bind ?_ fun r => refresh_neutral h
  · unfold Prog.makeZero; split <;> trivial
  · unfold Prog.appendTo; split
    · exact fun _ => neutral_ret _ _
    · trivial

theorem Neutral.map {f : Field} {p : Prog α} (h : Neutral f p) (g : α → Val) : Neutral f (wrapVal g p) := h.bind fun _ => neutral_ret _ _

theorem writeNext_adv (k : UKind) (e : Endian) (d : List k.kind.Ty) :
    Adv .off (Int64.ofNat d.length * Int64.ofNat k.kind.size) (Buffer.WriteNext k e d) := by
  cases k <;> cases e
  · exact Adv.bind (neutral_field _ _) fun o => Adv.bind ((write_good .u16 .le o d).neutral _) fun _ => seek_adv _
  · exact Adv.bind (neutral_field _ _) fun o => Adv.bind ((write_good .u16 .be o d).neutral _) fun _ => seek_adv _
  · exact Adv.bind (neutral_field _ _) fun o => Adv.bind ((write_good .u32 .le o d).neutral _) fun _ => seek_adv _
  · exact Adv.bind (neutral_field _ _) fun o => Adv.bind ((write_good .u32 .be o d).neutral _) fun _ => seek_adv _
  · exact Adv.bind (neutral_field _ _) fun o => Adv.bind ((write_good .u64 .le o d).neutral _) fun _ => seek_adv _
  · exact Adv.bind (neutral_field _ _) fun o => Adv.bind ((write_good .u64 .be o d).neutral _) fun _ => seek_adv _

theorem readNext_adv (k : UKind) (e : Endian) (n : Int64) : Adv .off (n * Int64.ofNat k.kind.size) (Buffer.ReadNext k e n) := by
  cases k <;> cases e
  · exact Adv.bind (neutral_field _ _) fun o => Adv.bind ((read_good .u16 .le o n).neutral _) fun _ => seek_adv_ret _ _
  · exact Adv.bind (neutral_field _ _) fun o => Adv.bind ((read_good .u16 .be o n).neutral _) fun _ => seek_adv_ret _ _
  · exact Adv.bind (neutral_field _ _) fun o => Adv.bind ((read_good .u32 .le o n).neutral _) fun _ => seek_adv_ret _ _
  · exact Adv.bind (neutral_field _ _) fun o => Adv.bind ((read_good .u32 .be o n).neutral _) fun _ => seek_adv_ret _ _
  · exact Adv.bind (neutral_field _ _) fun o => Adv.bind ((read_good .u64 .le o n).neutral _) fun _ => seek_adv_ret _ _
  · exact Adv.bind (neutral_field _ _) fun o => Adv.bind ((read_good .u64 .be o n).neutral _) fun _ => seek_adv_ret _ _

theorem exec_advOff (op : Op2) (n : Int64) (h : advOff op = some n) : Adv .off n (exec op) := by
  cases op with
  | write k e p d =>
    cases p with
    | none => cases h; exact (writeNext_adv k e d).map _
    | some o => exact nomatch h
  | read k e p m =>
    cases p with
    | none => cases h; exact (readNext_adv k e m).map _
    | some o => exact nomatch h
  | writeBytes p s =>
    cases p with
    | none => cases h; exact Adv.map (Adv.bind (neutral_field _ _) fun o => Adv.bind ((writeSrc_good o _).neutral _) fun _ => seek_adv _) _
    | some o => exact nomatch h
  | writeByte p v =>
    cases p with
    | none => cases h; exact Adv.map (Adv.bind (neutral_field _ _) fun o => Adv.bind ((writeSrc_good o _).neutral _) fun _ => seek_adv _) _
    | some o => exact nomatch h
  | readBytes p m =>
    cases p with
    | none => cases h; exact Adv.map (Adv.bind (neutral_field _ _) fun o => Adv.bind ((readRaw_good o _).neutral _) fun _ => seek_adv_ret _ _) _
    | some o => exact nomatch h
  | readByte p =>
    cases p with
    | none =>
      cases h
      exact Adv.map (Adv.bind (neutral_field _ _) fun o => Adv.bind ((readRaw_good o _).neutral _) fun _ =>
        Adv.bind (Neutral.loadAt _ _ _) fun _ => seek_adv_ret _ _) _
    | some o => exact nomatch h
  | _ => exact nomatch h

theorem exec_neutralOff (op : Op2) (hs : NoSeek op) (h : advOff op = none) : Neutral .off (exec op) := by
  cases op with
  | write k e p d =>
    cases p with
    | none => exact nomatch h
    | some o => exact Neutral.map ((write_good k e o d).neutral _) _
  | read k e p m =>
    cases p with
    | none => exact nomatch h
    | some o => exact Neutral.map ((read_good k e o m).neutral _) _
  | writeBytes p s =>
    cases p with
    | none => exact nomatch h
    | some o => exact Neutral.map ((writeSrc_good o _).neutral _) _
  | writeByte p v =>
    cases p with
    | none => exact nomatch h
    | some o => exact Neutral.map ((writeSrc_good o _).neutral _) _
  | readBytes p m =>
    cases p with
    | none => exact nomatch h
    | some o => exact Neutral.map ((readRaw_good o _).neutral _) _
  | readByte p =>
    cases p with
    | none => exact nomatch h
    | some o => exact Neutral.map (((readRaw_good o _).neutral _).bind fun _ => Neutral.loadAt _ _ _) _
  | readBit p =>
    cases p with
    | none => exact Neutral.map ((neutral_field _ _).bind fun _ => ((readbit_good _).neutral _).bind fun _ => (seekbit_neutral _ _).bind fun _ => neutral_ret _ _) _
    | some o => exact Neutral.map ((readbit_good o).neutral _) _
  | readBits p n =>
    cases p with
    | none => exact Neutral.map ((neutral_field _ _).bind fun _ => (readbits_neutral _ _ _).bind fun _ => (seekbit_neutral _ _).bind fun _ => neutral_ret _ _) _
    | some o => exact Neutral.map (readbits_neutral _ o n) _
  | setBit p v =>
    cases p with
    | none => exact Neutral.map ((neutral_field _ _).bind fun _ => ((setbit_good _ _).neutral _).bind fun _ => seekbit_neutral _ _) _
    | some o => exact Neutral.map ((setbit_good o v).neutral _) _
  | flipBit p =>
    cases p with
    | none => exact Neutral.map ((neutral_field _ _).bind fun _ => ((flipbit_good _).neutral _).bind fun _ => seekbit_neutral _ _) _
    | some o => exact Neutral.map ((flipbit_good o).neutral _) _
  | setBits p d n =>
    cases p with
    | none => exact Neutral.map ((neutral_field _ _).bind fun _ => (setbits_neutral _ _ _ _).bind fun _ => seekbit_neutral _ _) _
    | some o => exact Neutral.map (setbits_neutral _ o d n) _
  | clearAll => exact Neutral.map (clear_good.neutral _) _
  | setAll => exact Neutral.map (setall_good.neutral _) _
  | flipAll => exact Neutral.map (flipall_good.neutral _) _
  | seek o r => exact hs.elim
  | seekBit o r => exact Neutral.map (seekbit_neutral o r) _
  | after o => cases o <;> exact Neutral.map (by first | exact fun _ => trivial | exact fun _ _ => trivial) _
  | afterBit o => cases o <;> exact Neutral.map (by first | exact fun _ => trivial | exact fun _ _ => trivial) _
  | alignByte => exact hs.elim
  | alignBit => exact Neutral.map alignbit_neutral _
  | grow n => exact Neutral.map (grow_neutral rfl n) _
  | refresh => exact Neutral.map (refresh_neutral rfl) _
  | reset => exact hs.elim
  | bytes => exact fun _ => neutral_ret _ _
  | capacity => exact fun _ => neutral_ret _ _
  | bitCapacity => exact fun _ => neutral_ret _ _
  | offset => exact fun _ => neutral_ret _ _
  | bitOffset => exact fun _ => neutral_ret _ _

theorem exec_advBoff (op : Op2) (n : Int64) (h : advBoff op = some n) : Adv .boff n (exec op) := by
  cases op with
  | readBit p =>
    cases p with
    | none => cases h; exact Adv.map (Adv.bind (neutral_field _ _) fun o => Adv.bind ((readbit_good o).neutral _) fun _ => seekbit_adv_ret _ _) _
    | some o => exact nomatch h
  | readBits p m =>
    cases p with
    | none => cases h; exact Adv.map (Adv.bind (neutral_field _ _) fun o => Adv.bind (readbits_neutral _ o _) fun _ => seekbit_adv_ret _ _) _
    | some o => exact nomatch h
  | setBit p v =>
    cases p with
    | none => cases h; exact Adv.map (Adv.bind (neutral_field _ _) fun o => Adv.bind ((setbit_good o _).neutral _) fun _ => seekbit_adv _) _
    | some o => exact nomatch h
  | flipBit p =>
    cases p with
    | none => cases h; exact Adv.map (Adv.bind (neutral_field _ _) fun o => Adv.bind ((flipbit_good o).neutral _) fun _ => seekbit_adv _) _
    | some o => exact nomatch h
  | setBits p d m =>
    cases p with
    | none => cases h; exact Adv.map (Adv.bind (neutral_field _ _) fun o => Adv.bind (setbits_neutral _ o _ _) fun _ => seekbit_adv _) _
    | some o => exact nomatch h
  | _ => exact nomatch h

theorem writeNext_neutral (k : UKind) (e : Endian) (d : List k.kind.Ty) : Neutral .boff (Buffer.WriteNext k e d) := by
  cases k <;> cases e
  · exact (neutral_field _ _).bind fun o => ((write_good .u16 .le o d).neutral _).bind fun _ => seek_neutral _ _
  · exact (neutral_field _ _).bind fun o => ((write_good .u16 .be o d).neutral _).bind fun _ => seek_neutral _ _
  · exact (neutral_field _ _).bind fun o => ((write_good .u32 .le o d).neutral _).bind fun _ => seek_neutral _ _
  · exact (neutral_field _ _).bind fun o => ((write_good .u32 .be o d).neutral _).bind fun _ => seek_neutral _ _
  · exact (neutral_field _ _).bind fun o => ((write_good .u64 .le o d).neutral _).bind fun _ => seek_neutral _ _
  · exact (neutral_field _ _).bind fun o => ((write_good .u64 .be o d).neutral _).bind fun _ => seek_neutral _ _

theorem readNext_neutral (k : UKind) (e : Endian) (n : Int64) : Neutral .boff (Buffer.ReadNext k e n) := by
  cases k <;> cases e
  · exact (neutral_field _ _).bind fun o => ((read_good .u16 .le o n).neutral _).bind fun _ => (seek_neutral _ _).bind fun _ => neutral_ret _ _
  · exact (neutral_field _ _).bind fun o => ((read_good .u16 .be o n).neutral _).bind fun _ => (seek_neutral _ _).bind fun _ => neutral_ret _ _
  · exact (neutral_field _ _).bind fun o => ((read_good .u32 .le o n).neutral _).bind fun _ => (seek_neutral _ _).bind fun _ => neutral_ret _ _
  · exact (neutral_field _ _).bind fun o => ((read_good .u32 .be o n).neutral _).bind fun _ => (seek_neutral _ _).bind fun _ => neutral_ret _ _
  · exact (neutral_field _ _).bind fun o => ((read_good .u64 .le o n).neutral _).bind fun _ => (seek_neutral _ _).bind fun _ => neutral_ret _ _
  · exact (neutral_field _ _).bind fun o => ((read_good .u64 .be o n).neutral _).bind fun _ => (seek_neutral _ _).bind fun _ => neutral_ret _ _

theorem exec_neutralBoff (op : Op2) (hs : NoSeekBit op) (h : advBoff op = none) : Neutral .boff (exec op) := by
  cases op with
  | write k e p d =>
    cases p with
    | none => exact Neutral.map (writeNext_neutral k e d) _
    | some o => exact Neutral.map ((write_good k e o d).neutral _) _
  | read k e p m =>
    cases p with
    | none => exact Neutral.map (readNext_neutral k e m) _
    | some o => exact Neutral.map ((read_good k e o m).neutral _) _
  | writeBytes p s =>
    cases p with
    | none => exact Neutral.map ((neutral_field _ _).bind fun o => ((writeSrc_good o _).neutral _).bind fun _ => seek_neutral _ _) _
    | some o => exact Neutral.map ((writeSrc_good o _).neutral _) _
  | writeByte p v =>
    cases p with
    | none => exact Neutral.map ((neutral_field _ _).bind fun o => ((writeSrc_good o _).neutral _).bind fun _ => seek_neutral _ _) _
    | some o => exact Neutral.map ((writeSrc_good o _).neutral _) _
  | readBytes p m =>
    cases p with
    | none => exact Neutral.map ((neutral_field _ _).bind fun o => ((readRaw_good o _).neutral _).bind fun _ => (seek_neutral _ _).bind fun _ => neutral_ret _ _) _
    | some o => exact Neutral.map ((readRaw_good o _).neutral _) _
  | readByte p =>
    cases p with
    | none =>
      exact Neutral.map ((neutral_field _ _).bind fun o => ((readRaw_good o _).neutral _).bind fun _ => (Neutral.loadAt _ _ _).bind fun _ =>
        (seek_neutral _ _).bind fun _ => neutral_ret _ _) _
    | some o => exact Neutral.map (((readRaw_good o _).neutral _).bind fun _ => Neutral.loadAt _ _ _) _
  | readBit p =>
    cases p with
    | none => exact nomatch h
    | some o => exact Neutral.map ((readbit_good o).neutral _) _
  | readBits p n =>
    cases p with
    | none => exact nomatch h
    | some o => exact Neutral.map (readbits_neutral _ o n) _
  | setBit p v =>
    cases p with
    | none => exact nomatch h
    | some o => exact Neutral.map ((setbit_good o v).neutral _) _
  | flipBit p =>
    cases p with
    | none => exact nomatch h
    | some o => exact Neutral.map ((flipbit_good o).neutral _) _
  | setBits p d n =>
    cases p with
    | none => exact nomatch h
    | some o => exact Neutral.map (setbits_neutral _ o d n) _
  | clearAll => exact Neutral.map (clear_good.neutral _) _
  | setAll => exact Neutral.map (setall_good.neutral _) _
  | flipAll => exact Neutral.map (flipall_good.neutral _) _
  | seek o r => exact Neutral.map (seek_neutral o r) _
  | seekBit o r => exact hs.elim
  | after o => cases o <;> exact Neutral.map (by first | exact fun _ => trivial | exact fun _ _ => trivial) _
  | afterBit o => cases o <;> exact Neutral.map (by first | exact fun _ => trivial | exact fun _ _ => trivial) _
  | alignByte => exact Neutral.map alignbyte_neutral _
  | alignBit => exact hs.elim
  | grow n => exact Neutral.map (grow_neutral rfl n) _
  | refresh => exact Neutral.map (refresh_neutral rfl) _
  | reset => exact hs.elim
  | bytes => exact fun _ => neutral_ret _ _
  | capacity => exact fun _ => neutral_ret _ _
  | bitCapacity => exact fun _ => neutral_ret _ _
  | offset => exact fun _ => neutral_ret _ _
  | bitOffset => exact fun _ => neutral_ret _ _

end V2
end Crunch
