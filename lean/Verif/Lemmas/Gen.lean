import Verif.Gen.Complex
import Verif.Gen.Lex

/-! Facts about the generator model: what the pattern matches, and replacement line by line. -/

namespace Crunch.Gen

/-! ## matching -/

/-- No `^` in the pattern. -/
def NoBol (p : List Atom) : Prop := Atom.bol ∉ p

theorem matchSeq_prev {p : List Atom} (h : NoBol p) (prev prev' : Option UInt8) (s : Str) :
    matchSeq p prev s = matchSeq p prev' s := by
  induction p generalizing prev prev' s with
  | nil => rfl
  | cons a p ih =>
    have hp : NoBol p := fun hm => h (List.mem_cons_of_mem _ hm)
    cases a with
    | bol => exact absurd List.mem_cons_self h
    | eol => unfold matchSeq; rw [ih hp prev prev']
    | byte c => rfl
    | run lo hi => rfl

theorem matchSeq_byte (c : UInt8) (p : List Atom) (prev : Option UInt8) (s : Str) (r : List Str × Str) (h : NoBol p) :
    matchSeq (.byte c :: p) prev s = some r ↔ ∃ t, s = c :: t ∧ matchSeq p none t = some r := by
  show (if s.head? = some c then matchSeq p (some c) s.tail else none) = some r ↔ _
  cases s with
  | nil => simp
  | cons d t =>
    simp only [List.head?_cons, Option.some.injEq, List.tail_cons]
    by_cases e : d = c
    · subst e
      rw [if_pos rfl, matchSeq_prev h (some d) none]
      simp
    · rw [if_neg e]
      simp [e]

theorem matchSeq_eol (p : List Atom) (prev : Option UInt8) (s : Str) (r : List Str × Str) (h : NoBol p) :
    matchSeq (.eol :: p) prev s = some r ↔ (s = [] ∨ s.head? = some nl) ∧ matchSeq p none s = some r := by
  show (if s = [] ∨ s.head? = some nl then matchSeq p prev s else none) = some r ↔ _
  by_cases e : s = [] ∨ s.head? = some nl
  · rw [if_pos e, matchSeq_prev h prev none]; simp [e]
  · rw [if_neg e]; simp [e]

theorem longest_of_none {k : Nat → Option α} {n : Nat} (h : ∀ m, 0 < m → m ≤ n → k m = none) : longest k n = none := by
  induction n with
  | zero => rfl
  | succ n ih =>
    unfold longest
    rw [h (n + 1) (by omega) (by omega)]
    exact ih fun m h1 h2 => h m h1 (by omega)

theorem longest_top {k : Nat → Option α} {n : Nat} (h0 : 0 < n) (h : ∀ m, 0 < m → m < n → k m = none) : longest k n = k n := by
  cases n with
  | zero => omega
  | succ n =>
    unfold longest
    cases e : k (n + 1) with
    | some a => rfl
    | none => exact longest_of_none fun m h1 h2 => h m h1 (by omega)

theorem takeWhile_append_dropWhile' (q : UInt8 → Bool) (s : Str) : s.takeWhile q ++ s.dropWhile q = s :=
  List.takeWhile_append_dropWhile

theorem take_takeWhile (q : UInt8 → Bool) (s : Str) : s.take (s.takeWhile q).length = s.takeWhile q := by
  conv => lhs; arg 2; rw [← takeWhile_append_dropWhile' q s]
  rw [List.take_left]

theorem drop_takeWhile (q : UInt8 → Bool) (s : Str) : s.drop (s.takeWhile q).length = s.dropWhile q := by
  conv => lhs; arg 2; rw [← takeWhile_append_dropWhile' q s]
  rw [List.drop_left]

/-- A repetition followed by something that fails on the class takes the whole run. -/
theorem matchSeq_run (lo hi : UInt8) (p : List Atom) (prev : Option UInt8) (s : Str) (h : NoBol p)
    (hp : ∀ c t, inClass lo hi c = true → matchSeq p none (c :: t) = none) :
    matchSeq (.run lo hi :: p) prev s =
      if s.takeWhile (inClass lo hi) = [] then none
      else (matchSeq p none (s.dropWhile (inClass lo hi))).map fun (cs, r) => (s.takeWhile (inClass lo hi) :: cs, r) := by
  show longest (fun n => (matchSeq p (s.take n).getLast? (s.drop n)).map fun (cs, r) => (s.take n :: cs, r))
    (s.takeWhile (inClass lo hi)).length = _
  by_cases e : s.takeWhile (inClass lo hi) = []
  · rw [if_pos e, e]; rfl
  · rw [if_neg e, longest_top (List.length_pos_iff.mpr e)]
    · rw [take_takeWhile, drop_takeWhile, matchSeq_prev h _ none]
    · intro m h0 hm
      have hs := takeWhile_append_dropWhile' (inClass lo hi) s
      have : s.drop m = (s.takeWhile (inClass lo hi)).drop m ++ s.dropWhile (inClass lo hi) := by
        conv => lhs; rw [← hs]
        rw [List.drop_append_of_le_length (by omega)]
      rw [matchSeq_prev h _ none, this, List.drop_eq_getElem_cons hm, List.cons_append, hp]
      · rfl
      · have hall := List.all_takeWhile (p := inClass lo hi) (l := s)
        rw [List.all_eq_true] at hall
        exact hall _ (List.getElem_mem hm)

/-! ## the specification of a directive -/

/-- A word: at least one byte between `A` and `z`. -/
def Word (a : Str) : Prop := a ≠ [] ∧ ∀ c ∈ a, 65 ≤ c ∧ c ≤ 122

/-- A number: at least one decimal digit. -/
def Number (a : Str) : Prop := a ≠ [] ∧ ∀ c ∈ a, 48 ≤ c ∧ c ≤ 57

/-- The line is a directive with these arguments. -/
def IsDirective (l a0 a1 a2 a3 a4 : Str) : Prop :=
  l = str% "//generator:complex " ++ a0 ++ str% " " ++ a1 ++ str% " " ++ a2 ++ str% " " ++ a3 ++ str% " " ++ a4 ∧
  Word a0 ∧ Word a1 ∧ Word a2 ∧ Number a3 ∧ Word a4

theorem inClass_iff {lo hi c : UInt8} : inClass lo hi c = true ↔ lo ≤ c ∧ c ≤ hi := by
  unfold inClass; simp

theorem takeWhile_append {q : UInt8 → Bool} {a t : Str} (ha : ∀ c ∈ a, q c = true) (ht : ∀ c, t.head? = some c → q c = false) :
    (a ++ t).takeWhile q = a ∧ (a ++ t).dropWhile q = t := by
  induction a with
  | nil =>
    cases t with
    | nil => exact ⟨rfl, rfl⟩
    | cons c t => simp [ht c rfl]
  | cons c a ih =>
    obtain ⟨i1, i2⟩ := ih fun d hd => ha d (List.mem_cons_of_mem _ hd)
    simp [ha c List.mem_cons_self, i1, i2]

/-- Matching a run, both ways. -/
theorem matchSeq_run_iff (lo hi : UInt8) (p : List Atom) (prev : Option UInt8) (s : Str) (r : List Str × Str) (h : NoBol p)
    (hp : ∀ c t, inClass lo hi c = true → matchSeq p none (c :: t) = none) :
    matchSeq (.run lo hi :: p) prev s = some r ↔
      ∃ a t cs, s = a ++ t ∧ (a ≠ [] ∧ ∀ c ∈ a, lo ≤ c ∧ c ≤ hi) ∧ matchSeq p none t = some (cs, r.2) ∧ r.1 = a :: cs := by
  rw [matchSeq_run lo hi p prev s h hp]
  constructor
  · intro hm
    by_cases e : s.takeWhile (inClass lo hi) = []
    · rw [if_pos e] at hm; exact nomatch hm
    · rw [if_neg e] at hm
      cases hr : matchSeq p none (s.dropWhile (inClass lo hi)) with
      | none => rw [hr] at hm; exact nomatch hm
      | some x =>
        rw [hr] at hm
        have hm := Option.some.inj hm
        refine ⟨_, _, x.1, (takeWhile_append_dropWhile' (inClass lo hi) s).symm, ⟨e, ?_⟩, ?_, ?_⟩
        · intro c hc
          have hall := List.all_takeWhile (p := inClass lo hi) (l := s)
          rw [List.all_eq_true] at hall
          exact inClass_iff.mp (hall _ hc)
        · rw [hr, ← hm]
        · rw [← hm]
  · rintro ⟨a, t, cs, rfl, ⟨ha0, ha⟩, ht, hr⟩
    have hh : ∀ c, t.head? = some c → inClass lo hi c = false := by
      intro c hc
      cases t with
      | nil => exact nomatch hc
      | cons d t =>
        cases hc
        cases hcl : inClass lo hi c with
        | false => rfl
        | true => rw [hp c t hcl] at ht; exact nomatch ht
    obtain ⟨e1, e2⟩ := takeWhile_append (fun c hc => inClass_iff.mpr (ha c hc)) hh
    rw [e1, e2, if_neg ha0, ht]
    exact congrArg some (Prod.ext hr.symm rfl)

theorem matchSeq_bytes (bs : Str) (p : List Atom) (prev : Option UInt8) (s : Str) (r : List Str × Str) (h : NoBol p) :
    matchSeq (bs.map .byte ++ p) prev s = some r ↔ ∃ t, s = bs ++ t ∧ matchSeq p none t = some r := by
  induction bs generalizing prev s with
  | nil => simp [matchSeq_prev h prev none]
  | cons c bs ih =>
    have hb : NoBol (bs.map .byte ++ p) := by
      intro hm
      rcases List.mem_append.mp hm with hm | hm
      · obtain ⟨_, _, e⟩ := List.mem_map.mp hm; exact nomatch e
      · exact h hm
    rw [List.map_cons, List.cons_append, matchSeq_byte _ _ _ _ _ hb]
    constructor
    · rintro ⟨t, rfl, ht⟩
      obtain ⟨u, rfl, hu⟩ := (ih _ _).mp ht
      exact ⟨u, rfl, hu⟩
    · rintro ⟨u, rfl, hu⟩
      exact ⟨bs ++ u, rfl, (ih _ _).mpr ⟨u, rfl, hu⟩⟩

theorem byte_fails {lo hi c : UInt8} (p : List Atom) (hc : inClass lo hi c = false) (d : UInt8) (t : Str)
    (hd : inClass lo hi d = true) : matchSeq (.byte c :: p) none (d :: t) = none := by
  unfold matchSeq
  rw [if_neg]
  intro e
  cases e
  rw [hc] at hd
  exact nomatch hd

theorem eol_fails {lo hi : UInt8} (p : List Atom) (hc : inClass lo hi nl = false) (d : UInt8) (t : Str)
    (hd : inClass lo hi d = true) : matchSeq (.eol :: p) none (d :: t) = none := by
  unfold matchSeq
  rw [if_neg]
  rintro (e | e)
  · exact nomatch e
  · cases e
    rw [hc] at hd
    exact nomatch hd

/-- The pattern matches exactly a directive that is a whole line. -/
theorem match_iff (prev : Option UInt8) (s : Str) (cs : List Str) (rest : Str) :
    matchSeq magicCommentRegex prev s = some (cs, rest) ↔
      (prev = none ∨ prev = some nl) ∧ (rest = [] ∨ rest.head? = some nl) ∧
      ∃ l a0 a1 a2 a3 a4, IsDirective l a0 a1 a2 a3 a4 ∧ cs = [a0, a1, a2, a3, a4] ∧ s = l ++ rest := by
  show matchSeq (.bol :: ((str% "//generator:complex ").map .byte ++
    [.run 65 122, .byte 32, .run 65 122, .byte 32, .run 65 122, .byte 32, .run 48 57, .byte 32, .run 65 122, .eol])) prev s = _ ↔ _
  have nb : ∀ {p : List Atom}, p.contains Atom.bol = false → NoBol p := by
    intro p hp hm
    rw [List.contains_iff_mem.mpr hm] at hp
    exact nomatch hp
  have hb : matchSeq (.bol :: ((str% "//generator:complex ").map .byte ++
      [.run 65 122, .byte 32, .run 65 122, .byte 32, .run 65 122, .byte 32, .run 48 57, .byte 32, .run 65 122, .eol])) prev s = some (cs, rest) ↔
      (prev = none ∨ prev = some nl) ∧ matchSeq ((str% "//generator:complex ").map .byte ++
      [.run 65 122, .byte 32, .run 65 122, .byte 32, .run 65 122, .byte 32, .run 48 57, .byte 32, .run 65 122, .eol]) prev s = some (cs, rest) := by
    conv => lhs; lhs; unfold matchSeq
    by_cases e : prev = none ∨ prev = some nl
    · rw [if_pos e]; simp [e]
    · rw [if_neg e]; simp [e]
  rw [hb, matchSeq_bytes _ _ _ _ _ (nb (by decide))]
  apply and_congr_right
  intro _
  constructor
  · rintro ⟨t, rfl, h⟩
    rw [matchSeq_run_iff _ _ _ _ _ _ (nb (by decide)) (byte_fails _ (by decide))] at h
    obtain ⟨a0, t0, c0, rfl, w0, h, e0⟩ := h
    rw [matchSeq_byte _ _ _ _ _ (nb (by decide))] at h
    obtain ⟨t0, rfl, h⟩ := h
    rw [matchSeq_run_iff _ _ _ _ _ _ (nb (by decide)) (byte_fails _ (by decide))] at h
    obtain ⟨a1, t1, c1, rfl, w1, h, e1⟩ := h
    rw [matchSeq_byte _ _ _ _ _ (nb (by decide))] at h
    obtain ⟨t1, rfl, h⟩ := h
    rw [matchSeq_run_iff _ _ _ _ _ _ (nb (by decide)) (byte_fails _ (by decide))] at h
    obtain ⟨a2, t2, c2, rfl, w2, h, e2⟩ := h
    rw [matchSeq_byte _ _ _ _ _ (nb (by decide))] at h
    obtain ⟨t2, rfl, h⟩ := h
    rw [matchSeq_run_iff _ _ _ _ _ _ (nb (by decide)) (byte_fails _ (by decide))] at h
    obtain ⟨a3, t3, c3, rfl, w3, h, e3⟩ := h
    rw [matchSeq_byte _ _ _ _ _ (nb (by decide))] at h
    obtain ⟨t3, rfl, h⟩ := h
    rw [matchSeq_run_iff _ _ _ _ _ _ (nb (by decide)) (eol_fails _ (by decide))] at h
    obtain ⟨a4, t4, c4, rfl, w4, h, e4⟩ := h
    rw [matchSeq_eol _ _ _ _ (nb (by decide))] at h
    obtain ⟨hr, h⟩ := h
    cases h
    refine ⟨hr, _, a0, a1, a2, a3, a4, ⟨rfl, w0, w1, w2, w3, w4⟩, ?_, ?_⟩
    · simp only at e0 e1 e2 e3 e4; rw [e0, e1, e2, e3, e4]
    · simp
  · rintro ⟨hr, l, a0, a1, a2, a3, a4, ⟨rfl, w0, w1, w2, w3, w4⟩, rfl, rfl⟩
    refine ⟨a0 ++ 32 :: (a1 ++ 32 :: (a2 ++ 32 :: (a3 ++ 32 :: (a4 ++ rest)))), by simp, ?_⟩
    rw [matchSeq_run_iff _ _ _ _ _ _ (nb (by decide)) (byte_fails _ (by decide))]
    refine ⟨a0, _, _, rfl, w0, ?_, rfl⟩
    rw [matchSeq_byte _ _ _ _ _ (nb (by decide))]
    refine ⟨_, rfl, ?_⟩
    rw [matchSeq_run_iff _ _ _ _ _ _ (nb (by decide)) (byte_fails _ (by decide))]
    refine ⟨a1, _, _, rfl, w1, ?_, rfl⟩
    rw [matchSeq_byte _ _ _ _ _ (nb (by decide))]
    refine ⟨_, rfl, ?_⟩
    rw [matchSeq_run_iff _ _ _ _ _ _ (nb (by decide)) (byte_fails _ (by decide))]
    refine ⟨a2, _, _, rfl, w2, ?_, rfl⟩
    rw [matchSeq_byte _ _ _ _ _ (nb (by decide))]
    refine ⟨_, rfl, ?_⟩
    rw [matchSeq_run_iff _ _ _ _ _ _ (nb (by decide)) (byte_fails _ (by decide))]
    refine ⟨a3, _, _, rfl, w3, ?_, rfl⟩
    rw [matchSeq_byte _ _ _ _ _ (nb (by decide))]
    refine ⟨_, rfl, ?_⟩
    rw [matchSeq_run_iff _ _ _ _ _ _ (nb (by decide)) (eol_fails _ (by decide))]
    refine ⟨a4, _, _, rfl, w4, ?_, rfl⟩
    rw [matchSeq_eol _ _ _ _ (nb (by decide))]
    exact ⟨hr, rfl⟩

/-! ## replacement line by line -/

theorem replaceFrom_none {p : List Atom} {f : Str → Str} {prev : Option UInt8} {c : UInt8} {t : Str}
    (h : matchSeq p prev (c :: t) = none) : replaceFrom p f prev (c :: t) = c :: replaceFrom p f (some c) t := by
  rw [replaceFrom, h]

theorem replaceFrom_nil_none {p : List Atom} {f : Str → Str} {prev : Option UInt8}
    (h : matchSeq p prev [] = none) : replaceFrom p f prev [] = [] := by
  rw [replaceFrom, h]

theorem replaceFrom_some {p : List Atom} {f : Str → Str} {prev : Option UInt8} {l rest : Str} {cs : List Str} (hl : l ≠ [])
    (h : matchSeq p prev (l ++ rest) = some (cs, rest)) :
    replaceFrom p f prev (l ++ rest) = f l ++ replaceFrom p f l.getLast? rest := by
  have := List.length_pos_iff.mpr hl
  rw [replaceFrom.eq_def, h]
  simp only [List.length_append]
  rw [if_pos (by omega), show l.length + rest.length - rest.length = l.length from by omega, List.take_left]

/-- A position inside a line. -/
def Inside (prev : Option UInt8) : Prop := ¬ (prev = none ∨ prev = some nl)

theorem match_inside {prev : Option UInt8} (h : Inside prev) (s : Str) : matchSeq magicCommentRegex prev s = none := by
  cases e : matchSeq magicCommentRegex prev s with
  | none => rfl
  | some r => exact absurd ((match_iff prev s r.1 r.2).mp e).1 h

theorem inside_byte {c : UInt8} (h : c ≠ nl) : Inside (some c) := by
  rintro (e | e)
  · exact nomatch e
  · exact h (Option.some.inj e)

/-- What the rest of a text, after a line, becomes. -/
def restOut (f : Str → Str) : Str → Str
  | [] => []
  | c :: t => c :: replaceFrom magicCommentRegex f (some c) t

theorem replaceFrom_rest (f : Str → Str) {prev : Option UInt8} (h : Inside prev) (s : Str) :
    replaceFrom magicCommentRegex f prev s = restOut f s := by
  cases s with
  | nil => exact replaceFrom_nil_none (match_inside h [])
  | cons c t => exact replaceFrom_none (match_inside h _)

theorem copyLine (f : Str → Str) (l r : Str) {prev : Option UInt8} (h : Inside prev) (hl : nl ∉ l) :
    replaceFrom magicCommentRegex f prev (l ++ r) = l ++ restOut f r := by
  induction l generalizing prev with
  | nil => exact replaceFrom_rest f h r
  | cons c l ih =>
    have hc : c ≠ nl := fun e => hl (e ▸ List.mem_cons_self)
    rw [List.cons_append, replaceFrom_none (match_inside h _), ih (inside_byte hc) fun hm => hl (List.mem_cons_of_mem _ hm)]
    rfl

theorem word_nl {a : Str} (h : Word a) : nl ∉ a := by
  intro hm
  have := h.2 nl hm
  exact absurd this.1 (by decide)

theorem number_nl {a : Str} (h : Number a) : nl ∉ a := by
  intro hm
  have := h.2 nl hm
  exact absurd this.1 (by decide)

theorem directive_nl {l a0 a1 a2 a3 a4 : Str} (h : IsDirective l a0 a1 a2 a3 a4) : nl ∉ l := by
  obtain ⟨rfl, w0, w1, w2, w3, w4⟩ := h
  have hp : nl ∉ str% "//generator:complex " := by decide
  have hs : nl ∉ str% " " := by decide
  simp only [List.mem_append, not_or]
  exact ⟨⟨⟨⟨⟨⟨⟨⟨⟨hp, word_nl w0⟩, hs⟩, word_nl w1⟩, hs⟩, word_nl w2⟩, hs⟩, number_nl w3⟩, hs⟩, word_nl w4⟩

theorem directive_ne_nil {l a0 a1 a2 a3 a4 : Str} (h : IsDirective l a0 a1 a2 a3 a4) : l ≠ [] := by
  obtain ⟨rfl, -⟩ := h
  simp

/-- The first line of a text and what follows it. -/
theorem firstLine_unique {l l' r r' : Str} (hl : nl ∉ l) (hl' : nl ∉ l') (hr : r = [] ∨ r.head? = some nl)
    (hr' : r' = [] ∨ r'.head? = some nl) (e : l ++ r = l' ++ r') : l = l' ∧ r = r' := by
  induction l generalizing l' with
  | nil =>
    cases l' with
    | nil => exact ⟨rfl, e⟩
    | cons c l' =>
      simp only [List.nil_append, List.cons_append] at e
      subst e
      rcases hr with h | h
      · exact nomatch h
      · cases h; exact absurd List.mem_cons_self hl'
  | cons c l ih =>
    cases l' with
    | nil =>
      simp only [List.nil_append, List.cons_append] at e
      subst e
      rcases hr' with h | h
      · exact nomatch h
      · cases h; exact absurd List.mem_cons_self hl
    | cons c' l' =>
      obtain ⟨e1, e2⟩ := List.cons.inj e
      obtain ⟨i1, i2⟩ := ih (fun m => hl (List.mem_cons_of_mem _ m)) (fun m => hl' (List.mem_cons_of_mem _ m)) e2
      exact ⟨by rw [e1, i1], i2⟩

theorem directive_unique {l a0 a1 a2 a3 a4 b0 b1 b2 b3 b4 : Str} (h : IsDirective l a0 a1 a2 a3 a4)
    (h' : IsDirective l b0 b1 b2 b3 b4) : a0 = b0 ∧ a1 = b1 ∧ a2 = b2 ∧ a3 = b3 ∧ a4 = b4 := by
  have e := (match_iff none l [a0, a1, a2, a3, a4] []).mpr ⟨.inl rfl, .inl rfl, l, a0, a1, a2, a3, a4, h, rfl, (List.append_nil l).symm⟩
  have e' := (match_iff none l [b0, b1, b2, b3, b4] []).mpr ⟨.inl rfl, .inl rfl, l, b0, b1, b2, b3, b4, h', rfl, (List.append_nil l).symm⟩
  rw [e] at e'
  have := congrArg Prod.fst (Option.some.inj e')
  simpa using this

/-- What a line becomes under `ReplaceAllFunc` of `f`. -/
def lineOut (f : Str → Str) (l : Str) : Str :=
  match matchSeq magicCommentRegex none l with
  | some _ => f l
  | none => l

theorem lineOut_directive (f : Str → Str) {l a0 a1 a2 a3 a4 : Str} (h : IsDirective l a0 a1 a2 a3 a4) : lineOut f l = f l := by
  unfold lineOut
  rw [(match_iff none l [a0, a1, a2, a3, a4] []).mpr ⟨.inl rfl, .inl rfl, l, a0, a1, a2, a3, a4, h, rfl, (List.append_nil l).symm⟩]

theorem lineOut_other (f : Str → Str) {l : Str} (hl : nl ∉ l) (h : ∀ a0 a1 a2 a3 a4, ¬ IsDirective l a0 a1 a2 a3 a4) : lineOut f l = l := by
  unfold lineOut
  cases e : matchSeq magicCommentRegex none l with
  | none => rfl
  | some r =>
    obtain ⟨_, hr, l', a0, a1, a2, a3, a4, hd, _, e⟩ := (match_iff none l r.1 r.2).mp e
    obtain ⟨rfl, _⟩ := firstLine_unique hl (directive_nl hd) (.inl rfl) hr ((List.append_nil l).trans e)
    exact absurd hd (h _ _ _ _ _)

theorem splitLines_ne_nil (s : Str) : splitLines s ≠ [] := by
  cases s with
  | nil => exact nofun
  | cons c t =>
    unfold splitLines
    split
    · exact nofun
    · split <;> exact nofun

theorem splitLines_nl (t : Str) : splitLines (nl :: t) = [] :: splitLines t := by
  rw [splitLines, if_pos rfl]

theorem splitLines_cons {c : UInt8} (h : c ≠ nl) {t l : Str} {ls : List Str} (e : splitLines t = l :: ls) :
    splitLines (c :: t) = (c :: l) :: ls := by
  rw [splitLines, if_neg h, e]

theorem splitLines_line {l : Str} (h : nl ∉ l) : splitLines l = [l] := by
  induction l with
  | nil => rfl
  | cons c l ih =>
    exact splitLines_cons (fun e => h (e ▸ List.mem_cons_self)) (ih fun m => h (List.mem_cons_of_mem _ m))

theorem splitLines_append {l : Str} (h : nl ∉ l) (t : Str) : splitLines (l ++ nl :: t) = l :: splitLines t := by
  induction l with
  | nil => exact splitLines_nl t
  | cons c l ih =>
    exact splitLines_cons (fun e => h (e ▸ List.mem_cons_self)) (ih fun m => h (List.mem_cons_of_mem _ m))

theorem splitLines_no_nl (s : Str) : ∀ l ∈ splitLines s, nl ∉ l := by
  induction s with
  | nil => intro l hl; cases List.mem_singleton.mp hl; exact List.not_mem_nil
  | cons c t ih =>
    by_cases e : c = nl
    · subst e
      rw [splitLines_nl]
      intro l hl
      rcases List.mem_cons.mp hl with rfl | hl
      · exact List.not_mem_nil
      · exact ih l hl
    · obtain ⟨l0, ls, e0⟩ := List.exists_cons_of_ne_nil (splitLines_ne_nil t)
      rw [splitLines_cons e e0]
      rw [e0] at ih
      intro l hl
      rcases List.mem_cons.mp hl with rfl | hl
      · intro hm
        rcases List.mem_cons.mp hm with h | h
        · exact e h.symm
        · exact ih l0 List.mem_cons_self h
      · exact ih l (List.mem_cons_of_mem _ hl)

theorem join_cons (sep a : Str) {ls : List Str} (h : ls ≠ []) : join sep (a :: ls) = a ++ sep ++ join sep ls := by
  cases ls with
  | nil => exact absurd rfl h
  | cons b l => rfl

/-- Splitting and joining are inverse. -/
theorem join_splitLines (s : Str) : join [nl] (splitLines s) = s := by
  induction s with
  | nil => rfl
  | cons c t ih =>
    by_cases e : c = nl
    · subst e
      rw [splitLines_nl, join_cons _ _ (splitLines_ne_nil t), ih]
      rfl
    · obtain ⟨l0, ls, e0⟩ := List.exists_cons_of_ne_nil (splitLines_ne_nil t)
      rw [splitLines_cons e e0]
      rw [e0] at ih
      rw [← ih]
      cases ls with
      | nil => rfl
      | cons b ls => rfl

theorem splitLines_join {ls : List Str} (h0 : ls ≠ []) (h : ∀ l ∈ ls, nl ∉ l) : splitLines (join [nl] ls) = ls := by
  induction ls with
  | nil => exact absurd rfl h0
  | cons a ls ih =>
    cases ls with
    | nil => exact splitLines_line (h a List.mem_cons_self)
    | cons b l =>
      rw [join_cons _ _ (by exact nofun), List.append_assoc, List.singleton_append, splitLines_append (h a List.mem_cons_self),
        ih (by exact nofun) fun x hx => h x (List.mem_cons_of_mem _ hx)]

/-- Every text is a line, followed by nothing or by a newline and a text. -/
theorem firstLine (s : Str) : ∃ l r, s = l ++ r ∧ nl ∉ l ∧ (r = [] ∨ r.head? = some nl) := by
  induction s with
  | nil => exact ⟨[], [], rfl, List.not_mem_nil, .inl rfl⟩
  | cons c t ih =>
    by_cases e : c = nl
    · exact ⟨[], c :: t, rfl, List.not_mem_nil, .inr (by rw [e]; rfl)⟩
    · obtain ⟨l, r, rfl, hl, hr⟩ := ih
      refine ⟨c :: l, r, rfl, fun hm => ?_, hr⟩
      rcases List.mem_cons.mp hm with h | h
      · exact e h.symm
      · exact hl h

/-- The lines after the first one, replaced. -/
def tailOut (f : Str → Str) : Str → List Str
  | [] => []
  | _ :: t => (splitLines t).map (lineOut f)

/-- The replacement, line by line. -/
theorem replaceFrom_lines (f : Str → Str) (s : Str) {prev : Option UInt8} (h : prev = none ∨ prev = some nl) :
    replaceFrom magicCommentRegex f prev s = join [nl] ((splitLines s).map (lineOut f)) := by
  induction hn : s.length using Nat.strongRecOn generalizing s prev with
  | ind n ih =>
  subst hn
  obtain ⟨l, r, rfl, hl, hr⟩ := firstLine s
  -- what follows the line
  have hrest : ∀ x : Str, x ++ restOut f r = join [nl] (x :: tailOut f r) := by
    intro x
    cases r with
    | nil => exact List.append_nil x
    | cons c t =>
      have hc : c = nl := by
        rcases hr with e | e
        · exact nomatch e
        · exact Option.some.inj e
      subst hc
      have ne : (splitLines t).map (lineOut f) ≠ [] := fun e => splitLines_ne_nil t (List.map_eq_nil_iff.mp e)
      show x ++ restOut f (nl :: t) = join [nl] (x :: (splitLines t).map (lineOut f))
      rw [join_cons _ _ ne, List.append_assoc, ← ih t.length (by rw [List.length_append, List.length_cons]; omega) t (.inr rfl) rfl]
      rfl
  have hsplit : (splitLines (l ++ r)).map (lineOut f) =
      lineOut f l :: tailOut f r := by
    cases r with
    | nil => rw [List.append_nil, splitLines_line hl]; rfl
    | cons c t =>
      have hc : c = nl := by
        rcases hr with e | e
        · exact nomatch e
        · exact Option.some.inj e
      subst hc
      rw [splitLines_append hl]; rfl
  rw [hsplit, ← hrest]
  by_cases hd : ∃ a0 a1 a2 a3 a4, IsDirective l a0 a1 a2 a3 a4
  · obtain ⟨a0, a1, a2, a3, a4, hd⟩ := hd
    have hne := directive_ne_nil hd
    rw [lineOut_directive f hd, replaceFrom_some hne ((match_iff prev _ _ _).mpr ⟨h, hr, l, a0, a1, a2, a3, a4, hd, rfl, rfl⟩)]
    rw [replaceFrom_rest f]
    rw [List.getLast?_eq_some_getLast hne]
    exact inside_byte fun e => hl (e ▸ List.getLast_mem hne)
  · have hd' : ∀ a0 a1 a2 a3 a4, ¬ IsDirective l a0 a1 a2 a3 a4 := fun a0 a1 a2 a3 a4 x => hd ⟨a0, a1, a2, a3, a4, x⟩
    rw [lineOut_other f hl hd']
    have hm : matchSeq magicCommentRegex prev (l ++ r) = none := by
      cases e : matchSeq magicCommentRegex prev (l ++ r) with
      | none => rfl
      | some x =>
        obtain ⟨_, hx, l', a0, a1, a2, a3, a4, hd2, _, e⟩ := (match_iff prev _ x.1 x.2).mp e
        obtain ⟨rfl, _⟩ := firstLine_unique hl (directive_nl hd2) hr hx e
        exact absurd hd2 (hd' _ _ _ _ _)
    cases l with
    | nil =>
      cases r with
      | nil => exact replaceFrom_nil_none hm
      | cons c t => exact replaceFrom_none hm
    | cons c l =>
      rw [List.cons_append] at hm ⊢
      rw [replaceFrom_none hm, copyLine f l r (inside_byte fun e => hl (e ▸ List.mem_cons_self))
        fun m => hl (List.mem_cons_of_mem _ m)]
      rfl

/-- The text given to the replacement function is a directive; it finds its arguments again. -/
theorem replacement_directive {l a0 a1 a2 a3 a4 : Str} (h : IsDirective l a0 a1 a2 a3 a4) :
    replacement l = expand a0 a1 a2 a3 a4 := by
  have e := (match_iff none l [a0, a1, a2, a3, a4] []).mpr ⟨.inl rfl, .inl rfl, l, a0, a1, a2, a3, a4, h, rfl, (List.append_nil l).symm⟩
  have ne := directive_ne_nil h
  have : findFirst magicCommentRegex l = some [a0, a1, a2, a3, a4] := by
    unfold findFirst
    cases l with
    | nil => exact absurd rfl ne
    | cons c t => rw [findFrom, e]
  unfold replacement
  rw [this]

end Crunch.Gen
