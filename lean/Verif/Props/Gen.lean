import Verif.Lemmas.GenBuffer
import Verif.Lemmas.GenMini
import Verif.Gen.Main

/-!
# Properties of the generator (C59, C60, C61, C62, C68)
-/

namespace Crunch.Gen

/-! ## C59 -/

/-- `v3/_buffer.go` -/
def bufferSource : Str := join [nl] (bufferSegs.flatMap Seg.source)
/-- `v3/buffer.generated.go` -/
def bufferGenerated : Str := join [nl] (bufferSegs.flatMap Seg.generated)
/-- `v3/_minibuf.go` -/
def miniSource : Str := join [nl] (miniSegs.flatMap Seg.source)
/-- `v3/minibuf.generated.go` -/
def miniGenerated : Str := join [nl] (miniSegs.flatMap Seg.generated)

/-- C59: the generator, run on the two v3 sources, makes of them texts with exactly the tokens of the two committed generated
files, comments included. -/
theorem C59_committed_is_generated :
    ∃ b m, GenerateComplex [(str% "_buffer.go", bufferSource), (str% "_minibuf.go", miniSource)] =
        [(str% "_buffer.go", b), (str% "_minibuf.go", m)] ∧
      lex b = lex bufferGenerated ∧ lex m = lex miniGenerated :=
  ⟨_, _, rfl, file_sound buffer_checked nofun nofun, file_sound mini_checked nofun nofun⟩

/-- All argument lists that pass the checks and have a Go type. -/
def goDirectives : List (List Str) :=
  [str% "Buffer", str% "MiniBuffer"].flatMap fun a0 => [str% "Write", str% "Read"].flatMap fun a1 =>
    [(str% "U", str% "16"), (str% "U", str% "32"), (str% "U", str% "64"), (str% "I", str% "16"), (str% "I", str% "32"),
     (str% "I", str% "64"), (str% "F", str% "32"), (str% "F", str% "64")].flatMap fun (a2, a3) =>
      [str% "LE", str% "BE"].map fun a4 => [a0, a1, a2, a3, a4]

/-- The directives of the two files, in order. -/
def fileDirectives : List Str := (bufferSegs ++ miniSegs).flatMap fun s =>
  match s with
  | .same _ => []
  | .expanded d _ => [d]

/-- C59: these are all the valid directives, so every accessor the generator can emit is in the comparison above. -/
theorem C59_every_directive :
    fileDirectives = goDirectives.map fun as => str% "//generator:complex " ++ join (str% " ") as := by decide +kernel

example : goDirectives.length = 64 := by decide

/-! ## C60 -/

/-- What may stand in each position of a directive. -/
def allowed : List (List Str) :=
  [[str% "Buffer", str% "MiniBuffer"], [str% "Read", str% "Write"], [str% "I", str% "U", str% "F"],
   [str% "16", str% "32", str% "64"], [str% "BE", str% "LE"]]

/-- The names of the positions. -/
def positions : List Str := [str% "zero", str% "one", str% "two", str% "three", str% "four"]

/-- What a line of the file becomes. -/
inductive Outcome (l : Str) : Str → Prop where
  /-- a directive whose arguments are all allowed becomes code -/
  | code {a0 a1 a2 a3 a4} : IsDirective l a0 a1 a2 a3 a4 → a0 ∈ allowed[0] → a1 ∈ allowed[1] → a2 ∈ allowed[2] → a3 ∈ allowed[3] →
      a4 ∈ allowed[4] → Outcome l (accessors a0 a1 a2 a3 a4)
  /-- a directive whose first argument that is not allowed is number `k` becomes a comment saying so -/
  | invalid {a0 a1 a2 a3 a4} (k : Fin 5) : IsDirective l a0 a1 a2 a3 a4 →
      (∀ j : Fin 5, j < k → [a0, a1, a2, a3, a4][j] ∈ allowed[j]'(by exact j.2)) →
      [a0, a1, a2, a3, a4][k] ∉ allowed[k]'(by exact k.2) →
      Outcome l (str% "// invalid argument provided in position " ++ positions[k]'(by exact k.2) ++ str% ":" ++ [a0, a1, a2, a3, a4][k])
  /-- any other line stays -/
  | text : (∀ a0 a1 a2 a3 a4, ¬ IsDirective l a0 a1 a2 a3 a4) → Outcome l l

/-- `R` relates the elements of two lists of the same length, position by position. -/
inductive Each {α β : Type} (R : α → β → Prop) : List α → List β → Prop where
  | nil : Each R [] []
  | cons {a b as bs} : R a b → Each R as bs → Each R (a :: as) (b :: bs)

theorem lineOut_outcome {l : Str} (hl : nl ∉ l) : Outcome l (lineOut replacement l) := by
  by_cases hd : ∃ a0 a1 a2 a3 a4, IsDirective l a0 a1 a2 a3 a4
  · obtain ⟨a0, a1, a2, a3, a4, hd⟩ := hd
    rw [lineOut_directive _ hd, replacement_directive hd]
    have m0 : a0 ∈ allowed[0] ↔ ¬ (a0 ≠ str% "Buffer" ∧ a0 ≠ str% "MiniBuffer") := by simp [allowed]; grind
    have m1 : a1 ∈ allowed[1] ↔ ¬ (a1 ≠ str% "Read" ∧ a1 ≠ str% "Write") := by simp [allowed]; grind
    have m2 : a2 ∈ allowed[2] ↔ ¬ (a2 ≠ str% "I" ∧ a2 ≠ str% "U" ∧ a2 ≠ str% "F") := by simp [allowed]; grind
    have m3 : a3 ∈ allowed[3] ↔ ¬ (a3 ≠ str% "16" ∧ a3 ≠ str% "32" ∧ a3 ≠ str% "64") := by simp [allowed]; grind
    have m4 : a4 ∈ allowed[4] ↔ ¬ (a4 ≠ str% "BE" ∧ a4 ≠ str% "LE") := by simp [allowed]; grind
    unfold expand
    by_cases c0 : a0 ∈ allowed[0]
    · rw [if_neg (m0.mp c0)]
      by_cases c1 : a1 ∈ allowed[1]
      · rw [if_neg (m1.mp c1)]
        by_cases c2 : a2 ∈ allowed[2]
        · rw [if_neg (m2.mp c2)]
          by_cases c3 : a3 ∈ allowed[3]
          · rw [if_neg (m3.mp c3)]
            by_cases c4 : a4 ∈ allowed[4]
            · rw [if_neg (m4.mp c4)]
              exact .code hd c0 c1 c2 c3 c4
            · rw [if_pos (Decidable.not_not.mp (mt m4.mpr c4))]
              exact .invalid 4 hd (fun j hj => by
                match j with
                | 0 => exact c0
                | 1 => exact c1
                | 2 => exact c2
                | 3 => exact c3) c4
          · rw [if_pos (Decidable.not_not.mp (mt m3.mpr c3))]
            exact .invalid 3 hd (fun j hj => by
              match j with
              | 0 => exact c0
              | 1 => exact c1
              | 2 => exact c2) c3
        · rw [if_pos (Decidable.not_not.mp (mt m2.mpr c2))]
          exact .invalid 2 hd (fun j hj => by
            match j with
            | 0 => exact c0
            | 1 => exact c1) c2
      · rw [if_pos (Decidable.not_not.mp (mt m1.mpr c1))]
        exact .invalid 1 hd (fun j hj => by
          match j with
          | 0 => exact c0) c1
    · rw [if_pos (Decidable.not_not.mp (mt m0.mpr c0))]
      exact .invalid 0 hd (fun j hj => absurd hj (by simp)) c0
  · have hd' : ∀ a0 a1 a2 a3 a4, ¬ IsDirective l a0 a1 a2 a3 a4 := fun a0 a1 a2 a3 a4 x => hd ⟨a0, a1, a2, a3, a4, x⟩
    rw [lineOut_other _ hl hd']
    exact .text hd'

/-- C60: every file is rewritten line by line: `outs` is what the lines become. -/
theorem C60_line_by_line (files : List (Str × Str)) :
    ∃ outs : List (List Str), GenerateComplex files = List.zipWith (fun f o => (f.1, join [nl] o)) files outs ∧
      Each (fun f o => Each Outcome (splitLines f.2) o) files outs := by
  induction files with
  | nil => exact ⟨[], rfl, .nil⟩
  | cons f files ih =>
    obtain ⟨outs, e, h⟩ := ih
    refine ⟨(splitLines f.2).map (lineOut replacement) :: outs, ?_, .cons ?_ h⟩
    · show (f.1, replaceAll magicCommentRegex replacement f.2) :: GenerateComplex files = _
      rw [e, replaceAll, replaceFrom_lines _ _ (.inl rfl)]
      rfl
    · have hn := splitLines_no_nl f.2
      generalize splitLines f.2 = ls at hn
      induction ls with
      | nil => exact .nil
      | cons l ls ih => exact .cons (lineOut_outcome (hn l List.mem_cons_self)) (ih fun x hx => hn x (List.mem_cons_of_mem _ hx))

/-- C60: the outcome of a line is unique, so `C60_line_by_line` determines the output. -/
theorem C60_outcome_unique {l o o' : Str} (h : Outcome l o) (h' : Outcome l o') : o = o' := by
  cases h with
  | text hd =>
    cases h' with
    | text _ => rfl
    | code d => exact absurd d (hd _ _ _ _ _)
    | invalid k d => exact absurd d (hd _ _ _ _ _)
  | code d c0 c1 c2 c3 c4 =>
    cases h' with
    | text hd => exact absurd d (hd _ _ _ _ _)
    | code d' =>
      obtain ⟨rfl, rfl, rfl, rfl, rfl⟩ := directive_unique d d'
      rfl
    | invalid k d' _ hk =>
      obtain ⟨rfl, rfl, rfl, rfl, rfl⟩ := directive_unique d d'
      exact absurd (by
        match k with
        | 0 => exact c0
        | 1 => exact c1
        | 2 => exact c2
        | 3 => exact c3
        | 4 => exact c4) hk
  | invalid k d hj hk =>
    cases h' with
    | text hd => exact absurd d (hd _ _ _ _ _)
    | code d' c0 c1 c2 c3 c4 =>
      obtain ⟨rfl, rfl, rfl, rfl, rfl⟩ := directive_unique d d'
      exact absurd (by
        match k with
        | 0 => exact c0
        | 1 => exact c1
        | 2 => exact c2
        | 3 => exact c3
        | 4 => exact c4) hk
    | invalid k' d' hj' hk' =>
      obtain ⟨rfl, rfl, rfl, rfl, rfl⟩ := directive_unique d d'
      have : k = k' := by
        rcases Nat.lt_trichotomy k.1 k'.1 with h | h | h
        · exact absurd (hj' k h) hk
        · exact Fin.ext h
        · exact absurd (hj k' h) hk'
      subst this
      rfl

example : IsDirective (str% "//generator:complex Buffer Read X 16 BE") (str% "Buffer") (str% "Read") (str% "X") (str% "16") (str% "BE") :=
  ⟨by decide, ⟨by decide, by decide⟩, ⟨by decide, by decide⟩, ⟨by decide, by decide⟩, ⟨by decide, by decide⟩, ⟨by decide, by decide⟩⟩
example : expand (str% "Buffer") (str% "Read") (str% "X") (str% "16") (str% "BE") = str% "// invalid argument provided in position two:X" := by
  decide
/-- Accepted although Go has no such type. -/
example : intType (str% "F") (str% "16") = str% "float16" ∧
    expand (str% "Buffer") (str% "Read") (str% "F") (str% "16") (str% "BE") =
      accessors (str% "Buffer") (str% "Read") (str% "F") (str% "16") (str% "BE") := ⟨by decide, rfl⟩

/-! ## C61 -/

theorem extLoop_suffix (t acc r : Str) (h : extLoop t acc = r) (h0 : r ≠ []) : ∃ u, t.reverse ++ acc = u ++ r := by
  induction t generalizing acc with
  | nil => exact absurd h.symm h0
  | cons c t ih =>
    unfold extLoop at h
    split at h
    · exact absurd h.symm h0
    · split at h
      · exact ⟨t.reverse, by rw [← h]; simp⟩
      · obtain ⟨u, e⟩ := ih (c :: acc) h
        exact ⟨u, by rw [← e]; simp⟩

/-- A selected name is an underscore, a stem and `.go`. -/
theorem selected_name {e : Entry} (h : selected e = true) : ∃ stem, e.name = str% "_" ++ stem ++ str% ".go" := by
  simp only [selected, Bool.and_eq_true, beq_iff_eq, hasPrefix] at h
  obtain ⟨⟨h1, _⟩, h3⟩ := h
  obtain ⟨u, e1⟩ := extLoop_suffix _ _ _ h1 (by decide)
  rw [List.reverse_reverse, List.append_nil] at e1
  rw [e1] at h3
  cases u with
  | nil => exact absurd h3 (by decide)
  | cons c u =>
    rw [List.isPrefixOf_iff_prefix] at h3
    obtain ⟨t, e2⟩ := h3
    have : (95 : UInt8) = c := (List.cons.inj e2).1
    exact ⟨u, by rw [e1, ← this]; rfl⟩

theorem outName_stem (stem : Str) : outName (str% "_" ++ stem ++ str% ".go") = stem ++ str% ".generated.go" := by
  have e1 : trimPrefix (str% "_" ++ stem ++ str% ".go") (str% "_") = stem ++ str% ".go" := by
    unfold trimPrefix
    rw [if_pos]
    · simp
    · rw [List.isPrefixOf_iff_prefix]
      exact ⟨stem ++ str% ".go", rfl⟩
  have e2 : trimSuffix (stem ++ str% ".go") (str% ".go") = stem := by
    unfold trimSuffix
    rw [if_pos]
    · rw [List.length_append, Nat.add_sub_cancel, List.take_left]
    · rw [List.isSuffixOf_iff_suffix]
      exact ⟨stem, rfl⟩
  unfold outName
  rw [e1, e2]
  simp [join]

/-- C61: two sources with the same output name have the same name. -/
theorem C61_outputs_distinct {e e' : Entry} (h : selected e = true) (h' : selected e' = true) (ho : outName e.name = outName e'.name) :
    e.name = e'.name := by
  obtain ⟨s, es⟩ := selected_name h
  obtain ⟨s', es'⟩ := selected_name h'
  rw [es, es', outName_stem, outName_stem] at ho
  rw [es, es', List.append_cancel_right ho]

/-- C61: an output is no source, unless the name it is made from starts with two underscores. -/
theorem C61_output_not_source {e e' : Entry} (h : selected e = true) (h' : selected e' = true) (ho : outName e.name = e'.name) :
    ∃ t, e.name = str% "__" ++ t := by
  obtain ⟨s, es⟩ := selected_name h
  obtain ⟨s', es'⟩ := selected_name h'
  rw [es, es', outName_stem] at ho
  cases s with
  | nil => exact absurd (List.cons.inj ho).1 (by decide)
  | cons c s =>
    have : c = 95 := (List.cons.inj ho).1
    exact ⟨s ++ str% ".go", by rw [es, this]; rfl⟩

example : selected ⟨str% "_buffer.go", false, .bytes [] false⟩ = true ∧ outName (str% "_buffer.go") = str% "buffer.generated.go" := by decide
/-- Two underscores: the output is a source of the next run. -/
example : selected ⟨str% "__a.go", false, .bytes [] false⟩ = true ∧ outName (str% "__a.go") = str% "_a.generated.go" ∧
    selected ⟨str% "_a.generated.go", false, .bytes [] false⟩ = true := by decide

/-! ## C62 and C68 -/

/-- The text the generator makes of a source. -/
def generatedText (contents : Str) : Str := replaceAll magicCommentRegex replacement contents

/-- C62, the full statement: after a run every output is exactly what was generated from its source. -/
def C62_full : Prop :=
  ∀ (dir : List Entry) (fs fs' : Fs), (dir.map Entry.name).Nodup → Run (str% "complex") dir fs fs' →
    ∀ e ∈ dir, selected e = true → ∀ s failed, e.reading = .bytes s failed → fs' (outName e.name) = some (generatedText s)

theorem writeAll_other (fs : Fs) (files : List (Str × Str)) (n : Str) (h : ∀ f ∈ files, outName f.1 ≠ n) : writeAll fs files n = fs n := by
  induction files generalizing fs with
  | nil => rfl
  | cons f files ih =>
    show writeAll (writeOut fs f.1 f.2) files n = _
    rw [ih _ fun g hg => h g (List.mem_cons_of_mem _ hg), writeOut, if_neg]
    exact fun e => h f List.mem_cons_self e.symm

theorem writeAll_mem (fs : Fs) (files : List (Str × Str)) (hd : files.Pairwise fun f g => outName f.1 ≠ outName g.1) (f : Str × Str)
    (hf : f ∈ files) : writeAll fs files (outName f.1) = some (f.2 ++ ((fs (outName f.1)).getD []).drop f.2.length) := by
  induction files generalizing fs with
  | nil => exact nomatch hf
  | cons g files ih =>
    obtain ⟨hg, hd⟩ := List.pairwise_cons.mp hd
    show writeAll (writeOut fs g.1 g.2) files _ = _
    rcases List.mem_cons.mp hf with rfl | hf
    · rw [writeAll_other _ _ _ fun x hx e => hg x hx e.symm, writeOut, if_pos rfl]
    · rw [ih _ hd hf, writeOut, if_neg fun e => hg f hf e.symm]

theorem readFiles_mem {dir : List Entry} {f : Str × Str} :
    f ∈ readFiles dir ↔ ∃ e ∈ dir, selected e = true ∧ ∃ failed, e.reading = .bytes f.2 failed ∧ e.name = f.1 := by
  unfold readFiles
  rw [List.mem_filterMap]
  constructor
  · rintro ⟨e, he, hr⟩
    obtain ⟨he, hs⟩ := List.mem_filter.mp he
    cases er : e.reading with
    | cannotOpen => rw [er] at hr; exact nomatch hr
    | bytes s b => rw [er] at hr; cases hr; exact ⟨e, he, hs, b, er, rfl⟩
  · rintro ⟨e, he, hs, b, hr, hn⟩
    exact ⟨e, List.mem_filter.mpr ⟨he, hs⟩, by rw [hr]; simp [hn]⟩

theorem readFiles_pairwise {dir : List Entry} (h : (dir.map Entry.name).Nodup) :
    (readFiles dir).Pairwise fun f g => outName f.1 ≠ outName g.1 := by
  unfold readFiles
  rw [List.pairwise_filterMap]
  rw [List.nodup_iff_pairwise_ne, List.pairwise_map] at h
  refine List.Pairwise.imp_of_mem ?_ (h.filter selected)
  intro a b ha hb hne f hf g hg e
  have sa := (List.mem_filter.mp ha).2
  have sb := (List.mem_filter.mp hb).2
  have ea : a.name = f.1 := by
    cases er : a.reading with
    | cannotOpen => rw [er] at hf; exact nomatch hf
    | bytes s x => rw [er] at hf; cases hf; rfl
  have eb : b.name = g.1 := by
    cases er : b.reading with
    | cannotOpen => rw [er] at hg; exact nomatch hg
    | bytes s x => rw [er] at hg; cases hg; rfl
  exact hne (C61_outputs_distinct sa sb (by rw [ea, eb, e]))

theorem generated_pairwise {dir : List Entry} (h : (dir.map Entry.name).Nodup) :
    (GenerateComplex (readFiles dir)).Pairwise fun f g => outName f.1 ≠ outName g.1 := by
  unfold GenerateComplex
  rw [List.pairwise_map]
  exact readFiles_pairwise h

/-- C62, what holds for every run, whatever the order in which the maps are visited: an output starts with the generated text and
keeps the bytes of its old contents beyond that length, so it is exact iff the old contents are not longer; every other file
stays as it was. -/
theorem C62_outputs_partial {dir : List Entry} {fs fs' : Fs} (hd : (dir.map Entry.name).Nodup) (h : Run (str% "complex") dir fs fs') :
    (∀ e ∈ dir, selected e = true → ∀ s failed, e.reading = .bytes s failed →
      fs' (outName e.name) = some (generatedText s ++ ((fs (outName e.name)).getD []).drop (generatedText s).length) ∧
      (fs' (outName e.name) = some (generatedText s) ↔ ((fs (outName e.name)).getD []).length ≤ (generatedText s).length)) ∧
    (∀ n, (∀ e ∈ dir, selected e = true → outName e.name ≠ n) → fs' n = fs n) := by
  cases h with
  | stop h => exact nomatch h
  | @write generated visited hg hp =>
    have hg : GenerateComplex (readFiles dir) = generated := by
      unfold generate at hg; rw [if_pos rfl] at hg; exact Option.some.inj hg
    subst hg
    have hpw : visited.Pairwise fun f g => outName f.1 ≠ outName g.1 :=
      (hp.pairwise_iff fun h e => h e.symm).mpr (generated_pairwise hd)
    refine ⟨fun e he hs s failed hr => ?_, fun n hn => ?_⟩
    · have hm : (e.name, generatedText s) ∈ visited := by
        rw [hp.mem_iff]
        exact List.mem_map.mpr ⟨(e.name, s), readFiles_mem.mpr ⟨e, he, hs, failed, hr, rfl⟩, rfl⟩
      have := writeAll_mem fs visited hpw _ hm
      refine ⟨this, ?_⟩
      rw [this]
      simp only [Option.some.injEq]
      constructor
      · intro e
        have := congrArg List.length e
        rw [List.length_append, List.length_drop] at this
        omega
      · intro hle
        rw [List.drop_eq_nil_of_le hle, List.append_nil]
    · refine writeAll_other _ _ _ fun f hf => ?_
      rw [hp.mem_iff] at hf
      obtain ⟨g, hg, rfl⟩ := List.mem_map.mp hf
      obtain ⟨e, he, hs, _, _, hn'⟩ := readFiles_mem.mp hg
      simp only []
      rw [← hn']
      exact hn e he hs

/-- A directory with one source, `_a.go`, without directives. -/
def demoDir : List Entry := [⟨str% "_a.go", false, .bytes (str% "new") false⟩]
/-- The output exists already and is longer. -/
def demoFs : Fs := fun n => if n = str% "a.generated.go" then some (str% "old text") else none

theorem demo_text : generatedText (str% "new") = str% "new" := by
  unfold generatedText replaceAll
  rw [replaceFrom_lines _ _ (.inl rfl)]
  decide

theorem demo_run : Run (str% "complex") demoDir demoFs (writeAll demoFs [(str% "_a.go", generatedText (str% "new"))]) :=
  .write (generated := [(str% "_a.go", generatedText (str% "new"))]) rfl (List.Perm.refl _)

/-- C62 is false: the end of a longer old output stays. -/
theorem C62_not_truncated_false : ¬ C62_full ∧
    writeAll demoFs [(str% "_a.go", generatedText (str% "new"))] (str% "a.generated.go") = some (str% "new text") := by
  have e : writeAll demoFs [(str% "_a.go", generatedText (str% "new"))] (str% "a.generated.go") = some (str% "new text") := by
    rw [demo_text]; decide
  refine ⟨fun h => ?_, e⟩
  have := h demoDir demoFs _ (by decide) demo_run _ List.mem_cons_self (by decide) _ false rfl
  have o : outName (str% "_a.go") = str% "a.generated.go" := by decide
  rw [demo_text] at this e
  rw [show Entry.name ⟨str% "_a.go", false, .bytes (str% "new") false⟩ = str% "_a.go" from rfl, o, e] at this
  exact absurd this (by decide)

/-- C68: the outcome of a run does not depend on the order in which the maps are visited. -/
theorem C68_order_irrelevant {kind : Str} {dir : List Entry} {fs fs1 fs2 : Fs} (hd : (dir.map Entry.name).Nodup)
    (h1 : Run kind dir fs fs1) (h2 : Run kind dir fs fs2) : fs1 = fs2 := by
  cases h1 with
  | stop g1 =>
    cases h2 with
    | stop _ => rfl
    | write g2 _ => rw [g1] at g2; exact nomatch g2
  | @write gen1 v1 g1 p1 =>
    cases h2 with
    | stop g2 => rw [g1] at g2; exact nomatch g2
    | @write gen2 v2 g2 p2 =>
      rw [g1] at g2
      cases g2
      have hk : GenerateComplex (readFiles dir) = gen1 := by
        unfold generate at g1; split at g1
        · exact Option.some.inj g1
        · exact nomatch g1
      subst hk
      have w1 := (p1.pairwise_iff fun {a b : Str × Str} (h : outName a.1 ≠ outName b.1) e => h e.symm).mpr (generated_pairwise hd)
      have w2 := (p2.pairwise_iff fun {a b : Str × Str} (h : outName a.1 ≠ outName b.1) e => h e.symm).mpr (generated_pairwise hd)
      funext n
      by_cases hn : ∃ f ∈ GenerateComplex (readFiles dir), outName f.1 = n
      · obtain ⟨f, hf, rfl⟩ := hn
        rw [writeAll_mem fs v1 w1 f (p1.mem_iff.mpr hf), writeAll_mem fs v2 w2 f (p2.mem_iff.mpr hf)]
      · rw [writeAll_other fs v1 n fun f hf e => hn ⟨f, p1.mem_iff.mp hf, e⟩,
          writeAll_other fs v2 n fun f hf e => hn ⟨f, p2.mem_iff.mp hf, e⟩]

/-- C68: any other value of the flag writes nothing. -/
theorem C68_other_kind {kind : Str} {dir : List Entry} {fs fs' : Fs} (hk : kind ≠ str% "complex") (h : Run kind dir fs fs') : fs' = fs := by
  cases h with
  | stop _ => rfl
  | write g _ => unfold generate at g; rw [if_neg hk] at g; exact nomatch g

example : (demoDir.map Entry.name).Nodup := by decide

end Crunch.Gen
