import Verif.Lemmas.GenMainRun
import Verif.Props.GenGo

/-!
# The text of generation/main.go (C100, C101, C102, C103, C104, C105, C106)

`program` runs `init` and `main` of the package of the generator, from the texts of its two files, in a `World` that decides
what the operating system does at each time: it may fail to open, read, create or write a file at any time, to change the
directory or to list it.
-/

namespace Crunch.Gen.Go

/-- The directory on the command line. -/
def directoryFlag (w : World) : Str := (w.flags (str% "directory")).getD (str% ".")
/-- The kind of generation on the command line. -/
def kindFlag (w : World) : Str := (w.flags (str% "generation")).getD (str% "")

/-- The name of a source. -/
def source (stem : Str) : Str := str% "_" ++ stem ++ str% ".go"
/-- The name of its output. -/
def output (stem : Str) : Str := stem ++ str% ".generated.go"

/-- What a source becomes, line by line. -/
def Made (src g : Str) : Prop := ∃ outs, Each Outcome (splitLines src) outs ∧ g = join [nl] outs

/-- The directory `P` is the one on the command line, it can be opened and is a directory. -/
def Directory (w : World) (cwd P : Str) : Prop :=
  ∃ p, w.abs 0 (directoryFlag w) = some p ∧ P = fullPath cwd p ∧ w.openFails 1 P = false ∧ w.stat 2 P = some true

/-- Where the program is while it reads and writes. -/
def whereabouts (w : World) (cwd P : Str) : Str := if w.chdirFails 3 P then cwd else P

theorem made_text (src : Str) : Made src (generatedText src) := by
  obtain ⟨outs, h1, h2⟩ := C60_line_by_line [([], src)]
  cases h2 with
  | cons h h' =>
    cases h'
    exact ⟨_, h, (Prod.mk.inj (List.cons.inj h1).1).2⟩

theorem made_unique {src g g' : Str} (h : Made src g) (h' : Made src g') : g = g' := by
  obtain ⟨o, h, rfl⟩ := h
  obtain ⟨o', h', rfl⟩ := h'
  congr 1
  generalize splitLines src = ls at h h'
  induction h generalizing o' with
  | nil => cases h'; rfl
  | cons h1 _ ih =>
    cases h' with
    | cons g1 g2 => rw [C60_outcome_unique h1 g1, ih _ g2]

theorem selected_source {stem : Str} {e : Entry} (hn : e.name = source stem) (hd : e.isDir = false) : selected e = true := by
  have : ext (source stem) = str% ".go" := by
    unfold ext source
    rw [List.reverse_append]
    rfl
  unfold selected
  rw [hn, hd, this]
  rfl

theorem selected_iff (e : Entry) : selected e = true ↔ e.isDir = false ∧ ∃ stem, e.name = source stem := by
  constructor
  · intro h
    refine ⟨?_, selected_name h⟩
    unfold selected at h
    cases hd : e.isDir with
    | false => rfl
    | true => rw [hd] at h; simp at h
  · rintro ⟨hd, stem, hn⟩
    exact selected_source hn hd

theorem output_path {here stem : Str} (h : 47 ∉ source stem) : fullPath here (outName (source stem)) = here ++ str% "/" ++ output stem := by
  rw [show outName (source stem) = output stem from outName_stem stem]
  unfold fullPath
  rw [if_neg]
  intro hh
  cases stem with
  | nil => exact nomatch hh
  | cons c t =>
    have : c = 47 := Option.some.inj hh
    subst this
    exact h (by simp [source])

theorem source_path {here stem : Str} : fullPath here (source stem) = here ++ str% "/" ++ source stem := rfl

theorem output_inj {here s t : Str} (h : here ++ str% "/" ++ output s = here ++ str% "/" ++ output t) : s = t :=
  List.append_cancel_right (List.append_cancel_left h)

namespace Main

/-! ## the outputs of a map -/

theorem Written.other {w : World} {L : Prop} {cwd : Str} {fs fs' : Fs} {k c q : Str} (h : Written w L cwd fs k c fs')
    (hq : q ≠ fullPath cwd (outName k)) : fs' q = fs q := by
  cases h with
  | cannotCreate => rfl
  | all => exact if_neg hq
  | part => exact if_neg hq

theorem Outputs.other {w : World} {L : Prop} {cwd : Str} {m : List (Str × Str)} {ks : List Str} {fs fs' : Fs} {q : Str}
    (h : Outputs w L cwd m ks fs fs') (hq : ∀ k ∈ ks, q ≠ fullPath cwd (outName k)) : fs' q = fs q := by
  induction h with
  | nil => rfl
  | cons _ hw _ ih =>
    rw [ih fun k hk => hq k (List.mem_cons_of_mem _ hk), hw.other (hq _ List.mem_cons_self)]

/-- The effect on the path depends on what was there. -/
theorem Written.at {w : World} {L : Prop} {cwd : Str} {fs fs' : Fs} {k c : Str} (h : Written w L cwd fs k c fs') :
    (fs' (fullPath cwd (outName k)) = fs (fullPath cwd (outName k)) ∧ L ∧ ∃ t, w.createFails t (fullPath cwd (outName k)) = true) ∨
    ∃ d, (d = c ∨ L ∧ ∃ t n, w.writeFault t (fullPath cwd (outName k)) = some n ∧ d = c.take n) ∧
      fs' (fullPath cwd (outName k)) = some (d ++ ((fs (fullPath cwd (outName k))).getD []).drop d.length) := by
  cases h with
  | cannotCreate t l h => exact .inl ⟨rfl, l, t, h⟩
  | all => exact .inr ⟨c, .inl rfl, if_pos rfl⟩
  | part t n l h => exact .inr ⟨c.take n, .inr ⟨l, t, n, h, rfl⟩, if_pos rfl⟩

theorem Outputs.at {w : World} {L : Prop} {cwd : Str} {m : List (Str × Str)} {ks : List Str} {fs fs' : Fs} {k : Str}
    (h : Outputs w L cwd m ks fs fs') (hks : ks.Nodup) (hk : k ∈ ks)
    (inj : ∀ a ∈ ks, ∀ b ∈ ks, fullPath cwd (outName a) = fullPath cwd (outName b) → a = b) :
    ∃ c, (k, c) ∈ m ∧
      ((fs' (fullPath cwd (outName k)) = fs (fullPath cwd (outName k)) ∧ L ∧ ∃ t, w.createFails t (fullPath cwd (outName k)) = true) ∨
      ∃ d, (d = c ∨ L ∧ ∃ t n, w.writeFault t (fullPath cwd (outName k)) = some n ∧ d = c.take n) ∧
        fs' (fullPath cwd (outName k)) = some (d ++ ((fs (fullPath cwd (outName k))).getD []).drop d.length)) := by
  induction h with
  | nil => exact nomatch hk
  | @cons k' c' ks' f f1 f2 hm hw ho ih =>
    obtain ⟨n1, n2⟩ := List.nodup_cons.mp hks
    rcases List.mem_cons.mp hk with rfl | hk
    · refine ⟨c', hm, ?_⟩
      rw [ho.other (q := fullPath cwd (outName k)) fun b hb e => n1 (by
        rw [inj _ List.mem_cons_self b (List.mem_cons_of_mem _ hb) e]; exact hb)]
      exact hw.at
    · obtain ⟨c, hc, h⟩ := ih n2 hk fun a ha b hb => inj a (List.mem_cons_of_mem _ ha) b (List.mem_cons_of_mem _ hb)
      refine ⟨c, hc, ?_⟩
      rw [hw.other (q := fullPath cwd (outName k)) fun e => n1 (by
        rw [← inj _ (List.mem_cons_of_mem _ hk) k' List.mem_cons_self e]; exact hk)] at h
      exact h

theorem Written.length {w : World} {L : Prop} {cwd : Str} {fs fs' : Fs} {k c : Str} (h : Written w L cwd fs k c fs') {q old : Str} (ho : fs q = some old) :
    ∃ new, fs' q = some new ∧ old.length ≤ new.length := by
  by_cases hq : q = fullPath cwd (outName k)
  · subst hq
    rcases h.at with ⟨h, -⟩ | ⟨d, -, h⟩
    · exact ⟨old, h.trans ho, Nat.le_refl _⟩
    · rw [ho] at h
      refine ⟨_, h, ?_⟩
      rw [List.length_append, List.length_drop, Option.getD_some]
      omega
  · exact ⟨old, (h.other hq).trans ho, Nat.le_refl _⟩

theorem Outputs.length {w : World} {L : Prop} {cwd : Str} {m : List (Str × Str)} {ks : List Str} {fs fs' : Fs} (h : Outputs w L cwd m ks fs fs')
    {q old : Str} (ho : fs q = some old) : ∃ new, fs' q = some new ∧ old.length ≤ new.length := by
  induction h generalizing old with
  | nil => exact ⟨old, ho, Nat.le_refl _⟩
  | cons _ hw _ ih =>
    obtain ⟨o, h1, h2⟩ := hw.length ho
    obtain ⟨n, h3, h4⟩ := ih h1
    exact ⟨n, h3, Nat.le_trans h2 h4⟩

theorem setKey_key {k x v : Str} {m : List (Str × Str)} (h : k ∈ (setKey x v m).map (·.1)) : k = x ∨ k ∈ m.map (·.1) := by
  induction m with
  | nil => exact .inl (List.mem_singleton.mp h)
  | cons p m ih =>
    rw [setKey] at h
    by_cases e1 : x = p.1
    · rw [if_pos e1] at h; exact .inr h
    · rw [if_neg e1] at h
      rcases List.mem_cons.mp h with h | h
      · exact .inr (h ▸ List.mem_cons_self)
      · rcases ih h with h | h
        · exact .inl h
        · exact .inr (List.mem_cons_of_mem _ h)

theorem entry_unique {dir : List Entry} (h : (dir.map Entry.name).Nodup) {a b : Entry} (ha : a ∈ dir) (hb : b ∈ dir) (e : a.name = b.name) : a = b := by
  induction dir with
  | nil => exact nomatch ha
  | cons x dir ih =>
    obtain ⟨h1, h2⟩ := List.nodup_cons.mp h
    rcases List.mem_cons.mp ha with ea | ha' <;> rcases List.mem_cons.mp hb with eb | hb'
    · rw [ea, eb]
    · exact absurd (List.mem_map.mpr ⟨b, hb', by rw [← e, ea]⟩) h1
    · exact absurd (List.mem_map.mpr ⟨a, ha', by rw [e, eb]⟩) h1
    · exact ih h2 ha' hb'

theorem addEntry_key {dir : List Entry} {m : List (Str × Str)} {k : Str} (h : k ∈ (dir.foldl addEntry m).map (·.1)) :
    k ∈ m.map (·.1) ∨ ∃ e ∈ dir, selected e = true ∧ e.name = k := by
  induction dir generalizing m with
  | nil => exact .inl h
  | cons e dir ih =>
    rcases ih h with h | ⟨e', he, hs⟩
    · unfold addEntry at h
      cases hs : selected e with
      | false => rw [hs] at h; exact .inl h
      | true =>
        rw [hs, if_pos rfl] at h
        cases hr : e.reading with
        | cannotOpen => rw [hr] at h; exact .inl h
        | bytes c b =>
          rw [hr] at h
          simp only [] at h
          rcases setKey_key h with h | h
          · exact .inr ⟨e, List.mem_cons_self, hs, h.symm⟩
          · exact .inl h
    · exact .inr ⟨e', List.mem_cons_of_mem _ he, hs⟩

end Main

/-- What `program` gives. -/
theorem program_run {tops : List Top} (ht : package = some tops) {w : World} (hw : ∀ t ks, (w.order t ks).Perm ks) {cwd : Str} {fs : Fs} {v : V} {s' : S}
    (h : program w tops (Main.start cwd fs) = some (v, s')) :
    Main.Effect w s'.out (directoryFlag w) (kindFlag w) cwd fs s'.fs ∧ ∀ h, h < s'.nhandle → (s'.handles h).isOpen = true →
        ∃ t n, w.readFault t (s'.handles h).path = some n ∨ w.writeFault t (s'.handles h).path = some n := by
  rw [package_eq] at ht
  cases ht
  obtain ⟨s, h1, h2⟩ := Main.program_effect hw cwd fs
  rw [h1] at h
  cases h
  exact h2

/-! ## C100 -/

/-- C100: the program ends normally, in every world, whatever fails. -/
theorem C100_ends {tops : List Top} (ht : package = some tops) {w : World} (hw : ∀ t ks, (w.order t ks).Perm ks) (cwd : Str) (fs : Fs) :
    ∃ s', program w tops (Main.start cwd fs) = some (.unit, s') := by
  rw [package_eq] at ht
  cases ht
  obtain ⟨s, h1, -⟩ := Main.program_effect hw cwd fs
  exact ⟨s, h1⟩

/-- C100: a file that differs after a run is an output: the kind of generation is `complex`, the directory could be opened and
its listing has the source of that output, which is no directory. -/
theorem C100_only_outputs {tops : List Top} (ht : package = some tops) {w : World} (hw : ∀ t ks, (w.order t ks).Perm ks) {cwd : Str} {fs : Fs} {v : V} {s' : S}
    (h : program w tops (Main.start cwd fs) = some (v, s')) {q : Str} (hq : s'.fs q ≠ fs q) :
    kindFlag w = str% "complex" ∧ ∃ P stem, Directory w cwd P ∧ (⟨source stem, false⟩ : Info) ∈ (w.readdir 4 P).1 ∧
      q = fullPath (whereabouts w cwd P) (output stem) := by
  obtain ⟨e, -⟩ := program_run ht hw h
  generalize s'.fs = fs' at *
  cases e with
  | noPath => exact absurd rfl hq
  | noOpen => exact absurd rfl hq
  | noDirectory => exact absurd rfl hq
  | noKind => exact absurd rfl hq
  | @run p here dir ks _ h1 h2 h3 h4 h5 h6 h7 h8 h9 h10 h11 =>
    refine ⟨h5, fullPath cwd p, ?_⟩
    by_cases hk : ∃ k ∈ ks, q = fullPath here (outName k)
    · obtain ⟨k, hk, rfl⟩ := hk
      rcases Main.addEntry_key (h9.mem_iff.mp hk) with hk | ⟨e, he, hs, rfl⟩
      · exact nomatch hk
      · obtain ⟨hd, stem, hn⟩ := (selected_iff e).mp hs
        refine ⟨stem, ⟨p, h1, rfl, h2, h3⟩, ?_, ?_⟩
        · rw [← h7]
          exact List.mem_map.mpr ⟨e, he, by rw [hn, hd]⟩
        · rw [hn, h4, show outName (source stem) = output stem from outName_stem stem]
          rfl
    · exact absurd (h10.other fun k hk' e => hk ⟨k, hk', e⟩) hq

/-- C100: no file disappears or gets shorter. -/
theorem C100_never_shorter {tops : List Top} (ht : package = some tops) {w : World} (hw : ∀ t ks, (w.order t ks).Perm ks) {cwd : Str} {fs : Fs} {v : V} {s' : S}
    (h : program w tops (Main.start cwd fs) = some (v, s')) {q old : Str} (hq : fs q = some old) :
    ∃ new, s'.fs q = some new ∧ old.length ≤ new.length := by
  obtain ⟨e, -⟩ := program_run ht hw h
  generalize s'.fs = fs' at *
  cases e with
  | noPath => exact ⟨old, hq, Nat.le_refl _⟩
  | noOpen => exact ⟨old, hq, Nat.le_refl _⟩
  | noDirectory => exact ⟨old, hq, Nat.le_refl _⟩
  | noKind => exact ⟨old, hq, Nat.le_refl _⟩
  | run _ _ _ _ _ _ _ _ _ h => exact h.length hq

/-! ## C102 -/

/-- What becomes of the file of an output, `src` and `old` being what was at the path of its source and at its own before. -/
inductive Becomes (w : World) (complaint : Prop) (sourcePath outputPath src old : Str) (was : Option Str) : Option Str → Prop where
  /-- the source or the output could not be opened -/
  | unchanged : complaint → (∃ t, w.openFails t sourcePath = true ∨ w.createFails t outputPath = true) →
      Becomes w complaint sourcePath outputPath src old was was
  /-- The output, or the part of it that could be written, of the source, or of the part of it that could be read, stands
  before the rest of the old contents. -/
  | made {s g d : Str} : (s = src ∨ complaint ∧ ∃ t n, w.readFault t sourcePath = some n ∧ s = src.take n) → Made s g →
      (d = g ∨ complaint ∧ ∃ t n, w.writeFault t outputPath = some n ∧ d = g.take n) →
      Becomes w complaint sourcePath outputPath src old was (some (d ++ old.drop d.length))

/-- C102: what becomes of each output in a world in which any file may fail to be opened, read, created or written; a failure is
never silent. -/
theorem C102_faults {tops : List Top} (ht : package = some tops) {w : World} (hw : ∀ t ks, (w.order t ks).Perm ks) {cwd P : Str} {fs : Fs} {v : V} {s' : S}
    (h : program w tops (Main.start cwd fs) = some (v, s')) (hk : kindFlag w = str% "complex") (hd : Directory w cwd P)
    (hn : ((w.readdir 4 P).1.map Info.name).Nodup) (hs : ∀ x ∈ (w.readdir 4 P).1, (47 : UInt8) ∉ x.name)
    {stem : Str} (hx : (⟨source stem, false⟩ : Info) ∈ (w.readdir 4 P).1) {here : Str} (hh : here = whereabouts w cwd P) :
    Becomes w (∃ m ∈ s'.out, m.take 2 = str% "! ") (here ++ str% "/" ++ source stem) (here ++ str% "/" ++ output stem)
      ((fs (here ++ str% "/" ++ source stem)).getD []) ((fs (here ++ str% "/" ++ output stem)).getD [])
      (fs (here ++ str% "/" ++ output stem)) (s'.fs (here ++ str% "/" ++ output stem)) := by
  obtain ⟨e, -⟩ := program_run ht hw h
  obtain ⟨p, d1, d2, d3, d4⟩ := hd
  subst d2
  generalize s'.fs = fs' at *
  cases e with
  | noPath _ h => rw [d1] at h; exact nomatch h
  | noOpen _ h h' => rw [d1] at h; cases h; rw [d3] at h'; exact nomatch h'
  | noDirectory _ h h' => rw [d1] at h; cases h; exact absurd d4 h'
  | noKind _ h => exact absurd hk h
  | @run p' here' dir ks _ h1 h2 h3 h4 h5 h6 h7 h8 h9 h10 h11 =>
    rw [d1] at h1
    cases h1
    have : here' = here := h4.trans hh.symm
    subst this
    have names : dir.map Entry.name = (w.readdir 4 (fullPath cwd p)).1.map Info.name := by
      rw [← h7, List.map_map]
      rfl
    have nd : (dir.map Entry.name).Nodup := by rw [names]; exact hn
    have noslash : ∀ e ∈ dir, (47 : UInt8) ∉ e.name := fun e he =>
      hs ⟨e.name, e.isDir⟩ (by rw [← h7]; exact List.mem_map.mpr ⟨e, he, rfl⟩)
    have files : dir.foldl Main.addEntry [] = readFiles dir := Main.foldl_addEntry nd [] fun _ _ => nofun
    rw [files] at h9 h10
    have ksel : ∀ k ∈ ks, ∃ e ∈ dir, selected e = true ∧ e.name = k := by
      intro k hk
      obtain ⟨f, hf, rfl⟩ := List.mem_map.mp (h9.mem_iff.mp hk)
      obtain ⟨e, he, hs, _, _, hn⟩ := readFiles_mem.mp hf
      exact ⟨e, he, hs, hn⟩
    have path : ∀ k ∈ ks, ∃ s, k = source s ∧ fullPath here' (outName k) = here' ++ str% "/" ++ output s := by
      intro k hk
      obtain ⟨e, he, hs, rfl⟩ := ksel k hk
      obtain ⟨-, s, hn⟩ := (selected_iff e).mp hs
      exact ⟨s, hn, by rw [hn]; exact output_path (by rw [← hn]; exact noslash e he)⟩
    have inj : ∀ a ∈ ks, ∀ b ∈ ks, fullPath here' (outName a) = fullPath here' (outName b) → a = b := by
      intro a ha b hb e
      obtain ⟨sa, ea, pa⟩ := path a ha
      obtain ⟨sb, eb, pb⟩ := path b hb
      rw [pa, pb] at e
      rw [ea, eb, output_inj e]
    have knd : ks.Nodup := by
      rw [h9.nodup_iff, List.nodup_iff_pairwise_ne, List.pairwise_map]
      exact (readFiles_pairwise nd).imp fun h e => h (congrArg outName e)
    -- the entry
    rw [← h7] at hx
    obtain ⟨e, he, hx⟩ := List.mem_map.mp hx
    have en : e.name = source stem := congrArg Info.name hx
    have ed : e.isDir = false := congrArg Info.isDir hx
    have es : selected e = true := selected_source en ed
    have hout : fullPath here' (outName (source stem)) = here' ++ str% "/" ++ output stem := output_path (by rw [← en]; exact noslash e he)
    have hr := h8 e he es
    unfold Main.ReadOf at hr
    rw [en, source_path] at hr
    -- what a source that was read becomes
    have written : ∀ c b, e.reading = .bytes c b →
        (c = (fs (here' ++ str% "/" ++ source stem)).getD [] ∨ (∃ m ∈ s'.out, m.take 2 = str% "! ") ∧
          ∃ t n, w.readFault t (here' ++ str% "/" ++ source stem) = some n ∧ c = ((fs (here' ++ str% "/" ++ source stem)).getD []).take n) →
        Becomes w (∃ m ∈ s'.out, m.take 2 = str% "! ") (here' ++ str% "/" ++ source stem) (here' ++ str% "/" ++ output stem)
          ((fs (here' ++ str% "/" ++ source stem)).getD []) ((fs (here' ++ str% "/" ++ output stem)).getD [])
          (fs (here' ++ str% "/" ++ output stem)) (fs' (here' ++ str% "/" ++ output stem)) := by
      intro c b hb hc
      have hf : (source stem, c) ∈ readFiles dir := readFiles_mem.mpr ⟨e, he, es, b, hb, en⟩
      have hk : source stem ∈ ks := h9.mem_iff.mpr (List.mem_map.mpr ⟨_, hf, rfl⟩)
      obtain ⟨g, hg, h⟩ := h10.at knd hk inj
      rw [hout] at h
      have hg : g = generatedText c := by
        obtain ⟨f, hf', e'⟩ := List.mem_map.mp hg
        obtain ⟨k, c'⟩ := f
        obtain ⟨rfl, rfl⟩ := Prod.mk.inj e'
        have : c' = c := by
          obtain ⟨e1, he1, hs1, b1, hr1, hn1⟩ := readFiles_mem.mp hf'
          have : e1 = e := Main.entry_unique nd he1 he (hn1.trans en.symm)
          subst this
          rw [hb] at hr1
          exact (Reading.bytes.inj hr1).1.symm
        rw [this]
        rfl
      subst hg
      rcases h with ⟨hu, l, t, hc'⟩ | ⟨d, hd', hu⟩
      · rw [hu]
        exact .unchanged l ⟨t, .inr hc'⟩
      · rw [hu]
        exact .made hc (made_text c) hd'
    cases hrd : e.reading with
    | cannotOpen =>
      rw [hrd] at hr
      obtain ⟨l, t, ho⟩ := hr
      have : fs' (here' ++ str% "/" ++ output stem) = fs (here' ++ str% "/" ++ output stem) := by
        refine h10.other fun k hk e' => ?_
        obtain ⟨s, ek, pk⟩ := path k hk
        rw [pk] at e'
        have := output_inj e'
        subst this
        obtain ⟨f, hf, hfk⟩ := List.mem_map.mp (h9.mem_iff.mp hk)
        obtain ⟨e1, he1, hs1, b1, hr1, hn1⟩ := readFiles_mem.mp hf
        have : e1 = e := Main.entry_unique nd he1 he (by rw [hn1, hfk, ek, en])
        subst this
        rw [hrd] at hr1
        exact nomatch hr1
      rw [this]
      exact .unchanged l ⟨t, .inl ho⟩
    | bytes c b =>
      rw [hrd] at hr
      cases b with
      | false => exact written c false hrd (.inl hr)
      | true => exact written c true hrd (.inr hr)

/-! ## C101 -/

/-- The program can work in the directory `P`, whose listing has distinct names without `/`. -/
structure Works (w : World) (cwd P : Str) : Prop where
  kind : kindFlag w = str% "complex"
  directory : Directory w cwd P
  names : ((w.readdir 4 P).1.map Info.name).Nodup
  noSlash : ∀ x ∈ (w.readdir 4 P).1, (47 : UInt8) ∉ x.name

/-- C101: when the source and the output of a name in the listing of the directory do not fail, what the source becomes line by
line stands before what the output held beyond that length. -/
theorem C101_output {tops : List Top} (ht : package = some tops) {w : World} (hw : ∀ t ks, (w.order t ks).Perm ks) {cwd P : Str} {fs : Fs} {v : V} {s' : S}
    (h : program w tops (Main.start cwd fs) = some (v, s')) (hd : Works w cwd P) (hc : w.chdirFails 3 P = false)
    {stem : Str} (hx : (⟨source stem, false⟩ : Info) ∈ (w.readdir 4 P).1)
    (hs : ∀ t, w.openFails t (P ++ str% "/" ++ source stem) = false ∧ w.readFault t (P ++ str% "/" ++ source stem) = none)
    (ho : ∀ t, w.createFails t (P ++ str% "/" ++ output stem) = false ∧ w.writeFault t (P ++ str% "/" ++ output stem) = none) :
    ∃ g, Made ((fs (P ++ str% "/" ++ source stem)).getD []) g ∧
      s'.fs (P ++ str% "/" ++ output stem) = some (g ++ ((fs (P ++ str% "/" ++ output stem)).getD []).drop g.length) := by
  have b := C102_faults ht hw h hd.kind hd.directory hd.names hd.noSlash hx (here := P) (by unfold whereabouts; rw [hc]; rfl)
  generalize s'.fs (P ++ str% "/" ++ output stem) = new at b
  cases b with
  | unchanged _ h =>
    obtain ⟨t, h | h⟩ := h
    · rw [(hs t).1] at h; exact nomatch h
    · rw [(ho t).1] at h; exact nomatch h
  | @made s g d h1 h2 h3 =>
    rcases h1 with rfl | ⟨-, t, n, h1, -⟩
    · rcases h3 with rfl | ⟨-, t, n, h3, -⟩
      · exact ⟨d, h2, rfl⟩
      · rw [(ho t).2] at h3; exact nomatch h3
    · rw [(hs t).2] at h1; exact nomatch h1

/-- C101: without faults the run of the text is a run of the model of `main`, in which C62 and C68 are stated: names stand for the
files of the directory. -/
theorem C101_text_is_model {tops : List Top} (ht : package = some tops) {w : World} (hw : ∀ t ks, (w.order t ks).Perm ks) {cwd P : Str} {fs : Fs} {v : V} {s' : S}
    (h : program w tops (Main.start cwd fs) = some (v, s')) (hd : Works w cwd P) (hc : w.chdirFails 3 P = false) (hf : Main.NoFault w) :
    Run (kindFlag w) ((w.readdir 4 P).1.map fun x => ⟨x.name, x.isDir, .bytes ((fs (P ++ str% "/" ++ x.name)).getD []) false⟩)
      (fun n => fs (P ++ str% "/" ++ n)) (fun n => s'.fs (P ++ str% "/" ++ n)) := by
  rw [hd.kind]
  generalize hdir : ((w.readdir 4 P).1.map fun x => (⟨x.name, x.isDir, .bytes ((fs (P ++ str% "/" ++ x.name)).getD []) false⟩ : Entry)) = dir
  have nd : (dir.map Entry.name).Nodup := by
    rw [← hdir, List.map_map]
    exact hd.names
  have run : Run (str% "complex") dir (fun n => fs (P ++ str% "/" ++ n)) (writeAll (fun n => fs (P ++ str% "/" ++ n)) (GenerateComplex (readFiles dir))) :=
    .write rfl (List.Perm.refl _)
  have e : (fun n => s'.fs (P ++ str% "/" ++ n)) = writeAll (fun n => fs (P ++ str% "/" ++ n)) (GenerateComplex (readFiles dir)) := by
    obtain ⟨c1, c2⟩ := C62_outputs_partial nd run
    funext n
    by_cases hn : ∃ e ∈ dir, selected e = true ∧ outName e.name = n
    · obtain ⟨e, he, hs, rfl⟩ := hn
      rw [← hdir] at he
      obtain ⟨x, hx, rfl⟩ := List.mem_map.mp he
      obtain ⟨xd, stem, xn⟩ := (selected_iff _).mp hs
      have xd : x.isDir = false := xd
      have xn : x.name = source stem := xn
      obtain ⟨g, hg, hr⟩ := C101_output ht hw h hd hc (stem := stem) (by rw [← xn, ← xd]; exact hx) (fun t => ⟨(hf t _).1, (hf t _).2.1⟩)
        (fun t => ⟨(hf t _).2.2.1, (hf t _).2.2.2⟩)
      have := (c1 _ (by rw [← hdir]; exact he) hs _ false rfl).1
      rw [this]
      simp only [xn]
      rw [show outName (source stem) = output stem from outName_stem stem, hr, made_unique hg (made_text _)]
    · rw [c2 n fun e he hs hn' => hn ⟨e, he, hs, hn'⟩]
      by_cases hq : s'.fs (P ++ str% "/" ++ n) = fs (P ++ str% "/" ++ n)
      · exact hq
      · obtain ⟨-, P', stem, ⟨p, d1, d2, -⟩, hx, hp⟩ := C100_only_outputs ht hw h hq
        obtain ⟨p', d1', d2', -⟩ := hd.directory
        rw [d1] at d1'
        cases d1'
        have : P' = P := d2.trans d2'.symm
        subst this
        have : n = output stem := by
          have o := output_path (here := whereabouts w cwd P') (stem := stem) (hd.noSlash _ hx)
          rw [show outName (source stem) = output stem from outName_stem stem] at o
          rw [o, show whereabouts w cwd P' = P' from by unfold whereabouts; rw [hc]; rfl] at hp
          exact List.append_cancel_left hp
        refine absurd ⟨⟨source stem, false, .bytes ((fs (P' ++ str% "/" ++ source stem)).getD []) false⟩, ?_, selected_source rfl rfl, ?_⟩ hn
        · rw [← hdir]
          exact List.mem_map.mpr ⟨_, hx, rfl⟩
        · rw [this]
          exact outName_stem stem
  rw [e]
  exact run

/-! ## C103 -/

/-- C103, the full statement: only files of the directory on the command line change. -/
def C103_full : Prop :=
  ∀ (tops : List Top) (w : World) (cwd : Str) (fs : Fs) (v : V) (s' : S), package = some tops → (∀ t ks, (w.order t ks).Perm ks) →
    (∀ t p, ∀ x ∈ (w.readdir t p).1, (47 : UInt8) ∉ x.name) →
    program w tops (Main.start cwd fs) = some (v, s') → ∀ q, s'.fs q ≠ fs q → ∃ P n, Directory w cwd P ∧ q = P ++ str% "/" ++ n

/-- C103, what holds: they are files of the directory, or of the working directory if the program could not go to the directory,
which it does not look at. -/
theorem C103_place_partial {tops : List Top} (ht : package = some tops) {w : World} (hw : ∀ t ks, (w.order t ks).Perm ks)
    (hx : ∀ t p, ∀ x ∈ (w.readdir t p).1, (47 : UInt8) ∉ x.name) {cwd : Str} {fs : Fs} {v : V} {s' : S}
    (h : program w tops (Main.start cwd fs) = some (v, s')) {q : Str} (hq : s'.fs q ≠ fs q) :
    ∃ P n, Directory w cwd P ∧ (w.chdirFails 3 P = false ∧ q = P ++ str% "/" ++ n ∨ w.chdirFails 3 P = true ∧ q = cwd ++ str% "/" ++ n) := by
  obtain ⟨-, P, stem, d, hm, e⟩ := C100_only_outputs ht hw h hq
  refine ⟨P, output stem, d, ?_⟩
  rw [← show outName (source stem) = output stem from outName_stem stem, output_path (hx _ _ _ hm)] at e
  unfold whereabouts at e
  cases hc : w.chdirFails 3 P with
  | false => rw [hc] at e; exact .inl ⟨rfl, e⟩
  | true => rw [hc] at e; exact .inr ⟨rfl, e⟩

/-- A world like the other one, with a source only, in which the program cannot go to the directory. -/
def stuckWorld : World := { demoWorld with chdirFails := fun _ _ => true, readdir := fun _ _ => ([⟨str% "_a.go", false⟩], false) }

/-- The directory has a source, and the working directory has another one with the same name. -/
def stuckFiles : Fs := fun p => if p = str% "/d/_a.go" then some (str% "new") else if p = str% "/w/_a.go" then some (str% "new") else none

theorem stuck_order : ∀ t ks, (stuckWorld.order t ks).Perm ks := fun _ ks => List.reverse_perm ks

theorem stuck_names : ∀ t p, ((stuckWorld.readdir t p).1.map Info.name).Nodup ∧ ∀ x ∈ (stuckWorld.readdir t p).1, (47 : UInt8) ∉ x.name :=
  fun _ _ => show (([⟨str% "_a.go", false⟩] : List Info).map Info.name).Nodup ∧ ∀ x ∈ ([⟨str% "_a.go", false⟩] : List Info), (47 : UInt8) ∉ x.name from by decide

theorem stuck_directory : Directory stuckWorld (str% "/w") (str% "/d") := ⟨str% "/d", rfl, rfl, rfl, rfl⟩

theorem stuck_changes {tops : List Top} (ht : package = some tops) {v : V} {s' : S} (h : program stuckWorld tops (Main.start (str% "/w") stuckFiles) = some (v, s')) :
    s'.fs (str% "/w/a.generated.go") = some (str% "new") := by
  have b := C102_faults ht stuck_order h rfl stuck_directory (by decide) (by decide) (stem := str% "a") List.mem_cons_self (here := str% "/w") rfl
  have b : Becomes stuckWorld _ (str% "/w/_a.go") (str% "/w/a.generated.go") (str% "new") [] none (s'.fs (str% "/w/a.generated.go")) := b
  generalize s'.fs (str% "/w/a.generated.go") = new at b
  cases b with
  | unchanged _ h =>
    obtain ⟨t, h | h⟩ := h <;> exact nomatch h
  | @made s g d h1 h2 h3 =>
    rcases h1 with rfl | ⟨-, t, n, h1, -⟩
    · rcases h3 with rfl | ⟨-, t, n, h3, -⟩
      · rw [made_unique h2 (made_text _), demo_text, List.drop_nil, List.append_nil]
      · exact nomatch h3
    · exact nomatch h1

/-- C103 is false. -/
theorem C103_elsewhere_false : ¬ C103_full := by
  intro hf
  obtain ⟨s', h⟩ := C100_ends package_eq stuck_order (str% "/w") stuckFiles
  have c := stuck_changes package_eq h
  obtain ⟨P, n, ⟨p, d1, d2, -⟩, e⟩ := hf _ _ _ _ _ _ package_eq stuck_order (fun t p => (stuck_names t p).2) h (str% "/w/a.generated.go") (by rw [c]; decide)
  have d1 : some (str% "/d") = some p := d1
  cases d1
  subst d2
  have : (119 : UInt8) = 100 := (List.cons.inj (List.cons.inj e).2).1
  exact absurd this (by decide)

/-! ## C104 -/

/-- C104, the full statement: every file the program opens is closed when it ends. -/
def C104_full : Prop :=
  ∀ (tops : List Top) (w : World) (cwd : Str) (fs : Fs) (v : V) (s' : S), package = some tops → (∀ t ks, (w.order t ks).Perm ks) →
    program w tops (Main.start cwd fs) = some (v, s') → ∀ h, h < s'.nhandle → (s'.handles h).isOpen = false

/-- C104, what holds: a file that stays open is one whose reading or writing failed. -/
theorem C104_closed_partial {tops : List Top} (ht : package = some tops) {w : World} (hw : ∀ t ks, (w.order t ks).Perm ks) {cwd : Str} {fs : Fs} {v : V} {s' : S}
    (h : program w tops (Main.start cwd fs) = some (v, s')) {k : Nat} (hk : k < s'.nhandle)
    (hf : ∀ t, w.readFault t (s'.handles k).path = none ∧ w.writeFault t (s'.handles k).path = none) : (s'.handles k).isOpen = false := by
  obtain ⟨-, c⟩ := program_run ht hw h
  cases ho : (s'.handles k).isOpen with
  | false => rfl
  | true =>
    obtain ⟨t, n, h | h⟩ := c k hk ho
    · rw [(hf t).1] at h; exact nomatch h
    · rw [(hf t).2] at h; exact nomatch h

/-- A world in which every read of a file fails at once. -/
def leakWorld : World := { demoWorld with flags := fun _ => none, readFault := fun _ _ => some 0 }

theorem leak_order : ∀ t ks, (leakWorld.order t ks).Perm ks := fun _ ks => List.reverse_perm ks

/-- C104 is false: the source `_a.go` is opened as file 1 and stays open. -/
theorem C104_leak_false : ¬ C104_full := by
  intro hf
  obtain ⟨s', h⟩ := C100_ends package_eq leak_order (str% "/w") (fun _ => none)
  have e : (program leakWorld (Main.tops ++ Complex.tops) (Main.start (str% "/w") fun _ => none)).map
      (fun r => (r.2.nhandle, (r.2.handles 1).path, (r.2.handles 1).isOpen)) = some (3, str% "/d/_a.go", true) := by
    decide +kernel
  rw [h] at e
  obtain ⟨e1, e2⟩ := Prod.mk.inj (Option.some.inj e)
  obtain ⟨-, e3⟩ := Prod.mk.inj e2
  have := hf _ _ _ _ _ _ package_eq leak_order h 1 (by have e1 : s'.nhandle = 3 := e1; omega)
  have e3 : (s'.handles 1).isOpen = true := e3
  rw [this] at e3
  exact nomatch e3

/-! ## C105 -/

/-- C105, the full statement: if the program does not complain, every source of the directory has its output beside it, and the
directory was listed completely. -/
def C105_full : Prop :=
  ∀ (tops : List Top) (w : World) (cwd : Str) (fs : Fs) (v : V) (s' : S), package = some tops → (∀ t ks, (w.order t ks).Perm ks) →
    (∀ t p, ((w.readdir t p).1.map Info.name).Nodup ∧ ∀ x ∈ (w.readdir t p).1, (47 : UInt8) ∉ x.name) →
    program w tops (Main.start cwd fs) = some (v, s') → (∀ m ∈ s'.out, m.take 2 ≠ str% "! ") →
    ∃ P, Directory w cwd P ∧ (w.readdir 4 P).2 = false ∧ ∀ stem, (⟨source stem, false⟩ : Info) ∈ (w.readdir 4 P).1 →
      ∃ g, Made ((fs (P ++ str% "/" ++ source stem)).getD []) g ∧
        s'.fs (P ++ str% "/" ++ output stem) = some (g ++ ((fs (P ++ str% "/" ++ output stem)).getD []).drop g.length)

/-- C105, what holds: if the program does not complain, the directory was listed completely and every source has its output, where
the program was. -/
theorem C105_silence_partial {tops : List Top} (ht : package = some tops) {w : World} (hw : ∀ t ks, (w.order t ks).Perm ks)
    (hx : ∀ t p, ((w.readdir t p).1.map Info.name).Nodup ∧ ∀ x ∈ (w.readdir t p).1, (47 : UInt8) ∉ x.name) {cwd : Str} {fs : Fs} {v : V} {s' : S}
    (h : program w tops (Main.start cwd fs) = some (v, s')) (hs : ∀ m ∈ s'.out, m.take 2 ≠ str% "! ") :
    ∃ P here, Directory w cwd P ∧ here = whereabouts w cwd P ∧ kindFlag w = str% "complex" ∧ (w.readdir 4 P).2 = false ∧
      ∀ stem, (⟨source stem, false⟩ : Info) ∈ (w.readdir 4 P).1 → ∃ g, Made ((fs (here ++ str% "/" ++ source stem)).getD []) g ∧
        s'.fs (here ++ str% "/" ++ output stem) = some (g ++ ((fs (here ++ str% "/" ++ output stem)).getD []).drop g.length) := by
  have nl : ¬ Main.Loud s'.out := fun ⟨m, hm, e⟩ => hs m hm e
  have main : ∃ P, Directory w cwd P ∧ kindFlag w = str% "complex" ∧ (w.readdir 4 P).2 = false := by
    obtain ⟨e, -⟩ := program_run ht hw h
    generalize s'.fs = fs' at e
    cases e with
    | noPath l => exact absurd l nl
    | noOpen l => exact absurd l nl
    | noDirectory l => exact absurd l nl
    | noKind l => exact absurd l nl
    | @run p here dir ks _ h1 h2 h3 h4 h5 h6 =>
      refine ⟨fullPath cwd p, ⟨p, h1, rfl, h2, h3⟩, h5, ?_⟩
      cases hr : (w.readdir 4 (fullPath cwd p)).2 with
      | false => rfl
      | true => exact absurd (h6 hr) nl
  obtain ⟨P, d, k, r⟩ := main
  refine ⟨P, _, d, rfl, k, r, fun stem hm => ?_⟩
  have b := C102_faults ht hw h k d (hx 4 P).1 (hx 4 P).2 hm rfl
  generalize s'.fs (whereabouts w cwd P ++ str% "/" ++ output stem) = new at b
  cases b with
  | unchanged l => exact absurd l nl
  | @made s g d h1 h2 h3 =>
    rcases h1 with rfl | ⟨l, -⟩
    · rcases h3 with rfl | ⟨l, -⟩
      · exact ⟨d, h2, rfl⟩
      · exact absurd l nl
    · exact absurd l nl

theorem stuck_silent {tops : List Top} (ht : package = some tops) {v : V} {s' : S} (h : program stuckWorld tops (Main.start (str% "/w") stuckFiles) = some (v, s')) :
    s'.out = [str% "* scanning _a.go\n"] := by
  obtain ⟨e, -⟩ := program_run ht stuck_order h
  generalize s'.fs = fs' at e
  have nf : Main.NoFault stuckWorld := fun _ _ => ⟨rfl, rfl, rfl, rfl⟩
  cases e with
  | noPath _ h => exact nomatch h
  | noOpen _ _ h => exact nomatch h
  | noDirectory _ _ h => exact absurd rfl h
  | noKind _ h => exact absurd rfl h
  | @run p here dir ks _ h1 h2 h3 h4 h5 h6 h7 h8 h9 h10 h11 =>
    obtain ⟨ks', ns, a1, a2, a3, a4⟩ := h11
    have h7 : dir.map (fun e => (⟨e.name, e.isDir⟩ : Info)) = [⟨str% "_a.go", false⟩] := h7
    cases dir with
    | nil => exact nomatch h7
    | cons e dir =>
      obtain ⟨he, hd⟩ := List.cons.inj h7
      have : dir = [] := List.map_eq_nil_iff.mp hd
      subst this
      obtain ⟨n, d, r⟩ := e
      obtain ⟨rfl, rfl⟩ := Info.mk.inj he
      have hs : selected ⟨str% "_a.go", false, r⟩ = true := rfl
      have hr := h8 _ List.mem_cons_self hs
      have hp : stuckWorld.abs 0 (directoryFlag stuckWorld) = some (str% "/d") := rfl
      rw [hp] at h1
      cases h1
      have h4 : here = str% "/w" := h4
      subst h4
      unfold Main.ReadOf at hr
      have hr : r = .bytes (str% "new") false := by
        cases r with
        | cannotOpen =>
          obtain ⟨-, t, ht⟩ := hr
          exact nomatch ht
        | bytes c b =>
          cases b with
          | true =>
            obtain ⟨-, t, n, ht, -⟩ := hr
            exact nomatch ht
          | false =>
            have : c = str% "new" := hr
            rw [this]
      subst hr
      have hf : [(⟨str% "_a.go", false, .bytes (str% "new") false⟩ : Entry)].foldl Main.addEntry [] = [(str% "_a.go", str% "new")] := rfl
      rw [hf] at a1 a2
      have k1 : ks' = [str% "_a.go"] := List.perm_singleton.mp a1
      subst k1
      have v : Complex.VisitNotes [(str% "_a.go", str% "new")] [str% "_a.go"] [str% "* scanning _a.go\n"] :=
        .cons (c := str% "new") (n := []) List.mem_cons_self (.cons (n := []) (.other fun a0 a1 a2 a3 a4 h => by
          have := (List.cons.inj h.1).1
          exact absurd this (by decide)) .nil) .nil
      rw [a4 nf rfl, C99_messages_unique (by decide) a2 v]
      rfl

/-- C105 is false. -/
theorem C105_elsewhere_false : ¬ C105_full := by
  intro hf
  obtain ⟨s', h⟩ := C100_ends package_eq stuck_order (str% "/w") stuckFiles
  obtain ⟨P, ⟨p, d1, d2, -⟩, -, hg⟩ := hf _ _ _ _ _ _ package_eq stuck_order stuck_names h (by
    rw [stuck_silent package_eq h]
    decide)
  have d1 : some (str% "/d") = some p := d1
  cases d1
  subst d2
  obtain ⟨g, -, e⟩ := hg (str% "a") List.mem_cons_self
  by_cases hq : s'.fs (str% "/d/a.generated.go") = stuckFiles (str% "/d/a.generated.go")
  · have e : s'.fs (str% "/d/a.generated.go") = some _ := e
    rw [hq] at e
    exact nomatch e
  · obtain ⟨P, n, ⟨p, d1, d2, -⟩, ⟨hc, -⟩ | ⟨-, e⟩⟩ := C103_place_partial package_eq stuck_order (fun t p => (stuck_names t p).2) h hq
    · exact nomatch hc
    · have : (100 : UInt8) = 119 := (List.cons.inj (List.cons.inj e).2).1
      exact absurd this (by decide)

/-! ## C106 -/

theorem LinesNotes_mem {ls ns : List Str} (h : Complex.LinesNotes ls ns) {l : Str} (hl : l ∈ ls) : ∃ n, Complex.LineNotes l n ∧ ∀ m ∈ n, m ∈ ns := by
  induction h with
  | nil => exact nomatch hl
  | @cons l' ls n ns h1 _ ih =>
    rcases List.mem_cons.mp hl with rfl | hl
    · exact ⟨n, h1, fun m hm => List.mem_append_left _ hm⟩
    · obtain ⟨k, h2, h3⟩ := ih hl
      exact ⟨k, h2, fun m hm => List.mem_append_right _ (h3 m hm)⟩

theorem VisitNotes_mem {m : List (Str × Str)} (hm : (m.map (·.1)).Nodup) {ks ns : List Str} (h : Complex.VisitNotes m ks ns) {k c : Str} (hk : k ∈ ks)
    (hc : (k, c) ∈ m) : ∃ n, Complex.LinesNotes (splitLines c) n ∧ ∀ m ∈ n, m ∈ ns := by
  induction h with
  | nil => exact nomatch hk
  | @cons k' c' ks n ns h1 h2 _ ih =>
    rcases List.mem_cons.mp hk with rfl | hk
    · have : some c' = some c := (Complex.lookup_mem hm h1).symm.trans (Complex.lookup_mem hm hc)
      cases this
      exact ⟨n, h2, fun m hm => List.mem_cons_of_mem _ (List.mem_append_left _ hm)⟩
    · obtain ⟨x, h3, h4⟩ := ih hk
      exact ⟨x, h3, fun m hm => List.mem_cons_of_mem _ (List.mem_append_right _ (h4 m hm))⟩

/-- C106: if the program does not complain, every directive of every source has arguments that are all allowed, so that its
output has code for it. -/
theorem C106_refusals_reported {tops : List Top} (ht : package = some tops) {w : World} (hw : ∀ t ks, (w.order t ks).Perm ks)
    {cwd P : Str} {fs : Fs} {v : V} {s' : S} (h : program w tops (Main.start cwd fs) = some (v, s')) (hs : ∀ m ∈ s'.out, m.take 2 ≠ str% "! ")
    (hd : Directory w cwd P) (hn : ((w.readdir 4 P).1.map Info.name).Nodup)
    {stem : Str} (hx : (⟨source stem, false⟩ : Info) ∈ (w.readdir 4 P).1)
    {l a0 a1 a2 a3 a4 : Str} (hl : l ∈ splitLines ((fs (whereabouts w cwd P ++ str% "/" ++ source stem)).getD []))
    (hdir : IsDirective l a0 a1 a2 a3 a4) :
    a0 ∈ allowed[0] ∧ a1 ∈ allowed[1] ∧ a2 ∈ allowed[2] ∧ a3 ∈ allowed[3] ∧ a4 ∈ allowed[4] := by
  have nl : ¬ Main.Loud s'.out := fun ⟨m, hm, e⟩ => hs m hm e
  obtain ⟨e, -⟩ := program_run ht hw h
  obtain ⟨p, d1, d2, d3, d4⟩ := hd
  subst d2
  generalize s'.fs = fs' at e
  cases e with
  | noPath l => exact absurd l nl
  | noOpen l => exact absurd l nl
  | noDirectory l => exact absurd l nl
  | noKind l => exact absurd l nl
  | @run p' here dir ks _ h1 h2 h3 h4 h5 h6 h7 h8 h9 h10 h11 =>
    rw [d1] at h1
    cases h1
    obtain ⟨ks', ns, b1, b2, b3, -⟩ := h11
    have names : dir.map Entry.name = (w.readdir 4 (fullPath cwd p)).1.map Info.name := by
      rw [← h7, List.map_map]
      rfl
    have nd : (dir.map Entry.name).Nodup := by rw [names]; exact hn
    have fnd := Main.foldl_keys dir (m := []) List.nodup_nil
    rw [Main.foldl_addEntry nd [] fun _ _ => nofun, List.nil_append] at b1 b2 fnd
    rw [← h7] at hx
    obtain ⟨e, he, hx⟩ := List.mem_map.mp hx
    have en : e.name = source stem := congrArg Info.name hx
    have ed : e.isDir = false := congrArg Info.isDir hx
    have es : selected e = true := selected_source en ed
    have hr := h8 e he es
    unfold Main.ReadOf at hr
    rw [en, source_path] at hr
    have hr : e.reading = .bytes ((fs (here ++ str% "/" ++ source stem)).getD []) false := by
      cases hrd : e.reading with
      | cannotOpen => rw [hrd] at hr; exact absurd hr.1 nl
      | bytes c b =>
        rw [hrd] at hr
        cases b with
        | true => exact absurd hr.1 nl
        | false => rw [show c = _ from hr]
    have hwhere : here = whereabouts w cwd (fullPath cwd p) := h4
    rw [← hwhere] at hl
    have hf : (source stem, (fs (here ++ str% "/" ++ source stem)).getD []) ∈ readFiles dir := readFiles_mem.mpr ⟨e, he, es, false, hr, en⟩
    obtain ⟨n, n1, n2⟩ := VisitNotes_mem fnd b2 (b1.mem_iff.mpr (List.mem_map.mpr ⟨_, hf, rfl⟩)) hf
    obtain ⟨n', n3, n4⟩ := LinesNotes_mem n1 hl
    have quiet : ∀ m ∈ n', m.take 2 ≠ str% "! " := fun m hm => hs m (b3 m (n2 m (n4 m hm)))
    cases n3 with
    | other o => exact absurd hdir (o _ _ _ _ _)
    | directive d =>
      obtain ⟨rfl, rfl, rfl, rfl, rfl⟩ := directive_unique d hdir
      have loud : ∀ k a : Str, (Complex.refusal k a).take 2 = str% "! " := fun _ _ => rfl
      unfold Complex.notes at quiet
      have two : ∀ {a x y : Str}, ¬ (a ≠ x ∧ a ≠ y) → a ∈ [x, y] := by
        intro a x y h
        by_cases e1 : a = x
        · simp [e1]
        · by_cases e2 : a = y
          · simp [e2]
          · exact absurd ⟨e1, e2⟩ h
      have three : ∀ {a x y z : Str}, ¬ (a ≠ x ∧ a ≠ y ∧ a ≠ z) → a ∈ [x, y, z] := by
        intro a x y z h
        by_cases e1 : a = x
        · simp [e1]
        · by_cases e2 : a = y
          · simp [e2]
          · by_cases e3 : a = z
            · simp [e3]
            · exact absurd ⟨e1, e2, e3⟩ h
      have no : ∀ {k a x : Str}, (∀ m ∈ [x, Complex.refusal k a], m.take 2 ≠ str% "! ") → False :=
        fun q => q _ (List.mem_cons_of_mem _ List.mem_cons_self) (loud _ _)
      split at quiet
      · exact (no quiet).elim
      · rename_i c0
        split at quiet
        · exact (no quiet).elim
        · rename_i c1
          split at quiet
          · exact (no quiet).elim
          · rename_i c2
            split at quiet
            · exact (no quiet).elim
            · rename_i c3
              split at quiet
              · exact (no quiet).elim
              · rename_i c4
                exact ⟨two c0, two c1, three c2, three c3, two c4⟩

/-! ## examples -/

theorem demo_works : Works demoWorld (str% "/w") (str% "/d") where
  kind := rfl
  directory := ⟨str% "/d", rfl, rfl, rfl, rfl⟩
  names := by decide
  noSlash := by decide

/-- A source shorter than the file that is where its output goes. -/
def oldFiles : Fs := fun p => if p = str% "/d/_a.go" then some (str% "new") else if p = str% "/d/a.generated.go" then some (str% "older contents") else none

/-- The hypotheses of C100, C101 and C104 hold of a run, after which the output has the new text before the rest of the old. -/
example : ∃ s', program demoWorld (Main.tops ++ Complex.tops) (Main.start (str% "/w") oldFiles) = some (.unit, s') ∧
    Main.NoFault demoWorld ∧ s'.fs (str% "/d/a.generated.go") = some (str% "newer contents") ∧ s'.fs (str% "/d/_a.go") = some (str% "new") := by
  have hw : ∀ t ks, (demoWorld.order t ks).Perm ks := fun _ ks => List.reverse_perm ks
  obtain ⟨s', h⟩ := C100_ends package_eq hw (str% "/w") oldFiles
  refine ⟨s', h, fun _ _ => ⟨rfl, rfl, rfl, rfl⟩, ?_, ?_⟩
  · obtain ⟨g, h1, h2⟩ := C101_output package_eq hw h demo_works rfl (stem := str% "a") (by decide) (fun _ => ⟨rfl, rfl⟩) (fun _ => ⟨rfl, rfl⟩)
    have h1 : Made (str% "new") g := h1
    rw [made_unique h1 (made_text _), demo_text] at h2
    exact h2
  · by_cases hq : s'.fs (str% "/d/_a.go") = oldFiles (str% "/d/_a.go")
    · exact hq
    · obtain ⟨-, P, stem, ⟨p, d1, d2, -⟩, hm, e⟩ := C100_only_outputs package_eq hw h hq
      have d1 : some (str% "/d") = some p := d1
      cases d1
      have d2 : P = str% "/d" := d2
      subst d2
      rw [← show outName (source stem) = output stem from outName_stem stem, output_path (demo_works.noSlash _ hm)] at e
      have e : (str% "/d/") ++ str% "_a.go" = str% "/d/" ++ (stem ++ str% ".generated.go") := e
      have e := congrArg List.length (List.append_cancel_left e)
      rw [List.length_append] at e
      have : (5 : Nat) = stem.length + 13 := e
      omega

/-- A directory whose source has a directive that is refused. -/
def refusedFiles : Fs := fun p => if p = str% "/d/_a.go" then some (str% "x\n//generator:complex Buffer Read I 8 BE\ny") else none

/-- A run that C106 is about complains. -/
example : ∃ s', program demoWorld (Main.tops ++ Complex.tops) (Main.start (str% "/w") refusedFiles) = some (.unit, s') ∧
    ∃ m ∈ s'.out, m.take 2 = str% "! " := by
  have hw : ∀ t ks, (demoWorld.order t ks).Perm ks := fun _ ks => List.reverse_perm ks
  obtain ⟨s', h⟩ := C100_ends package_eq hw (str% "/w") refusedFiles
  refine ⟨s', h, Classical.byContradiction fun hc => ?_⟩
  have hd : IsDirective (str% "//generator:complex Buffer Read I 8 BE") (str% "Buffer") (str% "Read") (str% "I") (str% "8") (str% "BE") :=
    ⟨by decide, ⟨by decide, by decide⟩, ⟨by decide, by decide⟩, ⟨by decide, by decide⟩, ⟨by decide, by decide⟩, ⟨by decide, by decide⟩⟩
  have a := C106_refusals_reported package_eq hw h (fun m hm e => hc ⟨m, hm, e⟩) demo_works.directory demo_works.names (stem := str% "a")
    (by decide) (l := str% "//generator:complex Buffer Read I 8 BE")
    (show _ ∈ splitLines (str% "x\n//generator:complex Buffer Read I 8 BE\ny") from by decide) hd
  exact absurd a.2.2.2.1 (by decide)

end Crunch.Gen.Go
