import Verif.Lemmas.GenGo
import Verif.Gen.Go.MainSyntax
import Verif.Props.Gen

/-!
# The text of generation/complex.go (C99)

`Verif/Gen/Go/ComplexText.lean` and `MainText.lean` hold the bytes of the two files of the generator, `parse` gives their syntax
and `call` runs a function of them.
-/

namespace Crunch.Gen.Go

/-- The declarations of the package, from the texts of its two files. -/
def package : Option (List Top) := do
  let m ← parse Main.text
  let c ← parse Complex.text
  return m ++ c

theorem package_eq : package = some (Main.tops ++ Complex.tops) := by
  unfold package
  rw [Main.link, Complex.link]
  rfl

theorem package_complex : findFunc (str% "GenerateComplex") (Main.tops ++ Complex.tops) = some (Complex.param, Complex.outcome, Complex.g) := rfl

/-- C99: the text of `GenerateComplex`, called with a map of files, ends, returns that map and no error, and has replaced every
file of the map by what the model of the generator makes of it, whatever the order in which the map is visited.  It prints
one line for every file it visits and one for every directive, with another one for a directive that it refuses.  Nothing else
changes. -/
theorem C99_text_is_generator {tops : List Top} (ht : package = some tops) {w : World} (hw : ∀ t ks, (w.order t ks).Perm ks)
    (n : Nat) {j : Nat} {m : List (Str × Str)} {s : S} (hm : s.maps[j]? = some m) (hn : (m.map (·.1)).Nodup) :
    ∃ ns, Complex.VisitNotes m (w.order s.time (m.map (·.1))) ns ∧
      call w tops (n + 1) (str% "GenerateComplex") [.fmap j] s =
        some (.pair (.fmap j) .nil,
          { s with maps := s.maps.set j (GenerateComplex m), out := ns.reverse ++ s.out, time := s.time + 1 }) := by
  rw [package_eq] at ht
  cases ht
  rw [call, package_complex]
  exact Complex.call_eq hw hm hn

/-- C99: the same, said without the model of the generator: the text rewrites every file line by line, as `Outcome` says. -/
theorem C99_line_by_line {tops : List Top} (ht : package = some tops) {w : World} (hw : ∀ t ks, (w.order t ks).Perm ks)
    (n : Nat) {j : Nat} {m : List (Str × Str)} {s : S} (hm : s.maps[j]? = some m) (hn : (m.map (·.1)).Nodup) :
    ∃ (outs : List (List Str)) (s' : S), call w tops (n + 1) (str% "GenerateComplex") [.fmap j] s = some (.pair (.fmap j) .nil, s') ∧
      s'.maps[j]? = some (List.zipWith (fun f o => (f.1, join [nl] o)) m outs) ∧
      Each (fun f o => Each Outcome (splitLines f.2) o) m outs := by
  obtain ⟨ns, _, e⟩ := C99_text_is_generator ht hw n hm hn
  obtain ⟨outs, h1, h2⟩ := C60_line_by_line m
  refine ⟨outs, _, e, ?_, h2⟩
  show (s.maps.set j (GenerateComplex m))[j]? = _
  rw [List.getElem?_set_self (List.getElem?_eq_some_iff.mp hm).1, h1]

/-- C99: the text, run on the texts of `v3/_buffer.go` and `v3/_minibuf.go`, gives texts with exactly the tokens of the two
committed generated files. -/
theorem C99_committed_is_generated {tops : List Top} (ht : package = some tops) {w : World} (hw : ∀ t ks, (w.order t ks).Perm ks)
    (n : Nat) {j : Nat} {s : S} (hm : s.maps[j]? = some [(str% "_buffer.go", bufferSource), (str% "_minibuf.go", miniSource)]) :
    ∃ (b c : Str) (s' : S), call w tops (n + 1) (str% "GenerateComplex") [.fmap j] s = some (.pair (.fmap j) .nil, s') ∧
      s'.maps[j]? = some [(str% "_buffer.go", b), (str% "_minibuf.go", c)] ∧
      lex b = lex bufferGenerated ∧ lex c = lex miniGenerated := by
  obtain ⟨ns, _, e⟩ := C99_text_is_generator ht hw n hm (by decide)
  obtain ⟨b, c, h1, h2⟩ := C59_committed_is_generated
  refine ⟨b, c, _, e, ?_, h2⟩
  show (s.maps.set j _)[j]? = _
  rw [List.getElem?_set_self (List.getElem?_eq_some_iff.mp hm).1, h1]

theorem LineNotes_unique {l : Str} {n n' : List Str} (h : Complex.LineNotes l n) (h' : Complex.LineNotes l n') : n = n' := by
  cases h with
  | directive d =>
    cases h' with
    | directive d' =>
      obtain ⟨rfl, rfl, rfl, rfl, rfl⟩ := directive_unique d d'
      rfl
    | other o => exact absurd d (o _ _ _ _ _)
  | other o =>
    cases h' with
    | directive d' => exact absurd d' (o _ _ _ _ _)
    | other _ => rfl

theorem LinesNotes_unique {ls n n' : List Str} (h : Complex.LinesNotes ls n) (h' : Complex.LinesNotes ls n') : n = n' := by
  induction h generalizing n' with
  | nil => cases h'; rfl
  | cons h1 _ ih =>
    cases h' with
    | cons g1 g2 => rw [LineNotes_unique h1 g1, ih g2]

/-- C99: so the order in which the files are visited determines what is printed. -/
theorem C99_messages_unique {m : List (Str × Str)} (hn : (m.map (·.1)).Nodup) {ks ns ns' : List Str} (h : Complex.VisitNotes m ks ns)
    (h' : Complex.VisitNotes m ks ns') : ns = ns' := by
  induction h generalizing ns' with
  | nil => cases h'; rfl
  | cons h1 h2 _ ih =>
    cases h' with
    | cons g1 g2 g3 =>
      have : some _ = some _ := (Complex.lookup_mem hn h1).symm.trans (Complex.lookup_mem hn g1)
      cases this
      rw [LinesNotes_unique h2 g2, ih g3]

/-! ## an example -/

/-- A world without failures that visits maps backwards. -/
def demoWorld : World where
  order _ l := l.reverse
  flags x := if x = str% "generation" then some (str% "complex") else none
  abs _ _ := some (str% "/d")
  openFails _ _ := false
  stat _ _ := some true
  chdirFails _ _ := false
  readdir _ _ := ([⟨str% "_a.go", false⟩, ⟨str% "a.generated.go", false⟩, ⟨str% "_b.go", true⟩, ⟨str% "_c.go", false⟩], false)
  readFault _ _ := none
  createFails _ _ := false
  writeFault _ _ := none
  message _ := []

/-- A state with no map but this one. -/
def withMap (m : List (Str × Str)) : S :=
  ⟨[], [], [], [], 0, [m], [], [], 0, [], fun _ => none, fun _ => ⟨[], 0, false, false⟩, 0, []⟩

/-- A file with a directive that is refused and one without. -/
def demoFiles : List (Str × Str) := [(str% "_a.go", str% "x\n//generator:complex Buffer Read I 8 BE\ny"), (str% "_b.go", str% "z")]

theorem demo_made : GenerateComplex demoFiles =
    [(str% "_a.go", str% "x\n// invalid argument provided in position three:8\ny"), (str% "_b.go", str% "z")] := by
  have e1 : replaceAll magicCommentRegex replacement (str% "x\n//generator:complex Buffer Read I 8 BE\ny") =
      str% "x\n// invalid argument provided in position three:8\ny" := by
    unfold replaceAll
    rw [replaceFrom_lines _ _ (.inl rfl)]
    decide
  have e2 : replaceAll magicCommentRegex replacement (str% "z") = str% "z" := by
    unfold replaceAll
    rw [replaceFrom_lines _ _ (.inl rfl)]
    decide
  simp only [GenerateComplex, demoFiles, List.map_cons, List.map_nil, e1, e2]

theorem demo_notes : Complex.VisitNotes demoFiles [str% "_b.go", str% "_a.go"]
    [str% "* scanning _b.go\n", str% "* scanning _a.go\n", str% "* invocation. args: [Buffer Read I 8 BE]\n",
      str% "! invalid argument for position 3: 8\n"] := by
  have text : ∀ l : Str, hasPrefix l (str% "/") = false → Complex.LineNotes l [] := fun l hl => .other fun a0 a1 a2 a3 a4 h => by
    rw [h.1] at hl
    exact nomatch hl
  have hd : IsDirective (str% "//generator:complex Buffer Read I 8 BE") (str% "Buffer") (str% "Read") (str% "I") (str% "8") (str% "BE") :=
    ⟨by decide, ⟨by decide, by decide⟩, ⟨by decide, by decide⟩, ⟨by decide, by decide⟩, ⟨by decide, by decide⟩, ⟨by decide, by decide⟩⟩
  exact .cons (c := str% "z") (n := []) (by decide) (.cons (text _ rfl) .nil)
    (.cons (c := str% "x\n//generator:complex Buffer Read I 8 BE\ny") (n := [_, _]) (ns := []) (by decide)
      (.cons (n := []) (text (str% "x") rfl) (.cons (n := [_, _]) (.directive hd) (.cons (text (str% "y") rfl) .nil))) .nil)

example : ∃ tops, package = some tops ∧ (∀ t ks, (demoWorld.order t ks).Perm ks) ∧ (demoFiles.map (·.1)).Nodup ∧
    ∃ s', call demoWorld tops 1 (str% "GenerateComplex") [.fmap 0] (withMap demoFiles) = some (.pair (.fmap 0) .nil, s') ∧
      s'.maps = [[(str% "_a.go", str% "x\n// invalid argument provided in position three:8\ny"), (str% "_b.go", str% "z")]] ∧
      s'.out.reverse = [str% "* scanning _b.go\n", str% "* scanning _a.go\n", str% "* invocation. args: [Buffer Read I 8 BE]\n",
        str% "! invalid argument for position 3: 8\n"] := by
  have hw : ∀ t ks, (demoWorld.order t ks).Perm ks := fun _ ks => List.reverse_perm ks
  obtain ⟨ns, h1, h2⟩ := C99_text_is_generator package_eq hw 0 (s := withMap demoFiles) (j := 0) rfl (by decide)
  refine ⟨_, package_eq, hw, by decide, _, h2, ?_, ?_⟩
  · show [GenerateComplex demoFiles] = _
    rw [demo_made]
  · show (ns.reverse ++ []).reverse = _
    rw [List.append_nil, List.reverse_reverse]
    exact C99_messages_unique (by decide) h1 demo_notes

end Crunch.Gen.Go
