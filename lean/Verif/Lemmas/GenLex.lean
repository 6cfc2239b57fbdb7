import Verif.Lemmas.Gen
import Verif.Gen.Files

/-! Comparing the tokens of what the generator makes of a file with those of the committed file, segment by segment. -/

namespace Crunch.Gen

/-- Whether a text given as its lines ends inside a comment. -/
def endState : Bool → List Str → Bool
  | st, [] => st
  | st, l :: ls => endState (lexFrom st l).2 ls

theorem lexLines_append (st : Bool) (a b : List Str) : lexLines st (a ++ b) = lexLines st a ++ lexLines (endState st a) b := by
  induction a generalizing st with
  | nil => rfl
  | cons l a ih => rw [List.cons_append, lexLines, ih, lexLines, endState, List.append_assoc]

theorem endState_append (st : Bool) (a b : List Str) : endState st (a ++ b) = endState (endState st a) b := by
  induction a generalizing st with
  | nil => rfl
  | cons l a ih => rw [List.cons_append, endState, ih, endState]

theorem splitLines_append_nl (x t : Str) : splitLines (x ++ nl :: t) = splitLines x ++ splitLines t := by
  obtain ⟨ls, h, e⟩ : ∃ ls, ls = splitLines x ∧ join [nl] ls = x := ⟨_, rfl, join_splitLines x⟩
  have hn := splitLines_no_nl x
  have h0 := splitLines_ne_nil x
  rw [← h] at hn h0 ⊢
  rw [← e]
  clear h e
  induction ls with
  | nil => exact absurd rfl h0
  | cons a ls ih =>
    cases ls with
    | nil => exact splitLines_append (hn a List.mem_cons_self) t
    | cons b l =>
      rw [join_cons _ _ (by exact nofun), List.append_assoc, List.append_assoc, List.singleton_append,
        splitLines_append (hn a List.mem_cons_self), ih (fun x hx => hn x (List.mem_cons_of_mem _ hx)) (by exact nofun)]
      rfl

theorem splitLines_join_flat {xs : List Str} (h0 : xs ≠ []) : splitLines (join [nl] xs) = xs.flatMap splitLines := by
  induction xs with
  | nil => exact absurd rfl h0
  | cons a xs ih =>
    cases xs with
    | nil => show splitLines a = splitLines a ++ []; rw [List.append_nil]
    | cons b l =>
      rw [join_cons _ _ (by exact nofun), List.append_assoc, List.singleton_append, splitLines_append_nl, ih (by exact nofun)]
      rfl

/-- The lines the generator makes of source lines. -/
def outLines (ls : List Str) : List Str := ls.flatMap fun l => splitLines (lineOut replacement l)

theorem lex_generated {ls : List Str} (h0 : ls ≠ []) (hn : ∀ l ∈ ls, nl ∉ l) :
    lex (replaceAll magicCommentRegex replacement (join [nl] ls)) = lexLines false (outLines ls) := by
  unfold lex replaceAll
  rw [replaceFrom_lines _ _ (.inl rfl), splitLines_join h0 hn, splitLines_join_flat (fun e => h0 (List.map_eq_nil_iff.mp e)), List.flatMap_map]
  rfl

/-- The check of a segment. -/
def segOk : Seg → Bool
  | .same ls => ls.all (fun l => !l.contains nl && (matchSeq magicCommentRegex none l).isNone) && !endState false ls
  | .expanded d c => !d.contains nl && c.all (fun l => !l.contains nl) &&
      (lexLines false (splitLines (lineOut replacement d)) == lexLines false c) &&
      !endState false (splitLines (lineOut replacement d)) && !endState false c

theorem not_mem_of_contains {l : Str} (h : l.contains nl = false) : nl ∉ l := by
  intro hm
  rw [List.contains_iff_mem.mpr hm] at h
  exact nomatch h

theorem seg_sound {s : Seg} (h : segOk s = true) :
    (∀ l ∈ s.source, nl ∉ l) ∧ (∀ l ∈ s.generated, nl ∉ l) ∧ lexLines false (outLines s.source) = lexLines false s.generated ∧
      endState false (outLines s.source) = false ∧ endState false s.generated = false := by
  cases s with
  | same ls =>
    simp only [segOk, Bool.and_eq_true, List.all_eq_true, Bool.not_eq_true'] at h
    obtain ⟨h1, h2⟩ := h
    have hn : ∀ l ∈ ls, nl ∉ l := fun l hl => not_mem_of_contains (h1 l hl).1
    have e : outLines ls = ls := by
      unfold outLines
      have : ∀ l ∈ ls, splitLines (lineOut replacement l) = [l] := by
        intro l hl
        have hm := (h1 l hl).2
        unfold lineOut
        rw [Option.isNone_iff_eq_none.mp hm]
        exact splitLines_line (hn l hl)
      clear h1 h2 hn
      induction ls with
      | nil => rfl
      | cons a ls ih =>
        rw [List.flatMap_cons, this a List.mem_cons_self, ih fun l hl => this l (List.mem_cons_of_mem _ hl)]
        rfl
    refine ⟨hn, hn, ?_, ?_, h2⟩
    · exact congrArg _ e
    · exact (congrArg (endState false) e).trans h2
  | expanded d c =>
    simp only [segOk, Bool.and_eq_true, List.all_eq_true, Bool.not_eq_true', beq_iff_eq] at h
    obtain ⟨⟨⟨⟨h1, h2⟩, h3⟩, h4⟩, h5⟩ := h
    have e : outLines [d] = splitLines (lineOut replacement d) := List.append_nil _
    refine ⟨fun l hl => ?_, fun l hl => not_mem_of_contains (h2 l hl), ?_, ?_, h5⟩
    · cases List.mem_singleton.mp hl; exact not_mem_of_contains h1
    · exact (congrArg _ e).trans h3
    · exact (congrArg (endState false) e).trans h4

theorem segs_sound {segs : List Seg} (h : ∀ s ∈ segs, segOk s = true) :
    (∀ l ∈ segs.flatMap Seg.source, nl ∉ l) ∧ (∀ l ∈ segs.flatMap Seg.generated, nl ∉ l) ∧
      lexLines false (outLines (segs.flatMap Seg.source)) = lexLines false (segs.flatMap Seg.generated) ∧
      endState false (outLines (segs.flatMap Seg.source)) = false ∧ endState false (segs.flatMap Seg.generated) = false := by
  induction segs with
  | nil => exact ⟨nofun, nofun, rfl, rfl, rfl⟩
  | cons s segs ih =>
    obtain ⟨i1, i2, i3, i4, i5⟩ := ih fun x hx => h x (List.mem_cons_of_mem _ hx)
    obtain ⟨s1, s2, s3, s4, s5⟩ := seg_sound (h s List.mem_cons_self)
    rw [List.flatMap_cons, List.flatMap_cons]
    have e : outLines (s.source ++ segs.flatMap Seg.source) = outLines s.source ++ outLines (segs.flatMap Seg.source) := List.flatMap_append
    refine ⟨fun l hl => ?_, fun l hl => ?_, ?_, ?_, ?_⟩
    · rcases List.mem_append.mp hl with hl | hl
      · exact s1 l hl
      · exact i1 l hl
    · rcases List.mem_append.mp hl with hl | hl
      · exact s2 l hl
      · exact i2 l hl
    · rw [e, lexLines_append, lexLines_append, s3, s4, s5, i3]
    · rw [e, endState_append, s4, i4]
    · rw [endState_append, s5, i5]

/-- What the checks give for a whole file. -/
theorem file_sound {segs : List Seg} (h : ∀ s ∈ segs, segOk s = true) (h0 : segs.flatMap Seg.source ≠ [])
    (h1 : segs.flatMap Seg.generated ≠ []) :
    lex (replaceAll magicCommentRegex replacement (join [nl] (segs.flatMap Seg.source))) =
      lex (join [nl] (segs.flatMap Seg.generated)) := by
  obtain ⟨s1, s2, s3, -, -⟩ := segs_sound h
  rw [lex_generated h0 s1, s3, lex, splitLines_join h1 s2]

end Crunch.Gen
