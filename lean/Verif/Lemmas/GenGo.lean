import Verif.Lemmas.Gen
import Verif.Gen.Go.Valid1
import Verif.Gen.Go.Valid2
import Verif.Gen.Go.Valid3
import Verif.Gen.Go.Valid4

/-!
# Lemmas about the text of generation/complex.go
-/

namespace Crunch.Gen.Go

/-! ## steps -/

theorem run_pure (a : α) (s : S) : (pure a : M α) s = some (a, s) := rfl

theorem run_bind {m : M α} {f : α → M β} {s s' : S} {a : α} (h : m s = some (a, s')) : (m >>= f) s = f a s' := by
  show M.bind m f s = _
  unfold M.bind
  rw [h]

theorem exec_cons {F : Str → List V → M V} {w : World} {a r : T} {s s' : S} (h : exec F w a s = some (.next, s')) :
    exec F w (.cons a r) s = exec F w r s' := by
  rw [exec, run_bind h]
  rfl

theorem exec_cons_ret {F : Str → List V → M V} {w : World} {a r : T} {s s' : S} {v : V} (h : exec F w a s = some (.ret v, s')) :
    exec F w (.cons a r) s = some (.ret v, s') := by
  rw [exec, run_bind h]
  rfl

theorem exec_cons_cont {F : Str → List V → M V} {w : World} {a r : T} {s s' : S} (h : exec F w a s = some (.cont, s')) :
    exec F w (.cons a r) s = some (.cont, s') := by
  rw [exec, run_bind h]
  rfl

theorem exec_if_true {F : Str → List V → M V} {w : World} {c a b : T} {s s' : S} (h : eval F w c s = some (.bool true, s')) :
    exec F w (.ifs c a b) s = inScope [] (exec F w a) s' := by
  rw [exec, run_bind h]
  rfl

theorem exec_if_false {F : Str → List V → M V} {w : World} {c a : T} {s s' : S} (h : eval F w c s = some (.bool false, s')) :
    exec F w (.ifs c a .nil) s = some (.next, s') := by
  rw [exec, run_bind h]
  rfl

/-- An argument. -/
def arg (k : Nat) : T := .index (.id (str% "arguments")) (.num k)

theorem eval_arg {F : Str → List V → M V} {w : World} {l : List Str} {a : Str} {k : Nat} {s : S}
    (h : getVar (str% "arguments") s = some (.strs l, s)) (hk : l[k]? = some a) (hb : (k : Int) < 2 ^ 63) :
    eval F w (arg k) s = some (.str a, s) := by
  have e1 : eval F w (.id (str% "arguments")) s = some (.strs l, s) := by
    rw [eval]; exact h
  have e2 : eval F w (.num k) s = some (.int k, s) := by
    rw [eval]
    show int k s = _
    unfold int
    rw [if_pos ⟨by omega, hb⟩]
    rfl
  rw [arg, eval, run_bind e1, run_bind e2]
  show index (.strs l) (.int (k : Nat)) s = _
  unfold index
  simp only []
  rw [if_pos (by omega), Int.toNat_natCast, hk]
  rfl

theorem eval_ne {F : Str → List V → M V} {w : World} {e : T} {a x : Str} {s : S} (h : eval F w e s = some (.str a, s)) :
    eval F w (.bin (str% "!=") e (.str x)) s = some (.bool !decide (a = x), s) := by
  rw [eval, run_bind h, if_neg (by decide), if_neg (by decide), run_bind (show eval F w (.str x) s = some (.str x, s) from by rw [eval]; rfl)]
  rfl

theorem eval_and {F : Str → List V → M V} {w : World} {a b : T} {p q : Bool} {s : S} (h1 : eval F w a s = some (.bool p, s))
    (h2 : eval F w b s = some (.bool q, s)) : eval F w (.bin (str% "&&") a b) s = some (.bool (p && q), s) := by
  rw [eval, run_bind h1, if_pos rfl]
  cases p with
  | false => rfl
  | true => exact h2

theorem eval_id {F : Str → List V → M V} {w : World} {x : Str} {v : V} {s : S} (h : getVar x s = some (v, s))
    (h1 : x ≠ str% "nil" := by decide) (h2 : x ≠ str% "true" := by decide) (h3 : x ≠ str% "false" := by decide) :
    eval F w (.id x) s = some (v, s) := by
  rw [eval, if_neg h1, if_neg h2, if_neg h3]
  exact h

theorem evals_one {F : Str → List V → M V} {w : World} {e : T} {v : V} {s s' : S} (h : eval F w e s = some (v, s')) :
    evals F w (.cons e .nil) s = some ([v], s') := by
  rw [evals, run_bind h, run_bind (show evals F w .nil s' = some ([], s') from by rw [evals]; rfl)]
  rfl

theorem evals_two {F : Str → List V → M V} {w : World} {e e' : T} {v v' : V} {s s' s'' : S} (h : eval F w e s = some (v, s'))
    (h' : eval F w e' s' = some (v', s'')) : evals F w (.cons e (.cons e' .nil)) s = some ([v, v'], s'') := by
  rw [evals, run_bind h, run_bind (evals_one h')]
  rfl

theorem eval_str {F : Str → List V → M V} {w : World} (x : Str) (s : S) : eval F w (.str x) s = some (.str x, s) := by
  rw [eval]; rfl

theorem find_hide (x : Str) (env : List Scope) :
    find x (env.map (·.map fun (x, v) => (x, hide v))) = (find x env).map hide := by
  induction env with
  | nil => rfl
  | cons sc env ih =>
    have e : (sc.map fun (x, v) => (x, hide v)).lookup x = (sc.lookup x).map hide := by
      induction sc with
      | nil => rfl
      | cons p sc ih =>
        obtain ⟨y, v⟩ := p
        rw [List.map_cons, List.lookup_cons, List.lookup_cons]
        cases x == y with
        | true => rfl
        | false => exact ih
    rw [List.map_cons, find, find, e]
    cases sc.lookup x with
    | some v => rfl
    | none => exact ih

/-! ## the function literal -/

namespace Complex

/-- What the literal prints for an argument that it does not accept. -/
def refusal (k : Str) (a : Str) : Str := str% "! invalid argument for position " ++ k ++ str% ": " ++ a ++ [nl]

/-- What the literal prints, generation/complex.go:87-114. -/
def notes (a0 a1 a2 a3 a4 : Str) : List Str :=
  (str% "* invocation. args: [" ++ a0 ++ str% " " ++ a1 ++ str% " " ++ a2 ++ str% " " ++ a3 ++ str% " " ++ a4 ++ str% "]" ++ [nl]) ::
  if a0 ≠ str% "Buffer" ∧ a0 ≠ str% "MiniBuffer" then [refusal (str% "0") a0]
  else if a1 ≠ str% "Read" ∧ a1 ≠ str% "Write" then [refusal (str% "1") a1]
  else if a2 ≠ str% "I" ∧ a2 ≠ str% "U" ∧ a2 ≠ str% "F" then [refusal (str% "2") a2]
  else if a3 ≠ str% "16" ∧ a3 ≠ str% "32" ∧ a3 ≠ str% "64" then [refusal (str% "3") a3]
  else if a4 ≠ str% "BE" ∧ a4 ≠ str% "LE" then [refusal (str% "4") a4]
  else []

/-- A check of two values, as in generation/complex.go:91-94. -/
def check (c : T) (k : Nat) (x y : Str) : T :=
  .ifs c
    (.cons (.expr (.pcall (str% "fmt") (str% "Println") (.cons (.str x) (.cons (arg k) .nil))))
      (.cons (.ret (.conv (.slice (.named (str% "byte"))) (.pcall (str% "fmt") (str% "Sprint") (.cons (.str y) (.cons (arg k) .nil)))))
        .nil)) .nil

/-- A check that passes. -/
theorem check_pass {F : Str → List V → M V} {w : World} {c : T} {k : Nat} {x y : Str} {s : S}
    (h : eval F w c s = some (.bool false, s)) : exec F w (check c k x y) s = some (.next, s) := exec_if_false h

/-- A check that fails. -/
theorem check_fail {F : Str → List V → M V} {w : World} {c : T} {k : Nat} {x y a : Str} {l : List Str} {s : S}
    (h : eval F w c s = some (.bool true, s)) (hv : ∀ o, getVar (str% "arguments") { s with env := [] :: s.env, out := o } =
      some (.strs l, { s with env := [] :: s.env, out := o })) (hk : l[k]? = some a) (hb : (k : Int) < 2 ^ 63) :
    exec F w (check c k x y) s = some (.ret (.bytes (y ++ a)), { s with out := (x ++ str% " " ++ a ++ [nl]) :: s.out }) := by
  rw [check, exec_if_true h]
  have hp : exec F w (.expr (.pcall (str% "fmt") (str% "Println") (.cons (.str x) (.cons (arg k) .nil)))) { s with env := [] :: s.env } =
      some (.next, { s with env := [] :: s.env, out := (x ++ str% " " ++ a ++ [nl]) :: s.out }) := by
    rw [exec]
    have e : eval F w (.pcall (str% "fmt") (str% "Println") (.cons (.str x) (.cons (arg k) .nil))) { s with env := [] :: s.env } =
        some (.unit, { s with env := [] :: s.env, out := (x ++ str% " " ++ a ++ [nl]) :: s.out }) := by
      rw [eval, run_bind (evals_two (eval_str x _) (eval_arg (hv s.out) hk hb))]
      show some (V.unit, _) = _
      congr 3
    rw [run_bind e]
    rfl
  have hr : exec F w (.ret (.conv (.slice (.named (str% "byte"))) (.pcall (str% "fmt") (str% "Sprint") (.cons (.str y) (.cons (arg k) .nil)))))
      { s with env := [] :: s.env, out := (x ++ str% " " ++ a ++ [nl]) :: s.out } =
      some (.ret (.bytes (y ++ a)), { s with env := [] :: s.env, out := (x ++ str% " " ++ a ++ [nl]) :: s.out }) := by
    rw [exec]
    · have e : eval F w (.conv (.slice (.named (str% "byte"))) (.pcall (str% "fmt") (str% "Sprint") (.cons (.str y) (.cons (arg k) .nil))))
          { s with env := [] :: s.env, out := (x ++ str% " " ++ a ++ [nl]) :: s.out } =
          some (.bytes (y ++ a), { s with env := [] :: s.env, out := (x ++ str% " " ++ a ++ [nl]) :: s.out }) := by
        have e : eval F w (.pcall (str% "fmt") (str% "Sprint") (.cons (.str y) (.cons (arg k) .nil)))
          { s with env := [] :: s.env, out := (x ++ str% " " ++ a ++ [nl]) :: s.out } =
          some (.str (y ++ a), { s with env := [] :: s.env, out := (x ++ str% " " ++ a ++ [nl]) :: s.out }) := by
          rw [eval, run_bind (evals_two (eval_str y _) (eval_arg (hv _) hk hb))]
          rfl
        rw [eval, run_bind e]
        rfl
      rw [run_bind e]
      rfl
    · intro h; exact nomatch h
  unfold inScope
  rw [exec_cons hp, exec_cons_ret hr]

theorem two_false {a x y : Str} (h : ¬ (a ≠ x ∧ a ≠ y)) : (!decide (a = x) && !decide (a = y)) = false := by
  by_cases e : a = x <;> by_cases e' : a = y <;> simp_all
theorem two_true {a x y : Str} (h : a ≠ x ∧ a ≠ y) : (!decide (a = x) && !decide (a = y)) = true := by
  simp [h.1, h.2]
theorem three_false {a x y z : Str} (h : ¬ (a ≠ x ∧ a ≠ y ∧ a ≠ z)) :
    ((!decide (a = x) && !decide (a = y)) && !decide (a = z)) = false := by
  by_cases e : a = x <;> by_cases e' : a = y <;> by_cases e'' : a = z <;> simp_all
theorem three_true {a x y z : Str} (h : a ≠ x ∧ a ≠ y ∧ a ≠ z) :
    ((!decide (a = x) && !decide (a = y)) && !decide (a = z)) = true := by
  simp [h.1, h.2.1, h.2.2]

/-- A condition on an argument. -/
def isNot (k : Nat) (x : Str) : T := .bin (str% "!=") (arg k) (.str x)

/-- The run returns bytes; its state is `t` when its variables and objects are forgotten. -/
def Ends (r : Option (Ctl × S)) (b : Str) (t : S) : Prop :=
  ∃ s', r = some (.ret (.bytes b), s') ∧ { s' with env := [], objs := [], nobj := 0 } = t

theorem Ends.step {r r' : Option (Ctl × S)} {b : Str} {t : S} (e : r = r') (h : Ends r' b t) : Ends r b t := e ▸ h

/-- The literal after its first two statements. -/
theorem exec_checks {F : Str → List V → M V} {w : World} {a0 a1 a2 a3 a4 c : Str} {s : S}
    (he : s.env = [[(str% "arguments", .strs [a0, a1, a2, a3, a4]), (str% "comment", .bytes c)]]) (ho : s.objs = []) (hn : s.nobj = 0) :
    Ends (exec F w (.cons g2r1f2 (.cons g2r1f3 (.cons g2r1f4 (.cons g2r1f5 (.cons g2r1f6 rest))))) s) (expand a0 a1 a2 a3 a4)
      { s with env := [], objs := [], nobj := 0, out := (notes a0 a1 a2 a3 a4).tail.reverse ++ s.out } := by
  obtain ⟨env, ro, globals, objs, nobj, maps, flags, out, time, cwd, fs, handles, nhandle, defers⟩ := s
  subst he ho hn
  generalize hs : (S.mk _ _ _ _ _ _ _ _ _ _ _ _ _ _) = s
  have hv : getVar (str% "arguments") s = some (.strs [a0, a1, a2, a3, a4], s) := by subst hs; rfl
  have hv' : ∀ o, getVar (str% "arguments") { s with env := [] :: s.env, out := o } =
      some (.strs [a0, a1, a2, a3, a4], { s with env := [] :: s.env, out := o }) := by subst hs; intro o; rfl
  have hi : ∀ (k : Nat) (a x : Str), [a0, a1, a2, a3, a4][k]? = some a → (k : Int) < 2 ^ 63 → eval F w (isNot k x) s = some (.bool !decide (a = x), s) :=
    fun k a x hk hb => eval_ne (eval_arg hv hk hb)
  have two : ∀ (k : Nat) (a x y : Str), [a0, a1, a2, a3, a4][k]? = some a → (k : Int) < 2 ^ 63 →
      eval F w (.bin (str% "&&") (isNot k x) (isNot k y)) s = some (.bool (!decide (a = x) && !decide (a = y)), s) :=
    fun k a x y hk hb => eval_and (hi k a x hk hb) (hi k a y hk hb)
  have three : ∀ (k : Nat) (a x y z : Str), [a0, a1, a2, a3, a4][k]? = some a → (k : Int) < 2 ^ 63 →
      eval F w (.bin (str% "&&") (.bin (str% "&&") (isNot k x) (isNot k y)) (isNot k z)) s =
        some (.bool ((!decide (a = x) && !decide (a = y)) && !decide (a = z)), s) :=
    fun k a x y z hk hb => eval_and (two k a x y hk hb) (hi k a z hk hb)
  have c0 := two 0 a0 (str% "Buffer") (str% "MiniBuffer") rfl (by decide)
  have c1 := two 1 a1 (str% "Read") (str% "Write") rfl (by decide)
  have c2 := three 2 a2 (str% "I") (str% "U") (str% "F") rfl (by decide)
  have c3 := three 3 a3 (str% "16") (str% "32") (str% "64") rfl (by decide)
  have c4 := two 4 a4 (str% "BE") (str% "LE") rfl (by decide)
  unfold expand notes
  by_cases h0 : a0 ≠ str% "Buffer" ∧ a0 ≠ str% "MiniBuffer"
  · rw [if_pos h0, if_pos h0]
    rw [two_true h0] at c0
    exact ⟨_, exec_cons_ret (check_fail c0 hv' rfl (by decide)), rfl⟩
  rw [if_neg h0, if_neg h0]
  rw [two_false h0] at c0
  refine Ends.step (exec_cons (check_pass c0 : exec F w g2r1f2 s = _)) ?_
  by_cases h1 : a1 ≠ str% "Read" ∧ a1 ≠ str% "Write"
  · rw [if_pos h1, if_pos h1]
    rw [two_true h1] at c1
    exact ⟨_, exec_cons_ret (check_fail c1 hv' rfl (by decide)), rfl⟩
  rw [if_neg h1, if_neg h1]
  rw [two_false h1] at c1
  refine Ends.step (exec_cons (check_pass c1 : exec F w g2r1f3 s = _)) ?_
  by_cases h2 : a2 ≠ str% "I" ∧ a2 ≠ str% "U" ∧ a2 ≠ str% "F"
  · rw [if_pos h2, if_pos h2]
    rw [three_true h2] at c2
    exact ⟨_, exec_cons_ret (check_fail c2 hv' rfl (by decide)), rfl⟩
  rw [if_neg h2, if_neg h2]
  rw [three_false h2] at c2
  refine Ends.step (exec_cons (check_pass c2 : exec F w g2r1f4 s = _)) ?_
  by_cases h3 : a3 ≠ str% "16" ∧ a3 ≠ str% "32" ∧ a3 ≠ str% "64"
  · rw [if_pos h3, if_pos h3]
    rw [three_true h3] at c3
    exact ⟨_, exec_cons_ret (check_fail c3 hv' rfl (by decide)), rfl⟩
  rw [if_neg h3, if_neg h3]
  rw [three_false h3] at c3
  refine Ends.step (exec_cons (check_pass c3 : exec F w g2r1f5 s = _)) ?_
  by_cases h4 : a4 ≠ str% "BE" ∧ a4 ≠ str% "LE"
  · rw [if_pos h4, if_pos h4]
    rw [two_true h4] at c4
    exact ⟨_, exec_cons_ret (check_fail c4 hv' rfl (by decide)), rfl⟩
  rw [if_neg h4, if_neg h4]
  rw [two_false h4] at c4
  refine Ends.step (exec_cons (check_pass c4 : exec F w g2r1f6 s = _)) ?_
  clear c0 c1 c2 c3 c4 hi two three hv hv'
  have p0 : a0 = str% "Buffer" ∨ a0 = str% "MiniBuffer" := by
    by_cases e : a0 = str% "Buffer"
    · exact .inl e
    · exact .inr (Classical.byContradiction fun e' => h0 ⟨e, e'⟩)
  have p1 : a1 = str% "Read" ∨ a1 = str% "Write" := by
    by_cases e : a1 = str% "Read"
    · exact .inl e
    · exact .inr (Classical.byContradiction fun e' => h1 ⟨e, e'⟩)
  have p2 : a2 = str% "I" ∨ a2 = str% "U" ∨ a2 = str% "F" := by
    by_cases e : a2 = str% "I"
    · exact .inl e
    by_cases e' : a2 = str% "U"
    · exact .inr (.inl e')
    · exact .inr (.inr (Classical.byContradiction fun e'' => h2 ⟨e, e', e''⟩))
  have p3 : a3 = str% "16" ∨ a3 = str% "32" ∨ a3 = str% "64" := by
    by_cases e : a3 = str% "16"
    · exact .inl e
    by_cases e' : a3 = str% "32"
    · exact .inr (.inl e')
    · exact .inr (.inr (Classical.byContradiction fun e'' => h3 ⟨e, e', e''⟩))
  have p4 : a4 = str% "BE" ∨ a4 = str% "LE" := by
    by_cases e : a4 = str% "BE"
    · exact .inl e
    · exact .inr (Classical.byContradiction fun e' => h4 ⟨e, e'⟩)
  have hr : Right a0 a1 a2 a3 a4 := by
    rcases p0 with rfl | rfl <;> rcases p1 with rfl | rfl
    · exact right1 a2 a3 a4 p2 p3 p4
    · exact right2 a2 a3 a4 p2 p3 p4
    · exact right3 a2 a3 a4 p2 p3 p4
    · exact right4 a2 a3 a4 p2 p3 p4
  have := hr F w c ro globals maps flags out time cwd fs handles nhandle defers
  rw [hs] at this
  revert this
  generalize exec F w rest s = r
  intro this
  unfold returned at this
  split at this
  · rename_i b' s'
    split at this
    · rename_i hb
      refine ⟨s', by rw [eq_of_beq hb], ?_⟩
      rw [Option.some.inj this, ← hs]
      rfl
    · exact nomatch this
  · exact nomatch this

theorem findAll_directive {l a0 a1 a2 a3 a4 : Str} (h : IsDirective l a0 a1 a2 a3 a4) :
    ∃ more, findAllFrom magicCommentRegex none l = [l, a0, a1, a2, a3, a4] :: more := by
  have e := (match_iff none l [a0, a1, a2, a3, a4] []).mpr ⟨.inl rfl, .inl rfl, l, a0, a1, a2, a3, a4, h, rfl, (List.append_nil l).symm⟩
  have ne := List.length_pos_iff.mpr (directive_ne_nil h)
  refine ⟨findAllFrom magicCommentRegex (l.take l.length).getLast? [], ?_⟩
  rw [findAllFrom.eq_def magicCommentRegex none l, e]
  simp only [List.length_nil]
  rw [if_pos ne, Nat.sub_zero, List.take_length]

/-- The first statement of the literal, generation/complex.go:86. -/
theorem exec_arguments {F : Str → List V → M V} {w : World} {c a0 a1 a2 a3 a4 : Str} (h : IsDirective c a0 a1 a2 a3 a4) {s : S}
    (he : s.env = [[(str% "comment", .bytes c)]]) (hr : find (str% "magicCommentRegex") s.ro = some (.regex magicCommentRegex)) :
    exec F w g2r1f0 s =
      some (.next, { s with env := [[(str% "arguments", .strs [a0, a1, a2, a3, a4]), (str% "comment", .bytes c)]] }) := by
  obtain ⟨env, ro, globals, objs, nobj, maps, flags, out, time, cwd, fs, handles, nhandle, defers⟩ := s
  subst he
  generalize hs : (S.mk _ _ _ _ _ _ _ _ _ _ _ _ _ _) = s
  obtain ⟨more, hf⟩ := findAll_directive h
  have e1 : getVar (str% "magicCommentRegex") s = some (.regex magicCommentRegex, s) := by
    unfold getVar
    rw [← hs]
    show (match find (str% "magicCommentRegex") ro with | some v => _ | none => _) = _
    rw [hr]
  have e2 : getVar (str% "comment") s = some (.bytes c, s) := by subst hs; rfl
  have e3 : eval F w (.fcall (str% "string") (.cons (.id (str% "comment")) .nil)) s = some (.str c, s) := by
    rw [eval, run_bind (evals_one (eval_id e2))]
    rfl
  have e4 : eval F w (.un (str% "-") (.num 1)) s = some (.int (-1), s) := by
    rw [eval, run_bind (show eval F w (.num 1) s = some (.int 1, s) from by rw [eval]; rfl)]
    rfl
  have e5 : eval F w (.mcall (.id (str% "magicCommentRegex")) (str% "FindAllStringSubmatch")
      (.cons (.fcall (str% "string") (.cons (.id (str% "comment")) .nil)) (.cons (.un (str% "-") (.num 1)) .nil))) s =
      some (.strss ([c, a0, a1, a2, a3, a4] :: more), s) := by
    rw [eval, run_bind (eval_id e1), run_bind (evals_two e3 e4), ← hf]
    rfl
  have e6 : eval F w (.sliceFrom (.index (.mcall (.id (str% "magicCommentRegex")) (str% "FindAllStringSubmatch")
      (.cons (.fcall (str% "string") (.cons (.id (str% "comment")) .nil)) (.cons (.un (str% "-") (.num 1)) .nil))) (.num 0)) (.num 1)) s =
      some (.strs [a0, a1, a2, a3, a4], s) := by
    have e : eval F w (.index (.mcall (.id (str% "magicCommentRegex")) (str% "FindAllStringSubmatch")
        (.cons (.fcall (str% "string") (.cons (.id (str% "comment")) .nil)) (.cons (.un (str% "-") (.num 1)) .nil))) (.num 0)) s =
        some (.strs [c, a0, a1, a2, a3, a4], s) := by
      rw [eval, run_bind e5, run_bind (show eval F w (.num 0) s = some (.int 0, s) from by rw [eval]; rfl)]
      rfl
    rw [eval, run_bind e, run_bind (show eval F w (.num 1) s = some (.int 1, s) from by rw [eval]; rfl)]
    rfl
  show exec F w (.assign (str% ":=") _ _) s = _
  rw [exec, if_pos rfl, run_bind (evals_one e6)]
  subst hs
  rfl

/-- The second statement of the literal, generation/complex.go:87. -/
theorem exec_invocation {F : Str → List V → M V} {w : World} {c a0 a1 a2 a3 a4 : Str} {s : S}
    (he : s.env = [[(str% "arguments", .strs [a0, a1, a2, a3, a4]), (str% "comment", .bytes c)]]) :
    ∃ t, (notes a0 a1 a2 a3 a4).head? = some t ∧ exec F w g2r1f1 s = some (.next, { s with out := t :: s.out }) := by
  obtain ⟨env, ro, globals, objs, nobj, maps, flags, out, time, cwd, fs, handles, nhandle, defers⟩ := s
  subst he
  generalize hs : (S.mk _ _ _ _ _ _ _ _ _ _ _ _ _ _) = s
  have e2 : getVar (str% "arguments") s = some (.strs [a0, a1, a2, a3, a4], s) := by subst hs; rfl
  refine ⟨_, rfl, ?_⟩
  have e : eval F w (.pcall (str% "fmt") (str% "Printf") (.cons (.str (str% "* invocation. args: %v\n")) (.cons (.id (str% "arguments")) .nil))) s =
      some (.unit, { s with out := (str% "* invocation. args: [" ++ a0 ++ str% " " ++ a1 ++ str% " " ++ a2 ++ str% " " ++ a3 ++ str% " " ++ a4 ++ str% "]" ++ [nl]) :: s.out }) := by
    rw [eval, run_bind (evals_two (eval_str _ _) (eval_id e2))]
    have e : sprintf (str% "* invocation. args: %v\n") [.strs [a0, a1, a2, a3, a4]] =
        some (str% "* invocation. args: [" ++ a0 ++ str% " " ++ a1 ++ str% " " ++ a2 ++ str% " " ++ a3 ++ str% " " ++ a4 ++ str% "]" ++ [nl]) := by
      simp [sprintf, showV, join]
      rfl
    show (ofOpt (sprintf (str% "* invocation. args: %v\n") [.strs [a0, a1, a2, a3, a4]]) >>= print) s = _
    rw [e]
    rfl
  show exec F w (.expr _) s = _
  rw [exec, run_bind e]
  rfl

/-- The literal given to `ReplaceAllFunc` returns what the model's `expand` says and prints its notes. -/
theorem exec_literal {F : Str → List V → M V} {w : World} {c a0 a1 a2 a3 a4 : Str} (h : IsDirective c a0 a1 a2 a3 a4) {s : S}
    (hr : find (str% "magicCommentRegex") (s.env ++ s.ro) = some (.regex magicCommentRegex)) :
    isolated [(str% "comment", .bytes c)] (exec F w g2r1f) s =
      some (.ret (.bytes (expand a0 a1 a2 a3 a4)), { s with out := (notes a0 a1 a2 a3 a4).reverse ++ s.out }) := by
  unfold isolated
  generalize hs0 : ({ s with env := _, ro := _, objs := _, nobj := _ } : S) = s0
  have he : s0.env = [[(str% "comment", .bytes c)]] := by rw [← hs0]
  have hr0 : find (str% "magicCommentRegex") s0.ro = some (.regex magicCommentRegex) := by
    rw [← hs0]
    show find _ ((s.env ++ s.ro).map _) = _
    rw [find_hide, hr]
    rfl
  obtain ⟨t, ht, e1⟩ := exec_invocation (F := F) (w := w) (c := c) (a0 := a0) (a1 := a1) (a2 := a2) (a3 := a3) (a4 := a4)
    (s := { s0 with env := [[(str% "arguments", .strs [a0, a1, a2, a3, a4]), (str% "comment", .bytes c)]] }) rfl
  obtain ⟨s', e2, e3⟩ := exec_checks (F := F) (w := w) (c := c) (a0 := a0) (a1 := a1) (a2 := a2) (a3 := a3) (a4 := a4)
    (s := { s0 with env := [[(str% "arguments", .strs [a0, a1, a2, a3, a4]), (str% "comment", .bytes c)]], out := t :: s0.out }) rfl
    (by rw [← hs0]) (by rw [← hs0])
  have e : exec F w g2r1f s0 = some (.ret (.bytes (expand a0 a1 a2 a3 a4)), s') := by
    rw [literal_eq, exec_cons (exec_arguments h he hr0), exec_cons e1, e2]
  rw [e]
  simp only []
  have hn : (notes a0 a1 a2 a3 a4).reverse = (notes a0 a1 a2 a3 a4).tail.reverse ++ [t] := by
    cases hx : notes a0 a1 a2 a3 a4 with
    | nil => rw [hx] at ht; exact nomatch ht
    | cons x l => rw [hx] at ht; cases ht; rw [List.reverse_cons]; rfl
  rw [hn, List.append_assoc, List.singleton_append]
  subst hs0
  obtain ⟨env', ro', globals', objs', nobj', maps', flags', out', time', cwd', fs', handles', nhandle', defers'⟩ := s'
  cases e3
  rfl

/-! ## the replacement -/

theorem replaceM_none {p : List Atom} {f : Str → M Str} {prev : Option UInt8} {c : UInt8} {t : Str}
    (h : matchSeq p prev (c :: t) = none) :
    replaceM p f prev (c :: t) = (replaceM p f (some c) t >>= fun b => pure (c :: b)) := by
  rw [replaceM.eq_def, h]

theorem replaceM_nil_none {p : List Atom} {f : Str → M Str} {prev : Option UInt8}
    (h : matchSeq p prev [] = none) : replaceM p f prev [] = pure [] := by
  rw [replaceM.eq_def, h]

theorem replaceM_some {p : List Atom} {f : Str → M Str} {prev : Option UInt8} {l rest : Str} {cs : List Str} (hl : l ≠ [])
    (h : matchSeq p prev (l ++ rest) = some (cs, rest)) :
    replaceM p f prev (l ++ rest) = (f l >>= fun a => replaceM p f l.getLast? rest >>= fun b => pure (a ++ b)) := by
  have := List.length_pos_iff.mpr hl
  rw [replaceM.eq_def, h]
  simp only [List.length_append]
  rw [if_pos (by omega), show l.length + rest.length - rest.length = l.length from by omega, List.take_left]

/-- What the rest of a text, after a line, becomes. -/
def restM (f : Str → M Str) : Str → M Str
  | [] => pure []
  | c :: t => replaceM magicCommentRegex f (some c) t >>= fun b => pure (c :: b)

theorem replaceM_rest (f : Str → M Str) {prev : Option UInt8} (h : Inside prev) (s : Str) :
    replaceM magicCommentRegex f prev s = restM f s := by
  cases s with
  | nil => exact replaceM_nil_none (match_inside h [])
  | cons c t => exact replaceM_none (match_inside h _)

theorem copyLineM (f : Str → M Str) (l r : Str) {prev : Option UInt8} (h : Inside prev) (hl : nl ∉ l) {s s' : S} {b : Str}
    (hr : restM f r s = some (b, s')) : replaceM magicCommentRegex f prev (l ++ r) s = some (l ++ b, s') := by
  induction l generalizing prev with
  | nil => rw [List.nil_append, replaceM_rest f h r]; exact hr
  | cons c l ih =>
    have hc : c ≠ nl := fun e => hl (e ▸ List.mem_cons_self)
    rw [List.cons_append, replaceM_none (match_inside h _), run_bind (ih (inside_byte hc) fun hm => hl (List.mem_cons_of_mem _ hm))]
    rfl

/-- What is printed for a line. -/
inductive LineNotes (l : Str) : List Str → Prop where
  | directive {a0 a1 a2 a3 a4} : IsDirective l a0 a1 a2 a3 a4 → LineNotes l (notes a0 a1 a2 a3 a4)
  | other : (∀ a0 a1 a2 a3 a4, ¬ IsDirective l a0 a1 a2 a3 a4) → LineNotes l []

/-- What is printed for the lines. -/
inductive LinesNotes : List Str → List Str → Prop where
  | nil : LinesNotes [] []
  | cons {l ls n ns} : LineNotes l n → LinesNotes ls ns → LinesNotes (l :: ls) (n ++ ns)

/-- What a text becomes, line by line, and what is printed. -/
theorem replaceM_lines (f : Str → M Str) (s : S)
    (hf : ∀ l a0 a1 a2 a3 a4, IsDirective l a0 a1 a2 a3 a4 → ∀ o,
      f l { s with out := o } = some (expand a0 a1 a2 a3 a4, { s with out := (notes a0 a1 a2 a3 a4).reverse ++ o }))
    (src : Str) {prev : Option UInt8} (h : prev = none ∨ prev = some nl) (o : List Str) :
    ∃ ns, LinesNotes (splitLines src) ns ∧
      replaceM magicCommentRegex f prev src { s with out := o } =
        some (replaceFrom magicCommentRegex replacement prev src, { s with out := ns.reverse ++ o }) := by
  induction hn : src.length using Nat.strongRecOn generalizing src prev o with
  | ind n ih =>
  subst hn
  obtain ⟨l, r, rfl, hl, hr⟩ := firstLine src
  -- what follows the line
  have hrest : ∀ m, LineNotes l m → ∀ o, ∃ ns, LinesNotes (splitLines (l ++ r)) (m ++ ns) ∧
      restM f r { s with out := o } = some (restOut replacement r, { s with out := ns.reverse ++ o }) := by
    intro m hm o
    cases r with
    | nil =>
      rw [List.append_nil, splitLines_line hl]
      exact ⟨[], .cons hm .nil, rfl⟩
    | cons c t =>
      have hc : c = nl := by
        rcases hr with e | e
        · exact nomatch e
        · exact Option.some.inj e
      subst hc
      obtain ⟨ns, h1, h2⟩ := ih t.length (by rw [List.length_append, List.length_cons]; omega) t (.inr rfl) o rfl
      refine ⟨ns, ?_, ?_⟩
      · rw [splitLines_append hl]
        exact .cons hm h1
      · show (replaceM magicCommentRegex f (some nl) t >>= fun b => pure (nl :: b)) _ = _
        rw [run_bind h2]
        rfl
  by_cases hd : ∃ a0 a1 a2 a3 a4, IsDirective l a0 a1 a2 a3 a4
  · obtain ⟨a0, a1, a2, a3, a4, hd⟩ := hd
    have hne := directive_ne_nil hd
    have hm := (match_iff prev (l ++ r) _ r).mpr ⟨h, hr, l, a0, a1, a2, a3, a4, hd, rfl, rfl⟩
    have hi : Inside l.getLast? := by
      rw [List.getLast?_eq_some_getLast hne]
      exact inside_byte fun e => hl (e ▸ List.getLast_mem hne)
    obtain ⟨ns, h1, h2⟩ := hrest _ (.directive hd) ((notes a0 a1 a2 a3 a4).reverse ++ o)
    refine ⟨_, h1, ?_⟩
    rw [replaceM_some hne hm, run_bind (hf l a0 a1 a2 a3 a4 hd o), replaceM_rest f hi, run_bind h2, replaceFrom_some hne hm,
      replaceFrom_rest _ hi, replacement_directive hd, List.reverse_append, List.append_assoc]
    rfl
  · have hd' : ∀ a0 a1 a2 a3 a4, ¬ IsDirective l a0 a1 a2 a3 a4 := fun a0 a1 a2 a3 a4 x => hd ⟨a0, a1, a2, a3, a4, x⟩
    obtain ⟨ns, h1, h2⟩ := hrest _ (.other hd') o
    refine ⟨_, h1, ?_⟩
    have hm : matchSeq magicCommentRegex prev (l ++ r) = none := by
      cases e : matchSeq magicCommentRegex prev (l ++ r) with
      | none => rfl
      | some x =>
        obtain ⟨_, hx, l', a0, a1, a2, a3, a4, hd2, _, e⟩ := (match_iff prev _ x.1 x.2).mp e
        obtain ⟨rfl, _⟩ := firstLine_unique hl (directive_nl hd2) hr hx e
        exact absurd hd2 (hd' _ _ _ _ _)
    rw [List.nil_append]
    cases l with
    | nil =>
      rw [List.nil_append] at hm ⊢
      cases r with
      | nil => rw [replaceM_nil_none hm, replaceFrom_nil_none hm]; exact h2
      | cons c t => rw [replaceM_none hm, replaceFrom_none hm]; exact h2
    | cons c l =>
      rw [List.cons_append] at hm ⊢
      have hc : Inside (some c) := inside_byte fun e => hl (e ▸ List.mem_cons_self)
      have hl' : nl ∉ l := fun m => hl (List.mem_cons_of_mem _ m)
      rw [replaceM_none hm, replaceFrom_none hm, run_bind (copyLineM f l r hc hl' h2), copyLine replacement l r hc hl']
      rfl

/-! ## one file -/

/-- The variables of the function, generation/complex.go:77-80. -/
def vars (j : Nat) : Scope :=
  [(str% "magicCommentRegex", .regex magicCommentRegex), (str% "oldFiles", .fmap j), (str% "files", .fmap j), (str% "e", .nil)]

/-- What a source becomes. -/
def generated (contents : Str) : Str := replaceAll magicCommentRegex replacement contents

/-- What is printed before a file, generation/complex.go:83. -/
def scanning (name : Str) : Str := str% "* scanning " ++ name ++ [nl]

/-- The body of the loop over the files, generation/complex.go:83-461. -/
theorem exec_file {F : Str → List V → M V} {w : World} {j : Nat} {name : Str} {m : List (Str × Str)} {s : S}
    (he : s.env = [vars j]) (hm : s.maps[j]? = some m) :
    ∃ ns, LinesNotes (splitLines ((m.lookup name).getD [])) ns ∧
      inScope [(str% "name", .str name)] (exec F w g2r) s =
        some (.next, { s with maps := s.maps.set j (setKey name (generated ((m.lookup name).getD [])) m),
                              out := ns.reverse ++ (scanning name :: s.out) }) := by
  generalize hc : (m.lookup name).getD [] = c
  generalize hs1 : ({ s with env := [(str% "name", .str name)] :: s.env } : S) = s1
  generalize hs2 : ({ s1 with out := scanning name :: s.out } : S) = s2
  have e0 : exec F w g2r0 s1 = some (.next, s2) := by
    have v : getVar (str% "name") s1 = some (.str name, s1) := by rw [← hs1]; rfl
    have e : eval F w (.pcall (str% "fmt") (str% "Println") (.cons (.str (str% "* scanning")) (.cons (.id (str% "name")) .nil))) s1 =
        some (.unit, s2) := by
      rw [eval, run_bind (evals_two (eval_str _ _) (eval_id v)), ← hs2, ← hs1]
      rfl
    show exec F w (.expr _) s1 = _
    rw [exec, run_bind e]
    rfl
  have env2 : s2.env = [[(str% "name", .str name)], vars j] := by rw [← hs2, ← hs1]; show _ :: s.env = _; rw [he]
  have maps2 : s2.maps[j]? = some m := by rw [← hs2, ← hs1]; exact hm
  have gv : ∀ x v, find x [[(str% "name", .str name)], vars j] = some v → getVar x s2 = some (v, s2) := by
    intro x v h
    unfold getVar
    rw [env2, h]
  have vf : getVar (str% "files") s2 = some (.fmap j, s2) := gv _ _ rfl
  have vn : getVar (str% "name") s2 = some (.str name, s2) := gv _ _ rfl
  have vr : getVar (str% "magicCommentRegex") s2 = some (.regex magicCommentRegex, s2) := gv _ _ rfl
  have ei : eval F w (.index (.id (str% "files")) (.id (str% "name"))) s2 = some (.bytes c, s2) := by
    rw [eval, run_bind (eval_id vf), run_bind (eval_id vn)]
    show (match s2.maps[j]? with | some m => (pure (V.bytes ((m.lookup name).getD [])) : M V) | none => fail) s2 = _
    rw [maps2]
    simp only [hc]
    rfl
  obtain ⟨ns, hns, er⟩ := replaceM_lines (fun t => isolated [(str% "comment", .bytes t)] (exec F w g2r1f) >>= fun c =>
      match c with
      | .ret (.bytes a) => pure a
      | _ => fail) s2 (by
    intro l a0 a1 a2 a3 a4 hd o
    have := exec_literal (F := F) (w := w) hd (s := { s2 with out := o }) (by
      show find _ (s2.env ++ s2.ro) = _
      rw [env2]
      rfl)
    rw [run_bind this]
    rfl) c (.inl rfl) s2.out
  refine ⟨ns, hns, ?_⟩
  have em : eval F w (.mfunc (.id (str% "magicCommentRegex")) (str% "ReplaceAllFunc") (.cons (.index (.id (str% "files")) (.id (str% "name"))) .nil)
      [(str% "comment", .slice (.named (str% "byte")))] g2r1f) s2 = some (.bytes (generated c), { s2 with out := ns.reverse ++ s2.out }) := by
    rw [eval, run_bind (eval_id vr), run_bind (evals_one ei)]
    exact run_bind (f := fun r => (pure (V.bytes r) : M V)) er
  have e1 : exec F w g2r1 s2 = some (.next, { s2 with maps := s2.maps.set j (setKey name (generated c) m), out := ns.reverse ++ s2.out }) := by
    have ep : places F w (.cons (.index (.id (str% "files")) (.id (str% "name"))) .nil) s2 = some ([.key j name], s2) := by
      rw [places, run_bind (eval_id vf), run_bind (eval_id vn), run_bind (show keyPlace (.fmap j) (.str name) s2 = some (.key j name, s2) from rfl),
        run_bind (show places F w .nil s2 = some ([], s2) from by rw [places]; rfl)]
      rfl
    show exec F w (.assign (str% "=") _ _) s2 = _
    rw [exec, if_neg (by decide), if_pos rfl, run_bind ep, run_bind (evals_one em)]
    have est : store (.key j name) (.bytes (generated c)) { s2 with out := ns.reverse ++ s2.out } =
        some ((), { s2 with maps := s2.maps.set j (setKey name (generated c) m), out := ns.reverse ++ s2.out }) := by
      show (match s2.maps[j]? with | some m => (set _ : M Unit) | none => fail) _ = _
      rw [maps2]
      rfl
    have est' : stores [.key j name] [.bytes (generated c)] { s2 with out := ns.reverse ++ s2.out } =
        some ((), { s2 with maps := s2.maps.set j (setKey name (generated c) m), out := ns.reverse ++ s2.out }) := by
      rw [stores, run_bind est]
      rfl
    show ((stores [.key j name] [.bytes (generated c)]) >>= fun _ => (pure .next : M Ctl)) _ = _
    rw [run_bind est']
    rfl
  have e : exec F w g2r s1 = some (.next, { s2 with maps := s2.maps.set j (setKey name (generated c) m), out := ns.reverse ++ s2.out }) := by
    rw [g2r, exec_cons e0, exec_cons e1]
    rw [exec]
    rfl
  unfold inScope
  rw [hs1, e]
  subst hs2 hs1
  rfl

/-! ## all files -/

theorem setKey_eq {k : Str} {v : Str} {m : List (Str × Str)} (hn : (m.map (·.1)).Nodup) (hk : k ∈ m.map (·.1)) :
    setKey k v m = m.map fun p => (p.1, if p.1 = k then v else p.2) := by
  induction m with
  | nil => exact nomatch hk
  | cons p m ih =>
    obtain ⟨k', v'⟩ := p
    obtain ⟨h1, h2⟩ := List.nodup_cons.mp hn
    rw [setKey, List.map_cons]
    by_cases e : k = k'
    · subst e
      rw [if_pos rfl, if_pos rfl]
      congr 1
      symm
      conv => rhs; rw [← List.map_id m]
      refine List.map_congr_left fun q hq => ?_
      rw [if_neg fun e => h1 (List.mem_map.mpr ⟨q, hq, e⟩)]
      rfl
    · rw [if_neg e, if_neg fun h => e h.symm, ih h2 ((List.mem_cons.mp hk).resolve_left e)]

theorem lookup_mem {k v : Str} {m : List (Str × Str)} (hn : (m.map (·.1)).Nodup) (hm : (k, v) ∈ m) : m.lookup k = some v := by
  induction m with
  | nil => exact nomatch hm
  | cons p m ih =>
    obtain ⟨k', v'⟩ := p
    obtain ⟨h1, h2⟩ := List.nodup_cons.mp hn
    rw [List.lookup_cons]
    rcases List.mem_cons.mp hm with h | h
    · cases h
      rw [beq_self_eq_true]
    · have : k ≠ k' := fun e => h1 (List.mem_map.mpr ⟨(k, v), h, e⟩)
      rw [beq_eq_false_iff_ne.mpr this]
      exact ih h2 h

/-- What is printed when the files `m` are visited in the order `ks`. -/
inductive VisitNotes (m : List (Str × Str)) : List Str → List Str → Prop where
  | nil : VisitNotes m [] []
  | cons {k c ks n ns} : (k, c) ∈ m → LinesNotes (splitLines c) n → VisitNotes m ks ns →
      VisitNotes m (k :: ks) (scanning k :: n ++ ns)

theorem VisitNotes.mono {m m' : List (Str × Str)} {ks ns : List Str} (h : VisitNotes m ks ns)
    (hm : ∀ k ∈ ks, ∀ c, (k, c) ∈ m → (k, c) ∈ m') : VisitNotes m' ks ns := by
  induction h with
  | nil => exact .nil
  | cons h1 h2 _ ih =>
    exact .cons (hm _ List.mem_cons_self _ h1) h2 (ih fun k hk => hm k (List.mem_cons_of_mem _ hk))

/-- The files `ks` done. -/
def doneWith (ks : List Str) (m : List (Str × Str)) : List (Str × Str) :=
  m.map fun p => (p.1, if p.1 ∈ ks then generated p.2 else p.2)

theorem doneWith_keys (ks : List Str) (m : List (Str × Str)) : (doneWith ks m).map (·.1) = m.map (·.1) := by
  simp [doneWith, Function.comp_def]

/-- The round of the loop for a key, as `rangeOver` runs it. -/
def round (F : Str → List V → M V) (w : World) (j : Nat) (keys : List Str) (key : Str) : M Ctl := do
  let s ← get
  match s.maps[j]? with
  | some m' => do
    let c ← inScope (bindings [(str% "name", .str key), (str% "_", .bytes ((m'.lookup key).getD []))]) (exec F w g2r)
    let s' ← get
    match s'.maps[j]? with
    | some m'' => if m''.map (·.1) = keys then return c else fail
    | none => fail
  | none => fail

theorem exec_round {F : Str → List V → M V} {w : World} {j : Nat} {k c : Str} {m : List (Str × Str)} {s : S}
    (he : s.env = [vars j]) (hm : s.maps[j]? = some m) (hn : (m.map (·.1)).Nodup) (hk : (k, c) ∈ m) :
    ∃ n, LinesNotes (splitLines c) n ∧ round F w j (m.map (·.1)) k s =
      some (.next, { s with maps := s.maps.set j (doneWith [k] m), out := (scanning k :: n).reverse ++ s.out }) := by
  obtain ⟨n, h1, h2⟩ := exec_file (F := F) (w := w) (name := k) he hm
  have hl : m.lookup k = some c := lookup_mem hn hk
  rw [hl] at h1 h2
  refine ⟨n, h1, ?_⟩
  have hset : setKey k (generated ((some c).getD [])) m = doneWith [k] m := by
    rw [setKey_eq hn (List.mem_map.mpr ⟨(k, c), hk, rfl⟩)]
    unfold doneWith
    refine List.map_congr_left fun p hp => ?_
    by_cases e : p.1 = k
    · have : p.2 = c := by
        have hp' : m.lookup p.1 = some p.2 := lookup_mem hn hp
        rw [e, hl] at hp'
        exact (Option.some.inj hp').symm
      rw [if_pos e, if_pos (List.mem_singleton.mpr e), this]
      rfl
    · rw [if_neg e, if_neg fun h => e (List.mem_singleton.mp h)]
  rw [hset] at h2
  have hj : j < s.maps.length := (List.getElem?_eq_some_iff.mp hm).1
  unfold round
  rw [run_bind (show get s = some (s, s) from rfl), hm]
  simp only []
  rw [show bindings [(str% "name", .str k), (str% "_", .bytes ((m.lookup k).getD []))] = [(str% "name", .str k)] from rfl, run_bind h2,
    run_bind (show get _ = some (_, _) from rfl)]
  simp only [List.getElem?_set_self hj]
  rw [if_pos (doneWith_keys [k] m)]
  show some (Ctl.next, _) = _
  rw [List.reverse_cons, List.append_assoc]
  rfl

theorem exec_each {F : Str → List V → M V} {w : World} {j : Nat} {ks : List Str} {m : List (Str × Str)} {s : S}
    (he : s.env = [vars j]) (hm : s.maps[j]? = some m) (hn : (m.map (·.1)).Nodup) (hks : ks.Nodup) (hsub : ∀ k ∈ ks, k ∈ m.map (·.1)) :
    ∃ ns, VisitNotes m ks ns ∧ each (round F w j (m.map (·.1))) ks s =
      some (.next, { s with maps := s.maps.set j (doneWith ks m), out := ns.reverse ++ s.out }) := by
  induction ks generalizing m s with
  | nil =>
    refine ⟨[], .nil, ?_⟩
    have hd : doneWith [] m = m := by
      unfold doneWith
      conv => rhs; rw [← List.map_id m]
      refine List.map_congr_left fun p _ => ?_
      rw [if_neg List.not_mem_nil]
      rfl
    obtain ⟨hj, e⟩ := List.getElem?_eq_some_iff.mp hm
    rw [hd, ← e, List.set_getElem_self hj]
    rfl
  | cons k ks ih =>
    obtain ⟨⟨k', c⟩, hkc, rfl⟩ := List.mem_map.mp (hsub k List.mem_cons_self)
    obtain ⟨hk, hks⟩ := List.nodup_cons.mp hks
    obtain ⟨n, h1, h2⟩ := exec_round (F := F) (w := w) he hm hn hkc
    have hj : j < s.maps.length := (List.getElem?_eq_some_iff.mp hm).1
    obtain ⟨ns, h3, h4⟩ := ih (m := doneWith [k'] m)
      (s := { s with maps := s.maps.set j (doneWith [k'] m), out := (scanning k' :: n).reverse ++ s.out }) he
      (List.getElem?_set_self hj) (by rw [doneWith_keys]; exact hn) hks
      (fun k hk => by rw [doneWith_keys]; exact hsub k (List.mem_cons_of_mem _ hk))
    refine ⟨scanning k' :: n ++ ns, .cons hkc h1 (h3.mono fun x hx d hd => ?_), ?_⟩
    · obtain ⟨p, hp, e⟩ := List.mem_map.mp hd
      have e1 : p.1 = x := congrArg Prod.fst e
      have e2 : (if p.1 ∈ [k'] then generated p.2 else p.2) = d := congrArg Prod.snd e
      rw [if_neg fun h => hk (by rw [← List.mem_singleton.mp h, e1]; exact hx)] at e2
      rw [← e1, ← e2]
      exact hp
    · rw [doneWith_keys] at h4
      rw [each, run_bind h2]
      refine Eq.trans h4 ?_
      have hd : doneWith ks (doneWith [k'] m) = doneWith (k' :: ks) m := by
        unfold doneWith
        rw [List.map_map]
        refine List.map_congr_left fun p _ => ?_
        show (p.1, if p.1 ∈ ks then generated (if p.1 ∈ [k'] then generated p.2 else p.2) else (if p.1 ∈ [k'] then generated p.2 else p.2)) = _
        by_cases e : p.1 = k'
        · rw [if_neg (fun h => hk (e ▸ h)), if_pos (List.mem_singleton.mpr e), if_pos (e ▸ List.mem_cons_self)]
        · rw [if_neg (fun h => e (List.mem_singleton.mp h))]
          by_cases e' : p.1 ∈ ks
          · rw [if_pos e', if_pos (List.mem_cons_of_mem _ e')]
          · rw [if_neg e', if_neg fun h => (List.mem_cons.mp h).elim e e']
      show some (Ctl.next, ({ s with
        maps := (s.maps.set j (doneWith [k'] m)).set j (doneWith ks (doneWith [k'] m))
        out := ns.reverse ++ ((scanning k' :: n).reverse ++ s.out) } : S)) = _
      rw [List.set_set, hd, List.reverse_append, List.append_assoc]

/-- The types of the parameter and of the results, generation/complex.go:77. -/
def param : List (Str × Ty) := [(str% "oldFiles", .map (.named (str% "string")) (.slice (.named (str% "byte"))))]
def outcome : List (Str × Ty) :=
  [(str% "files", .map (.named (str% "string")) (.slice (.named (str% "byte")))), (str% "e", .named (str% "error"))]

/-- A call of the function. -/
theorem call_eq {F : Str → List V → M V} {w : World} (hw : ∀ t ks, (w.order t ks).Perm ks) {j : Nat} {m : List (Str × Str)} {s : S}
    (hm : s.maps[j]? = some m) (hn : (m.map (·.1)).Nodup) :
    ∃ ns, VisitNotes m (w.order s.time (m.map (·.1))) ns ∧
      callTop F w param outcome g [.fmap j] s =
        some (.pair (.fmap j) .nil,
          { s with maps := s.maps.set j (GenerateComplex m), out := ns.reverse ++ s.out, time := s.time + 1 }) := by
  have hp := hw s.time (m.map (·.1))
  generalize hs0 : ({ s with env := [[(str% "oldFiles", .fmap j), (str% "files", .nil), (str% "e", .nil)]], ro := [], defers := [] } : S) = s0
  obtain ⟨ns, h1, h2⟩ := exec_each (F := F) (w := w) (j := j) (m := m) (ks := w.order s.time (m.map (·.1)))
    (s := { s0 with env := [vars j], time := s.time + 1 }) rfl (by rw [← hs0]; exact hm) hn (hp.nodup_iff.mpr hn) (fun k hk => hp.mem_iff.mp hk)
  refine ⟨ns, h1, ?_⟩
  have hd : doneWith (w.order s.time (m.map (·.1))) m = GenerateComplex m := by
    unfold doneWith GenerateComplex
    refine List.map_congr_left fun p hp' => ?_
    rw [if_pos (hp.mem_iff.mpr (List.mem_map.mpr ⟨p, hp', rfl⟩))]
    rfl
  rw [hd] at h2
  have e0 : exec F w g0 s0 = some (.next, { s0 with env := [[(str% "magicCommentRegex", .regex magicCommentRegex), (str% "oldFiles", .fmap j),
      (str% "files", .nil), (str% "e", .nil)]] }) := by
    have e : eval F w (.pcall (str% "regexp") (str% "MustCompile") (.cons (.str (str% "(?m)^\\/\\/generator:complex ([A-z]{1,}) ([A-z]{1,}) ([A-z]{1,}) ([0-9]{1,}) ([A-z]{1,})$")) .nil)) s0 =
        some (.regex magicCommentRegex, s0) := by
      rw [eval, run_bind (evals_one (eval_str _ _))]
      rfl
    show exec F w (.assign (str% ":=") _ _) s0 = _
    rw [exec, if_pos rfl, run_bind (evals_one e)]
    subst hs0
    rfl
  have e1 : exec F w g1 { s0 with env := [[(str% "magicCommentRegex", .regex magicCommentRegex), (str% "oldFiles", .fmap j),
      (str% "files", .nil), (str% "e", .nil)]] } = some (.next, { s0 with env := [vars j] }) := rfl
  have e2 : exec F w g2 { s0 with env := [vars j] } = some (.next, { s0 with
      env := [vars j], maps := s0.maps.set j (GenerateComplex m), out := ns.reverse ++ s0.out, time := s.time + 1 }) := by
    have e : eval F w (.id (str% "files")) { s0 with env := [vars j] } = some (.fmap j, { s0 with env := [vars j] }) :=
      eval_id rfl
    show exec F w (.range _ _ _ _) _ = _
    rw [exec, run_bind e]
    show ((do
      let t ← now
      let s ← get
      match s.maps[j]? with
      | some m => each (round F w j (m.map (·.1))) (w.order t (m.map (·.1)))
      | none => fail) : M Ctl) _ = _
    rw [run_bind (show now { s0 with env := [vars j] } = some (s0.time, { s0 with env := [vars j], time := s0.time + 1 }) from rfl),
      run_bind (show get _ = some (_, _) from rfl)]
    have hm0 : s0.maps[j]? = some m := by rw [← hs0]; exact hm
    have ht : s0.time = s.time := by rw [← hs0]
    simp only [hm0, ht]
    exact h2
  have e3 : exec F w g s0 = some (.ret .unit, { s0 with
      env := [vars j], maps := s0.maps.set j (GenerateComplex m), out := ns.reverse ++ s0.out, time := s.time + 1 }) := by
    rw [g, exec_cons e0, exec_cons e1, exec_cons e2, g3, exec_cons_ret (v := .unit) (by rw [exec]; rfl)]
  unfold callTop
  rw [show frame param outcome [.fmap j] = some [(str% "oldFiles", .fmap j), (str% "files", .nil), (str% "e", .nil)] from by
    simp [frame, resultScope, param, outcome, zero]]
  simp only []
  rw [hs0, run_bind e3]
  subst hs0
  rfl

end Complex

end Crunch.Gen.Go
