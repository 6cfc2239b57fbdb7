import Verif.Lemmas.GenMainWrite

/-!
# Lemmas about the text of generation/main.go: the program
-/

namespace Crunch.Gen.Go

namespace Main

/-- What the text of `main` does to the files, `d` and `kind` being the values of its flags; `out` is what is printed.
The first calls to the operating system happen at the times 0 to 4. -/
inductive Effect (w : World) (out : List Str) (d kind cwd : Str) (fs : Fs) : Fs → Prop where
  /-- no absolute path -/
  | noPath : Loud out → w.abs 0 d = none → Effect w out d kind cwd fs fs
  /-- the directory cannot be opened -/
  | noOpen {p} : Loud out → w.abs 0 d = some p → w.openFails 1 (fullPath cwd p) = true → Effect w out d kind cwd fs fs
  /-- nothing is known about it, or it is no directory -/
  | noDirectory {p} : Loud out → w.abs 0 d = some p → w.stat 2 (fullPath cwd p) ≠ some true → Effect w out d kind cwd fs fs
  /-- another kind of generation -/
  | noKind : Loud out → kind ≠ str% "complex" → Effect w out d kind cwd fs fs
  /-- The sources among the entries of the directory are read, and the outputs written, from where the program is after it has
  tried to go to the directory. -/
  | run {p here : Str} {dir : List Entry} {ks : List Str} {fs' : Fs} : w.abs 0 d = some p → w.openFails 1 (fullPath cwd p) = false → w.stat 2 (fullPath cwd p) = some true →
      here = (if w.chdirFails 3 (fullPath cwd p) then cwd else fullPath cwd p) → kind = str% "complex" →
      ((w.readdir 4 (fullPath cwd p)).2 = true → Loud out) →
      dir.map (fun e => (⟨e.name, e.isDir⟩ : Info)) = (w.readdir 4 (fullPath cwd p)).1 →
      (∀ e ∈ dir, selected e = true → ReadOf w (Loud out) here fs e) →
      ks.Perm ((dir.foldl addEntry []).map (·.1)) → Outputs w (Loud out) here (GenerateComplex (dir.foldl addEntry [])) ks fs fs' →
      (∃ ks' ns, ks'.Perm ((dir.foldl addEntry []).map (·.1)) ∧ Complex.VisitNotes (dir.foldl addEntry []) ks' ns ∧ (∀ m ∈ ns, m ∈ out) ∧
        (NoFault w → (w.readdir 4 (fullPath cwd p)).2 = false → out = ns.reverse)) →
      Effect w out d kind cwd fs fs'

theorem setKey_keys {k v : Str} {m : List (Str × Str)} (h : (m.map (·.1)).Nodup) : ((setKey k v m).map (·.1)).Nodup := by
  induction m with
  | nil => exact List.nodup_cons.mpr ⟨List.not_mem_nil, List.nodup_nil⟩
  | cons p m ih =>
    obtain ⟨h1, h2⟩ := List.nodup_cons.mp h
    rw [setKey]
    by_cases e : k = p.1
    · rw [if_pos e]; exact h
    · rw [if_neg e]
      refine List.nodup_cons.mpr ⟨fun hm => h1 ?_, ih h2⟩
      clear ih h h2 h1
      induction m with
      | nil => exact absurd (List.mem_singleton.mp hm).symm e
      | cons q m ih =>
        rw [setKey] at hm
        by_cases e' : k = q.1
        · rw [if_pos e'] at hm; exact hm
        · rw [if_neg e'] at hm
          rcases List.mem_cons.mp hm with hm | hm
          · rw [hm]; exact List.mem_cons_self
          · exact List.mem_cons_of_mem _ (ih hm)

theorem foldl_keys (dir : List Entry) {m : List (Str × Str)} (h : (m.map (·.1)).Nodup) : ((dir.foldl addEntry m).map (·.1)).Nodup := by
  induction dir generalizing m with
  | nil => exact h
  | cons e dir ih =>
    refine ih ?_
    unfold addEntry
    cases selected e with
    | false => exact h
    | true =>
      cases e.reading with
      | cannotOpen => exact h
      | bytes c b => exact setKey_keys h

/-- The variables of the program, generation/main.go:24-25 and 28-31. -/
def pointers : Scope := [(str% "directoryName", .flag 0), (str% "generationKind", .flag 1)]

/-- The flags after `flag.Parse`. -/
def flagsOf (d kind : Str) : List (Str × Str) := [(str% "directory", d), (str% "generation", kind)]

/-- Before anything. -/
def start (cwd : Str) (fs : Fs) : S :=
  ⟨[], [], [], [], 0, [], [], [], 0, cwd, fs, fun _ => ⟨[], 0, false, false⟩, 0, []⟩

/-- When `main` runs. -/
def begun (cwd : Str) (fs : Fs) : S :=
  ⟨[[]], [], pointers, [], 0, [], flagsOf (str% ".") (str% ""), [], 0, cwd, fs, fun _ => ⟨[], 0, false, false⟩, 0, []⟩

/-- After the flags were parsed and the directory named, generation/main.go:35-43. -/
def named (d kind : Str) (err : V) (cwd : Str) (fs : Fs) : S :=
  ⟨[[(str% "err", err)]], [], pointers, [], 0, [], flagsOf d kind, [], 1, cwd, fs, fun _ => ⟨[], 0, false, false⟩, 0, []⟩

theorem exec_named (F : Str → List V → M V) (w : World) (cwd : Str) (fs : Fs) (r : T) :
    exec F w (.cons m0 (.cons m1 (.cons m2 r))) (begun cwd fs) =
      exec F w r (match w.abs 0 ((w.flags (str% "directory")).getD (str% ".")) with
        | some p => named p ((w.flags (str% "generation")).getD []) .nil cwd fs
        | none => named [] ((w.flags (str% "generation")).getD []) (.err (w.message 0)) cwd fs) := by
  generalize hd : (w.flags (str% "directory")).getD (str% ".") = d
  generalize hk : (w.flags (str% "generation")).getD [] = kind
  have e0 : exec F w m0 (begun cwd fs) = some (.next, { begun cwd fs with flags := flagsOf d kind }) := by
    subst hd hk
    show exec F w (.expr _) _ = _
    rw [exec, run_bind (show eval F w (.pcall (str% "flag") (str% "Parse") .nil) (begun cwd fs) = some (.unit, { begun cwd fs with flags := flagsOf ((w.flags (str% "directory")).getD (str% ".")) ((w.flags (str% "generation")).getD []) }) from by
      rw [eval, run_bind (show evals F w .nil _ = some ([], _) from by rw [evals]; rfl)]
      rfl)]
    rfl
  generalize hs1 : ({ begun cwd fs with flags := flagsOf d kind, env := [[(str% "err", .nil)]] } : S) = s1
  have e1 : exec F w m1 { begun cwd fs with flags := flagsOf d kind } = some (.next, s1) := by
    subst hs1
    show exec F w (.var _ _) _ = _
    rw [exec]
    rfl
  have vd : eval F w (.un (str% "*") (.id (str% "directoryName"))) s1 = some (.str d, s1) := by
    rw [eval, run_bind (eval_id (show getVar (str% "directoryName") s1 = some (.flag 0, s1) from by subst hs1; rfl))]
    subst hs1
    rfl
  have ea := lib_abs w d s1
  have et : s1.time = 0 := by subst hs1; rfl
  rw [et] at ea
  have ep : places F w (.cons (.un (str% "*") (.id (str% "directoryName"))) (.cons (.id (str% "err")) .nil)) s1 =
      some ([.flag 0, .var (str% "err")], s1) := by
    rw [places, if_pos rfl, run_bind (eval_id (show getVar (str% "directoryName") s1 = some (.flag 0, s1) from by subst hs1; rfl)),
      run_bind (show derefPlace (.flag 0) s1 = some (.flag 0, s1) from rfl),
      run_bind (show places F w (.cons (.id (str% "err")) .nil) s1 = some ([.var (str% "err")], s1) from by
        rw [places, run_bind (show places F w .nil s1 = some ([], s1) from by rw [places]; rfl)]; rfl)]
    rfl
  have e2 : exec F w m2 s1 = some (.next, match w.abs 0 d with
      | some p => named p kind .nil cwd fs
      | none => named [] kind (.err (w.message 0)) cwd fs) := by
    have e := (show eval F w (.pcall (str% "filepath") (str% "Abs") (.cons (.un (str% "*") (.id (str% "directoryName"))) .nil)) s1 = _ from by
      rw [eval, run_bind (evals_one vd)]).trans ea
    show exec F w (.assign (str% "=") _ _) s1 = _
    rw [exec, if_neg (by decide), if_pos rfl, run_bind ep, run_bind (evals_one e)]
    subst hs1
    cases w.abs 0 d <;> rfl
  rw [exec_cons e0, exec_cons e1, exec_cons e2]

/-- How the body of `main` may end. -/
structure Fine (w : World) (d kind cwd : Str) (fs : Fs) (c : Ctl) (s : S) : Prop where
  value : c.value = some .unit
  effect : Effect w s.out d kind cwd fs s.fs
  closing : s.defers = [] ∧ s.nhandle = 0 ∨ s.defers = [(.file 0, str% "Close")] ∧ (s.handles 0).isOpen = true ∧ 0 < s.nhandle
  leak : ∀ h, 0 < h → h < s.nhandle → (s.handles h).isOpen = true →
    ∃ t n, w.readFault t (s.handles h).path = some n ∨ w.writeFault t (s.handles h).path = some n

/-- The state while the directory `P` is open. -/
def within (sc : Scope) (flags : List (Str × Str)) (maps : List (List (Str × Str))) (out : List Str) (time : Nat) (cwd : Str) (fs : Fs) (P : Str)
    (defers : List (V × Str)) : S :=
  ⟨[sc], [], pointers, [], 0, maps, flags, out, time, cwd, fs, fun n => if n = 0 then ⟨P, 0, false, true⟩ else ⟨[], 0, false, false⟩, 1, defers⟩

/-- The deferred call. -/
def closes : List (V × Str) := [(.file 0, str% "Close")]

theorem within_fine {w : World} {d kind cwd : Str} {fs : Fs} {c : Ctl} {sc : Scope} {flags : List (Str × Str)} {maps : List (List (Str × Str))}
    {out : List Str} {time : Nat} {cwd' P : Str} (hc : c.value = some .unit)
    (h : Effect w out d kind cwd fs fs) :
    Fine w d kind cwd fs c (within sc flags maps out time cwd' fs P closes) :=
  ⟨hc, h, .inr ⟨rfl, rfl, Nat.one_pos⟩, fun _ h1 h2 => absurd h2 (Nat.not_lt.mpr h1)⟩

/-- generation/main.go:45-50 -/
theorem exec_opened {F : Str → List V → M V} {w : World} {p kind cwd : Str} {fs : Fs} {r : T}
    (h : w.openFails 1 (fullPath cwd p) = false) :
    exec F w (.cons m3 (.cons m4 (.cons m5 (.cons m6 r)))) (named p kind .nil cwd fs) =
      exec F w r (within [(str% "directory", .file 0), (str% "err", .nil)] (flagsOf p kind) [] [] 2 cwd fs (fullPath cwd p) closes) := by
  have e3 : exec F w m3 (named p kind .nil cwd fs) = some (.next, named p kind .nil cwd fs) := report_none rfl
  have vd : eval F w (.un (str% "*") (.id (str% "directoryName"))) (named p kind .nil cwd fs) = some (.str p, named p kind .nil cwd fs) := by
    rw [eval, run_bind (eval_id (show getVar (str% "directoryName") (named p kind .nil cwd fs) = some (.flag 0, named p kind .nil cwd fs) from rfl))]
    rfl
  have e4 : exec F w m4 (named p kind .nil cwd fs) =
      some (.next, within [(str% "directory", .file 0), (str% "err", .nil)] (flagsOf p kind) [] [] 2 cwd fs (fullPath cwd p) []) := by
    have e := (show eval F w (.pcall (str% "os") (str% "Open") (.cons (.un (str% "*") (.id (str% "directoryName"))) .nil)) (named p kind .nil cwd fs) = _ from by
      rw [eval, run_bind (evals_one vd)]).trans (lib_open w p (named p kind .nil cwd fs) h)
    show exec F w (.assign (str% ":=") _ _) _ = _
    rw [exec, if_pos rfl, run_bind (evals_one e)]
    rfl
  have e5 : exec F w m5 (within [(str% "directory", .file 0), (str% "err", .nil)] (flagsOf p kind) [] [] 2 cwd fs (fullPath cwd p) []) = some (.next, _) :=
    report_none rfl
  have e6 : exec F w m6 (within [(str% "directory", .file 0), (str% "err", .nil)] (flagsOf p kind) [] [] 2 cwd fs (fullPath cwd p) []) =
      some (.next, within [(str% "directory", .file 0), (str% "err", .nil)] (flagsOf p kind) [] [] 2 cwd fs (fullPath cwd p) closes) := by
    show exec F w (.defer (.mcall _ _ .nil)) _ = _
    rw [exec, run_bind (eval_id (show getVar (str% "directory") _ = some (.file 0, _) from rfl))]
    rfl
  rw [exec_cons e3, exec_cons e4, exec_cons e5, exec_cons e6]

/-- generation/main.go:45-49 -/
theorem exec_not_opened {F : Str → List V → M V} {w : World} {p kind cwd : Str} {fs : Fs} {r : T}
    (h : w.openFails 1 (fullPath cwd p) = true) :
    ∃ s', exec F w (.cons m3 (.cons m4 (.cons m5 r))) (named p kind .nil cwd fs) = some (.ret .unit, s') ∧ s'.fs = fs ∧ s'.defers = [] ∧
      s'.nhandle = 0 ∧ Loud s'.out := by
  have e3 : exec F w m3 (named p kind .nil cwd fs) = some (.next, named p kind .nil cwd fs) := report_none rfl
  have vd : eval F w (.un (str% "*") (.id (str% "directoryName"))) (named p kind .nil cwd fs) = some (.str p, named p kind .nil cwd fs) := by
    rw [eval, run_bind (eval_id (show getVar (str% "directoryName") (named p kind .nil cwd fs) = some (.flag 0, named p kind .nil cwd fs) from rfl))]
    rfl
  have e4 : exec F w m4 (named p kind .nil cwd fs) = some (.next, { named p kind .nil cwd fs with
      env := [[(str% "directory", .nil), (str% "err", .err (w.message 1))]], time := 2 }) := by
    have e := (show eval F w (.pcall (str% "os") (str% "Open") (.cons (.un (str% "*") (.id (str% "directoryName"))) .nil)) (named p kind .nil cwd fs) = _ from by
      rw [eval, run_bind (evals_one vd)]).trans (lib_open_fails w p (named p kind .nil cwd fs) h)
    show exec F w (.assign (str% ":=") _ _) _ = _
    rw [exec, if_pos rfl, run_bind (evals_one e)]
    rfl
  have e5 := report_some (F := F) (w := w) (s := { named p kind .nil cwd fs with
      env := [[(str% "directory", .nil), (str% "err", .err (w.message 1))]], time := 2 }) (m := w.message 1)
    (fmt := str% "! unable to open source directory. (%v)\n") rfl rfl rfl exec_return
  exact ⟨_, (exec_cons e3).trans ((exec_cons e4).trans (exec_cons_ret e5)), rfl, rfl, rfl, _, List.mem_cons_self, rfl⟩

/-- generation/main.go:52 -/
theorem exec_stat {F : Str → List V → M V} {w : World} {flags : List (Str × Str)} {cwd P : Str} {fs : Fs} :
    exec F w m7 (within [(str% "directory", .file 0), (str% "err", .nil)] flags [] [] 2 cwd fs P closes) =
      some (.next, within (match w.stat 2 P with
        | some b => [(str% "directoryInfo", .info ⟨P, b⟩), (str% "directory", .file 0), (str% "err", .nil)]
        | none => [(str% "directoryInfo", .nil), (str% "directory", .file 0), (str% "err", .err (w.message 2))]) flags [] [] 3 cwd fs P closes) := by
  have e := (show eval F w (.mcall (.id (str% "directory")) (str% "Stat") .nil)
      (within [(str% "directory", .file 0), (str% "err", .nil)] flags [] [] 2 cwd fs P closes) = _ from by
    rw [eval, run_bind (eval_id (show getVar (str% "directory") _ = some (.file 0, _) from rfl)),
      run_bind (show evals F w .nil _ = some ([], _) from by rw [evals]; rfl)]
    rfl).trans (file_stat w 0 (within [(str% "directory", .file 0), (str% "err", .nil)] flags [] [] 2 cwd fs P closes) rfl)
  show exec F w (.assign (str% ":=") _ _) _ = _
  rw [exec, if_pos rfl, run_bind (evals_one e)]
  show (ofOpt (spread 2 [match w.stat 2 P with
    | some d => .pair (.info ⟨P, d⟩) .nil
    | none => .pair .nil (.err (w.message 2))]) >>= _) _ = _
  cases w.stat 2 P <;> rfl

theorem eval_isDir {F : Str → List V → M V} {w : World} {P : Str} {b : Bool} {s : S} (h : getVar (str% "directoryInfo") s = some (.info ⟨P, b⟩, s)) :
    eval F w (.un (str% "!") (.mcall (.id (str% "directoryInfo")) (str% "IsDir") .nil)) s = some (.bool !b, s) := by
  rw [eval, run_bind (show eval F w (.mcall (.id (str% "directoryInfo")) (str% "IsDir") .nil) s = some (.bool b, s) from by
    rw [eval, run_bind (eval_id h), run_bind (show evals F w .nil s = some ([], s) from by rw [evals]; rfl)]
    rfl)]
  rfl

/-- The variables before the sources are read, but for `files`. -/
def looked (l : List Info) (P : Str) (err : V) : Scope :=
  [(str% "directoryFiles", .infos l), (str% "directoryInfo", .info ⟨P, true⟩), (str% "directory", .file 0), (str% "err", err)]

/-- generation/main.go:52-72, in a directory -/
theorem exec_looked {F : Str → List V → M V} {w : World} {flags : List (Str × Str)} {cwd P : Str} {fs : Fs} {r : T} (h : w.stat 2 P = some true) :
    ∃ err out, exec F w (.cons m7 (.cons m8 (.cons m9 (.cons m10 (.cons m11 (.cons m12 (.cons m13 r)))))))
        (within [(str% "directory", .file 0), (str% "err", .nil)] flags [] [] 2 cwd fs P closes) =
      exec F w r (within (scope (w.readdir 4 P).1 ⟨P, true⟩ err) flags [[]] out 5 (if w.chdirFails 3 P then cwd else P) fs P closes) ∧
      ((w.readdir 4 P).2 = true → Loud out) ∧ ((w.readdir 4 P).2 = false → out = []) := by
  have e7 := exec_stat (F := F) (w := w) (flags := flags) (cwd := cwd) (P := P) (fs := fs)
  rw [h] at e7
  have e8 : exec F w m8 (within [(str% "directoryInfo", .info ⟨P, true⟩), (str% "directory", .file 0), (str% "err", .nil)] flags [] [] 3 cwd fs P closes) =
    some (.next, _) := report_none rfl
  have e9 : exec F w m9 (within [(str% "directoryInfo", .info ⟨P, true⟩), (str% "directory", .file 0), (str% "err", .nil)] flags [] [] 3 cwd fs P closes) =
    some (.next, _) := exec_if_false (eval_isDir (P := P) (b := true) rfl)
  have hv := file_chdir w 0 (within [(str% "directoryInfo", .info ⟨P, true⟩), (str% "directory", .file 0), (str% "err", .nil)] flags [] [] 3 cwd fs P closes) rfl
  have e10 : exec F w m10 (within [(str% "directoryInfo", .info ⟨P, true⟩), (str% "directory", .file 0), (str% "err", .nil)] flags [] [] 3 cwd fs P closes) =
      some (.next, within [(str% "directoryInfo", .info ⟨P, true⟩), (str% "directory", .file 0), (str% "err", .nil)] flags [] [] 4
        (if w.chdirFails 3 P then cwd else P) fs P closes) := by
    have e := (show eval F w (.mcall (.id (str% "directory")) (str% "Chdir") .nil)
        (within [(str% "directoryInfo", .info ⟨P, true⟩), (str% "directory", .file 0), (str% "err", .nil)] flags [] [] 3 cwd fs P closes) = _ from by
      rw [eval, run_bind (eval_id (show getVar (str% "directory") _ = some (.file 0, _) from rfl)),
        run_bind (show evals F w .nil _ = some ([], _) from by rw [evals]; rfl)]
      rfl).trans hv
    show exec F w (.assign (str% "=") _ _) _ = _
    rw [exec, if_neg (by decide), if_pos rfl, run_bind (show places F w (.cons (.id (str% "_")) .nil) _ = some ([.blank], _) from by
      rw [places, run_bind (show places F w .nil _ = some ([], _) from by rw [places]; rfl)]; rfl), run_bind (evals_one e)]
    show (ofOpt (spread 1 [if w.chdirFails 3 P then .err (w.message 3) else .nil]) >>= _) (within _ _ _ _ 4 (if w.chdirFails 3 P then cwd else P) _ _ _) = _
    cases w.chdirFails 3 P <;> rfl
  generalize (if w.chdirFails 3 P then cwd else P) = cwd' at e10 ⊢
  have e11 : exec F w m11 (within [(str% "directoryInfo", .info ⟨P, true⟩), (str% "directory", .file 0), (str% "err", .nil)] flags [] [] 4 cwd' fs P closes) =
      some (.next, within (looked (w.readdir 4 P).1 P (if (w.readdir 4 P).2 then .err (w.message 4) else .nil)) flags [] [] 5 cwd' fs P closes) := by
    have e := (show eval F w (.mcall (.id (str% "directory")) (str% "Readdir") (.cons (.num 0) .nil))
        (within [(str% "directoryInfo", .info ⟨P, true⟩), (str% "directory", .file 0), (str% "err", .nil)] flags [] [] 4 cwd' fs P closes) = _ from by
      rw [eval, run_bind (eval_id (show getVar (str% "directory") _ = some (.file 0, _) from rfl)),
        run_bind (evals_one (eval_num (by decide)))]
      rfl).trans (file_readdir w 0 (within [(str% "directoryInfo", .info ⟨P, true⟩), (str% "directory", .file 0), (str% "err", .nil)] flags [] [] 4 cwd' fs P closes) rfl)
    show exec F w (.assign (str% ":=") _ _) _ = _
    rw [exec, if_pos rfl, run_bind (evals_one e)]
    rfl
  have e12 : ∃ out, exec F w m12 (within (looked (w.readdir 4 P).1 P (if (w.readdir 4 P).2 then .err (w.message 4) else .nil)) flags [] [] 5 cwd' fs P closes) =
      some (.next, within (looked (w.readdir 4 P).1 P (if (w.readdir 4 P).2 then .err (w.message 4) else .nil)) flags [] out 5 cwd' fs P closes) ∧
      ((w.readdir 4 P).2 = true → Loud out) ∧ ((w.readdir 4 P).2 = false → out = []) := by
    cases (w.readdir 4 P).2 with
    | false => exact ⟨[], report_none rfl, nofun, fun _ => rfl⟩
    | true =>
      exact ⟨_, report_some (m := w.message 4) (fmt := str% "! unable to read directory information. (%v)\n") rfl rfl rfl exec_nothing,
        fun _ => ⟨_, List.mem_cons_self, rfl⟩, nofun⟩
  obtain ⟨out, e12, hl⟩ := e12
  have e13 : exec F w m13 (within (looked (w.readdir 4 P).1 P (if (w.readdir 4 P).2 then .err (w.message 4) else .nil)) flags [] out 5 cwd' fs P closes) =
      some (.next, within (scope (w.readdir 4 P).1 ⟨P, true⟩ (if (w.readdir 4 P).2 then .err (w.message 4) else .nil)) flags [[]] out 5 cwd' fs P closes) := by
    have e : eval F w (.comp (.map (.named (str% "string")) (.slice (.named (str% "byte")))) .nil)
        (within (looked (w.readdir 4 P).1 P (if (w.readdir 4 P).2 then .err (w.message 4) else .nil)) flags [] out 5 cwd' fs P closes) =
        some (.fmap 0, within (looked (w.readdir 4 P).1 P (if (w.readdir 4 P).2 then .err (w.message 4) else .nil)) flags [[]] out 5 cwd' fs P closes) := by
      rw [eval, run_bind (show elems F w .nil _ = some ([], _) from by rw [elems]; rfl), run_bind (show keyed F w .nil _ = some ([], _) from by rw [keyed]; rfl)]
      rfl
    show exec F w (.assign (str% ":=") _ _) _ = _
    rw [exec, if_pos rfl, run_bind (evals_one e)]
    rfl
  exact ⟨_, out, (exec_cons e7).trans ((exec_cons e8).trans ((exec_cons e9).trans ((exec_cons e10).trans ((exec_cons e11).trans
    ((exec_cons e12).trans (exec_cons e13)))))), hl⟩

/-- generation/main.go:52-61, when nothing is known or it is no directory -/
theorem exec_not_looked {F : Str → List V → M V} {w : World} {flags : List (Str × Str)} {cwd P : Str} {fs : Fs} {r : T} (h : w.stat 2 P ≠ some true) :
    ∃ sc out, exec F w (.cons m7 (.cons m8 (.cons m9 r))) (within [(str% "directory", .file 0), (str% "err", .nil)] flags [] [] 2 cwd fs P closes) =
      some (.ret .unit, within sc flags [] out 3 cwd fs P closes) ∧ Loud out := by
  have e7 := exec_stat (F := F) (w := w) (flags := flags) (cwd := cwd) (P := P) (fs := fs)
  cases hs : w.stat 2 P with
  | none =>
    rw [hs] at e7
    have e8 := report_some (F := F) (w := w)
      (s := within [(str% "directoryInfo", .nil), (str% "directory", .file 0), (str% "err", .err (w.message 2))] flags [] [] 3 cwd fs P closes)
      (m := w.message 2) (fmt := str% "! unable to get source directory information. (%v)\n") rfl rfl rfl exec_return
    exact ⟨_, _, (exec_cons e7).trans (exec_cons_ret e8), _, List.mem_cons_self, rfl⟩
  | some b =>
    cases b with
    | true => exact absurd hs h
    | false =>
      rw [hs] at e7
      have e8 : exec F w m8 (within [(str% "directoryInfo", .info ⟨P, false⟩), (str% "directory", .file 0), (str% "err", .nil)] flags [] [] 3 cwd fs P closes) =
        some (.next, _) := report_none rfl
      have e9 : exec F w m9 (within [(str% "directoryInfo", .info ⟨P, false⟩), (str% "directory", .file 0), (str% "err", .nil)] flags [] [] 3 cwd fs P closes) =
          some (.ret .unit, within [(str% "directoryInfo", .info ⟨P, false⟩), (str% "directory", .file 0), (str% "err", .nil)] flags []
            [str% "! provided source directory is not a directory\n"] 3 cwd fs P closes) := by
        refine (exec_if_true (eval_isDir (P := P) (b := false) rfl)).trans ?_
        refine run_inScope (x := []) (ys := [_]) (s' := { within [(str% "directoryInfo", .info ⟨P, false⟩), (str% "directory", .file 0), (str% "err", .nil)] flags []
            [str% "! provided source directory is not a directory\n"] 3 cwd fs P closes with
          env := [[], [(str% "directoryInfo", .info ⟨P, false⟩), (str% "directory", .file 0), (str% "err", .nil)]] }) ?_ rfl
        refine (exec_cons (s' := _) ?_).trans (exec_return _)
        show exec F w (.expr _) _ = _
        rw [exec, run_bind (show eval F w (.pcall _ _ _) _ = some (.unit, _) from by
          rw [eval, run_bind (evals_one (eval_str _ _))]
          rfl)]
        rfl
      exact ⟨_, _, (exec_cons e7).trans ((exec_cons e8).trans (exec_cons_ret e9)), _, List.mem_cons_self, rfl⟩

/-- The files that are left open. -/
def Leak (w : World) (s : S) : Prop :=
  ∀ h, 0 < h → h < s.nhandle → (s.handles h).isOpen = true → ∃ t n, w.readFault t (s.handles h).path = some n ∨ w.writeFault t (s.handles h).path = some n

theorem Leak.of {w : World} {s s' : S} (h : Closed w s s') (hs : Leak w s) : Leak w s' := by
  intro k h0 h1 ho
  by_cases e : k < s.nhandle
  · rw [h.old k e] at ho ⊢
    exact hs k h0 e ho
  · exact h.new k (by omega) h1 ho

/-- The state after the sources were read. -/
def later (sc : Scope) (flags : List (Str × Str)) (maps : List (List (Str × Str))) (out : List Str) (time : Nat) (cwd : Str) (fs : Fs)
    (handles : Nat → Handle) (nhandle : Nat) : S :=
  ⟨[sc], [], pointers, [], 0, maps, flags, out, time, cwd, fs, handles, nhandle, closes⟩

theorem eval_kind {F : Str → List V → M V} {w : World} {sc : Scope} {p kind here : Str} {maps : List (List (Str × Str))} {fs : Fs} {out : List Str} {time : Nat}
    {handles : Nat → Handle} {nhandle : Nat} (hg : find (str% "generationKind") [sc] = none) :
    eval F w (.un (str% "*") (.id (str% "generationKind"))) (later sc (flagsOf p kind) maps out time here fs handles nhandle) =
      some (.str kind, later sc (flagsOf p kind) maps out time here fs handles nhandle) := by
  rw [eval, run_bind (eval_id (show getVar (str% "generationKind") (later sc (flagsOf p kind) maps out time here fs handles nhandle) =
      some (.flag 1, later sc (flagsOf p kind) maps out time here fs handles nhandle) from by
    show (match find _ [sc] with | some v => _ | none => _) = _
    rw [hg]; rfl))]
  rfl

/-- generation/main.go:93-103, another kind -/
theorem exec_noKind {F : Str → List V → M V} {w : World} {sc : Scope} {p kind here : Str} {maps : List (List (Str × Str))} {fs : Fs} {out : List Str} {time : Nat}
    {handles : Nat → Handle} {nhandle : Nat} (hg : find (str% "generationKind") [sc] = none) (hk : kind ≠ str% "complex") :
    exec F w m16 (later sc (flagsOf p kind) maps out time here fs handles nhandle) =
      some (.ret .unit, later sc (flagsOf p kind) maps (str% "! no valid generation mode specified\n" :: out) time here fs handles nhandle) := by
  show exec F w (.switch _ _) _ = _
  rw [exec, run_bind (eval_kind hg)]
  show clauses F w (.str kind) (.cons (.case _ _) (.cons (.default _) .nil)) _ = _
  rw [clauses, run_bind (eval_str _ _), run_bind (show ofOpt (eqV (.str kind) (.str (str% "complex"))) _ = some (false, _) from by
    show some (decide (kind = str% "complex"), _) = _
    rw [decide_eq_false hk])]
  show clauses F w (.str kind) (.cons (.default _) .nil) _ = _
  rw [clauses]
  refine run_inScope (x := []) (ys := [sc]) (s' := { later sc (flagsOf p kind) maps (str% "! no valid generation mode specified\n" :: out) time here fs handles nhandle with
    env := [[], sc] }) ?_ rfl
  refine (exec_cons (s' := _) ?_).trans (exec_return _)
  show exec F w (.expr _) _ = _
  rw [exec, run_bind (show eval F w (.pcall _ _ _) _ = some (.unit, _) from by
    rw [eval, run_bind (evals_one (eval_str _ _))]
    rfl)]
  rfl

/-- generation/main.go:93-103 -/
theorem exec_kind {F : Str → List V → M V} {w : World} {F' : Str → List V → M V} (hw : ∀ t ks, (w.order t ks).Perm ks)
    (hF : F (str% "GenerateComplex") = callTop F' w Complex.param Complex.outcome Complex.g)
    {l : List Info} {d : Info} {err : V} {p here : Str} {files : List (Str × Str)} (hn : (files.map (·.1)).Nodup) {fs : Fs} {out : List Str} {time : Nat}
    {handles : Nat → Handle} {nhandle : Nat} :
    ∃ ns, Complex.VisitNotes files (w.order time (files.map (·.1))) ns ∧ exec F w m16 (later ((str% "generated", .nil) :: scope l d err) (flagsOf p (str% "complex")) [files] out time here fs handles nhandle) =
      some (.next, later ((str% "generated", .fmap 0) :: scope l d .nil) (flagsOf p (str% "complex")) [GenerateComplex files] (ns.reverse ++ out) (time + 1) here fs handles nhandle) := by
  obtain ⟨ns, hns, hc⟩ := Complex.call_eq (F := F') (w := w) hw (j := 0) (m := files)
    (s := { later ((str% "generated", .nil) :: scope l d err) (flagsOf p (str% "complex")) [files] out time here fs handles nhandle with
      env := [[], (str% "generated", .nil) :: scope l d err] }) rfl hn
  refine ⟨ns, hns, ?_⟩
  show exec F w (.switch _ _) _ = _
  rw [exec, run_bind (eval_kind rfl)]
  show clauses F w (.str (str% "complex")) (.cons (.case _ _) _) _ = _
  rw [clauses, run_bind (eval_str _ _), run_bind (show ofOpt (eqV (.str (str% "complex")) (.str (str% "complex"))) _ = some (true, _) from by
    show some (decide _, _) = _
    rw [decide_eq_true rfl])]
  refine run_inScope (x := []) (ys := [_]) (s' := { later ((str% "generated", .fmap 0) :: scope l d .nil) (flagsOf p (str% "complex")) [GenerateComplex files]
    (ns.reverse ++ out) (time + 1) here fs handles nhandle with env := [[], (str% "generated", .fmap 0) :: scope l d .nil] }) ?_ rfl
  have e0 : exec F w m16s0c0 { later ((str% "generated", .nil) :: scope l d err) (flagsOf p (str% "complex")) [files] out time here fs handles nhandle with
      env := [[], (str% "generated", .nil) :: scope l d err] } = some (.next, { later ((str% "generated", .fmap 0) :: scope l d .nil) (flagsOf p (str% "complex"))
        [GenerateComplex files] (ns.reverse ++ out) (time + 1) here fs handles nhandle with env := [[], (str% "generated", .fmap 0) :: scope l d .nil] }) := by
    show exec F w (.assign (str% "=") _ _) _ = _
    rw [exec, if_neg (by decide), if_pos rfl, run_bind (show places F w _ _ = some ([.var (str% "generated"), .var (str% "err")], _) from by
        rw [places, run_bind (show places F w _ _ = some ([.var (str% "err")], _) from by
          rw [places, run_bind (show places F w .nil _ = some ([], _) from by rw [places]; rfl)]; rfl)]
        rfl),
      run_bind (evals_one (show eval F w (.fcall _ _) _ = some (.pair (.fmap 0) .nil, _) from by
        rw [eval, run_bind (evals_one (eval_id (show getVar (str% "files") _ = some (.fmap 0, _) from rfl)))]
        unfold callName
        rw [if_neg (by decide), hF]
        exact hc))]
    rfl
  have e1 : exec F w m16s0c1 { later ((str% "generated", .fmap 0) :: scope l d .nil) (flagsOf p (str% "complex"))
        [GenerateComplex files] (ns.reverse ++ out) (time + 1) here fs handles nhandle with env := [[], (str% "generated", .fmap 0) :: scope l d .nil] } =
      some (.next, _) := report_none rfl
  refine (exec_cons e0).trans ((exec_cons e1).trans ?_)
  rw [exec]
  rfl

/-- generation/main.go:73-119 -/
theorem exec_rest {F : Str → List V → M V} {F' : Str → List V → M V} {w : World} (hw : ∀ t ks, (w.order t ks).Perm ks)
    (hF : F (str% "GenerateComplex") = callTop F' w Complex.param Complex.outcome Complex.g)
    {l : List Info} {err : V} {p kind here P : Str} {fs : Fs} {out : List Str} :
    ∃ c s', exec F w (.cons m14 (.cons m15 (.cons m16 (.cons m17 .nil)))) (within (scope l ⟨P, true⟩ err) (flagsOf p kind) [[]] out 5 here fs P closes) =
        some (c, s') ∧ c.value = some .unit ∧ s'.defers = closes ∧ (s'.handles 0).isOpen = true ∧ 0 < s'.nhandle ∧ Leak w s' ∧
      (∀ m ∈ out, m ∈ s'.out) ∧ (kind ≠ str% "complex" ∧ Loud s'.out ∧ s'.fs = fs ∨ kind = str% "complex" ∧ ∃ (dir : List Entry) (ks : List Str),
        dir.map (fun e => (⟨e.name, e.isDir⟩ : Info)) = l ∧ (∀ e ∈ dir, selected e = true → ReadOf w (Loud s'.out) here fs e) ∧
        ks.Perm ((dir.foldl addEntry []).map (·.1)) ∧ Outputs w (Loud s'.out) here (GenerateComplex (dir.foldl addEntry [])) ks fs s'.fs ∧
        (∃ ks' ns, ks'.Perm ((dir.foldl addEntry []).map (·.1)) ∧ Complex.VisitNotes (dir.foldl addEntry []) ks' ns ∧ (∀ m ∈ ns, m ∈ s'.out) ∧
          (NoFault w → s'.out = ns.reverse ++ out))) := by
  generalize hs1 : within (scope l ⟨P, true⟩ err) (flagsOf p kind) [[]] out 5 here fs P closes = s1
  obtain ⟨dir, s2, h1, h2, h3, h4, h5, h6, h7⟩ := exec_reads (F := F) (w := w) (l0 := l) (d := ⟨P, true⟩) (v := err)
    (l.zipIdx.map fun (x, i) => (i, x)) (s := s1) (m := []) (by rw [← hs1]; rfl) (by rw [← hs1]; rfl)
  have hl : (l.zipIdx.map fun (x, i) => (i, x)).map (·.2) = l := by
    rw [List.map_map]
    exact (List.map_congr_left fun _ _ => rfl).trans (List.zipIdx_map_fst 0 l)
  rw [hl] at h1
  have hfs : s1.fs = fs := by rw [← hs1]; rfl
  have hcwd : s1.cwd = here := by rw [← hs1]; rfl
  rw [hfs, hcwd] at h2
  rw [hfs] at h6
  have lk : Leak w s2 := Leak.of h5 (by
    intro k h0 h1
    rw [← hs1] at h1
    exact absurd h1 (Nat.not_lt.mpr h0))
  have n0 : 0 < s2.nhandle := Nat.lt_of_lt_of_le (by rw [← hs1]; exact Nat.one_pos) h5.more
  have o0 : (s2.handles 0).isOpen = true := by
    rw [h5.old 0 (by rw [← hs1]; exact Nat.one_pos), ← hs1]; rfl
  generalize hfiles : dir.foldl addEntry [] = files at h7 ⊢
  have hn : (files.map (·.1)).Nodup := by rw [← hfiles]; exact foldl_keys dir List.nodup_nil
  have e14 : exec F w m14 s1 = some (.next, s2) := by
    show exec F w (.range _ _ _ _) s1 = _
    rw [exec, run_bind (eval_id (show getVar (str% "directoryFiles") s1 = some (.infos l, s1) from by subst hs1; rfl))]
    exact h3
  have gr : ∀ m ∈ out, m ∈ s2.out := fun m hm => h5.grown m (by rw [← hs1]; exact hm)
  -- the state, with all parts that matter
  obtain ⟨env2, ro2, globals2, objs2, nobj2, maps2, flags2, out2, time2, cwd2, fs2, handles2, nhandle2, defers2⟩ := s2
  have h4 : (⟨env2, ro2, globals2, objs2, nobj2, maps2, flags2, out2, time2, cwd2, fs2, handles2, nhandle2, defers2⟩ : S) =
      ⟨[scope l ⟨P, true⟩ err], [], pointers, [], 0, maps2, flagsOf p kind, out2, time2, here, fs2, handles2, nhandle2, closes⟩ := by
    rw [← hs1] at h4; exact h4
  obtain ⟨rfl, rfl, rfl, rfl, rfl, -, rfl, -, -, rfl, -, -, -, rfl⟩ := S.mk.inj h4
  have h6 : fs2 = fs := h6
  have h7 : maps2 = [files] := h7
  subst h6 h7
  have e15 : exec F w m15 (later (scope l ⟨P, true⟩ err) (flagsOf p kind) [files] out2 time2 cwd2 fs2 handles2 nhandle2) =
      some (.next, later ((str% "generated", .nil) :: scope l ⟨P, true⟩ err) (flagsOf p kind) [files] out2 time2 cwd2 fs2 handles2 nhandle2) := by
    show exec F w (.var _ _) _ = _
    rw [exec]
    rfl
  by_cases hk : kind = str% "complex"
  · subst hk
    obtain ⟨ns, hns, e16⟩ := exec_kind (F := F) (w := w) hw hF (l := l) (d := ⟨P, true⟩) (err := err) (p := p) (here := cwd2) hn (fs := fs2) (out := out2)
      (time := time2) (handles := handles2) (nhandle := nhandle2)
    generalize hs3 : later ((str% "generated", .fmap 0) :: scope l ⟨P, true⟩ .nil) (flagsOf p (str% "complex")) [GenerateComplex files] (ns.reverse ++ out2) (time2 + 1) cwd2 fs2
      handles2 nhandle2 = s3 at e16
    have keys : (GenerateComplex files).map (·.1) = files.map (·.1) := by
      unfold GenerateComplex
      rw [List.map_map]
      exact List.map_congr_left fun _ _ => rfl
    have hp := hw s3.time ((GenerateComplex files).map (·.1))
    obtain ⟨s4, g1, g2, g3, g4, g5⟩ := exec_writes (F := F) (w := w) (j := 0) (ks := w.order s3.time ((GenerateComplex files).map (·.1))) (m := GenerateComplex files)
      (s := { s3 with time := s3.time + 1 }) (by rw [← hs3]; rfl) (by rw [keys]; exact hn) (fun k hk => hp.mem_iff.mp hk)
    have e17 : exec F w m17 s3 = some (.next, s4) := by
      show exec F w (.range _ _ _ _) s3 = _
      rw [exec, run_bind (eval_id (show getVar (str% "generated") s3 = some (.fmap 0, s3) from by subst hs3; rfl))]
      show rangeOver w _ _ (.fmap 0) _ s3 = _
      unfold rangeOver
      simp only []
      rw [run_bind (show now s3 = some (s3.time, { s3 with time := s3.time + 1 }) from rfl), run_bind (run_get _)]
      have : ({ s3 with time := s3.time + 1 } : S).maps[0]? = some (GenerateComplex files) := by rw [← hs3]; rfl
      rw [this]
      exact g1
    refine ⟨.next, s4, ?_, rfl, ?_, ?_, ?_, Leak.of g3 ?_, ?_,
      .inr ⟨rfl, dir, w.order s3.time ((GenerateComplex files).map (·.1)), h1, ?_, ?_, ?_, ?_⟩⟩
    · refine (exec_cons e14).trans ((exec_cons e15).trans ((exec_cons e16).trans ((exec_cons e17).trans ?_)))
      rw [exec]
      rfl
    · unfold Same at g2
      rw [g2, ← hs3]
      rfl
    · rw [g3.old 0 (by rw [← hs3]; exact n0), ← hs3]
      exact o0
    · exact Nat.lt_of_lt_of_le (by rw [← hs3]; exact n0) g3.more
    · subst hs3
      exact lk
    · exact fun m hm => g3.grown m (by rw [← hs3]; exact List.mem_append_right _ (gr m hm))
    · refine fun e he hsel => (h2 e he hsel).mono fun ⟨m, hm, e⟩ => ⟨m, g3.grown m ?_, e⟩
      rw [← hs3]
      exact List.mem_append_right _ hm
    · rw [keys] at hp ⊢
      rw [hfiles]
      exact hp
    · rw [hfiles]
      have := g5
      rw [← hs3] at this ⊢
      exact this
    · rw [hfiles]
      refine ⟨_, ns, hw _ _, hns, fun m hm => g3.grown m ?_, fun hq => (g3.quiet hq).trans ?_⟩
      · rw [← hs3]
        exact List.mem_append_left _ (List.mem_reverse.mpr hm)
      have o2 : out2 = out := (h5.quiet hq).trans (by rw [← hs1]; rfl)
      rw [← hs3, ← o2]
      rfl
  · refine ⟨.ret .unit, _, (exec_cons e14).trans ((exec_cons e15).trans (exec_cons_ret (exec_noKind rfl hk))), rfl, rfl, o0, n0, lk, fun m hm => List.mem_cons_of_mem _ (gr m hm),
      .inl ⟨hk, ⟨_, List.mem_cons_self, rfl⟩, rfl⟩⟩

/-- generation/main.go:41-44 -/
theorem exec_noPath {F : Str → List V → M V} {w : World} {kind cwd : Str} {fs : Fs} {r : T} {m : Str} :
    ∃ s', exec F w (.cons m3 r) (named [] kind (.err m) cwd fs) = some (.ret .unit, s') ∧ s'.fs = fs ∧ s'.defers = [] ∧ s'.nhandle = 0 ∧
      Loud s'.out := by
  have e3 := report_some (F := F) (w := w) (s := named [] kind (.err m) cwd fs) (m := m)
    (fmt := str% "! unable to get absolute path of provided directory. (%v)\n") rfl rfl rfl exec_return
  exact ⟨_, exec_cons_ret e3, rfl, rfl, rfl, _, List.mem_cons_self, rfl⟩

/-- generation/main.go:35-120 -/
theorem exec_body {F F' : Str → List V → M V} {w : World} (hw : ∀ t ks, (w.order t ks).Perm ks)
    (hF : F (str% "GenerateComplex") = callTop F' w Complex.param Complex.outcome Complex.g) (cwd : Str) (fs : Fs) :
    ∃ c s', exec F w m (begun cwd fs) = some (c, s') ∧
      Fine w ((w.flags (str% "directory")).getD (str% ".")) ((w.flags (str% "generation")).getD []) cwd fs c s' := by
  have e := exec_named F w cwd fs (.cons m3 (.cons m4 (.cons m5 (.cons m6 (.cons m7 (.cons m8 (.cons m9 (.cons m10 (.cons m11 (.cons m12 (.cons m13
    (.cons m14 (.cons m15 (.cons m16 (.cons m17 .nil)))))))))))))))
  generalize (w.flags (str% "directory")).getD (str% ".") = d at e ⊢
  generalize (w.flags (str% "generation")).getD [] = kind at e ⊢
  show ∃ c s', exec F w (.cons m0 (.cons m1 (.cons m2 _))) (begun cwd fs) = some (c, s') ∧ _
  rw [e]
  cases hp : w.abs 0 d with
  | none =>
    obtain ⟨s', h1, h2, h3, h4, h5⟩ := exec_noPath (F := F) (w := w) (kind := kind) (cwd := cwd) (fs := fs) (m := w.message 0)
    refine ⟨_, s', h1, rfl, ?_, .inl ⟨h3, h4⟩, fun h _ hn => absurd hn (by omega)⟩
    rw [h2]
    exact .noPath h5 hp
  | some p =>
    simp only []
    cases ho : w.openFails 1 (fullPath cwd p) with
    | true =>
      obtain ⟨s', h1, h2, h3, h4, h5⟩ := exec_not_opened (F := F) (w := w) (kind := kind) (fs := fs) ho
      refine ⟨_, s', h1, rfl, ?_, .inl ⟨h3, h4⟩, fun h _ hn => absurd hn (by omega)⟩
      rw [h2]
      exact .noOpen h5 hp ho
    | false =>
      rw [exec_opened ho]
      by_cases hs : w.stat 2 (fullPath cwd p) = some true
      · obtain ⟨err, out, e2, h0, h0'⟩ := exec_looked (F := F) (w := w) (flags := flagsOf p kind) (cwd := cwd) (P := fullPath cwd p) (fs := fs) hs
        rw [e2]
        obtain ⟨c, s', h1, h2, h3, h4, h5, h6, gr, h7⟩ := exec_rest (F := F) hw hF (l := (w.readdir 4 (fullPath cwd p)).1) (err := err) (p := p) (kind := kind)
          (here := if w.chdirFails 3 (fullPath cwd p) then cwd else fullPath cwd p) (P := fullPath cwd p) (fs := fs) (out := out)
        refine ⟨c, s', h1, h2, ?_, .inr ⟨h3, h4, h5⟩, h6⟩
        rcases h7 with ⟨hk, hl, hf⟩ | ⟨hk, dir, ks, g1, g2, g3, g4, g5⟩
        · rw [hf]
          exact .noKind hl hk
        · refine .run hp ho hs rfl hk (fun h => ?_) g1 g2 g3 g4 ?_
          · obtain ⟨m, hm, e⟩ := h0 h
            exact ⟨m, gr m hm, e⟩
          · obtain ⟨ks', ns, a1, a2, a3, a4⟩ := g5
            exact ⟨ks', ns, a1, a2, a3, fun hq hr => by rw [a4 hq, h0' hr, List.append_nil]⟩
      · obtain ⟨sc, out, e2, hl⟩ := exec_not_looked (F := F) (flags := flagsOf p kind) (cwd := cwd) (P := fullPath cwd p) (fs := fs) (r := _) hs
        exact ⟨_, _, e2, within_fine rfl (.noDirectory hl hp hs)⟩

/-- A call of a function without parameters and results. -/
theorem callTop_run {F : Str → List V → M V} {w : World} {body : T} {s s1 s2 : S} {c : Ctl}
    (h : exec F w body { s with env := [[]], ro := [], defers := [] } = some (c, s1)) (hv : c.value = some .unit)
    (hd : runDefers w s1.defers s1 = some ((), s2)) :
    callTop F w [] [] body [] s = some (.unit, { s2 with env := s.env, ro := s.ro, defers := s.defers }) := by
  unfold callTop
  simp only [frame, resultScope]
  rw [run_bind h, run_bind (show ofOpt c.value s1 = some (.unit, s1) from by rw [hv]; rfl), run_bind (show results [] .unit s1 = some (.unit, s1) from rfl),
    run_bind (run_get s1), run_bind hd]
  rfl

/-- A call of `main`. -/
theorem call_main {F F' : Str → List V → M V} {w : World} (hw : ∀ t ks, (w.order t ks).Perm ks)
    (hF : F (str% "GenerateComplex") = callTop F' w Complex.param Complex.outcome Complex.g) (cwd : Str) (fs : Fs) :
    ∃ s', callTop F w [] [] m [] { begun cwd fs with env := [] } = some (.unit, s') ∧
      Effect w s'.out ((w.flags (str% "directory")).getD (str% ".")) ((w.flags (str% "generation")).getD []) cwd fs s'.fs ∧
      ∀ h, h < s'.nhandle → (s'.handles h).isOpen = true →
        ∃ t n, w.readFault t (s'.handles h).path = some n ∨ w.writeFault t (s'.handles h).path = some n := by
  obtain ⟨c, s', h1, h2, h3, h4, h5⟩ := exec_body (F := F) hw hF cwd fs
  rcases h4 with ⟨hd, hn⟩ | ⟨hd, ho, hn⟩
  · refine ⟨_, callTop_run h1 h2 (s2 := s') (by rw [hd]; rfl), h3, fun h hh => absurd hh (by show ¬ h < s'.nhandle; omega)⟩
  · refine ⟨_, callTop_run h1 h2 (s2 := putHandle 0 { s'.handles 0 with isOpen := false } s') ?_, h3, fun h hh hop => ?_⟩
    · rw [hd]
      show (method w (.file 0) (str% "Close") [] >>= fun _ => runDefers w []) s' = _
      rw [run_bind (show method w (.file 0) (str% "Close") [] s' = some (.nil, _) from file_close w 0 s' ho)]
      rfl
    · by_cases e : h = 0
      · subst e
        exact nomatch hop
      · have hop : (if h = 0 then { s'.handles 0 with isOpen := false } else s'.handles h).isOpen = true := hop
        rw [if_neg e] at hop
        obtain ⟨t, n, g⟩ := h5 h (by omega) hh hop
        refine ⟨t, n, ?_⟩
        show w.readFault t (if h = 0 then { s'.handles 0 with isOpen := false } else s'.handles h).path = some n ∨
          w.writeFault t (if h = 0 then { s'.handles 0 with isOpen := false } else s'.handles h).path = some n
        rw [if_neg e]
        exact g

/-- `init`, generation/main.go:28-31 -/
theorem call_init {F : Str → List V → M V} {w : World} (cwd : Str) (fs : Fs) :
    callTop F w [] [] i [] { start cwd fs with globals := [(str% "directoryName", .nil), (str% "generationKind", .nil)] } =
      some (.unit, { begun cwd fs with env := [] }) := by
  have e0 : exec F w i0 { start cwd fs with globals := [(str% "directoryName", .nil), (str% "generationKind", .nil)], env := [[]] } =
      some (.next, { start cwd fs with
        globals := [(str% "directoryName", .flag 0), (str% "generationKind", .nil)], env := [[]], flags := [(str% "directory", str% ".")] }) := by
    show exec F w (.assign (str% "=") _ _) _ = _
    rw [exec, if_neg (by decide), if_pos rfl, run_bind (show places F w _ _ = some ([.var (str% "directoryName")], _) from by
        rw [places, run_bind (show places F w .nil _ = some ([], _) from by rw [places]; rfl)]; rfl),
      run_bind (evals_one (show eval F w (.pcall _ _ _) _ = some (.flag 0, _) from by
        rw [eval, run_bind (evals_three (eval_str _ _) (eval_str _ _) (eval_str _ _))]
        rfl))]
    rfl
  have e1 : exec F w i1 { start cwd fs with
        globals := [(str% "directoryName", .flag 0), (str% "generationKind", .nil)], env := [[]], flags := [(str% "directory", str% ".")] } =
      some (.next, begun cwd fs) := by
    show exec F w (.assign (str% "=") _ _) _ = _
    rw [exec, if_neg (by decide), if_pos rfl, run_bind (show places F w _ _ = some ([.var (str% "generationKind")], _) from by
        rw [places, run_bind (show places F w .nil _ = some ([], _) from by rw [places]; rfl)]; rfl),
      run_bind (evals_one (show eval F w (.pcall _ _ _) _ = some (.flag 1, _) from by
        rw [eval, run_bind (evals_three (eval_str _ _) (eval_str _ _) (eval_str _ _))]
        rfl))]
    rfl
  refine (callTop_run (c := .next) (s1 := begun cwd fs) (s2 := begun cwd fs) ?_ rfl rfl).trans rfl
  refine (exec_cons e0).trans ((exec_cons e1).trans ?_)
  rw [exec]
  rfl

/-- The program. -/
theorem program_effect {w : World} (hw : ∀ t ks, (w.order t ks).Perm ks) (cwd : Str) (fs : Fs) :
    ∃ s', program w (tops ++ Complex.tops) (start cwd fs) = some (.unit, s') ∧
      Effect w s'.out ((w.flags (str% "directory")).getD (str% ".")) ((w.flags (str% "generation")).getD []) cwd fs s'.fs ∧
      ∀ h, h < s'.nhandle → (s'.handles h).isOpen = true →
        ∃ t n, w.readFault t (s'.handles h).path = some n ∨ w.writeFault t (s'.handles h).path = some n := by
  obtain ⟨s', h1, h2⟩ := call_main (F := call w (tops ++ Complex.tops) 2) (F' := call w (tops ++ Complex.tops) 1) (w := w) hw (by
    funext vs
    rw [call]
    rfl) cwd fs
  refine ⟨s', ?_, h2⟩
  unfold program
  rw [show globals (tops ++ Complex.tops) = some [(str% "directoryName", .nil), (str% "generationKind", .nil)] from rfl]
  simp only []
  rw [run_bind (show call w (tops ++ Complex.tops) 3 (str% "init") [] _ = some (.unit, _) from by
    rw [call]
    exact call_init cwd fs)]
  rw [call]
  exact h1

end Main

end Crunch.Gen.Go
