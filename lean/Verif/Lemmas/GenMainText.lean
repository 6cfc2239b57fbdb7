import Verif.Lemmas.GenGo
import Verif.Gen.Go.MainSyntax
import Verif.Props.Gen

/-!
# Lemmas about the text of generation/main.go
-/

namespace Crunch.Gen.Go

/-! ## the library and the operating system -/

theorem run_now (s : S) : now s = some (s.time, { s with time := s.time + 1 }) := rfl
theorem run_get (s : S) : get s = some (s, s) := rfl

theorem lib_abs (w : World) (x : Str) (s : S) :
    lib w (str% "filepath") (str% "Abs") [.str x] s =
      some (match w.abs s.time x with
        | some p => .pair (.str p) .nil
        | none => .pair (.str []) (.err (w.message s.time)), { s with time := s.time + 1 }) := by
  show (now >>= fun t => match w.abs t x with
    | some p => ok (.str p)
    | none => (pure (.pair (.str []) (.err (w.message t))) : M V)) s = _
  rw [run_bind (run_now s)]
  cases w.abs s.time x <;> rfl

/-- The handle that is made next. -/
def addHandle (h : Handle) (s : S) : S :=
  { s with handles := fun n => if n = s.nhandle then h else s.handles n, nhandle := s.nhandle + 1 }

theorem lib_open_fails (w : World) (x : Str) (s : S) (h : w.openFails s.time (fullPath s.cwd x) = true) :
    lib w (str% "os") (str% "Open") [.str x] s = some (.pair .nil (.err (w.message s.time)), { s with time := s.time + 1 }) := by
  show (now >>= fun t => get >>= fun s' => if w.openFails t (fullPath s'.cwd x) then error w t
    else newHandle ⟨fullPath s'.cwd x, 0, false, true⟩ >>= ok) s = _
  rw [run_bind (run_now s), run_bind (run_get _)]
  simp only [h]
  rfl

theorem lib_open (w : World) (x : Str) (s : S) (h : w.openFails s.time (fullPath s.cwd x) = false) :
    lib w (str% "os") (str% "Open") [.str x] s =
      some (.pair (.file s.nhandle) .nil, addHandle ⟨fullPath s.cwd x, 0, false, true⟩ { s with time := s.time + 1 }) := by
  show (now >>= fun t => get >>= fun s' => if w.openFails t (fullPath s'.cwd x) then error w t
    else newHandle ⟨fullPath s'.cwd x, 0, false, true⟩ >>= ok) s = _
  rw [run_bind (run_now s), run_bind (run_get _)]
  simp only [h]
  rfl

theorem lib_create_fails (w : World) (x : Str) (mode : Int) (s : S) (h : w.createFails s.time (fullPath s.cwd x) = true) :
    lib w (str% "os") (str% "OpenFile") [.str x, .int 66, .int mode] s =
      some (.pair .nil (.err (w.message s.time)), { s with time := s.time + 1 }) := by
  show (now >>= fun t => get >>= fun s' => if w.createFails t (fullPath s'.cwd x) then error w t
    else modify (fun s => { s with fs := fun n => if n = fullPath s'.cwd x then some ((s.fs n).getD []) else s.fs n }) >>= fun _ =>
      newHandle ⟨fullPath s'.cwd x, 0, true, true⟩ >>= ok) s = _
  rw [run_bind (run_now s), run_bind (run_get _)]
  simp only [h]
  rfl

theorem lib_create (w : World) (x : Str) (mode : Int) (s : S) (h : w.createFails s.time (fullPath s.cwd x) = false) :
    lib w (str% "os") (str% "OpenFile") [.str x, .int 66, .int mode] s =
      some (.pair (.file s.nhandle) .nil, addHandle ⟨fullPath s.cwd x, 0, true, true⟩
        { s with time := s.time + 1, fs := fun n => if n = fullPath s.cwd x then some ((s.fs n).getD []) else s.fs n }) := by
  show (now >>= fun t => get >>= fun s' => if w.createFails t (fullPath s'.cwd x) then error w t
    else modify (fun s => { s with fs := fun n => if n = fullPath s'.cwd x then some ((s.fs n).getD []) else s.fs n }) >>= fun _ =>
      newHandle ⟨fullPath s'.cwd x, 0, true, true⟩ >>= ok) s = _
  rw [run_bind (run_now s), run_bind (run_get _)]
  simp only [h]
  rfl

/-- A handle changed. -/
def putHandle (h : Nat) (hd : Handle) (s : S) : S := { s with handles := fun n => if n = h then hd else s.handles n }

theorem putHandle_self (h : Nat) (hd : Handle) (s : S) : (putHandle h hd s).handles h = hd := if_pos rfl

theorem run_openFile {h : Nat} {s : S} (ho : (s.handles h).isOpen = true) : openFile h s = some (s.handles h, s) := by
  unfold openFile
  rw [if_pos ho]

theorem lib_readAll (w : World) (h : Nat) (s : S) (ho : (s.handles h).isOpen = true) (h0 : (s.handles h).off = 0) :
    lib w (str% "ioutil") (str% "ReadAll") [.file h] s =
      match w.readFault s.time (s.handles h).path with
      | some n => some (.pair (.bytes (((s.fs (s.handles h).path).getD []).take n)) (.err (w.message s.time)), { s with time := s.time + 1 })
      | none => some (.pair (.bytes ((s.fs (s.handles h).path).getD [])) .nil,
          putHandle h { s.handles h with off := 0 + ((s.fs (s.handles h).path).getD []).length } { s with time := s.time + 1 }) := by
  show (openFile h >>= fun hd => now >>= fun t => get >>= fun s' =>
    match w.readFault t hd.path with
    | some n => (pure (.pair (.bytes ((((s'.fs hd.path).getD []).drop hd.off).take n)) (.err (w.message t))) : M V)
    | none => setHandle h { hd with off := hd.off + (((s'.fs hd.path).getD []).drop hd.off).length } >>= fun _ =>
        ok (.bytes (((s'.fs hd.path).getD []).drop hd.off))) s = _
  rw [run_bind (run_openFile ho), run_bind (run_now s), run_bind (run_get _)]
  simp only [h0, List.drop_zero]
  cases w.readFault s.time (s.handles h).path <;> rfl

theorem file_close (w : World) (h : Nat) (s : S) (ho : (s.handles h).isOpen = true) :
    fileMethod w h (str% "Close") [] s = some (.nil, putHandle h { s.handles h with isOpen := false } s) := by
  show (openFile h >>= fun hd => setHandle h { hd with isOpen := false } >>= fun _ => (pure .nil : M V)) s = _
  rw [run_bind (run_openFile ho)]
  rfl

theorem file_stat (w : World) (h : Nat) (s : S) (ho : (s.handles h).isOpen = true) :
    fileMethod w h (str% "Stat") [] s =
      some (match w.stat s.time (s.handles h).path with
        | some d => .pair (.info ⟨(s.handles h).path, d⟩) .nil
        | none => .pair .nil (.err (w.message s.time)), { s with time := s.time + 1 }) := by
  show (openFile h >>= fun hd => now >>= fun t => match w.stat t hd.path with
    | some d => ok (.info ⟨hd.path, d⟩)
    | none => error w t) s = _
  rw [run_bind (run_openFile ho), run_bind (run_now s)]
  cases w.stat s.time (s.handles h).path <;> rfl

theorem file_chdir (w : World) (h : Nat) (s : S) (ho : (s.handles h).isOpen = true) :
    fileMethod w h (str% "Chdir") [] s =
      some (if w.chdirFails s.time (s.handles h).path then .err (w.message s.time) else .nil,
        { s with time := s.time + 1, cwd := if w.chdirFails s.time (s.handles h).path then s.cwd else (s.handles h).path }) := by
  have e : fileMethod w h (str% "Chdir") [] s = (openFile h >>= fun hd => now >>= fun t =>
      if w.chdirFails t hd.path then (pure (.err (w.message t)) : M V)
      else modify (fun s => { s with cwd := hd.path }) >>= fun _ => pure .nil) s := rfl
  rw [e, run_bind (run_openFile ho), run_bind (run_now s)]
  cases w.chdirFails s.time (s.handles h).path <;> rfl

theorem file_readdir (w : World) (h : Nat) (s : S) (ho : (s.handles h).isOpen = true) :
    fileMethod w h (str% "Readdir") [.int 0] s =
      some (.pair (.infos (w.readdir s.time (s.handles h).path).1)
        (if (w.readdir s.time (s.handles h).path).2 then .err (w.message s.time) else .nil), { s with time := s.time + 1 }) := by
  show (openFile h >>= fun hd => now >>= fun t => match w.readdir t hd.path with
    | (l, false) => ok (.infos l)
    | (l, true) => (pure (.pair (.infos l) (.err (w.message t))) : M V)) s = _
  rw [run_bind (run_openFile ho), run_bind (run_now s)]
  rcases w.readdir s.time (s.handles h).path with ⟨l, b⟩
  cases b <;> rfl

/-- The number of bytes that a write at this time writes. -/
def writes (w : World) (t : Nat) (p : Str) (len : Nat) : Nat :=
  match w.writeFault t p with
  | some n => min n len
  | none => len

theorem file_write (w : World) (h : Nat) (b : Str) (s : S) (ho : (s.handles h).isOpen = true) (hw : (s.handles h).writable = true) :
    ∃ v, fileMethod w h (str% "Write") [.bytes b] s =
      some (.pair v (if (w.writeFault s.time (s.handles h).path).isSome then .err (w.message s.time) else .nil),
        putHandle h { s.handles h with off := (s.handles h).off + writes w s.time (s.handles h).path b.length }
          { s with
            time := s.time + 1
            fs := fun p => if p = (s.handles h).path then
                some (overwrite ((s.fs p).getD []) (s.handles h).off (b.take (writes w s.time (s.handles h).path b.length)))
              else s.fs p }) := by
  have e : fileMethod w h (str% "Write") [.bytes b] s = (openFile h >>= fun hd =>
      if str% "Write" = str% "Write" ∧ hd.writable then (
        now >>= fun t =>
        modify (fun s => { s with
          fs := fun p => if p = hd.path then some (overwrite ((s.fs p).getD []) hd.off (b.take (writes w t hd.path b.length))) else s.fs p }) >>= fun _ =>
        setHandle h { hd with off := hd.off + writes w t hd.path b.length } >>= fun _ =>
        match w.writeFault t hd.path with
        | some _ => (pure (.pair (.int (writes w t hd.path b.length)) (.err (w.message t))) : M V)
        | none => ok (.int (writes w t hd.path b.length)))
      else fail) s := rfl
  rw [e, run_bind (run_openFile ho), if_pos ⟨rfl, hw⟩, run_bind (run_now s)]
  refine ⟨.int (writes w s.time (s.handles h).path b.length), ?_⟩
  cases w.writeFault s.time (s.handles h).path <;> rfl

/-! ## reports of errors -/

/-- `err != nil` -/
def failed : T := .bin (str% "!=") (.id (str% "err")) (.id (str% "nil"))

theorem eval_failed {F : Str → List V → M V} {w : World} {s : S} {v : V} (h : getVar (str% "err") s = some (v, s))
    {b : Bool} (hb : eqV v .nil = some b) : eval F w failed s = some (.bool !b, s) := by
  rw [failed, eval, run_bind (eval_id h), if_neg (by decide), if_neg (by decide),
    run_bind (show eval F w (.id (str% "nil")) s = some (.nil, s) from by rw [eval]; rfl)]
  show (ofOpt (eqV v .nil) >>= fun b => (pure (.bool !b) : M V)) s = _
  rw [hb]
  rfl

/-- No error. -/
theorem report_none {F : Str → List V → M V} {w : World} {s : S} {a : T} (h : getVar (str% "err") s = some (.nil, s)) :
    exec F w (.ifs failed a .nil) s = some (.next, s) := exec_if_false (eval_failed h rfl)

/-- Prints the error. -/
def say (fmt : Str) : T := .expr (.pcall (str% "fmt") (str% "Printf") (.cons (.str fmt) (.cons (.id (str% "err")) .nil)))

theorem exec_say {F : Str → List V → M V} {w : World} {s : S} {m fmt t : Str} (h : getVar (str% "err") s = some (.err m, s))
    (hf : sprintf fmt [.err m] = some t) : exec F w (say fmt) s = some (.next, { s with out := t :: s.out }) := by
  have e : eval F w (.pcall (str% "fmt") (str% "Printf") (.cons (.str fmt) (.cons (.id (str% "err")) .nil))) s =
      some (.unit, { s with out := t :: s.out }) := by
    rw [eval, run_bind (evals_two (eval_str _ _) (eval_id h))]
    show (ofOpt (sprintf fmt [.err m]) >>= print) s = _
    rw [hf]
    rfl
  rw [say, exec, run_bind e]
  rfl

/-- An error: it is printed, then `a` runs. -/
theorem report_some {F : Str → List V → M V} {w : World} {s : S} {m fmt t : Str} {a : T} {c : Ctl}
    (h : getVar (str% "err") s = some (.err m, s)) (h' : getVar (str% "err") { s with env := [] :: s.env } = some (.err m, { s with env := [] :: s.env }))
    (hf : sprintf fmt [.err m] = some t)
    (ha : ∀ s, exec F w a s = some (c, s)) :
    exec F w (.ifs failed (.cons (say fmt) a) .nil) s = some (c, { s with out := t :: s.out }) := by
  rw [exec_if_true (eval_failed h (b := false) rfl)]
  unfold inScope
  rw [exec_cons (exec_say h' hf), ha]

/-- `continue` -/
theorem exec_continue {F : Str → List V → M V} {w : World} (s : S) : exec F w (.cons .cont .nil) s = some (.cont, s) :=
  exec_cons_cont (by rw [exec]; rfl)

/-- `return` -/
theorem exec_return {F : Str → List V → M V} {w : World} (s : S) : exec F w (.cons (.ret .nil) .nil) s = some (.ret .unit, s) :=
  exec_cons_ret (by rw [exec]; rfl)

theorem exec_nothing {F : Str → List V → M V} {w : World} (s : S) : exec F w .nil s = some (.next, s) := by
  rw [exec]; rfl

/-! ## reading the sources -/

namespace Main

/-- The variables of `main` while the sources are read, generation/main.go:36-71. -/
def scope (l : List Info) (d : Info) (err : V) : Scope :=
  [(str% "files", .fmap 0), (str% "directoryFiles", .infos l), (str% "directoryInfo", .info d), (str% "directory", .file 0), (str% "err", err)]

/-- The only things that change while files are read and written. -/
def Same (s s' : S) : Prop :=
  s' = { s with maps := s'.maps, out := s'.out, time := s'.time, fs := s'.fs, handles := s'.handles, nhandle := s'.nhandle }

theorem Same.refl (s : S) : Same s s := rfl
theorem Same.trans {s s' s'' : S} (h : Same s s') (h' : Same s' s'') : Same s s'' := by
  unfold Same at *
  rw [h', h]

/-- A complaint was printed. -/
def Loud (out : List Str) : Prop := ∃ m ∈ out, m.take 2 = str% "! "

/-- No file fails to be opened, read, created or written. -/
def NoFault (w : World) : Prop :=
  ∀ t p, w.openFails t p = false ∧ w.readFault t p = none ∧ w.createFails t p = false ∧ w.writeFault t p = none

/-- Files that were open or closed stay so, and new ones are closed unless reading or writing failed.  What was
printed stays, and without faults there is nothing new. -/
structure Closed (w : World) (s s' : S) : Prop where
  grown : ∀ m ∈ s.out, m ∈ s'.out
  quiet : NoFault w → s'.out = s.out
  more : s.nhandle ≤ s'.nhandle
  old : ∀ h, h < s.nhandle → s'.handles h = s.handles h
  new : ∀ h, s.nhandle ≤ h → h < s'.nhandle → (s'.handles h).isOpen = true →
    ∃ t n, w.readFault t (s'.handles h).path = some n ∨ w.writeFault t (s'.handles h).path = some n

theorem Closed.refl (w : World) (s : S) : Closed w s s := ⟨fun _ h => h, fun _ => rfl, Nat.le_refl _, fun _ _ => rfl, fun _ h h' => absurd h' (by omega)⟩
theorem Closed.trans {w : World} {s s' s'' : S} (h : Closed w s s') (h' : Closed w s' s'') : Closed w s s'' where
  grown m hm := h'.grown m (h.grown m hm)
  quiet hq := (h'.quiet hq).trans (h.quiet hq)
  more := Nat.le_trans h.more h'.more
  old k hk := by rw [h'.old k (Nat.lt_of_lt_of_le hk h.more), h.old k hk]
  new k hk hk' ho := by
    by_cases e : k < s'.nhandle
    · rw [h'.old k e] at ho ⊢
      exact h.new k hk e ho
    · exact h'.new k (by omega) hk' ho

theorem Closed.loud {w : World} {s s' : S} (h : Closed w s s') : Loud s.out → Loud s'.out
  | ⟨m, hm, e⟩ => ⟨m, h.grown m hm, e⟩

/-- What reading a source gives; `L` says that there was a complaint. -/
def ReadOf (w : World) (L : Prop) (cwd : Str) (fs : Fs) (e : Entry) : Prop :=
  match e.reading with
  | .cannotOpen => L ∧ ∃ t, w.openFails t (fullPath cwd e.name) = true
  | .bytes c false => c = (fs (fullPath cwd e.name)).getD []
  | .bytes c true => L ∧ ∃ t n, w.readFault t (fullPath cwd e.name) = some n ∧ c = ((fs (fullPath cwd e.name)).getD []).take n

theorem ReadOf.mono {w : World} {L L' : Prop} (hL : L → L') {cwd : Str} {fs : Fs} {e : Entry} (h : ReadOf w L cwd fs e) : ReadOf w L' cwd fs e := by
  unfold ReadOf at h ⊢
  split at h
  · exact ⟨hL h.1, h.2⟩
  · exact h
  · exact ⟨hL h.1, h.2⟩

/-- The entry with its reading. -/
def entry (x : Info) (r : Reading) : Entry := ⟨x.name, x.isDir, r⟩

/-- The map after an entry. -/
def addEntry (m : List (Str × Str)) (e : Entry) : List (Str × Str) :=
  if selected e then
    match e.reading with
    | .cannotOpen => m
    | .bytes c _ => setKey e.name c m
  else m

/-- The condition, generation/main.go:74. -/
theorem eval_selected {F : Str → List V → M V} {w : World} {x : Info} {s : S} {sc : List Scope}
    (he : s.env = [(str% "fileInfo", .info x)] :: sc) (r : Reading) : ∃ c a b, m14r0 = .ifs c a b ∧
    eval F w c s = some (.bool (selected (entry x r)), s) := by
  obtain ⟨env, ro, globals, objs, nobj, maps, flags, out, time, cwd, fs, handles, nhandle, defers⟩ := s
  subst he
  refine ⟨_, _, _, rfl, ?_⟩
  generalize hs : (S.mk _ _ _ _ _ _ _ _ _ _ _ _ _ _) = s
  have v : getVar (str% "fileInfo") s = some (.info x, s) := by subst hs; rfl
  have en : eval F w (.mcall (.id (str% "fileInfo")) (str% "Name") .nil) s = some (.str x.name, s) := by
    rw [eval, run_bind (eval_id v), run_bind (show evals F w .nil s = some ([], s) from by rw [evals]; rfl)]
    rfl
  have ed : eval F w (.mcall (.id (str% "fileInfo")) (str% "IsDir") .nil) s = some (.bool x.isDir, s) := by
    rw [eval, run_bind (eval_id v), run_bind (show evals F w .nil s = some ([], s) from by rw [evals]; rfl)]
    rfl
  have e1 : eval F w (.bin (str% "==") (.pcall (str% "filepath") (str% "Ext") (.cons (.mcall (.id (str% "fileInfo")) (str% "Name") .nil) .nil))
      (.str (str% ".go"))) s = some (.bool (decide (ext x.name = str% ".go")), s) := by
    have e : eval F w (.pcall (str% "filepath") (str% "Ext") (.cons (.mcall (.id (str% "fileInfo")) (str% "Name") .nil) .nil)) s =
        some (.str (ext x.name), s) := by
      rw [eval, run_bind (evals_one en)]
      rfl
    rw [eval, run_bind e, if_neg (by decide), if_neg (by decide), run_bind (eval_str _ _)]
    rfl
  have e2 : eval F w (.un (str% "!") (.mcall (.id (str% "fileInfo")) (str% "IsDir") .nil)) s = some (.bool !x.isDir, s) := by
    rw [eval, run_bind ed]
    rfl
  have e3 : eval F w (.pcall (str% "strings") (str% "HasPrefix") (.cons (.mcall (.id (str% "fileInfo")) (str% "Name") .nil)
      (.cons (.str (str% "_")) .nil))) s = some (.bool (hasPrefix x.name (str% "_")), s) := by
    rw [eval, run_bind (evals_two en (eval_str _ _))]
    rfl
  rw [show decide (ext x.name = str% ".go") = (ext x.name == str% ".go") from by rw [Bool.eq_iff_iff]; simp] at e1
  exact eval_and (eval_and e1 e2) e3

/-- The body of the condition, generation/main.go:75-87. -/
def readBlock : T := .cons m14r0a0 (.cons m14r0a1 (.cons m14r0a2 (.cons m14r0a3 (.cons m14r0a4 .nil))))

/-- Reading a source. -/
theorem exec_readBlock {F : Str → List V → M V} {w : World} {x : Info} {s : S} {l : List Info} {d : Info} {v : V} {m : List (Str × Str)}
    (he : s.env = [[], [(str% "fileInfo", .info x)], scope l d v]) (hm : s.maps = [m]) :
    ∃ r c s', exec F w readBlock s = some (c, s') ∧ (∀ v, c ≠ .ret v) ∧ ReadOf w (Loud s'.out) s.cwd s.fs (entry x r) ∧
      s'.env.tail = s.env.tail ∧ s'.env ≠ [] ∧ Same { s with env := s'.env } s' ∧ Closed w s s' ∧ s'.fs = s.fs ∧
      s'.maps = [match r with
        | .cannotOpen => m
        | .bytes c _ => setKey x.name c m] := by
  have he' := he
  have hm' := hm
  obtain ⟨env, ro, globals, objs, nobj, maps, flags, out, time, cwd, fs, handles, nhandle, defers⟩ := s
  subst he hm
  generalize hs : (S.mk _ _ _ _ _ _ _ _ _ _ _ _ _ _) = s
  have vi : getVar (str% "fileInfo") s = some (.info x, s) := by subst hs; rfl
  have en : eval F w (.mcall (.id (str% "fileInfo")) (str% "Name") .nil) s = some (.str x.name, s) := by
    rw [eval, run_bind (eval_id vi), run_bind (show evals F w .nil s = some ([], s) from by rw [evals]; rfl)]
    rfl
  have cw : s.cwd = cwd := by subst hs; rfl
  cases ho : w.openFails s.time (fullPath s.cwd x.name) with
  | true =>
    have e0 : exec F w m14r0a0 s = some (.next, { s with
        env := [[(str% "err", .err (w.message s.time)), (str% "file", .nil)], [(str% "fileInfo", .info x)], scope l d v]
        time := s.time + 1 }) := by
      have e : eval F w (.pcall (str% "os") (str% "Open") (.cons (.mcall (.id (str% "fileInfo")) (str% "Name") .nil) .nil)) s =
          some (.pair .nil (.err (w.message s.time)), { s with time := s.time + 1 }) := by
        rw [eval, run_bind (evals_one en), lib_open_fails w x.name s ho]
      show exec F w (.assign (str% ":=") _ _) s = _
      rw [exec, if_pos rfl, run_bind (evals_one e)]
      subst hs
      rfl
    have e1 := report_some (F := F) (w := w) (s := { s with
        env := [[(str% "err", .err (w.message s.time)), (str% "file", .nil)], [(str% "fileInfo", .info x)], scope l d v]
        time := s.time + 1 }) (m := w.message s.time) (fmt := str% "! unable to open source file. (%v)\n") rfl rfl rfl exec_continue
    refine ⟨.cannotOpen, .cont, _, (exec_cons e0).trans (exec_cons_cont e1), (fun _ h => nomatch h), ⟨⟨_, List.mem_cons_self, rfl⟩, s.time, ho⟩, ?_⟩
    subst hs
    exact ⟨rfl, nofun, rfl, ⟨fun _ h => List.mem_cons_of_mem _ h, fun hq => absurd ho (by rw [(hq _ _).1]; nofun), Nat.le_refl _, fun _ _ => rfl, fun h h1 h2 => absurd h2 (Nat.not_lt.mpr h1)⟩, rfl, rfl⟩
  | false =>
    have e0 : exec F w m14r0a0 s = some (.next, addHandle ⟨fullPath s.cwd x.name, 0, false, true⟩ { s with
        env := [[(str% "err", .nil), (str% "file", .file s.nhandle)], [(str% "fileInfo", .info x)], scope l d v]
        time := s.time + 1 }) := by
      have e : eval F w (.pcall (str% "os") (str% "Open") (.cons (.mcall (.id (str% "fileInfo")) (str% "Name") .nil) .nil)) s =
          some (.pair (.file s.nhandle) .nil, addHandle ⟨fullPath s.cwd x.name, 0, false, true⟩ { s with time := s.time + 1 }) := by
        rw [eval, run_bind (evals_one en), lib_open w x.name s ho]
      show exec F w (.assign (str% ":=") _ _) s = _
      rw [exec, if_pos rfl, run_bind (evals_one e)]
      subst hs
      rfl
    generalize hs1 : addHandle ⟨fullPath s.cwd x.name, 0, false, true⟩ { s with
        env := [[(str% "err", .nil), (str% "file", .file s.nhandle)], [(str% "fileInfo", .info x)], scope l d v]
        time := s.time + 1 } = s1 at e0
    have env1 : s1.env = [[(str% "err", .nil), (str% "file", .file s.nhandle)], [(str% "fileInfo", .info x)], scope l d v] := by
      rw [← hs1]; rfl
    have hh1 : s1.handles s.nhandle = ⟨fullPath s.cwd x.name, 0, false, true⟩ := by
      rw [← hs1]; exact if_pos rfl
    have e1 : exec F w m14r0a1 s1 = some (.next, s1) := report_none (by unfold getVar; rw [env1]; rfl)
    have hr := lib_readAll w s.nhandle s1 (by rw [hh1]) (by rw [hh1])
    rw [hh1] at hr
    have ep : places F w (.cons (.index (.id (str% "files")) (.mcall (.id (str% "fileInfo")) (str% "Name") .nil)) (.cons (.id (str% "err")) .nil)) s1 =
        some ([.key 0 x.name, .var (str% "err")], s1) := by
      have v1 : getVar (str% "files") s1 = some (.fmap 0, s1) := by unfold getVar; rw [env1]; rfl
      have v2 : getVar (str% "fileInfo") s1 = some (.info x, s1) := by unfold getVar; rw [env1]; rfl
      have en : eval F w (.mcall (.id (str% "fileInfo")) (str% "Name") .nil) s1 = some (.str x.name, s1) := by
        rw [eval, run_bind (eval_id v2), run_bind (show evals F w .nil s1 = some ([], s1) from by rw [evals]; rfl)]
        rfl
      rw [places, run_bind (eval_id v1), run_bind en, run_bind (show keyPlace (.fmap 0) (.str x.name) s1 = some (.key 0 x.name, s1) from rfl)]
      rw [places]
      rw [places]
      rfl
    have vf : getVar (str% "file") s1 = some (.file s.nhandle, s1) := by unfold getVar; rw [env1]; rfl
    cases hf : w.readFault s1.time (fullPath s.cwd x.name) with
    | some n =>
      rw [hf] at hr
      simp only [] at hr
      have e2 : exec F w m14r0a2 s1 = some (.next, { s1 with
          env := [[(str% "err", .err (w.message s1.time)), (str% "file", .file s.nhandle)], [(str% "fileInfo", .info x)], scope l d v]
          time := s1.time + 1
          maps := [setKey x.name (((s1.fs (fullPath s.cwd x.name)).getD []).take n) m] }) := by
        have e : eval F w (.pcall (str% "ioutil") (str% "ReadAll") (.cons (.id (str% "file")) .nil)) s1 =
            some (.pair (.bytes (((s1.fs (fullPath s.cwd x.name)).getD []).take n)) (.err (w.message s1.time)), { s1 with time := s1.time + 1 }) := by
          rw [eval, run_bind (evals_one (eval_id vf)), hr]
        show exec F w (.assign (str% "=") _ _) s1 = _
        rw [exec, if_neg (by decide), if_pos rfl, run_bind ep, run_bind (evals_one e)]
        subst hs1 hs
        rfl
      have e3 := report_some (F := F) (w := w) (s := { s1 with
          env := [[(str% "err", .err (w.message s1.time)), (str% "file", .file s.nhandle)], [(str% "fileInfo", .info x)], scope l d v]
          time := s1.time + 1
          maps := [setKey x.name (((s1.fs (fullPath s.cwd x.name)).getD []).take n) m] })
        (m := w.message s1.time) (fmt := str% "! unable to read file contents. (%v)\n") rfl rfl rfl exec_continue
      refine ⟨.bytes (((s1.fs (fullPath s.cwd x.name)).getD []).take n) true, .cont, _,
        (exec_cons e0).trans ((exec_cons e1).trans ((exec_cons e2).trans (exec_cons_cont e3))), (fun _ h => nomatch h), ⟨⟨_, List.mem_cons_self, rfl⟩, s1.time, n, hf, ?_⟩, ?_⟩
      · rw [← hs1]; rfl
      · subst hs1 hs
        refine ⟨rfl, nofun, rfl, ⟨fun _ h => List.mem_cons_of_mem _ h, fun hq => absurd hf (by rw [(hq _ _).2.1]; nofun), Nat.le_succ _, fun h h1 => if_neg (by exact Nat.ne_of_lt h1), fun h h1 h2 _ => ?_⟩, rfl, rfl⟩
        have : h = nhandle := Nat.le_antisymm (Nat.le_of_lt_succ h2) h1
        subst this
        exact ⟨_, n, .inl (by rw [← hf]; exact congrArg _ (congrArg Handle.path (if_pos rfl)))⟩
    | none =>
      rw [hf] at hr
      simp only [] at hr
      have e2 : exec F w m14r0a2 s1 = some (.next, putHandle s.nhandle ⟨fullPath s.cwd x.name, 0 + ((s1.fs (fullPath s.cwd x.name)).getD []).length, false, true⟩
          { s1 with time := s1.time + 1, maps := [setKey x.name ((s1.fs (fullPath s.cwd x.name)).getD []) m] }) := by
        have e : eval F w (.pcall (str% "ioutil") (str% "ReadAll") (.cons (.id (str% "file")) .nil)) s1 =
            some (.pair (.bytes ((s1.fs (fullPath s.cwd x.name)).getD [])) .nil,
              putHandle s.nhandle ⟨fullPath s.cwd x.name, 0 + ((s1.fs (fullPath s.cwd x.name)).getD []).length, false, true⟩ { s1 with time := s1.time + 1 }) := by
          rw [eval, run_bind (evals_one (eval_id vf)), hr]
        show exec F w (.assign (str% "=") _ _) s1 = _
        rw [exec, if_neg (by decide), if_pos rfl, run_bind ep, run_bind (evals_one e)]
        subst hs1 hs
        rfl
      generalize hs2 : putHandle s.nhandle ⟨fullPath s.cwd x.name, 0 + ((s1.fs (fullPath s.cwd x.name)).getD []).length, false, true⟩
          { s1 with time := s1.time + 1, maps := [setKey x.name ((s1.fs (fullPath s.cwd x.name)).getD []) m] } = s2 at e2
      have env2 : s2.env = s1.env := by rw [← hs2]; rfl
      have e3 : exec F w m14r0a3 s2 = some (.next, s2) := report_none (by unfold getVar; rw [env2, env1]; rfl)
      have hh2 : (s2.handles s.nhandle).isOpen = true := by rw [← hs2]; exact congrArg Handle.isOpen (if_pos rfl)
      have e4 : exec F w m14r0a4 s2 = some (.next, putHandle s.nhandle { s2.handles s.nhandle with isOpen := false } s2) := by
        have e : eval F w (.mcall (.id (str% "file")) (str% "Close") .nil) s2 =
            some (.nil, putHandle s.nhandle { s2.handles s.nhandle with isOpen := false } s2) := by
          have vf : getVar (str% "file") s2 = some (.file s.nhandle, s2) := by unfold getVar; rw [env2, env1]; rfl
          rw [eval, run_bind (eval_id vf), run_bind (show evals F w .nil s2 = some ([], s2) from by rw [evals]; rfl)]
          exact file_close w s.nhandle s2 hh2
        show exec F w (.assign (str% "=") _ _) s2 = _
        rw [exec, if_neg (by decide), if_pos rfl, run_bind (show places F w (.cons (.id (str% "_")) .nil) s2 = some ([.blank], s2) from by
          rw [places, run_bind (show places F w .nil s2 = some ([], s2) from by rw [places]; rfl)]; rfl), run_bind (evals_one e)]
        rfl
      refine ⟨.bytes ((s1.fs (fullPath s.cwd x.name)).getD []) false, .next, _,
        (exec_cons e0).trans ((exec_cons e1).trans ((exec_cons e2).trans ((exec_cons e3).trans ((exec_cons e4).trans (exec_nothing _))))),
        (fun _ h => nomatch h), ?_, ?_⟩
      · rw [← hs1]; rfl
      · subst hs2 hs1 hs
        refine ⟨rfl, nofun, rfl, ⟨fun _ h => h, fun _ => rfl, Nat.le_succ _, fun h h1 => ?_, fun h h1 h2 ho => ?_⟩, rfl, rfl⟩
        · have : h ≠ nhandle := Nat.ne_of_lt h1
          show (if h = nhandle then _ else if h = nhandle then _ else if h = nhandle then _ else _) = _
          rw [if_neg this, if_neg this, if_neg this]
        · have : h = nhandle := Nat.le_antisymm (Nat.le_of_lt_succ h2) h1
          subst this
          have : true = false := ho.symm.trans (congrArg Handle.isOpen (putHandle_self _ _ _))
          exact nomatch this

theorem Same.env {s s' : S} (h : Same s s') : s'.env = s.env := by unfold Same at h; rw [h]
theorem Same.cwd {s s' : S} (h : Same s s') : s'.cwd = s.cwd := by unfold Same at h; rw [h]

theorem run_inScope {sc : Scope} {m : M α} {s s' : S} {a : α} {x : Scope} {ys : List Scope}
    (h : m { s with env := sc :: s.env } = some (a, s')) (he : s'.env = x :: ys) : inScope sc m s = some (a, { s' with env := ys }) := by
  unfold inScope
  rw [h]
  simp only []
  rw [he]

/-- A round of the loop, generation/main.go:72-89. -/
theorem exec_readRound {F : Str → List V → M V} {w : World} {x : Info} {s : S} {l : List Info} {d : Info} {v : V} {m : List (Str × Str)}
    (he : s.env = [scope l d v]) (hm : s.maps = [m]) :
    ∃ (e : Entry) (c : Ctl) (s' : S), ⟨e.name, e.isDir⟩ = x ∧ (selected e = true → ReadOf w (Loud s'.out) s.cwd s.fs e) ∧
      inScope [(str% "fileInfo", .info x)] (exec F w m14r) s = some (c, s') ∧ (∀ v, c ≠ .ret v) ∧
        Same s s' ∧ Closed w s s' ∧ s'.fs = s.fs ∧ s'.maps = [addEntry m e] := by
  cases hsel : selected (entry x .cannotOpen) with
  | false =>
    refine ⟨entry x .cannotOpen, .next, s, rfl, fun h => ?_, ?_, (fun _ h => nomatch h), .refl s, .refl w s, rfl, ?_⟩
    · rw [hsel] at h; exact nomatch h
    · obtain ⟨c, a, b, e1, e2⟩ := eval_selected (F := F) (w := w) (x := x) (s := { s with env := [(str% "fileInfo", .info x)] :: s.env }) rfl .cannotOpen
      rw [hsel] at e2
      unfold inScope
      have : exec F w m14r0 { s with env := [(str% "fileInfo", .info x)] :: s.env } =
          some (.next, { s with env := [(str% "fileInfo", .info x)] :: s.env }) := by
        cases e1
        exact exec_if_false e2
      rw [m14r, exec_cons this, exec_nothing]
    · rw [hm, addEntry, hsel]
      rfl
  | true =>
    obtain ⟨r, c, s', h1, h2, h3, h4, h5, h6, h7, h8, h9⟩ := exec_readBlock (F := F) (w := w) (x := x) (m := m)
      (s := { s with env := [] :: [(str% "fileInfo", .info x)] :: s.env }) (l := l) (d := d) (v := v) (by rw [he]) hm
    have hsel' : selected (entry x r) = true := hsel
    refine ⟨entry x r, c, { s' with env := s.env }, rfl, fun _ => h3, ?_, h2, ?_, ⟨h7.grown, h7.quiet, h7.more, h7.old, h7.new⟩, h8, ?_⟩
    · obtain ⟨cc, a, b, e1, e2⟩ := eval_selected (F := F) (w := w) (x := x) (s := { s with env := [(str% "fileInfo", .info x)] :: s.env }) rfl r
      rw [hsel'] at e2
      have : exec F w m14r0 { s with env := [(str% "fileInfo", .info x)] :: s.env } =
          some (c, { s' with env := [(str% "fileInfo", .info x)] :: s.env }) := by
        cases e1
        refine (exec_if_true e2).trans ?_
        cases hx : s'.env with
        | nil => exact absurd hx h5
        | cons y ys =>
          rw [hx] at h4
          have h4 : ys = [(str% "fileInfo", .info x)] :: s.env := h4
          subst h4
          exact run_inScope h1 hx
      have : exec F w m14r { s with env := [(str% "fileInfo", .info x)] :: s.env } =
          some (c, { s' with env := [(str% "fileInfo", .info x)] :: s.env }) := by
        cases c with
        | next => rw [m14r, exec_cons this, exec_nothing]
        | ret v => exact absurd rfl (h2 v)
        | cont => rw [m14r, exec_cons_cont this]
      unfold inScope
      rw [this]
    · exact congrArg (fun t : S => { t with env := s.env }) h6
    · rw [addEntry, if_pos hsel']
      exact h9

/-- The loop. -/
theorem exec_reads {F : Str → List V → M V} {w : World} {l0 : List Info} {d : Info} {v : V} (l : List (Nat × Info)) {s : S}
    {m : List (Str × Str)} (he : s.env = [scope l0 d v]) (hm : s.maps = [m]) :
    ∃ (dir : List Entry) (s' : S), dir.map (fun e => (⟨e.name, e.isDir⟩ : Info)) = l.map (·.2) ∧
      (∀ e ∈ dir, selected e = true → ReadOf w (Loud s'.out) s.cwd s.fs e) ∧
      each (fun (p : Nat × Info) => inScope (bindings [(str% "_", .int p.1), (str% "fileInfo", .info p.2)]) (exec F w m14r)) l s =
          some (.next, s') ∧ Same s s' ∧ Closed w s s' ∧ s'.fs = s.fs ∧ s'.maps = [dir.foldl addEntry m] := by
  induction l generalizing s m with
  | nil => exact ⟨[], s, rfl, (fun _ h => nomatch h), rfl, .refl s, .refl w s, rfl, hm⟩
  | cons p l ih =>
    obtain ⟨i, x⟩ := p
    obtain ⟨e, c, s1, h1, h2, h3, h4, h5, h6, h7, h8⟩ := exec_readRound (F := F) (w := w) (x := x) he hm
    obtain ⟨dir, s2, g1, g2, g3, g4, g5, g6, g7⟩ := ih (s := s1) (m := addEntry m e) (by rw [h5.env, he]) h8
    refine ⟨e :: dir, s2, by rw [List.map_cons, List.map_cons, h1, g1], ?_, ?_, h5.trans g4, h6.trans g5, g6.trans h7, g7⟩
    · intro e' he' hs
      rcases List.mem_cons.mp he' with rfl | he'
      · exact (h2 hs).mono g5.loud
      · have := g2 e' he' hs
        rw [h5.cwd, h7] at this
        exact this
    · rw [each]
      have : inScope (bindings [(str% "_", .int i), (str% "fileInfo", .info x)]) (exec F w m14r) s = some (c, s1) := h3
      rw [run_bind this]
      cases c with
      | next => exact g3
      | ret v => exact absurd rfl (h4 v)
      | cont => exact g3

theorem setKey_new {k v : Str} {m : List (Str × Str)} (h : k ∉ m.map (·.1)) : setKey k v m = m ++ [(k, v)] := by
  induction m with
  | nil => rfl
  | cons p m ih =>
    rw [setKey, if_neg fun e => h (by rw [e]; exact List.mem_cons_self), ih fun hm => h (List.mem_cons_of_mem _ hm)]
    rfl

theorem readFiles_cons (e : Entry) (dir : List Entry) : readFiles (e :: dir) =
    (if selected e then match e.reading with
      | .cannotOpen => []
      | .bytes c _ => [(e.name, c)] else []) ++ readFiles dir := by
  unfold readFiles
  rw [List.filter_cons]
  cases selected e with
  | false => rfl
  | true =>
    rw [if_pos rfl, if_pos rfl, List.filterMap_cons]
    cases e.reading <;> rfl

theorem foldl_addEntry {dir : List Entry} (hd : (dir.map Entry.name).Nodup) (m : List (Str × Str))
    (hm : ∀ e ∈ dir, e.name ∉ m.map (·.1)) : dir.foldl addEntry m = m ++ readFiles dir := by
  induction dir generalizing m with
  | nil => exact (List.append_nil m).symm
  | cons e dir ih =>
    obtain ⟨h1, h2⟩ := List.nodup_cons.mp hd
    have hk : addEntry m e = m ++ (if selected e then match e.reading with
        | .cannotOpen => []
        | .bytes c _ => [(e.name, c)] else []) := by
      unfold addEntry
      cases selected e with
      | false => exact (List.append_nil m).symm
      | true =>
        rw [if_pos rfl, if_pos rfl]
        cases e.reading with
        | cannotOpen => exact (List.append_nil m).symm
        | bytes c b => exact setKey_new (hm e List.mem_cons_self)
    rw [List.foldl_cons, hk, ih h2, readFiles_cons, List.append_assoc]
    intro e' he'
    rw [List.map_append, List.mem_append, not_or]
    refine ⟨hm e' (List.mem_cons_of_mem _ he'), fun h => ?_⟩
    split at h
    · split at h
      · exact nomatch h
      · rw [List.map_cons, List.map_nil, List.mem_singleton] at h
        exact h1 (List.mem_map.mpr ⟨e', he', h⟩)
    · exact nomatch h

end Main

end Crunch.Gen.Go
