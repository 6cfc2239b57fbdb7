import Verif.Lemmas.GenMainText

/-!
# Lemmas about the text of generation/main.go: the outputs
-/

namespace Crunch.Gen.Go

theorem eval_num {F : Str → List V → M V} {w : World} {n : Nat} {s : S} (h : (n : Int) < 2 ^ 63) :
    eval F w (.num n) s = some (.int n, s) := by
  rw [eval]
  show int n s = _
  unfold int
  rw [if_pos ⟨by omega, h⟩]
  rfl

theorem evals_three {F : Str → List V → M V} {w : World} {a b c : T} {u v x : V} {s s1 s2 s3 : S} (h1 : eval F w a s = some (u, s1))
    (h2 : eval F w b s1 = some (v, s2)) (h3 : eval F w c s2 = some (x, s3)) :
    evals F w (.cons a (.cons b (.cons c .nil))) s = some ([u, v, x], s3) := by
  rw [evals, run_bind h1, run_bind (evals_two h2 h3)]
  rfl

namespace Main

/-- A file after a write from its start, which does not shorten it. -/
def put (fs : Fs) (path contents : Str) : Fs := fun p => if p = path then some (contents ++ ((fs p).getD []).drop contents.length) else fs p

theorem put_created (fs : Fs) (path c : Str) : put (fun n => if n = path then some ((fs n).getD []) else fs n) path c = put fs path c := by
  funext p
  unfold put
  by_cases h : p = path
  · simp only [if_pos h]; rfl
  · simp only [if_neg h]

/-- What becomes of the files when an output is written: nothing if it cannot be opened, all of it, or only a part.  `L` says that
there was a complaint. -/
inductive Written (w : World) (L : Prop) (cwd : Str) (fs : Fs) (name contents : Str) : Fs → Prop where
  | cannotCreate (t : Nat) : L → w.createFails t (fullPath cwd (outName name)) = true → Written w L cwd fs name contents fs
  | all : Written w L cwd fs name contents (put fs (fullPath cwd (outName name)) contents)
  | part (t n : Nat) : L → w.writeFault t (fullPath cwd (outName name)) = some n →
      Written w L cwd fs name contents (put fs (fullPath cwd (outName name)) (contents.take n))

theorem Written.mono {w : World} {L L' : Prop} (hL : L → L') {cwd : Str} {fs fs' : Fs} {name contents : Str} (h : Written w L cwd fs name contents fs') :
    Written w L' cwd fs name contents fs' := by
  cases h with
  | cannotCreate t l h => exact .cannotCreate t (hL l) h
  | all => exact .all
  | part t n l h => exact .part t n (hL l) h

theorem eval_outName {F : Str → List V → M V} {w : World} {k : Str} {s : S} (v : getVar (str% "name") s = some (.str k, s)) :
    ∃ a, m17r0 = .assign (str% ":=") (.cons (.id (str% "file")) (.cons (.id (str% "err")) .nil)) (.cons (.pcall (str% "os") (str% "OpenFile") a) .nil) ∧
      evals F w a s = some ([.str (outName k), .int 66, .int 420], s) := by
  refine ⟨_, rfl, ?_⟩
  have e1 : eval F w (.pcall (str% "strings") (str% "TrimPrefix") (.cons (.id (str% "name")) (.cons (.str (str% "_")) .nil))) s =
      some (.str (trimPrefix k (str% "_")), s) := by
    rw [eval, run_bind (evals_two (eval_id v) (eval_str _ _))]
    rfl
  have e2 : eval F w (.pcall (str% "strings") (str% "TrimSuffix") (.cons (.pcall (str% "strings") (str% "TrimPrefix")
      (.cons (.id (str% "name")) (.cons (.str (str% "_")) .nil))) (.cons (.str (str% ".go")) .nil))) s =
      some (.str (trimSuffix (trimPrefix k (str% "_")) (str% ".go")), s) := by
    rw [eval, run_bind (evals_two e1 (eval_str _ _))]
    rfl
  have e3 : eval F w (.comp (.slice (.named (str% "string"))) (.cons (.pcall (str% "strings") (str% "TrimSuffix") (.cons (.pcall (str% "strings")
      (str% "TrimPrefix") (.cons (.id (str% "name")) (.cons (.str (str% "_")) .nil))) (.cons (.str (str% ".go")) .nil)))
      (.cons (.str (str% ".generated.go")) .nil))) s =
      some (.strs [trimSuffix (trimPrefix k (str% "_")) (str% ".go"), str% ".generated.go"], s) := by
    rw [eval]
    have e : elems F w (.cons (.pcall (str% "strings") (str% "TrimSuffix") (.cons (.pcall (str% "strings")
        (str% "TrimPrefix") (.cons (.id (str% "name")) (.cons (.str (str% "_")) .nil))) (.cons (.str (str% ".go")) .nil)))
        (.cons (.str (str% ".generated.go")) .nil)) s =
        some ([.str (trimSuffix (trimPrefix k (str% "_")) (str% ".go")), .str (str% ".generated.go")], s) := by
      have e0 : elems F w .nil s = some ([], s) := by rw [elems]; rfl
      have e : elems F w (.cons (.str (str% ".generated.go")) .nil) s = some ([.str (str% ".generated.go")], s) := by
        unfold elems
        rw [run_bind (eval_str _ _), run_bind e0]
        rfl
      unfold elems
      rw [run_bind e2, run_bind e]
      rfl
    have e' : keyed F w (.cons (.pcall (str% "strings") (str% "TrimSuffix") (.cons (.pcall (str% "strings")
        (str% "TrimPrefix") (.cons (.id (str% "name")) (.cons (.str (str% "_")) .nil))) (.cons (.str (str% ".go")) .nil)))
        (.cons (.str (str% ".generated.go")) .nil)) s = some ([], s) := by
      unfold keyed
      unfold keyed
      unfold keyed
      rfl
    rw [run_bind e, run_bind e']
    rfl
  have e4 : eval F w (.pcall (str% "strings") (str% "Join") (.cons (.comp (.slice (.named (str% "string"))) (.cons (.pcall (str% "strings")
      (str% "TrimSuffix") (.cons (.pcall (str% "strings") (str% "TrimPrefix") (.cons (.id (str% "name")) (.cons (.str (str% "_")) .nil)))
      (.cons (.str (str% ".go")) .nil))) (.cons (.str (str% ".generated.go")) .nil))) (.cons (.str (str% "")) .nil))) s =
      some (.str (outName k), s) := by
    rw [eval, run_bind (evals_two e3 (eval_str _ _))]
    rfl
  have e5 : eval F w (.bin (str% "|") (.pconst (str% "os") (str% "O_RDWR")) (.pconst (str% "os") (str% "O_CREATE"))) s = some (.int 66, s) := by
    rw [eval, run_bind (show eval F w (.pconst (str% "os") (str% "O_RDWR")) s = some (.int 2, s) from by rw [eval]; rfl),
      if_neg (by decide), if_neg (by decide),
      run_bind (show eval F w (.pconst (str% "os") (str% "O_CREATE")) s = some (.int 64, s) from by rw [eval]; rfl)]
    rfl
  exact evals_three e4 e5 (eval_num (by decide))

theorem overwrite_start (old new : Str) : overwrite old 0 new = new ++ old.drop new.length := by
  unfold overwrite
  rw [List.take_zero, List.nil_append, Nat.zero_add]

/-- A round of the loop, generation/main.go:105-119. -/
theorem exec_writeRound {F : Str → List V → M V} {w : World} {k b : Str} {s : S} :
    ∃ c s', inScope [(str% "name", .str k), (str% "contents", .bytes b)] (exec F w m17r) s = some (c, s') ∧ (∀ v, c ≠ .ret v) ∧
      Same s s' ∧ Closed w s s' ∧ s'.maps = s.maps ∧ Written w (Loud s'.out) s.cwd s.fs k b s'.fs := by
  obtain ⟨env, ro, globals, objs, nobj, maps, flags, out, time, cwd, fs, handles, nhandle, defers⟩ := s
  generalize hs : (S.mk _ _ _ _ _ _ _ _ _ _ _ _ _ _) = s
  generalize hs0 : { s with env := [(str% "name", .str k), (str% "contents", .bytes b)] :: s.env } = s0
  have vn : getVar (str% "name") s0 = some (.str k, s0) := by subst hs0; rfl
  obtain ⟨a, e0, e1⟩ := eval_outName (F := F) (w := w) vn
  generalize hp : fullPath s.cwd (outName k) = path
  have hp0 : fullPath s0.cwd (outName k) = path := by rw [← hs0]; exact hp
  cases hc : w.createFails s0.time path with
  | true =>
    have e0 : exec F w m17r0 s0 = some (.next, { s0 with
        env := [(str% "err", .err (w.message s0.time)), (str% "file", .nil), (str% "name", .str k), (str% "contents", .bytes b)] :: s.env
        time := s0.time + 1 }) := by
      have e : eval F w (.pcall (str% "os") (str% "OpenFile") a) s0 =
          some (.pair .nil (.err (w.message s0.time)), { s0 with time := s0.time + 1 }) := by
        rw [eval, run_bind e1, lib_create_fails w (outName k) 420 s0 (by rw [hp0]; exact hc)]
      rw [e0, exec, if_pos rfl, run_bind (evals_one e)]
      subst hs0
      rfl
    have e2 := report_some (F := F) (w := w) (s := { s0 with
        env := [(str% "err", .err (w.message s0.time)), (str% "file", .nil), (str% "name", .str k), (str% "contents", .bytes b)] :: s.env
        time := s0.time + 1 }) (m := w.message s0.time) (fmt := str% "! unable to open source file. (%v)\n") rfl rfl rfl exec_continue
    refine ⟨.cont, _, run_inScope (by rw [hs0]; exact (exec_cons e0).trans (exec_cons_cont e2)) rfl, (fun _ h => nomatch h), ?_⟩
    subst hs0 hs
    exact ⟨rfl, ⟨fun _ h => List.mem_cons_of_mem _ h, fun hq => absurd hc (by rw [(hq _ _).2.2.1]; nofun), Nat.le_refl _, fun _ _ => rfl, fun h h1 h2 => absurd h2 (Nat.not_lt.mpr h1)⟩, rfl, .cannotCreate _ ⟨_, List.mem_cons_self, rfl⟩ (by rw [hp]; exact hc)⟩
  | false =>
    generalize hs1 : addHandle ⟨path, 0, true, true⟩ { s0 with
        env := [(str% "err", .nil), (str% "file", .file s0.nhandle), (str% "name", .str k), (str% "contents", .bytes b)] :: s.env
        time := s0.time + 1
        fs := fun n => if n = path then some ((s0.fs n).getD []) else s0.fs n } = s1
    have e0 : exec F w m17r0 s0 = some (.next, s1) := by
      have e : eval F w (.pcall (str% "os") (str% "OpenFile") a) s0 =
          some (.pair (.file s0.nhandle) .nil, addHandle ⟨path, 0, true, true⟩ { s0 with
            time := s0.time + 1
            fs := fun n => if n = path then some ((s0.fs n).getD []) else s0.fs n }) := by
        rw [eval, run_bind e1, lib_create w (outName k) 420 s0 (by rw [hp0]; exact hc), hp0]
      rw [e0, exec, if_pos rfl, run_bind (evals_one e)]
      subst hs1 hs0
      rfl
    have env1 : s1.env = [(str% "err", .nil), (str% "file", .file s0.nhandle), (str% "name", .str k), (str% "contents", .bytes b)] :: s.env := by
      rw [← hs1]; rfl
    have hh1 : s1.handles s0.nhandle = ⟨path, 0, true, true⟩ := by
      rw [← hs1]; exact if_pos rfl
    have e1 : exec F w m17r1 s1 = some (.next, s1) := report_none (by unfold getVar; rw [env1]; rfl)
    obtain ⟨v, hw⟩ := file_write w s0.nhandle b s1 (by rw [hh1]) (by rw [hh1])
    rw [hh1] at hw
    simp only [overwrite_start] at hw
    generalize hs2 : putHandle s0.nhandle ⟨path, 0 + writes w s1.time path b.length, true, true⟩ { s1 with
        env := [(str% "err", if (w.writeFault s1.time path).isSome then .err (w.message s1.time) else .nil), (str% "file", .file s0.nhandle),
          (str% "name", .str k), (str% "contents", .bytes b)] :: s.env
        time := s1.time + 1
        fs := put s1.fs path (b.take (writes w s1.time path b.length)) } = s2
    have e2 : exec F w m17r2 s1 = some (.next, s2) := by
      have vf : getVar (str% "file") s1 = some (.file s0.nhandle, s1) := by unfold getVar; rw [env1]; rfl
      have vc : getVar (str% "contents") s1 = some (.bytes b, s1) := by unfold getVar; rw [env1]; rfl
      have e := (show eval F w (.mcall (.id (str% "file")) (str% "Write") (.cons (.id (str% "contents")) .nil)) s1 =
          fileMethod w s0.nhandle (str% "Write") [.bytes b] s1 from by
        rw [eval, run_bind (eval_id vf), run_bind (evals_one (eval_id vc))]
        rfl).trans hw
      have ep : places F w (.cons (.id (str% "_")) (.cons (.id (str% "err")) .nil)) s1 = some ([.blank, .var (str% "err")], s1) := by
        rw [places, run_bind (show places F w (.cons (.id (str% "err")) .nil) s1 = some ([.var (str% "err")], s1) from by
          rw [places, run_bind (show places F w .nil s1 = some ([], s1) from by rw [places]; rfl)]; rfl)]
        rfl
      show exec F w (.assign (str% "=") _ _) s1 = _
      rw [exec, if_neg (by decide), if_pos rfl, run_bind ep, run_bind (evals_one e)]
      subst hs2 hs1
      rfl
    cases hf : w.writeFault s1.time path with
    | some n =>
      rw [hf] at hs2
      have hn : writes w s1.time path b.length = min n b.length := by unfold writes; rw [hf]
      have e3 := report_some (F := F) (w := w) (s := s2) (m := w.message s1.time)
        (fmt := str% "! unable to update contents of generated file. (%v)\n") (by subst hs2; rfl) (by subst hs2; rfl) rfl exec_continue
      refine ⟨.cont, _, run_inScope (by rw [hs0]; exact (exec_cons e0).trans ((exec_cons e1).trans ((exec_cons e2).trans (exec_cons_cont e3))))
        (by subst hs2; rfl), (fun _ h => nomatch h), ?_⟩
      have hfs : s2.fs = put fs path (b.take n) := by
        rw [← hs2, hn, ← List.take_eq_take_min]
        subst hs1 hs0 hs
        exact put_created _ _ _
      refine ⟨?_, ⟨?_, ?_, ?_, ?_, ?_⟩, ?_, ?_⟩
      · subst hs2 hs1 hs0 hs; rfl
      · subst hs2 hs1 hs0 hs; exact fun _ h => List.mem_cons_of_mem _ h
      · exact fun hq => absurd hf (by rw [(hq _ _).2.2.2]; nofun)
      · subst hs2 hs1 hs0 hs; exact Nat.le_succ _
      · intro h h1
        subst hs2 hs1 hs0 hs
        have : h ≠ nhandle := Nat.ne_of_lt h1
        show (if h = nhandle then _ else if h = nhandle then _ else _) = _
        rw [if_neg this, if_neg this]
      · intro h h1 h2 _
        have : h = nhandle := by subst hs2 hs1 hs0 hs; exact Nat.le_antisymm (Nat.le_of_lt_succ h2) h1
        subst this
        refine ⟨s1.time, n, .inr ?_⟩
        have : (s2.handles h).path = path := by
          subst hs2 hs1 hs0 hs; exact congrArg Handle.path (if_pos rfl)
        show w.writeFault s1.time (s2.handles h).path = _
        rw [this, hf]
      · subst hs2 hs1 hs0 hs; rfl
      · show Written w _ s.cwd s.fs k b s2.fs
        rw [hfs]
        subst hp hs
        exact .part s1.time n ⟨_, List.mem_cons_self, rfl⟩ hf
    | none =>
      rw [hf] at hs2
      have hn : writes w s1.time path b.length = b.length := by unfold writes; rw [hf]
      have e3 : exec F w m17r3 s2 = some (.next, s2) := report_none (by subst hs2; rfl)
      have hh2 : s2.handles s0.nhandle = ⟨path, 0 + writes w s1.time path b.length, true, true⟩ := by
        rw [← hs2]; exact if_pos rfl
      generalize hs3 : putHandle s0.nhandle { s2.handles s0.nhandle with isOpen := false } s2 = s3
      have e4 : exec F w m17r4 s2 = some (.next, s3) := by
        have e : eval F w (.mcall (.id (str% "file")) (str% "Close") .nil) s2 = some (.nil, s3) := by
          have vf : getVar (str% "file") s2 = some (.file s0.nhandle, s2) := by subst hs2; rfl
          rw [eval, run_bind (eval_id vf), run_bind (show evals F w .nil s2 = some ([], s2) from by rw [evals]; rfl), ← hs3]
          exact file_close w s0.nhandle s2 (by rw [hh2])
        show exec F w (.assign (str% "=") _ _) s2 = _
        rw [exec, if_neg (by decide), if_pos rfl, run_bind (show places F w (.cons (.id (str% "_")) .nil) s2 = some ([.blank], s2) from by
          rw [places, run_bind (show places F w .nil s2 = some ([], s2) from by rw [places]; rfl)]; rfl), run_bind (evals_one e)]
        rfl
      refine ⟨.next, _, run_inScope (by rw [hs0]; exact (exec_cons e0).trans ((exec_cons e1).trans ((exec_cons e2).trans ((exec_cons e3).trans
        ((exec_cons e4).trans (exec_nothing _)))))) (by subst hs3 hs2; rfl), (fun _ h => nomatch h), ?_⟩
      have hfs : s3.fs = put fs path b := by
        rw [← hs3, ← hs2, hn, List.take_length]
        subst hs1 hs0 hs
        exact put_created _ _ _
      refine ⟨?_, ⟨?_, ?_, ?_, ?_, ?_⟩, ?_, ?_⟩
      · subst hs3 hs2 hs1 hs0 hs; rfl
      · subst hs3 hs2 hs1 hs0 hs; exact fun _ h => h
      · subst hs3 hs2 hs1 hs0 hs; exact fun _ => rfl
      · subst hs3 hs2 hs1 hs0 hs; exact Nat.le_succ _
      · intro h h1
        subst hs3 hs2 hs1 hs0 hs
        have : h ≠ nhandle := Nat.ne_of_lt h1
        show (if h = nhandle then _ else if h = nhandle then _ else if h = nhandle then _ else _) = _
        rw [if_neg this, if_neg this, if_neg this]
      · intro h h1 h2 ho
        have : h = s0.nhandle := by subst hs3 hs2 hs1 hs0 hs; exact Nat.le_antisymm (Nat.le_of_lt_succ h2) h1
        subst this
        have : true = false := ho.symm.trans (by rw [← hs3]; exact congrArg Handle.isOpen (putHandle_self _ _ _))
        exact nomatch this
      · subst hs3 hs2 hs1 hs0 hs; rfl
      · show Written w _ s.cwd s.fs k b s3.fs
        rw [hfs]
        subst hp hs
        exact .all

/-- What becomes of the files when the outputs of a map are written in this order. -/
inductive Outputs (w : World) (L : Prop) (cwd : Str) (m : List (Str × Str)) : List Str → Fs → Fs → Prop where
  | nil {fs} : Outputs w L cwd m [] fs fs
  | cons {k c ks fs fs1 fs2} : (k, c) ∈ m → Written w L cwd fs k c fs1 → Outputs w L cwd m ks fs1 fs2 → Outputs w L cwd m (k :: ks) fs fs2

/-- The round of the loop for a key, as `rangeOver` runs it. -/
def round (F : Str → List V → M V) (w : World) (j : Nat) (keys : List Str) (key : Str) : M Ctl := do
  let s ← get
  match s.maps[j]? with
  | some m' => do
    let c ← inScope (bindings [(str% "name", .str key), (str% "contents", .bytes ((m'.lookup key).getD []))]) (exec F w m17r)
    let s' ← get
    match s'.maps[j]? with
    | some m'' => if m''.map (·.1) = keys then return c else fail
    | none => fail
  | none => fail

/-- The loop. -/
theorem exec_writes {F : Str → List V → M V} {w : World} {j : Nat} {ks : List Str} {m : List (Str × Str)} {s : S}
    (hm : s.maps[j]? = some m) (hn : (m.map (·.1)).Nodup) (hsub : ∀ k ∈ ks, k ∈ m.map (·.1)) :
    ∃ s', each (round F w j (m.map (·.1))) ks s = some (.next, s') ∧ Same s s' ∧ Closed w s s' ∧ s'.maps = s.maps ∧
      Outputs w (Loud s'.out) s.cwd m ks s.fs s'.fs := by
  induction ks generalizing s with
  | nil => exact ⟨s, rfl, .refl s, .refl w s, rfl, .nil⟩
  | cons k ks ih =>
    obtain ⟨⟨k', b⟩, hkb, rfl⟩ := List.mem_map.mp (hsub k List.mem_cons_self)
    obtain ⟨c, s1, h1, h2, h3, h4, h5, h6⟩ := exec_writeRound (F := F) (w := w) (k := k') (b := b) (s := s)
    obtain ⟨s2, g1, g2, g3, g4, g5⟩ := ih (s := s1) (by rw [h5]; exact hm) (fun k hk => hsub k (List.mem_cons_of_mem _ hk))
    refine ⟨s2, ?_, h3.trans g2, h4.trans g3, g4.trans h5, .cons hkb (h6.mono g3.loud) (by rw [h3.cwd] at g5; exact g5)⟩
    have hr : round F w j (m.map (·.1)) k' s = some (c, s1) := by
      unfold round
      rw [run_bind (run_get s), hm]
      simp only []
      rw [show (m.lookup k').getD [] = b from by rw [Complex.lookup_mem hn hkb]; rfl,
        show bindings [(str% "name", .str k'), (str% "contents", .bytes b)] = [(str% "name", .str k'), (str% "contents", .bytes b)] from rfl,
        run_bind h1, run_bind (run_get s1), h5, hm]
      simp only []
      exact congrFun (if_pos trivial) s1
    rw [each, run_bind hr]
    cases c with
    | next => exact g1
    | ret v => exact absurd rfl (h2 v)
    | cont => exact g1

end Main

end Crunch.Gen.Go
