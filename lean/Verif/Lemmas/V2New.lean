import Verif.Lemmas.V2Exec

/-! The v1 and v2 constructors are the v3 constructor. -/

namespace Crunch.V2
open Spec
open V3 (St WF getB modB onMem)

theorem for_eq_do {body : Int64 → Unit → GoM σ Unit} {n : Nat} (h : 0 < n) (hn : n < 2 ^ 63) :
    forLoop body (Int64.ofNat n) 0 () = doLoop body (Int64.ofNat n) 0 () := by
  rw [doLoop_pos _ _ h hn]
  exact forLoop_iter body n hn n 0 () (by omega)

/-- v2 `NewMiniBuffer` is v3 `NewMiniBuffer`. -/
theorem newMini_eq (slices : List Slice) (hl : slices.length < 2 ^ 63) : Mini.NewMiniBuffer slices = V3.Mini.NewMiniBuffer slices := by
  match slices with
  | [] => rfl
  | [_] => rfl
  | x :: y :: l =>
    have e : forLoop (fun i _ => V3.appendBody (x :: y :: l) i) (len (x :: y :: l)) 0 () =
        doLoop (fun i _ => V3.appendBody (x :: y :: l) i) (len (x :: y :: l)) 0 () :=
      for_eq_do (body := fun i _ => V3.appendBody (x :: y :: l) i) (by simp) hl
    have eb : (fun i (_ : Unit) => (do
        let x ← idx (x :: y :: l) i
        let b ← getB
        let data ← onMem fun h => (.ok (h.view x), h)
        let r ← onMem (appendBytes b.buf data)
        modB fun b => { b with buf := r } : GoM St Unit)) = fun i _ => V3.appendBody (x :: y :: l) i := by
      funext i _
      funext s
      unfold V3.appendBody
      rw [V3.getB_bind]
      unfold idx
      split
      · split
        · rfl
        · rfl
      · rfl
    unfold Mini.NewMiniBuffer V3.Mini.NewMiniBuffer
    simp only [eb, e]
    rfl

/-- The body of the v2 `NewBuffer` loop. -/
def newBody (slices : List Slice) (i : Int64) : Prog Unit := do
  let x ← Prog.idx slices i
  let s ← Prog.buf
  let r ← Prog.appendTo s (.mem x)
  Prog.assignBuf r

theorem appendTo_mem_run {st : St} (s : Slice) {x : Slice} (hx : SliceOK st.mem x) (l : Bool) :
    (Prog.appendTo s (.mem x)).run ⟨st, l⟩ = (Prog.appendTo s (.lit (st.mem.view x))).run ⟨st, l⟩ := by
  have hl := length_view hx
  unfold Prog.appendTo
  rw [show (Src.mem x).len = x.len from rfl, show (Src.lit (st.mem.view x)).len = (st.mem.view x).length from rfl, hl]
  split
  · have e : appendMem s (.mem x) st.mem = appendMem s (.lit (st.mem.view x)) st.mem := by
      unfold appendMem
      rfl
    show (Res.ok (appendMem s (.mem x) st.mem).1, (⟨⟨(appendMem s (.mem x) st.mem).2, st.b⟩, l⟩ : Sh)) = _
    rw [e]
    rfl
  · rfl

theorem newBody_run {st : St} (slices : List Slice) (hl : slices.length < 2 ^ 63) {i : Nat} (hi : i < slices.length)
    (hs : SliceOK st.mem slices[i]) (l : Bool) :
    (newBody slices (Int64.ofNat i)).run ⟨st, l⟩ = lift (V3.appendBody slices (Int64.ofNat i)) ⟨st, l⟩ := by
  have e : Prog.idx slices (Int64.ofNat i) = .ret slices[i] := by
    unfold Prog.idx
    rw [toInt_ofNat (by omega), if_pos (by omega), Int.toNat_natCast, List.getElem?_eq_getElem hi]
  unfold newBody V3.appendBody
  rw [e]
  show (Prog.appendTo st.b.buf (.mem slices[i]) >>= fun r => Prog.assignBuf r).run ⟨st, l⟩ = _
  rw [Prog.run_bind', bind_run, appendTo_mem_run _ hs, Prog.run_appendTo_lit]
  simp only [lift]
  rw [V3.getB_bind, idx_ofNat hi hl]
  show _ = (((onMem (appendBytes st.b.buf (st.mem.view slices[i])) >>= fun r => modB fun b => { b with buf := r }) st).1,
    (⟨((onMem (appendBytes st.b.buf (st.mem.view slices[i])) >>= fun r => modB fun b => { b with buf := r }) st).2, l⟩ : Sh))
  rw [bind_run]
  cases onMem (appendBytes st.b.buf (st.mem.view slices[i])) st with
  | mk r t => cases r <;> rfl

theorem newLoop_run {m0 : Heap} (slices : List Slice) (hl : slices.length < 2 ^ 63) (hs : ∀ t ∈ slices, SliceOK m0 t) (l : Bool) :
    ∀ (c i : Nat) (s : St), i + c = slices.length → V3.Built m0 s (V3.cat m0 (slices.take i)) →
      (V3.cat m0 (slices.take i)).length ≤ maxAlloc →
      iter (fun k _ => (newBody slices (Int64.ofNat k)).run) c i () ⟨s, l⟩ =
        lift (iter (fun k _ => V3.appendBody slices (Int64.ofNat k)) c i ()) ⟨s, l⟩ := by
  intro c
  induction c with
  | zero => intro i s hi hb hx; rfl
  | succ c ih =>
    intro i s hi hb hx
    have hi' : i < slices.length := by omega
    have e : V3.cat m0 (slices.take (i + 1)) = V3.cat m0 (slices.take i) ++ m0.view slices[i] := by
      unfold V3.cat; rw [List.take_succ_eq_append_getElem hi', List.flatMap_append, List.flatMap_singleton]
    obtain ⟨r1, r2⟩ := V3.appendBody_run hb slices hl hs hi'
    rw [← List.length_append, ← e] at r1 r2
    have eb := newBody_run slices hl hi' (hb.slices _ (hs _ (List.getElem_mem hi'))) l
    unfold iter
    rw [bind_run, eb]
    simp only [lift]
    rw [bind_run]
    by_cases hf : (V3.cat m0 (slices.take (i + 1))).length ≤ maxAlloc
    · obtain ⟨s1, h1, h2⟩ := r1 hf
      rw [h1]
      exact ih (i + 1) s1 (by omega) h2 hf
    · rw [r2 (by omega)]

/-- v2 `NewBuffer` is v3 `NewBuffer`. -/
theorem newBuffer_v3 (slices : List Slice) (s : St) (hl : slices.length < 2 ^ 63) (hs : ∀ t ∈ slices, SliceOK s.mem t) :
    (Buffer.NewBuffer slices).run ⟨s, false⟩ = ((V3.Buffer.NewBuffer slices s).1, ⟨(V3.Buffer.NewBuffer slices s).2, false⟩) := by
  match slices, hl, hs with
  | [], _, _ => rfl
  | [_], _, _ => rfl
  | x :: y :: t, hl, hs =>
    have e1 : (Buffer.NewBuffer (x :: y :: t)).run ⟨s, false⟩ =
        (Prog.forLoop (fun i _ => newBody (x :: y :: t) i) (len (x :: y :: t)) 0 () >>= fun _ => Buffer.refresh).run
          ⟨V3.emptyAt s.mem, false⟩ := rfl
    have e2 : V3.Buffer.NewBuffer (x :: y :: t) s =
        (doLoop (fun i _ => V3.appendBody (x :: y :: t) i) (len (x :: y :: t)) 0 () >>= fun _ => V3.Buffer.Refresh) (V3.emptyAt s.mem) := rfl
    rw [e1, e2, Prog.run_bind', Prog.run_forLoop]
    unfold len
    rw [doLoop_pos _ _ (by simp) hl, bind_run]
    have e3 := forLoop_iter (fun i (_ : Unit) => (newBody (x :: y :: t) i).run) (x :: y :: t).length hl (x :: y :: t).length 0 () (by omega)
    have e4 := newLoop_run (m0 := s.mem) (x :: y :: t) hl hs false (x :: y :: t).length 0 (V3.emptyAt s.mem) (by omega)
        (by simpa [V3.cat] using V3.emptyAt_built s.mem) (by simp [V3.cat])
    rw [show (0 : Int64) = Int64.ofNat 0 from rfl, e3, e4]
    simp only [lift]
    rw [bind_run]
    generalize iter (fun k _ => V3.appendBody (x :: y :: t) (Int64.ofNat k)) (x :: y :: t).length 0 () (V3.emptyAt s.mem) = q
    obtain ⟨r, u⟩ := q
    cases r with
    | ok a => exact refresh_alone u
    | panic p => rfl

end Crunch.V2
