import Verif.Props.Mixed
import Verif.Props.Footprints
import Verif.Props.UnlockedFoot
import Verif.Props.UnlockedFootV2
import Verif.Props.UnlockedFootV1

/-!
# Buffers of any type that share bytes (C145)
-/

namespace Crunch.Wire
open V3 (St WF Iso abs demo demo_wf Buf)
open Src hiding St
open Gen (Str)

/-! ## a call leaves the slice of the buffer as it is -/

theorem keep2 {op : V2.Op2} {s : St} {o : V3.Outs} (h : WF s) (hs : Sound s o op) (b : Bool) : ((V2.exec op).run ⟨s, b⟩).2.st.b.buf = s.b.buf :=
  V2.C113_frame (s := ⟨s, b⟩) h op (by cases op <;> first | rfl | cases hs) (l := .header) id

theorem keep1 {op : V2.Op2} {s : St} {o : V3.Outs} (h : WF s) (hs : Sound s o op) (b : Bool) : ((V1.exec1 (one op)).run ⟨s, b⟩).2.st.b.buf = s.b.buf :=
  V1.C113_v1_frame (s := ⟨s, b⟩) h (one op) (by cases op <;> first | rfl | cases hs) (l := .header) id

theorem keep3m {op : V2.Op2} {s : St} {o : V3.Outs} (h : WF s) (hs : Sound s o op) (hb : InMini op) {m : GoM St V3.Val} (hm : V3.miniCall o (three op) = some m) :
    (m s).2.b.buf = s.b.buf := by
  by_cases hr : op = .refresh
  · subst hr; cases hm; rfl
  · have k := (V3Mini.keeps (o, three op) ⟨fits3 (.inl hs), by rw [hm]; rfl⟩ (by
      cases op with
      | setBit p v => rcases hs with rfl | rfl <;> rfl
      | refresh => exact absurd rfl hr
      | grow _ => cases hs
      | reset => cases hs
      | writeByte => cases hb
      | _ => rfl) s h.sized).2
    have e : modelMini (o, three op) s = (goRes (m s).1, (m s).2) := by unfold modelMini; rw [hm]
    rw [e] at k; exact k

theorem keep2m {op : V2.Op2} {s : St} {o : V3.Outs} (h : WF s) (hs : Sound s o op) {m : GoM St V3.Val} (hm : V2.miniCall o op = some m) :
    (m s).2.b.buf = s.b.buf := by
  by_cases hr : op = .refresh
  · subst hr; cases hm; rfl
  · have k := (V2Mini.keeps (o, op) ⟨fits2 (.inl hs), by rw [hm]; rfl⟩ (by
      cases op with
      | refresh => exact absurd rfl hr
      | grow _ => cases hs
      | reset => cases hs
      | _ => rfl) s h.sized).2
    have e : modelMini2 (o, op) s = (goRes (m s).1, (m s).2) := by unfold modelMini2; rw [hm]
    rw [e] at k; exact k

theorem keep1m {op : V2.Op2} {s : St} {o : V3.Outs} {any : V1.Any} (h : WF s) (hs : Sound s o op) {m : GoM St V1.Val1}
    (hm : V1.miniCall1 o any (one op) = some m) : (m s).2.b.buf = s.b.buf := by
  by_cases hr : op = .refresh
  · subst hr; cases hm; rfl
  · have k := (V1Mini.keeps (o, any, one op) ⟨fits1 (.inl hs), by rw [hm]; rfl⟩ (by
      cases op with
      | refresh => exact absurd rfl hr
      | grow _ => cases hs
      | reset => cases hs
      | _ => rfl) s (V1Mini.inv h)).2
    have e : modelMini1 (o, any, one op) s = (goRes1 (m s).1, (m s).2) := by unfold modelMini1; rw [hm]
    rw [e] at k; exact k

theorem keep3 {op : V2.Op2} {s : St} {o : V3.Outs} (h : WF s) (hs : Sound s o op) : (V3.exec (three op) s).2.b.buf = s.b.buf := by
  by_cases hr : op = .refresh
  · subst hr; rfl
  · by_cases hw : ∃ p v, op = .writeByte p v
    · obtain ⟨p, v, rfl⟩ := hw
      have adv : ∀ (d : Int64) (r : Res V3.Val × St), (V3.advance d r).2.b.buf = r.2.b.buf := by
        intro d r; rcases r with ⟨_ | _, _⟩ <;> rfl
      have this : ∀ o, (V3.Buffer.WriteByte o v s).2.b.buf = s.b.buf := by
        intro o; rw [V3.buffer_writeByte_run h]; split <;> rfl
      have hw : ∀ {α : Type} (f : α → V3.Val) (r : Res α × St), (V3.wrapRes f r).2 = r.2 := by
        intro α f r; rcases r with ⟨_ | _, _⟩ <;> rfl
      cases p with
      | some o => show (V3.exec (.writeByte (some o) v) s).2.b.buf = _; simp only [V3.exec, V3.wrapVal_run, hw, this]
      | none => show (V3.exec (.writeByte none v) s).2.b.buf = _; simp only [V3.exec, V3.wrapVal_run, V3.writeByteNext_run, V3.wrap_advance, adv, hw, this]
    · exact (V3Buffer.keeps (three op) (fits3 (.inl hs)) (by
        cases op with
        | setBit p v => rcases hs with rfl | rfl <;> rfl
        | refresh => exact absurd rfl hr
        | grow _ => cases hs
        | reset => cases hs
        | writeByte p v => exact absurd ⟨p, v, rfl⟩ hw
        | _ => rfl) s h.sized).2

theorem end_V {f : GoM (St × V) V} {s t t' : St} {w : Res V} {x : V} {v : Ref.Val} (hf : f (s, x) = (w, (t, x))) (hx : x = .unit)
    (h : (endedV f s).map (fun r => (seen r.2.mem r.1, r.2)) = some (v, t')) : t' = t := by
  subst hx
  unfold endedV at h
  rw [hf] at h
  cases w with
  | ok a => cases h; rfl
  | panic p => cases h

theorem end_P {f : Prog V} {s t' : St} {w : Res V × Sh} {v : Ref.Val} (hf : f.run ⟨s, false⟩ = w)
    (h : (endedP f s).map (fun r => (seen r.2.mem r.1, r.2)) = some (v, t')) : t' = w.2.st := by
  unfold endedP endedFree at h
  rw [hf] at h
  obtain ⟨a, b⟩ := w
  split at h
  · cases h
  · cases a with
    | ok a => cases h; rfl
    | panic p => cases h

/-- The call leaves the slice of the buffer as it is. -/
theorem kept {T : Texts} (hT : T.Parsed) {fuel depth : Nat} (hf : 2 ^ 64 < fuel) (hd : 4 ≤ depth) {u : Use} {s t : St} (h : WF s) (hg : u.Good s)
    {v : Ref.Val} (hr : u.run T fuel depth s = some (v, t)) : t.b.buf = s.b.buf := by
  obtain ⟨lib, op, o, any⟩ := u
  obtain ⟨hs, hoff, ho⟩ := hg
  dsimp only at hs hoff ho
  have hd3 : 3 ≤ depth := by omega
  cases lib with
  | v3 =>
    obtain ⟨funs, hc, hh⟩ := C81_buffer_text
    cases hc.symm.trans hT.v3
    rw [end_V (hh fuel depth hf hd3 _ (fits3 (.inl hs)) s .unit) rfl hr]; exact keep3 h hs
  | v3mini =>
    obtain ⟨funs, hc, hh⟩ := C82_mini_text
    cases hc.symm.trans hT.v3mini
    have hb := hoff (by decide)
    obtain ⟨m, hm⟩ := mini3 (.inl hs) hb
    rw [end_V (hh fuel depth hf hd3 o _ (fits3 (.inl hs)) m hm s .unit) rfl hr]; exact keep3m h hs hb hm
  | v2 =>
    obtain ⟨funs, hc, hh⟩ := C86_alone_text
    cases hc.symm.trans hT.v2
    rw [end_P (hh fuel depth hf hd op (fits2 (.inl hs)) ⟨s, false⟩) hr]; exact keep2 h hs false
  | v2mini =>
    obtain ⟨funs, hc, hh⟩ := C84_mini_text
    cases hc.symm.trans hT.v2mini
    obtain ⟨m, hm⟩ := mini2 (.inl hs) (hoff (by decide))
    rw [end_V (hh fuel depth hf hd o _ (fits2 (.inl hs)) m hm s .unit) rfl hr]; exact keep2m h hs hm
  | v1 =>
    obtain ⟨funs, hc, hh⟩ := C87_alone_text
    cases hc.symm.trans hT.v1
    rw [end_P (hh fuel depth hf hd (one op) (fits1 (.inl hs)) ⟨s, false⟩) hr]; exact keep1 h hs false
  | v1mini =>
    obtain ⟨funs, hc, hh⟩ := C85_mini_text
    cases hc.symm.trans hT.v1mini
    obtain ⟨m, hm⟩ := mini1 (any := any) (.inl hs) (hoff (by decide))
    rw [end_V (hh fuel depth hf hd o any _ (fits1 (.inl hs)) m hm s .unit) rfl hr]; exact keep1m h hs hm

/-! ## buffers that share bytes -/

/-- The calls `l` one after the other, each on the buffer with its number: the results, memory and the buffers afterwards; `none` if one of them fails. -/
def runShared (T : Texts) (fuel depth : Nat) : List (Nat × Use) → Heap → (Nat → Buf) → Option (List Ref.Val × Heap × (Nat → Buf))
  | [], m, b => some ([], m, b)
  | (i, u) :: l, m, b => (u.run T fuel depth ⟨m, b i⟩).bind fun r =>
    (runShared T fuel depth l r.2.mem fun j => if j = i then r.2.b else b j).map fun t => (r.1 :: t.1, t.2)

/-- Bytes in arrays, and two offsets for each of the slices that show some of them. -/
structure Pool where
  arrays : Nat → List UInt8
  cur : Nat → Int
  bcur : Nat → Int

/-- What the slice `w i` shows, with its offsets. -/
def Pool.look (w : Nat → Slice) (x : Pool) (i : Nat) : Ref.Ref :=
  { data := ((x.arrays (w i).arr).drop (w i).off).take (w i).len
    spare := (((x.arrays (w i).arr).drop (w i).off).take (w i).cap).drop (w i).len
    cur := x.cur i
    bcur := x.bcur i }

/-- The bytes that the slice `w i` shows are replaced, and so are its offsets. -/
def Pool.put (w : Nat → Slice) (x : Pool) (i : Nat) (r : Ref.Ref) : Pool :=
  { arrays := fun a => if a = (w i).arr then
      (x.arrays a).take (w i).off ++ (r.data ++ r.spare) ++ (x.arrays a).drop ((w i).off + (w i).cap) else x.arrays a
    cur := fun j => if j = i then r.cur else x.cur j
    bcur := fun j => if j = i then r.bcur else x.bcur j }

/-- The call with the bytes that its argument shows now. -/
def Pool.lower (x : Pool) : V3.Op → Ref.Op
  | .writeBytes p src => .writeBytes (p.map Int64.toInt) (((x.arrays src.arr).drop src.off).take src.len)
  | op => op.lower ⟨[], fun _ _ => 0⟩

/-- The reference machine of the v3 `Buffer` on slices that share bytes; `none` if a call panics. -/
def together (w : Nat → Slice) : List (Nat × V3.Op) → Pool → Option (List Ref.Val × Pool)
  | [], x => some ([], x)
  | (i, op) :: l, x => match Ref.step (x.lower op) (x.look w i) with
    | (.ok v, r) => (together w l (x.put w i r)).map fun t => (v :: t.1, t.2)
    | (.panic _, _) => none

/-- The buffers `b` in memory are over the slices `w`, and the first `n` arrays are those of the pool. -/
structure Pool.Is (w : Nat → Slice) (n : Nat) (x : Pool) (m : Heap) (b : Nat → Buf) : Prop where
  wf : ∀ i, WF ⟨m, b i⟩
  buf : ∀ i, (b i).buf = w i
  here : ∀ i, (w i).arr < n
  more : n ≤ m.arrays.length
  bytes : ∀ a, a < n → x.arrays a = m.array a
  cur : ∀ i, x.cur i = (b i).off.toInt
  bcur : ∀ i, x.bcur i = (b i).boff.toInt

/-- Calls on buffers in memory that make sense, where the bytes to write are in the first `n` arrays, and not in the array of the buffer they are written to;
they may be bytes of another buffer. -/
def Fair (n : Nat) (m : Heap) (b : Nat → Buf) (l : List (Nat × Use)) : Prop :=
  ∀ p ∈ l, p.2.Good ⟨m, b p.1⟩ ∧ ∀ pos src, p.2.op = .writeBytes pos src → src.arr < n

theorem Pool.Is.look {w : Nat → Slice} {n : Nat} {x : Pool} {m : Heap} {b : Nat → Buf} (h : x.Is w n m b) (i : Nat) : x.look w i = abs ⟨m, b i⟩ := by
  unfold Pool.look abs
  rw [h.bytes _ (h.here i), h.cur, h.bcur, ← h.buf]; rfl

theorem Pool.Is.lower {w : Nat → Slice} {n : Nat} {x : Pool} {m : Heap} {b : Nat → Buf} (h : x.Is w n m b) {s : St} {o : V3.Outs} {op : V2.Op2} (hs : Sound s o op)
    (ho : ∀ pos src, op = .writeBytes pos src → src.arr < n) : x.lower (three op) = (three op).lower m := by
  cases op with
  | writeBytes p src =>
    show Ref.Op.writeBytes _ _ = Ref.Op.writeBytes _ _
    rw [h.bytes _ (ho _ _ rfl)]; rfl
  | setBit p v => rcases hs with rfl | rfl <;> rfl
  | grow _ => cases hs
  | reset => cases hs
  | _ => rfl

/-- The array of a buffer after a call, made of what the buffer shows and of what was around it. -/
theorem array_after {s t : St} (hi : Iso s t) (ht : WF t) (hs : WF s) (ha : s.b.buf.arr < s.mem.arrays.length) (hb : t.b.buf = s.b.buf) :
    t.mem.array s.b.buf.arr = (s.mem.array s.b.buf.arr).take s.b.buf.off ++ ((abs t).data ++ (abs t).spare) ++
      (s.mem.array s.b.buf.arr).drop (s.b.buf.off + s.b.buf.cap) := by
  have k1 := hs.ok.fits; have k2 := hs.ok.len_le; have k3 := ht.ok.fits; have k4 := ht.ok.len_le
  rw [hb] at k3 k4
  have e : (abs t).data ++ (abs t).spare = ((t.mem.array s.b.buf.arr).drop s.b.buf.off).take s.b.buf.cap := by
    show ((t.mem.array t.b.buf.arr).drop t.b.buf.off).take t.b.buf.len ++ (((t.mem.array t.b.buf.arr).drop t.b.buf.off).take t.b.buf.cap).drop t.b.buf.len = _
    rw [hb]
    have : ((t.mem.array s.b.buf.arr).drop s.b.buf.off).take s.b.buf.len =
        (((t.mem.array s.b.buf.arr).drop s.b.buf.off).take s.b.buf.cap).take s.b.buf.len := by rw [List.take_take, Nat.min_eq_left k2]
    rw [this, List.take_append_drop]
  rw [e]
  have e1 : (s.mem.array s.b.buf.arr).take s.b.buf.off = (t.mem.array s.b.buf.arr).take s.b.buf.off := by
    refine List.ext_getElem? fun i => ?_
    rw [List.getElem?_take, List.getElem?_take]
    split
    · exact (hi.outside _ i ha (by omega)).symm
    · rfl
  have e2 : (s.mem.array s.b.buf.arr).drop (s.b.buf.off + s.b.buf.cap) = (t.mem.array s.b.buf.arr).drop (s.b.buf.off + s.b.buf.cap) := by
    refine List.ext_getElem? fun i => ?_
    rw [List.getElem?_drop, List.getElem?_drop]
    exact (hi.outside _ _ ha (by omega)).symm
  rw [e1, e2, List.append_assoc, ← List.drop_drop, List.take_append_drop, List.take_append_drop]

/-- One call. -/
theorem Pool.Is.after {w : Nat → Slice} {n : Nat} {x : Pool} {m : Heap} {b : Nat → Buf} (h : x.Is w n m b) (i : Nat) {t : St} (hi : Iso ⟨m, b i⟩ t) (ht : WF t)
    (hb : t.b.buf = (b i).buf) : (x.put w i (abs t)).Is w n t.mem fun j => if j = i then t.b else b j := by
  have hn := h.more
  refine ⟨fun j => ?_, fun j => ?_, h.here, Nat.le_trans hn hi.more, fun a ha => ?_, fun j => ?_, fun j => ?_⟩
  · split
    · exact ht
    · exact ⟨hi.slices _ (h.wf j).ok, (h.wf j).cap, (h.wf j).bcap⟩
  · split
    · next e => subst e; exact hb.trans (h.buf _)
    · exact h.buf j
  · show (if a = (w i).arr then _ else _) = _
    split
    · next e =>
      have k := array_after hi ht (h.wf i) (by show (b i).buf.arr < _; rw [h.buf]; exact Nat.lt_of_lt_of_le (h.here i) hn) hb
      rw [h.bytes a ha, e]
      rw [show (⟨m, b i⟩ : St).b.buf = w i from h.buf i] at k
      exact k.symm
    · next e =>
      rw [h.bytes a ha]
      exact List.ext_getElem? fun k => (hi.outside _ k (Nat.lt_of_lt_of_le ha hn) (.inl (by show _ ≠ (b i).buf.arr; rw [h.buf]; exact e))).symm
  · show (if j = i then _ else _) = _
    split
    · rfl
    · exact h.cur j
  · show (if j = i then _ else _) = _
    split
    · rfl
    · exact h.bcur j

theorem fair_after {n : Nat} {l : List (Nat × Use)} {m : Heap} {b : Nat → Buf} {q : Nat × Use} {i : Nat} {t : St} (hg : Fair n m b (q :: l))
    (h : Iso ⟨m, b i⟩ t) : Fair n t.mem (fun j => if j = i then t.b else b j) l := by
  intro p hp
  obtain ⟨g, ho⟩ := hg p (List.mem_cons_of_mem _ hp)
  refine ⟨?_, ho⟩
  dsimp only
  split
  · next e => rw [e] at g; exact g.later h
  · obtain ⟨g1, g2, g3⟩ := g
    refine ⟨?_, g2, g3⟩
    generalize p.2.outs = o at *
    generalize p.2.op = op at *
    cases op with
    | writeBytes p src =>
      obtain ⟨a1, a2, a3, a4⟩ := g1
      exact ⟨h.slices _ a1, Nat.lt_of_lt_of_le a2 h.more, a3, a4⟩
    | _ => exact g1

theorem all_shared {T : Texts} (hT : T.Parsed) {fuel depth : Nat} (hf : 2 ^ 64 < fuel) (hd : 4 ≤ depth) (w : Nat → Slice) (n : Nat) (l : List (Nat × Use))
    {x : Pool} {m : Heap} {b : Nat → Buf} (h : x.Is w n m b) (hg : Fair n m b l) {vs : List Ref.Val} {y : Pool}
    (hr : together w (l.map fun p => (p.1, three p.2.op)) x = some (vs, y)) : ∃ m' b', runShared T fuel depth l m b = some (vs, m', b') ∧ y.Is w n m' b' := by
  induction l generalizing x m b vs y with
  | nil => cases hr; exact ⟨m, b, rfl, h⟩
  | cons p l ih =>
    obtain ⟨i, u⟩ := p
    obtain ⟨hu, ho⟩ := hg _ (List.mem_cons_self ..)
    dsimp only at hu ho
    rw [List.map_cons] at hr
    unfold together at hr
    dsimp only at hr
    rw [h.look, h.lower hu.sound ho] at hr
    cases hq : Ref.step ((three u.op).lower m) (abs ⟨m, b i⟩) with
    | mk r q =>
      rw [hq] at hr
      cases r with
      | panic p => cases hr
      | ok v =>
        dsimp only at hr
        obtain ⟨t, t1, t2, t3, t4⟩ := (made hT hf hd (h.wf i) hu hq).ok
        subst t4
        have k := h.after i t3 t2 (kept hT hf hd (h.wf i) hu t1)
        cases hx : together w (l.map fun p => (p.1, three p.2.op)) (x.put w i (abs t)) with
        | none => rw [hx] at hr; cases hr
        | some z =>
          rw [hx] at hr
          cases hr
          obtain ⟨m', b', a1, a2⟩ := ih k (fair_after hg t3) (vs := z.1) (y := z.2) hx
          refine ⟨m', b', ?_, a2⟩
          unfold runShared
          rw [t1, Option.bind_some]
          dsimp only
          rw [a1]; rfl

/-- C145: the texts of the six buffer types are read as programs, and for these programs, all buffers of these types, whatever bytes they share, and every list
of calls on them that the versions share, where the bytes to write may be those of another buffer: if the reference machine, which keeps all bytes once and two
offsets for each buffer, panics in none of the calls, all succeed with its results, and all bytes of memory and the offsets of each buffer end as there. -/
theorem C145_shared : ∃ T : Texts, T.Parsed ∧ ∀ (fuel depth : Nat), 2 ^ 64 < fuel → 4 ≤ depth → ∀ (w : Nat → Slice) (n : Nat) (x : Pool) (m : Heap) (b : Nat → Buf),
    x.Is w n m b → ∀ (l : List (Nat × Use)), Fair n m b l → ∀ (vs : List Ref.Val) (y : Pool), together w (l.map fun p => (p.1, three p.2.op)) x = some (vs, y) →
    ∃ m' b', runShared T fuel depth l m b = some (vs, m', b') ∧ y.Is w n m' b' := by
  obtain ⟨T, hT⟩ := parsed
  exact ⟨T, hT, fun fuel depth hf hd w n x m b h l hg vs y hr => all_shared hT hf hd w n l h hg hr⟩

/-- What one call from the text of the v3 `Buffer` does, the reference machine does. -/
theorem v3_step {T : Texts} (hT : T.Parsed) {fuel depth : Nat} (hf : 2 ^ 64 < fuel) (hd : 4 ≤ depth) {u : Use} {s t : St} (h : WF s) (hs : Sound s u.outs u.op)
    (hl : u.lib = .v3) {v : Ref.Val} (hr : u.run T fuel depth s = some (v, t)) : Ref.step ((three u.op).lower s.mem) (abs s) = (.ok v, abs t) := by
  have k := v3_succeeds hT hf hd [u] (t := t) (vs := [v]) h (fun x hx => by cases List.mem_singleton.1 hx; exact hs)
    (fun x hx => by cases List.mem_singleton.1 hx; exact hl) (by unfold runAll; rw [hr]; rfl)
  rw [List.map_cons, List.map_nil] at k
  unfold succeeds at k
  split at k
  · next e => rw [e]; cases k; rfl
  · cases k

theorem v3_shared {T : Texts} (hT : T.Parsed) {fuel depth : Nat} (hf : 2 ^ 64 < fuel) (hd : 4 ≤ depth) (w : Nat → Slice) (n : Nat) (l : List (Nat × Use))
    {x : Pool} {m m' : Heap} {b b' : Nat → Buf} (h : x.Is w n m b) (hg : Fair n m b l) (hl : ∀ p ∈ l, p.2.lib = .v3) {vs : List Ref.Val}
    (hr : runShared T fuel depth l m b = some (vs, m', b')) : ∃ y : Pool, together w (l.map fun p => (p.1, three p.2.op)) x = some (vs, y) ∧ y.Is w n m' b' := by
  induction l generalizing x m b vs with
  | nil => cases hr; exact ⟨x, rfl, h⟩
  | cons p l ih =>
    obtain ⟨i, u⟩ := p
    obtain ⟨hu, ho⟩ := hg _ (List.mem_cons_self ..)
    dsimp only at hu ho
    unfold runShared at hr
    cases hq : u.run T fuel depth ⟨m, b i⟩ with
    | none => rw [hq] at hr; cases hr
    | some r =>
      obtain ⟨v, t⟩ := r
      rw [hq, Option.bind_some] at hr
      dsimp only at hr
      have ks := v3_step hT hf hd (h.wf i) hu.sound (hl _ (List.mem_cons_self ..)) hq
      obtain ⟨t', t1, t2, t3, _⟩ := (made hT hf hd (h.wf i) hu ks).ok
      cases hq.symm.trans t1
      have k := h.after i t3 t2 (kept hT hf hd (h.wf i) hu hq)
      cases hx : runShared T fuel depth l t.mem (fun j => if j = i then t.b else b j) with
      | none => rw [hx] at hr; cases hr
      | some z =>
        rw [hx] at hr
        obtain ⟨z1, z2, z3⟩ := z
        cases hr
        obtain ⟨y, y1, y2⟩ := ih k (fair_after hg t3) (fun p hp => hl p (List.mem_cons_of_mem _ hp)) hx
        refine ⟨y, ?_, y2⟩
        rw [List.map_cons]
        unfold together
        dsimp only
        rw [h.look, h.lower hu.sound ho, ks]
        dsimp only
        rw [y1]; rfl

/-- C145: so the types of buffers that share bytes can be exchanged.  A list of such calls that succeeds with v3 `Buffer`s succeeds whichever type each call is
made through, with the same results, and all bytes and the offsets of every buffer end the same. -/
theorem C145_as_v3 : ∃ T : Texts, T.Parsed ∧ ∀ (fuel depth : Nat), 2 ^ 64 < fuel → 4 ≤ depth → ∀ (w : Nat → Slice) (n : Nat) (x : Pool) (m : Heap) (b : Nat → Buf),
    x.Is w n m b → ∀ (l : List (Nat × Use)), Fair n m b l → ∀ (vs : List Ref.Val) (m3 : Heap) (b3 : Nat → Buf),
    runShared T fuel depth (l.map fun p => (p.1, { p.2 with lib := .v3 })) m b = some (vs, m3, b3) →
    ∃ m' b', runShared T fuel depth l m b = some (vs, m', b') ∧ (∀ a, a < n → m'.array a = m3.array a) ∧
      ∀ i, (b' i).buf = w i ∧ (b' i).off = (b3 i).off ∧ (b' i).boff = (b3 i).boff := by
  obtain ⟨T, hT⟩ := parsed
  refine ⟨T, hT, fun fuel depth hf hd w n x m b h l hg vs m3 b3 hr => ?_⟩
  obtain ⟨y, y1, y2⟩ := v3_shared hT hf hd w n _ h (by
    intro p hp
    obtain ⟨q, hq, rfl⟩ := List.mem_map.1 hp
    obtain ⟨g, ho⟩ := hg q hq
    exact ⟨⟨g.sound, fun e => absurd (show Lib.v3 = .v1mini ∨ Lib.v3 = .v2mini ∨ Lib.v3 = .v3mini from e) (by decide), g.outs⟩, ho⟩) (by
    intro p hp
    obtain ⟨q, hq, rfl⟩ := List.mem_map.1 hp
    rfl) hr
  rw [List.map_map] at y1
  obtain ⟨m', b', a1, a2⟩ := all_shared hT hf hd w n l h hg (vs := vs) (y := y) y1
  exact ⟨m', b', a1, fun a ha => (a2.bytes a ha).symm.trans (y2.bytes a ha), fun i => ⟨a2.buf i, Int64.toInt_inj.mp ((a2.cur i).symm.trans (y2.cur i)),
    Int64.toInt_inj.mp ((a2.bcur i).symm.trans (y2.bcur i))⟩⟩

/-- `demo`, a buffer over a shorter slice that begins two bytes later, and any number of buffers over the bytes of another array. -/
def someBufs : Nat → Buf
  | 0 => demo.b
  | 1 => { buf := { arr := 0, off := 4, len := 6, cap := 8 }, off := 0, cap := 6, boff := 0, bcap := 48 }
  | _ => { buf := { arr := 1, off := 0, len := 3, cap := 3 }, off := 1, cap := 3, boff := 0, bcap := 24 }

def somePool : Pool := ⟨demo.mem.array, fun i => (someBufs i).off.toInt, fun i => (someBufs i).boff.toInt⟩

theorem somePool_is : somePool.Is (fun i => (someBufs i).buf) 2 demo.mem someBufs := by
  refine ⟨fun i => ?_, fun i => rfl, fun i => ?_, Nat.le_refl 2, fun _ _ => rfl, fun _ => rfl, fun _ => rfl⟩
  · match i with
    | 0 => exact demo_wf
    | 1 => exact ⟨⟨by decide, by decide, by decide⟩, by decide, by decide⟩
    | i + 2 => exact (⟨⟨by decide, by decide, by decide⟩, by decide, by decide⟩ : WF ⟨demo.mem, someBufs 2⟩)
  · match i with
    | 0 => exact (by decide : (0 : Nat) < 2)
    | 1 => exact (by decide : (0 : Nat) < 2)
    | i + 2 => exact (by decide : (1 : Nat) < 2)

/-- An integer written with v1 through the first buffer and read with a v2 `MiniBuffer` through the second, where it is the first; a bit set with a v3
`MiniBuffer` there and seen with v3 through the first; both bytes copied with v2 to the third buffer, and seen there with v1 through a fourth. -/
def sharedUses : List (Nat × Use) :=
  [(0, ⟨.v1, .write .u16 .be (some 2) ([0x0102] : List UInt16), oneVar, .other⟩), (1, ⟨.v2mini, .read .u16 .be (some 0) 1, oneVar, .other⟩),
   (1, ⟨.v3mini, .setBit (some 0) 1, oneVar, .other⟩), (0, ⟨.v3, .readByte (some 2), oneVar, .other⟩),
   (2, ⟨.v2, .writeBytes none { arr := 0, off := 4, len := 2, cap := 2 }, oneVar, .other⟩), (3, ⟨.v1, .readByte none, oneVar, .other⟩)]

theorem sharedUses_fair : Fair 2 demo.mem someBufs sharedUses := by
  intro p hp
  simp only [sharedUses, List.mem_cons, List.not_mem_nil, or_false] at hp
  rcases hp with rfl | rfl | rfl | rfl | rfl | rfl
  · exact ⟨⟨show 1 * 2 ≤ maxAlloc by decide, fun _ => trivial, oneVar_valid⟩, nofun⟩
  · exact ⟨⟨rfl, fun _ => trivial, oneVar_valid⟩, nofun⟩
  · exact ⟨⟨.inr rfl, fun _ => trivial, oneVar_valid⟩, nofun⟩
  · exact ⟨⟨trivial, fun h => absurd h (by decide), oneVar_valid⟩, nofun⟩
  · exact ⟨⟨⟨⟨by decide, by decide, by decide⟩, by decide, by decide, by decide⟩, fun _ => trivial, oneVar_valid⟩, fun _ _ h => by cases h; decide⟩
  · exact ⟨⟨trivial, fun h => absurd h (by decide), oneVar_valid⟩, nofun⟩

example : ∃ T : Texts, T.Parsed ∧ ∃ m' b', runShared T (2 ^ 64 + 1) 4 sharedUses demo.mem someBufs =
    some ([.unit, .nums [0x0102], .unit, .num 0x81, .unit, .num 0x81], m', b') ∧ (b' 0).off = 3 ∧ (b' 1).off = 0 ∧ (b' 2).off = 3 ∧ (b' 3).off = 2 ∧
      (m'.array 0).take 7 = [1, 2, 3, 4, 0x81, 2, 7] ∧ m'.array 1 = [0xAA, 0x81, 2] := by
  obtain ⟨T, hT, h⟩ := C145_shared
  obtain ⟨m', b', a1, a2⟩ := h (2 ^ 64 + 1) 4 (by decide) (by decide) _ 2 somePool demo.mem someBufs somePool_is sharedUses sharedUses_fair
    [.unit, .nums [0x0102], .unit, .num 0x81, .unit, .num 0x81] _ rfl
  refine ⟨T, hT, m', b', a1, ?_, ?_, ?_, ?_, ?_, ?_⟩
  · exact Int64.toInt_inj.mp ((a2.cur 0).symm.trans rfl)
  · exact Int64.toInt_inj.mp ((a2.cur 1).symm.trans rfl)
  · exact Int64.toInt_inj.mp ((a2.cur 2).symm.trans rfl)
  · exact Int64.toInt_inj.mp ((a2.cur 3).symm.trans rfl)
  · rw [← a2.bytes 0 (by decide)]; rfl
  · rw [← a2.bytes 1 (by decide)]; rfl

end Crunch.Wire
