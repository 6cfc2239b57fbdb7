import Verif.Props.Mixed
import Verif.Props.RoomMini

/-!
# The buffer types can be exchanged call by call, `Grow` included (C141)
-/

namespace Crunch.Wire
open V3 (St WF Iso abs Shows demo demo_wf demoZeros demoZeros_wf BufferInvalidByteCountError)
open Src hiding St
open Ref (Zeros Alike)

/-- The reference machine of the v3 `Buffer` where there is nothing behind the bytes and always memory: `Grow` adds zeros. -/
def plain (op : Ref.Op) (r : Ref.Ref) : Res Ref.Val × Ref.Ref :=
  match op with
  | .grow n => if n < 0 then (.panic (.err BufferInvalidByteCountError), r) else (.ok .unit, { r with data := r.data ++ List.replicate n.toNat 0 })
  | op => Ref.step op r

/-- Calls one after the other; `none` if one of them panics. -/
def plainAll : List Ref.Op → Ref.Ref → Option (List Ref.Val × Ref.Ref)
  | [], r => some ([], r)
  | op :: l, r => match plain op r with
    | (.ok v, r') => (plainAll l r').map fun t => (v :: t.1, t.2)
    | (.panic _, _) => none

/-- A call that makes sense on the buffer; it may be `Grow`. -/
structure Use.Fine (s : St) (u : Use) : Prop where
  args : Sound s u.outs u.op ∨ ∃ n, u.op = .grow n
  offered : Offered u.lib u.op
  outs : u.outs.Valid

/-- The calls end early because a `Grow` would need more than half of all memory there can be; before it they have the results `vs`. -/
def Exhausts (T : Texts) (fuel depth : Nat) (l : List Use) (s : St) (vs : List Ref.Val) : Prop :=
  ∃ l1 u l2 n t, l = l1 ++ u :: l2 ∧ u.op = .grow n ∧ runAll T fuel depth l1 s = some (vs.take l1.length, t) ∧ (maxAlloc : Int) < 2 * (t.b.buf.cap + n.toInt)

theorem take_zeros {l : List UInt8} (h : Zeros l) {n : Nat} (hn : n ≤ l.length) : l.take n = List.replicate n 0 := by
  rw [Ref.zeros_eq h, List.take_replicate, Nat.min_eq_left hn]

theorem drop_zeros {l : List UInt8} (h : Zeros l) (n : Nat) : Zeros (l.drop n) := fun b hb => h b (List.mem_of_mem_drop hb)

/-- `Grow` adds zeros on every type if there are only zeros behind the bytes. -/
theorem grows {u : Use} {s : St} {n : Int64} (hu : u.op = .grow n) (hz : Zeros (abs s).spare) (h0 : 0 ≤ n.toInt)
    (hm : 2 * ((abs s).data.length + (abs s).spare.length + n.toInt) ≤ maxAlloc) :
    ∃ q, u.step s = (.ok .unit, q) ∧ q.data = (abs s).data ++ List.replicate n.toInt.toNat 0 ∧ q.cur = (abs s).cur ∧ q.bcur = (abs s).bcur ∧ Zeros q.spare := by
  obtain ⟨lib, op, o, any⟩ := u
  cases hu
  have two : ∀ k, ∃ q, Ref.grow2 n.toInt k (abs s) = (.ok .unit, q) ∧ q.data = (abs s).data ++ List.replicate n.toInt.toNat 0 ∧ q.cur = (abs s).cur ∧
      q.bcur = (abs s).bcur ∧ Zeros q.spare := by
    intro k
    unfold Ref.grow2
    rw [if_neg (by omega)]
    refine ⟨_, rfl, rfl, rfl, rfl, ?_⟩
    show Zeros (if _ then _ else _)
    split
    · exact drop_zeros hz _
    · exact Ref.zeros_replicate _
  cases lib with
  | v1 => exact two _
  | v1mini => exact two _
  | v2 => exact two _
  | v2mini => exact two _
  | v3 =>
    show ∃ q, (if n.toInt < 0 then _ else _) = _ ∧ _
    rw [if_neg (by omega)]
    by_cases hl : n.toInt ≤ (abs s).spare.length
    · rw [if_pos hl]
      refine ⟨_, rfl, ?_, rfl, rfl, drop_zeros hz _⟩
      show _ ++ _ = _
      rw [take_zeros hz (by omega)]
    · rw [if_neg hl, if_pos hm]
      exact ⟨_, rfl, rfl, rfl, rfl, Ref.zeros_replicate _⟩
  | v3mini =>
    show ∃ q, (if (abs s).data.length + n.toInt ≤ ((abs s).data.length + (abs s).spare.length : Nat) then _ else _) = _ ∧ _
    by_cases hl : n.toInt ≤ (abs s).spare.length
    · rw [if_pos (by omega)]
      unfold Ref.miniResize Ref.resize
      rw [if_pos (by omega)]
      have e : ((abs s).data.length + n.toInt).toNat = (abs s).data.length + n.toInt.toNat := by omega
      refine ⟨_, rfl, ?_, rfl, rfl, ?_⟩
      · show List.take _ (_ ++ _) = _
        rw [e, List.take_append, List.take_of_length_le (by omega), show (abs s).data.length + n.toInt.toNat - (abs s).data.length = n.toInt.toNat by omega,
          take_zeros hz (by omega)]
      · show Zeros (List.drop _ (_ ++ _))
        rw [e, List.drop_append, List.drop_of_length_le (by omega), List.nil_append]
        exact drop_zeros hz _
    · rw [if_neg (by omega), if_pos hm]
      exact ⟨_, rfl, rfl, rfl, rfl, Ref.zeros_replicate _⟩

theorem room_cap {s : St} (h : WF s) : (abs s).data.length + (abs s).spare.length = s.b.buf.cap := by
  have := h.ok.len_le
  rw [V3.abs_len h.ok, V3.abs_spare h.ok]; omega

theorem Args.later {s t : St} (h : Iso s t) {o : V3.Outs} {op : V2.Op2} (k : Args s o op) : Args t o op := k.imp_left (Sound.later h)

theorem Args.lower_later {s t : St} (h : Iso s t) {o : V3.Outs} {op : V2.Op2} (k : Args s o op) : (three op).lower t.mem = (three op).lower s.mem := by
  rcases k with k | ⟨n, rfl⟩
  · exact Wire.lower_later h k
  · rfl

theorem not_grow {s : St} {o : V3.Outs} {op : V2.Op2} (k : Sound s o op) : ((three op).lower s.mem).isGrow = false ∧ ∀ r, Ref.Cut ((three op).lower s.mem) r := by
  cases op with
  | setBit p v => rcases k with rfl | rfl <;> exact ⟨rfl, fun _ => trivial⟩
  | grow n => cases k
  | reset => cases k
  | _ => exact ⟨rfl, fun _ => trivial⟩

theorem plain_step {op : Ref.Op} (h : op.isGrow = false) (r : Ref.Ref) : plain op r = Ref.step op r := by
  cases op with
  | grow n => cases h
  | _ => rfl

/-- C141, one call. -/
theorem grown {T : Texts} (hT : T.Parsed) {fuel depth : Nat} (hf : 2 ^ 64 < fuel) (hd : 4 ≤ depth) {u : Use} {s : St} (h : WF s) (hz : Zeros (abs s).spare)
    (hg : u.Fine s) {r : Ref.Ref} (ha : Alike (abs s) r) {v : Ref.Val} {q : Ref.Ref} (hr : plain ((three u.op).lower s.mem) r = (.ok v, q)) :
    (∃ t, u.run T fuel depth s = some (v, t) ∧ WF t ∧ Iso s t ∧ Zeros (abs t).spare ∧ Alike (abs t) q) ∨
    ∃ n, u.op = .grow n ∧ (maxAlloc : Int) < 2 * (s.b.buf.cap + n.toInt) := by
  rcases hg.args with hs | ⟨n, hn⟩
  · obtain ⟨g1, g2⟩ := not_grow hs
    rw [plain_step g1, ha.eq] at hr
    obtain ⟨sp, e⟩ := Ref.step_room _ g1 (abs s) r.spare
    rw [e] at hr
    have hz' := Ref.step_zeros _ _ hz (g2 (abs s))
    cases hq : Ref.step ((three u.op).lower s.mem) (abs s) with
    | mk a b =>
      rw [hq] at hr hz'
      obtain ⟨rfl, rfl⟩ := Prod.mk.inj hr
      obtain ⟨t, t1, t2, t3, t4⟩ := (made hT hf hd h ⟨hs, hg.offered, hg.outs⟩ hq).ok
      subst t4
      exact .inl ⟨t, t1, t2, t3, hz', Ref.alike_room _ _⟩
  · by_cases hm : (maxAlloc : Int) < 2 * (s.b.buf.cap + n.toInt)
    · exact .inr ⟨n, hn, hm⟩
    · rw [hn] at hr
      by_cases h0 : n.toInt < 0
      · rw [show plain ((three (.grow n)).lower s.mem) r = _ from if_pos h0] at hr
        cases hr
      · rw [show plain ((three (.grow n)).lower s.mem) r = _ from if_neg h0] at hr
        cases hr
        have hc := room_cap h
        obtain ⟨q, q1, q2, q3, q4, q5⟩ := grows (u := u) (s := s) hn hz (by omega) (by omega)
        obtain ⟨t, t1, t2, t3, t4⟩ := (made_of hT hf hd h (.inr ⟨n, hn⟩) hg.offered hg.outs q1).ok
        subst t4
        exact .inl ⟨t, t1, t2, t3, q5, by rw [q2, ha.1], q3.trans ha.2.1, q4.trans ha.2.2⟩

theorem all_grown {T : Texts} (hT : T.Parsed) {fuel depth : Nat} (hf : 2 ^ 64 < fuel) (hd : 4 ≤ depth) (l : List Use) {s : St} (h : WF s)
    (hz : Zeros (abs s).spare) (hg : ∀ u ∈ l, u.Fine s) {r : Ref.Ref} (ha : Alike (abs s) r) {vs : List Ref.Val} {q : Ref.Ref}
    (hr : plainAll (l.map fun u => (three u.op).lower s.mem) r = some (vs, q)) :
    (∃ t, runAll T fuel depth l s = some (vs, t) ∧ WF t ∧ Iso s t ∧ Zeros (abs t).spare ∧ Alike (abs t) q) ∨ Exhausts T fuel depth l s vs := by
  induction l generalizing s r vs q with
  | nil => cases hr; exact .inl ⟨s, rfl, h, Iso.refl s, hz, ha⟩
  | cons u l ih =>
    unfold plainAll at hr
    rw [List.map_cons] at hr
    dsimp only at hr
    cases hq : plain ((three u.op).lower s.mem) r with
    | mk a b =>
      rw [hq] at hr
      cases a with
      | panic p => cases hr
      | ok v =>
        dsimp only at hr
        cases hx : plainAll (l.map fun u => (three u.op).lower s.mem) b with
        | none => rw [hx] at hr; cases hr
        | some x =>
          rw [hx] at hr
          cases hr
          rcases grown hT hf hd h hz (hg u (List.mem_cons_self ..)) ha hq with ⟨t, t1, t2, t3, t4, t5⟩ | ⟨n, hn, hm⟩
          · have e : (l.map fun u => (three u.op).lower t.mem) = l.map fun u => (three u.op).lower s.mem :=
              List.map_congr_left fun u hu => Args.lower_later t3 (hg u (List.mem_cons_of_mem _ hu)).args
            rcases ih t2 t4 (fun u hu => ⟨Args.later t3 (hg u (List.mem_cons_of_mem _ hu)).args, (hg u (List.mem_cons_of_mem _ hu)).offered,
              (hg u (List.mem_cons_of_mem _ hu)).outs⟩) t5 (vs := x.1) (q := x.2) (by rw [e]; exact hx) with
              ⟨t', a1, a2, a3, a4, a5⟩ | ⟨l1, w, l2, n, t', b1, b2, b3, b4⟩
            · refine .inl ⟨t', ?_, a2, t3.trans a3, a4, a5⟩
              unfold runAll
              rw [t1, Option.bind_some, a1]; rfl
            · refine .inr ⟨u :: l1, w, l2, n, t', by rw [b1]; rfl, b2, ?_, b4⟩
              unfold runAll
              rw [t1, Option.bind_some, b3]; rfl
          · exact .inr ⟨[], u, l, n, s, rfl, hn, rfl, hm⟩

/-- C141: for every buffer with only zeros behind its bytes and every list of calls that the versions share, `Grow` included, each made through any of the
types that has it: if no call panics on a buffer where there is always memory and `Grow` adds zeros, then either all calls succeed in the texts, with these
results, bytes and offsets, or a `Grow` comes to a buffer and a number that together would need more than half of all memory there can be. -/
theorem C141_any_type : ∃ T : Texts, T.Parsed ∧ ∀ (fuel depth : Nat), 2 ^ 64 < fuel → 4 ≤ depth → ∀ (l : List Use) (s : St), WF s → Zeros s.room →
    (∀ u ∈ l, u.Fine s) → ∀ (vs : List Ref.Val) (q : Ref.Ref),
    plainAll (l.map fun u => (three u.op).lower s.mem) ⟨s.bytes, [], s.b.off.toInt, s.b.boff.toInt⟩ = some (vs, q) →
    (∃ t, runAll T fuel depth l s = some (vs, t) ∧ t.bytes = q.data ∧ t.b.off.toInt = q.cur ∧ t.b.boff.toInt = q.bcur ∧ WF t ∧ Iso s t) ∨
    Exhausts T fuel depth l s vs := by
  obtain ⟨T, hT⟩ := parsed
  refine ⟨T, hT, fun fuel depth hf hd l s h hz hg vs q hr => ?_⟩
  rcases all_grown hT hf hd l h hz hg (r := ⟨s.bytes, [], s.b.off.toInt, s.b.boff.toInt⟩) ⟨rfl, rfl, rfl⟩ hr with ⟨t, a1, a2, a3, _, a5⟩ | h
  · exact .inl ⟨t, a1, a5.1, a5.2.1, a5.2.2, a2, a3⟩
  · exact .inr h

/-- C141: two lists of the same calls through any types have the same results and end with the same bytes, offsets and capacities, if they are calls
that succeed on a buffer where there is always memory, and in neither a `Grow` comes to more than half of all memory. -/
theorem C141_exchange : ∃ T : Texts, T.Parsed ∧ ∀ (fuel depth : Nat), 2 ^ 64 < fuel → 4 ≤ depth → ∀ (l l' : List Use) (s : St), WF s → Zeros s.room →
    (∀ u ∈ l, u.Fine s) → (∀ u ∈ l', u.Fine s) → l'.map (·.op) = l.map (·.op) → ∀ (vs : List Ref.Val) (q : Ref.Ref),
    plainAll (l.map fun u => (three u.op).lower s.mem) ⟨s.bytes, [], s.b.off.toInt, s.b.boff.toInt⟩ = some (vs, q) →
    (∃ t t', runAll T fuel depth l s = some (vs, t) ∧ runAll T fuel depth l' s = some (vs, t') ∧ Shows t t') ∨
    Exhausts T fuel depth l s vs ∨ Exhausts T fuel depth l' s vs := by
  obtain ⟨T, hT⟩ := parsed
  refine ⟨T, hT, fun fuel depth hf hd l l' s h hz hg hg' he vs q hr => ?_⟩
  have e : (l'.map fun u => (three u.op).lower s.mem) = l.map fun u => (three u.op).lower s.mem := by
    have := congrArg (List.map fun op => (three op).lower s.mem) he
    rw [List.map_map, List.map_map] at this
    exact this
  have hr' := hr
  rw [← e] at hr'
  rcases all_grown hT hf hd l h hz hg (r := ⟨s.bytes, [], s.b.off.toInt, s.b.boff.toInt⟩) ⟨rfl, rfl, rfl⟩ hr with ⟨t, a1, a2, _, _, a5⟩ | h1
  · rcases all_grown hT hf hd l' h hz hg' (r := ⟨s.bytes, [], s.b.off.toInt, s.b.boff.toInt⟩) ⟨rfl, rfl, rfl⟩ hr' with ⟨t', b1, b2, _, _, b5⟩ | h2
    · exact .inl ⟨t, t', a1, b1, (V3.shows_alike a2 b2).mpr ⟨a5.1.trans b5.1.symm, a5.2.1.trans b5.2.1.symm, a5.2.2.trans b5.2.2.symm⟩⟩
    · exact .inr (.inr h2)
  · exact .inr (.inl h1)

/-- Six bytes more through the given type, an integer written into them with v2, and all bytes read with a v3 `MiniBuffer`. -/
def growUses (lib : Lib) : List Use :=
  [⟨lib, .grow 6, oneVar, .other⟩, ⟨.v2, .write .u16 .be (some 15) ([0x0102] : List UInt16), oneVar, .other⟩, ⟨.v3mini, .bytes, oneVar, .other⟩]

theorem growUses_fine (lib : Lib) : ∀ u ∈ growUses lib, u.Fine demoZeros := by
  intro u hu
  simp only [growUses, List.mem_cons, List.not_mem_nil, or_false] at hu
  rcases hu with rfl | rfl | rfl
  · exact ⟨.inr ⟨6, rfl⟩, fun _ => trivial, oneVar_valid⟩
  · exact ⟨.inl (show 1 * 2 ≤ maxAlloc by decide), fun _ => trivial, oneVar_valid⟩
  · exact ⟨.inl trivial, fun _ => trivial, oneVar_valid⟩

theorem growUses_fit (T : Texts) (fuel depth : Nat) (lib : Lib) (vs : List Ref.Val) : ¬ Exhausts T fuel depth (growUses lib) demoZeros vs := by
  rintro ⟨l1, u, l2, n, t, h1, h2, h3, h4⟩
  cases l1 with
  | nil =>
    cases (List.cons.inj h1).1
    cases h2
    cases h3
    exact absurd h4 (by decide)
  | cons a l1 =>
    cases l1 with
    | nil => cases (List.cons.inj (List.cons.inj h1).2).1; cases h2
    | cons b l1 =>
      cases l1 with
      | nil => cases (List.cons.inj (List.cons.inj (List.cons.inj h1).2).2).1; cases h2
      | cons c l1 => cases l1 <;> cases (List.cons.inj (List.cons.inj (List.cons.inj h1).2).2).2

/-- Whichever type grows the buffer, beyond the four bytes of room it has. -/
example (lib : Lib) : ∃ T : Texts, T.Parsed ∧ ∃ t, runAll T (2 ^ 64 + 1) 4 (growUses lib) demoZeros =
    some ([.unit, .unit, .bytes ([3, 4, 5, 6, 7, 8, 9, 10, 11, 12, 13, 14, 0, 0, 0, 1, 2, 0])], t) := by
  obtain ⟨T, hT, h⟩ := C141_any_type
  rcases h (2 ^ 64 + 1) 4 (by decide) (by decide) (growUses lib) demoZeros demoZeros_wf (by decide) (growUses_fine lib)
    [.unit, .unit, .bytes ([3, 4, 5, 6, 7, 8, 9, 10, 11, 12, 13, 14, 0, 0, 0, 1, 2, 0])] _ rfl with ⟨t, a, _⟩ | h
  · exact ⟨T, hT, t, a⟩
  · exact absurd h (growUses_fit _ _ _ _ _)

/-- Two types, one result. -/
example : ∃ T : Texts, T.Parsed ∧ ∃ vs t t', runAll T (2 ^ 64 + 1) 4 (growUses .v1mini) demoZeros = some (vs, t) ∧
    runAll T (2 ^ 64 + 1) 4 (growUses .v3) demoZeros = some (vs, t') ∧ Shows t t' := by
  obtain ⟨T, hT, h⟩ := C141_exchange
  rcases h (2 ^ 64 + 1) 4 (by decide) (by decide) (growUses .v1mini) (growUses .v3) demoZeros demoZeros_wf (by decide) (growUses_fine _) (growUses_fine _) rfl
    [.unit, .unit, .bytes ([3, 4, 5, 6, 7, 8, 9, 10, 11, 12, 13, 14, 0, 0, 0, 1, 2, 0])] _ rfl with ⟨t, t', a⟩ | h | h
  · exact ⟨T, hT, _, t, t', a⟩
  · exact absurd h (growUses_fit _ _ _ _ _)
  · exact absurd h (growUses_fit _ _ _ _ _)

end Crunch.Wire
