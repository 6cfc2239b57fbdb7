import Verif.Props.Mixed

/-!
# Which types reject exactly what the v3 `Buffer` rejects, method by method (C142)
-/

namespace Crunch.Ref
open Spec V3

theorem ge_write (w : Nat) (e : Endian) (o : Int) (d : List Nat) (r : Ref) : Le (miniWrite w e o d r) (write w e o d r) := by
  intro v r' h
  unfold miniWrite at h
  split at h
  · cases h
  · rename_i hc
    split at h
    · rename_i hf
      cases h
      unfold write put
      rw [length_enc', if_pos ⟨fun k => hc (.inl k), by omega, by omega⟩, List.take_of_length_le (by rw [length_enc']; omega)]
    · cases h

theorem ge_copy (o : Int) (bs : List UInt8) (p : Panic) (c : Prop) [Decidable c] (hc : c) (r : Ref) : Le (miniCopy o bs r) (put r o bs c p) := by
  intro v r' h
  unfold miniCopy at h
  split at h
  · cases h
  · split at h
    · cases h
      unfold put
      rw [if_pos ⟨hc, by omega, by omega⟩, List.take_of_length_le (by omega)]
    · cases h

theorem ge_read (prev : List Nat) (w : Nat) (e : Endian) (o n : Int) (r : Ref) (hp : prev.length = n.toNat) : Le (miniRead prev w e o n r) (read w e o n r) := by
  intro v r' h
  unfold miniRead at h
  split at h
  · rename_i hc
    obtain ⟨h0, h1, h2⟩ := hc
    have hn : 1 ≤ n := by unfold count at h2; omega
    have hc : count n = n.toNat := by unfold count; omega
    have hn' : ((count n : Nat) : Int) = n := by omega
    rw [hn'] at h1
    rw [hc, List.drop_of_length_le (by omega), List.append_nil] at h
    unfold read
    rw [if_pos ⟨hn, h0, h1⟩]
    exact h
  · cases h

theorem ge_put_ne (w : Nat) (e : Endian) (o : Int) (d : List Nat) (r : Ref) (q : Panic) :
    Le (put r o (d.flatMap (encode e w)) (d.flatMap (encode e w) ≠ []) q) (write w e o d r) := by
  unfold write put
  refine Le.ite fun h => ?_
  rw [if_pos ⟨fun k => h.1 (by rw [k]; rfl), h.2⟩]

theorem ge_copy_ne (w : Nat) (e : Endian) (o : Int) (d : List Nat) (r : Ref) : Le (miniCopy o (d.flatMap (encode e w)) r) (write w e o d r) := by
  by_cases hd : d = []
  · subst hd
    intro v r' h
    unfold miniCopy at h
    rw [if_pos (.inl rfl)] at h
    cases h
  · exact ge_copy _ _ _ _ hd r

theorem ge_writeComplex (w : Nat) (e : Endian) (o : Int) (d : List Nat) (r : Ref) (hw : w = 2 ∨ w = 4 ∨ w = 8) :
    Le (writeComplex o (.ints w d) w (some e) r) (write w e o d r) ∧ Le (miniWriteComplex o (.ints w d) w (some e) r) (write w e o d r) := by
  have hb : bytesOf o (.ints w d) w (some e) = .ok (d.flatMap (encode e w)) := by
    unfold bytesOf
    rw [if_neg (by omega), if_pos (by omega)]
    simp
  unfold writeComplex miniWriteComplex
  rw [hb]
  exact ⟨ge_put_ne _ _ _ _ _ _, ge_copy_ne _ _ _ _ _⟩

end Crunch.Ref

namespace Crunch.Wire
open V3 (St WF Iso abs demo demo_wf)
open Src hiding St
open Ref (Le)

/-- The methods that reject the same calls as the method of the v3 `Buffer`.  A v1 `Buffer` checks too little before it reads integers and takes the
whole-buffer bit operations on empty buffers; `MiniBuffer`s take bits at positions -7 to -1 and read bytes behind their end, the one of v3 drops bytes
that do not fit, and the one of v1 does what the v1 `Buffer` does, too. -/
def Strict : Lib → V2.Op2 → Bool
  | .v3, _ | .v2, _ => true
  | .v1, op => !(op matches .read .. | .clearAll | .setAll | .flipAll)
  | .v3mini, op => !(op matches .writeBytes .. | .readBytes .. | .readBit .. | .readBits .. | .setBit .. | .flipBit .. | .setBits ..)
  | .v2mini, op => !(op matches .readBytes .. | .readBit .. | .readBits .. | .setBit .. | .flipBit .. | .setBits ..)
  | .v1mini, op => !(op matches .read .. | .readBytes .. | .readBit .. | .readBits .. | .setBit .. | .flipBit .. | .setBits .. | .clearAll | .setAll | .flipAll)

theorem ge2 {s : St} {o : V3.Outs} {op : V2.Op2} (h : Sound s o op) (r : Ref.Ref) : Le (Ref.step2 (V2.lower s op) r) (Ref.step ((three op).lower s.mem) r) := by
  cases op with
  | writeBytes p src =>
    obtain ⟨h1, _, h3, h4⟩ := h
    simp only [V2.lower, place_none h3]
    cases p with
    | none => exact Le.cur (Ref.le_put _ _ _ _ _ _ r trivial) _
    | some q => exact Ref.le_put _ _ _ _ _ _ r trivial
  | writeByte p v =>
    cases p with
    | none => exact Le.cur (Ref.le_put _ _ _ _ _ _ r trivial) _
    | some q => exact Ref.le_put _ _ _ _ _ _ r trivial
  | setBit p v => rcases h with rfl | rfl <;> exact Le.refl _
  | grow _ => cases h
  | reset => cases h
  | _ => exact Le.refl _

theorem ge3m {s : St} {o : V3.Outs} {op : V2.Op2} (h : Sound s o op) (r : Ref.Ref) (nums : List Nat)
    (hn : ∀ k e p n, op = .read k e p n → nums.length = n.toInt.toNat) (hs : Strict .v3mini op = true) :
    Le (Ref.miniStep o.u64.toNat nums ((three op).lower s.mem) r) (Ref.step ((three op).lower s.mem) r) := by
  cases op with
  | write k e p d =>
    cases p with
    | none => exact Le.cur (Ref.ge_write _ _ _ _ r) _
    | some q => exact Ref.ge_write _ _ _ _ r
  | read k e p n =>
    cases p with
    | none => exact Le.cur (Ref.ge_read _ _ _ _ _ r (hn _ _ _ _ rfl)) _
    | some q => exact Ref.ge_read _ _ _ _ _ r (hn _ _ _ _ rfl)
  | grow _ => cases h
  | reset => cases h
  | writeBytes | readBytes | readBit | readBits | setBit | flipBit | setBits => cases hs
  | _ => exact Le.refl _

theorem ge2m {s : St} {o : V3.Outs} {op : V2.Op2} (h : Sound s o op) (r : Ref.Ref) (nums : List Nat)
    (hn : ∀ k e p n, op = .read k e p n → nums.length = n.toInt.toNat) (hb : ∀ p v, op ≠ .writeByte p v) (hs : Strict .v2mini op = true) :
    Le (Ref.miniStep2 o.u64.toNat nums (V2.lower s op) r) (Ref.step ((three op).lower s.mem) r) := by
  cases op with
  | writeBytes p src =>
    obtain ⟨h1, _, h3, h4⟩ := h
    simp only [V2.lower, place_none h3]
    cases p with
    | none => exact Le.cur (Ref.ge_copy _ _ _ _ trivial r) _
    | some q => exact Ref.ge_copy _ _ _ _ trivial r
  | write k e p d => exact ge3m h r nums hn rfl
  | read k e p d => exact ge3m h r nums hn rfl
  | writeByte p v => exact absurd rfl (hb p v)
  | grow _ => cases h
  | reset => cases h
  | readBytes | readBit | readBits | setBit | flipBit | setBits => cases hs
  | _ => exact Le.refl _

theorem ge1 {s : St} {o : V3.Outs} {op : V2.Op2} (h : Sound s o op) (r : Ref.Ref) (hs : Strict .v1 op = true) :
    Le (Ref.step1 (V1.lower1 s (one op)) r) (Ref.step ((three op).lower s.mem) r) := by
  have k2 := ge2 h r
  cases op with
  | write k e p d =>
    cases p with
    | none =>
      cases k with
      | u16 => exact Le.cur (Ref.ge_writeComplex 2 e r.cur _ r (by decide)).1 _
      | u32 => exact Le.cur (Ref.ge_writeComplex 4 e r.cur _ r (by decide)).1 _
      | u64 => exact Le.cur (Ref.ge_writeComplex 8 e r.cur _ r (by decide)).1 _
    | some q =>
      cases k with
      | u16 => exact (Ref.ge_writeComplex 2 e q.toInt _ r (by decide)).1
      | u32 => exact (Ref.ge_writeComplex 4 e q.toInt _ r (by decide)).1
      | u64 => exact (Ref.ge_writeComplex 8 e q.toInt _ r (by decide)).1
  | read | clearAll | setAll | flipAll => cases hs
  | writeBytes p src => cases p <;> exact k2
  | writeByte p v => cases p <;> exact k2
  | readBits p n => cases p <;> (show Le ((if n.toInt ≤ 0 then _ else _ : Option _).getD _) _; rw [if_neg (by have := h.1; omega)]; exact k2)
  | setBits p d n => cases p <;> (show Le ((if n.toInt ≤ 0 then _ else _ : Option _).getD _) _; rw [if_neg (by have : 0 < n.toInt := h; omega)]; exact k2)
  | setBit p v => rcases h with rfl | rfl <;> exact k2
  | grow _ => cases h
  | reset => cases h
  | _ => exact k2

theorem ge1m {s : St} {o : V3.Outs} {op : V2.Op2} (h : Sound s o op) (r : Ref.Ref) (hb : ∀ p v, op ≠ .writeByte p v) (hs : Strict .v1mini op = true) :
    Le (Ref.miniStep1 o.u64.toNat (V1.lower1 s (one op)) r) (Ref.step ((three op).lower s.mem) r) := by
  cases op with
  | write k e p d =>
    cases p with
    | none =>
      cases k with
      | u16 => exact Le.cur (Ref.ge_writeComplex 2 e r.cur _ r (by decide)).2 _
      | u32 => exact Le.cur (Ref.ge_writeComplex 4 e r.cur _ r (by decide)).2 _
      | u64 => exact Le.cur (Ref.ge_writeComplex 8 e r.cur _ r (by decide)).2 _
    | some q =>
      cases k with
      | u16 => exact (Ref.ge_writeComplex 2 e q.toInt _ r (by decide)).2
      | u32 => exact (Ref.ge_writeComplex 4 e q.toInt _ r (by decide)).2
      | u64 => exact (Ref.ge_writeComplex 8 e q.toInt _ r (by decide)).2
  | read | clearAll | setAll | flipAll | readBytes | readBit | readBits | setBit | flipBit | setBits => cases hs
  | writeBytes p src => have k := ge2m h r [] nofun hb rfl; cases p <;> exact k
  | writeByte p v => exact absurd rfl (hb p v)
  | grow _ => cases h
  | reset => cases h
  | _ => exact ge2m h r [] nofun hb rfl

/-! ## a panic of the reference machine is a panic in the text -/

theorem lost_V {s : St} {p : Panic} {q : Ref.Ref} {f : GoM (St × V) V} {g : Res V3.Val × St} {w : Res V} {t : St} (hf : f (s, .unit) = (w, (t, .unit)))
    (hw : seenRes t.mem w = V3.obsRes g.2.mem g.1) (h : V3.StepIs s (.panic p, q) g) :
    (endedV f s).map (fun r => (seen r.2.mem r.1, r.2)) = none := by
  have h1 := hw.trans h.result
  cases w with
  | panic p => unfold endedV; rw [hf]; rfl
  | ok w => cases h1

theorem lost_P {s : St} {p : Panic} {q : Ref.Ref} {f : Prog V} {g : Res V3.Val × St} {w : Res V} {x : Sh} (hf : f.run ⟨s, false⟩ = (w, x))
    (hw : seenRes x.st.mem w = V3.obsRes g.2.mem g.1) (h : V3.StepIs s (.panic p, q) g) :
    (endedP f s).map (fun r => (seen r.2.mem r.1, r.2)) = none := by
  have h1 := hw.trans h.result
  cases w with
  | panic p => unfold endedP; rw [hf]; unfold endedFree; cases x.locked <;> rfl
  | ok w => cases h1

theorem lost {T : Texts} (hT : T.Parsed) {fuel depth : Nat} (hf : 2 ^ 64 < fuel) (hd : 4 ≤ depth) {u : Use} {s : St} (h : WF s)
    (hs : Args s u.outs u.op) (hoff : Offered u.lib u.op) (ho : u.outs.Valid)
    {p : Panic} {q : Ref.Ref} (hr : u.step s = (.panic p, q)) : u.run T fuel depth s = none := by
  obtain ⟨lib, op, o, any⟩ := u
  dsimp only at hs hoff ho
  unfold Use.step at hr
  have hd3 : 3 ≤ depth := by omega
  cases lib with
  | v3 =>
    obtain ⟨funs, hc, hh⟩ := C81_buffer_text
    cases hc.symm.trans hT.v3
    have k := (V3.step_ok h (three op) (valid3 hs)).is
    rw [show Ref.step _ _ = _ from hr] at k
    exact lost_V (hh fuel depth hf hd3 _ (fits3 hs) s .unit) (seenRes_goRes _ _) k
  | v3mini =>
    obtain ⟨funs, hc, hh⟩ := C82_mini_text
    cases hc.symm.trans hT.v3mini
    obtain ⟨m, hm⟩ := mini3 hs (hoff (by decide))
    have k := V3.mini_step_ok h o ho (three op) (valid3 hs) m hm
    rw [show Ref.miniStep _ _ _ _ = _ from hr] at k
    exact lost_V (hh fuel depth hf hd3 o _ (fits3 hs) m hm s .unit) (seenRes_goRes _ _) k
  | v2 =>
    obtain ⟨funs, hc, hh⟩ := C86_alone_text
    cases hc.symm.trans hT.v2
    have k := V2.step2_ok h op (valid2 hs)
    rw [show Ref.step2 _ _ = _ from hr] at k
    have e := V2.exec_run op s
    have kk := hh fuel depth hf hd op (fits2 hs) ⟨s, false⟩
    rw [e] at kk
    exact lost_P kk (seenRes_goRes _ _) k
  | v2mini =>
    obtain ⟨funs, hc, hh⟩ := C84_mini_text
    cases hc.symm.trans hT.v2mini
    obtain ⟨m, hm⟩ := mini2 hs (hoff (by decide))
    have k := V2.mini_step2_ok h o ho op (valid2 hs) m hm
    rw [show Ref.miniStep2 _ _ _ _ = _ from hr] at k
    exact lost_V (hh fuel depth hf hd o _ (fits2 hs) m hm s .unit) (seenRes_goRes _ _) k
  | v1 =>
    obtain ⟨funs, hc, hh⟩ := C87_alone_text
    cases hc.symm.trans hT.v1
    have k := V1.step1_ok h (one op) (valid1 hs)
    unfold V1.Step1 at k
    rw [show Ref.step1 _ _ = _ from hr] at k
    exact lost_P (hh fuel depth hf hd (one op) (fits1 hs) ⟨s, false⟩) (seenRes_goRes1 _ _) k.is
  | v1mini =>
    obtain ⟨funs, hc, hh⟩ := C85_mini_text
    cases hc.symm.trans hT.v1mini
    obtain ⟨m, hm⟩ := mini1 (any := any) hs (hoff (by decide))
    have k := V1.mini_step1_ok h o ho any (one op) (valid1 hs) m hm
    rw [show Ref.miniStep1 _ _ _ = _ from hr] at k
    exact lost_V (hh fuel depth hf hd o any _ (fits1 hs) m hm s .unit) (seenRes_goRes1 _ _) k

/-- A call that succeeds in the text is a step of the reference machine of its type. -/
theorem unmade {T : Texts} (hT : T.Parsed) {fuel depth : Nat} (hf : 2 ^ 64 < fuel) (hd : 4 ≤ depth) {u : Use} {s t : St} (h : WF s)
    (hs : Args s u.outs u.op) (hoff : Offered u.lib u.op) (ho : u.outs.Valid) {v : Ref.Val} (hr : u.run T fuel depth s = some (v, t)) :
    u.step s = (.ok v, abs t) ∧ WF t ∧ Iso s t := by
  cases hq : u.step s with
  | mk a b =>
    cases a with
    | panic p => rw [lost hT hf hd h hs hoff ho hq] at hr; cases hr
    | ok w =>
      obtain ⟨t', a1, a2, a3, a4⟩ := (made_of hT hf hd h hs hoff ho hq).ok
      cases a1.symm.trans hr
      exact ⟨by rw [a4], a2, a3⟩

/-- What a strict method does, the v3 `Buffer` does. -/
theorem strict_step {u : Use} {s : St} (hg : u.Good s) (hs : Strict u.lib u.op = true) : Le (u.step s) (Ref.step ((three u.op).lower s.mem) (abs s)) := by
  obtain ⟨lib, op, o, any⟩ := u
  obtain ⟨h, hoff, ho⟩ := hg
  dsimp only at h hoff ho hs
  have hw : InMini op → ∀ p v, op ≠ .writeByte p v := by rintro hb p v rfl; exact hb
  cases lib with
  | v3 => exact Le.refl _
  | v3mini => exact ge3m h _ _ (by rw [nums3 h]; exact nums2 h) hs
  | v2 => exact ge2 h _
  | v2mini => exact ge2m h _ _ (nums2 h) (hw (hoff (by decide))) hs
  | v1 => exact ge1 h _ hs
  | v1mini => exact ge1m h _ (hw (hoff (by decide))) hs

theorem all_strict {T : Texts} (hT : T.Parsed) {fuel depth : Nat} (hf : 2 ^ 64 < fuel) (hd : 4 ≤ depth) (l : List Use) {s t : St} (h : WF s)
    (hg : ∀ u ∈ l, u.Good s) (hl : ∀ u ∈ l, Strict u.lib u.op = true) {vs : List Ref.Val} (hr : runAll T fuel depth l s = some (vs, t)) :
    succeeds (l.map fun u => (three u.op).lower s.mem) (abs s) = some (vs, abs t) := by
  induction l generalizing s vs with
  | nil => cases hr; rfl
  | cons u l ih =>
    have hu := hg u (List.mem_cons_self ..)
    unfold runAll at hr
    cases hx : u.run T fuel depth s with
    | none => rw [hx] at hr; cases hr
    | some x =>
      rw [hx, Option.bind_some] at hr
      cases hy : runAll T fuel depth l x.2 with
      | none => rw [hy] at hr; cases hr
      | some y =>
        rw [hy] at hr
        cases hr
        obtain ⟨k1, k2, k3⟩ := unmade hT hf hd h (.inl hu.sound) hu.offered hu.outs hx
        have e : (l.map fun u => (three u.op).lower x.2.mem) = l.map fun u => (three u.op).lower s.mem :=
          List.map_congr_left fun u hu => lower_later k3 (hg u (List.mem_cons_of_mem _ hu)).sound
        have := ih k2 (fun u hu => (hg u (List.mem_cons_of_mem _ hu)).later k3) (fun u hu => hl u (List.mem_cons_of_mem _ hu)) hy
        rw [e] at this
        unfold succeeds
        rw [List.map_cons]
        dsimp only
        rw [strict_step hu (hl u (List.mem_cons_self ..)) _ _ k1]
        dsimp only
        rw [this]; rfl

/-- C142: a list of calls that the versions share, each through a strict method of any type, succeeds exactly if the same calls succeed on v3 `Buffer`s
only, and then with the same results, bytes, room and offsets: run from the texts. -/
theorem C142_strict : ∃ T : Texts, T.Parsed ∧ ∀ (fuel depth : Nat), 2 ^ 64 < fuel → 4 ≤ depth → ∀ (l : List Use) (s : St), WF s → (∀ u ∈ l, u.Good s) →
    (∀ u ∈ l, Strict u.lib u.op = true) → ∀ (vs : List Ref.Val) (q : Ref.Ref),
    (∃ t, runAll T fuel depth l s = some (vs, t) ∧ abs t = q) ↔ (∃ t, runAll T fuel depth (l.map fun u => { u with lib := .v3 }) s = some (vs, t) ∧ abs t = q) := by
  obtain ⟨T, hT⟩ := parsed
  refine ⟨T, hT, fun fuel depth hf hd l s h hg hl vs q => ?_⟩
  have em : (l.map fun u => { u with lib := .v3 }).map (fun u : Use => (three u.op).lower s.mem) = l.map fun u => (three u.op).lower s.mem := by
    rw [List.map_map]; rfl
  have hg3 : ∀ u ∈ l.map (fun u : Use => { u with lib := .v3 }), u.Good s := by
    intro u hu
    obtain ⟨w, hw, rfl⟩ := List.mem_map.1 hu
    exact ⟨(hg w hw).sound, fun k => absurd k (by simp), (hg w hw).outs⟩
  have hl3 : ∀ u ∈ l.map (fun u : Use => { u with lib := .v3 }), Strict u.lib u.op = true := by
    intro u hu
    obtain ⟨w, hw, rfl⟩ := List.mem_map.1 hu
    rfl
  constructor
  · rintro ⟨t, a, rfl⟩
    have k := all_strict hT hf hd l h hg hl a
    rw [← em] at k
    obtain ⟨t', b1, _, _, b4⟩ := all_made hT hf hd _ h hg3 k
    exact ⟨t', b1, b4⟩
  · rintro ⟨t, a, rfl⟩
    have k := all_strict hT hf hd _ h hg3 hl3 a
    rw [em] at k
    obtain ⟨t', b1, _, _, b4⟩ := all_made hT hf hd _ h hg k
    exact ⟨t', b1, b4⟩

/-! ## the other methods -/

/-- Twelve bytes with room for four more, the byte offset at 8 and the bit offset at -1; five bytes elsewhere. -/
def edge : St :=
  { mem := { arrays := [[1, 2, 3, 4, 5, 6, 7, 8, 9, 10, 11, 12, 13, 14, 15, 16], [0xA, 0xB, 0xC, 0xD, 0xE]], slack := fun _ n => n }
    b := { buf := { arr := 0, off := 0, len := 12, cap := 16 }, off := 8, cap := 12, boff := -1, bcap := 96 } }

theorem edge_wf : WF edge := ⟨⟨by decide, by decide, by decide⟩, by decide, by decide⟩

/-- No bytes. -/
def bare : St := { edge with b := { edge.b with buf := { edge.b.buf with len := 0 }, cap := 0, bcap := 0 } }

theorem bare_wf : WF bare := ⟨⟨by decide, by decide, by decide⟩, by decide, by decide⟩

/-- As many integers as reach beyond the end from byte 8 on. -/
def beyond : V2.UKind → Int64
  | .u16 => 3
  | .u32 => 2
  | .u64 => 1

/-- A call of the same method that the v3 `Buffer` rejects. -/
def edgeOf : V2.Op2 → V2.Op2
  | .read k e p _ => .read k e (p.map fun _ => 8) (beyond k)
  | .writeBytes p _ => .writeBytes (p.map fun _ => 8) ⟨1, 0, 5, 5⟩
  | .readBytes p _ => .readBytes (p.map fun _ => 8) 5
  | .readBit p => .readBit (p.map fun _ => -1)
  | .readBits p _ => .readBits (p.map fun _ => -1) 2
  | .setBit p _ => .setBit (p.map fun _ => -1) 1
  | .flipBit p => .flipBit (p.map fun _ => -1)
  | .setBits p _ _ => .setBits (p.map fun _ => -1) 1 2
  | op => op

/-- Where it is rejected. -/
def edgeAt : V2.Op2 → St
  | .clearAll | .setAll | .flipAll => bare
  | _ => edge

/-- Variables for what is read at the edge. -/
def edgeVar : V3.Outs := ⟨0, 0, 0, ⟨0, 0, 0, 0⟩, fun | .u16 => ([0, 0, 0] : List UInt16) | .u32 => ([0, 0] : List UInt32) | .u64 => ([0] : List UInt64) | _ => []⟩

theorem edgeVar_valid : edgeVar.Valid := by intro k; cases k <;> decide

/-- The call is taken by the type and not by the v3 `Buffer`, on the reference machines. -/
def Differs (lib : Lib) (op : V2.Op2) : Prop :=
  (∃ v q, Use.step ⟨lib, edgeOf op, edgeVar, .other⟩ (edgeAt op) = (.ok v, q)) ∧ ∃ p q, Use.step ⟨.v3, edgeOf op, edgeVar, .other⟩ (edgeAt op) = (.panic p, q)

theorem differs (lib : Lib) (op : V2.Op2) (h : Strict lib op = false) : Differs lib op := by
  cases lib with
  | v3 => cases h
  | v2 => cases h
  | v1 =>
    cases op with
    | read k e p n => cases k <;> cases e <;> cases p <;> exact ⟨⟨_, _, rfl⟩, _, _, rfl⟩
    | clearAll | setAll | flipAll => exact ⟨⟨_, _, rfl⟩, _, _, rfl⟩
    | _ => cases h
  | v3mini =>
    cases op with
    | writeBytes p _ | readBytes p _ | readBit p | readBits p _ | setBit p _ | flipBit p | setBits p _ _ => cases p <;> exact ⟨⟨_, _, rfl⟩, _, _, rfl⟩
    | _ => cases h
  | v2mini =>
    cases op with
    | readBytes p _ | readBit p | readBits p _ | setBit p _ | flipBit p | setBits p _ _ => cases p <;> exact ⟨⟨_, _, rfl⟩, _, _, rfl⟩
    | _ => cases h
  | v1mini =>
    cases op with
    | read k e p n => cases k <;> cases e <;> cases p <;> exact ⟨⟨_, _, rfl⟩, _, _, rfl⟩
    | clearAll | setAll | flipAll => exact ⟨⟨_, _, rfl⟩, _, _, rfl⟩
    | readBytes p _ | readBit p | readBits p _ | setBit p _ | flipBit p | setBits p _ _ => cases p <;> exact ⟨⟨_, _, rfl⟩, _, _, rfl⟩
    | _ => cases h

theorem edge_sound (lib : Lib) (op : V2.Op2) (h : Strict lib op = false) : Sound (edgeAt op) edgeVar (edgeOf op) := by
  cases op with
  | read k e p n => cases k <;> rfl
  | writeBytes p src =>
    have k : SliceOK edge.mem ⟨1, 0, 5, 5⟩ := ⟨by decide, by decide, by decide⟩
    exact ⟨k, show 1 < edge.mem.arrays.length by decide, show 1 ≠ edge.b.buf.arr by decide, by decide⟩
  | readBits p n => exact ⟨by decide, rfl⟩
  | setBits p d n => exact (by decide : (0 : Int) < (2 : Int64).toInt)
  | setBit p v => exact .inr rfl
  | readBytes | readBit | flipBit | clearAll | setAll | flipAll => trivial
  | _ => cases lib <;> cases h

theorem edge_name (op : V2.Op2) : Two.goName (edgeOf op) = Two.goName op := by
  cases op with
  | read k e p n => cases p <;> rfl
  | writeBytes p _ | readBytes p _ | readBit p | readBits p _ | setBit p _ | flipBit p | setBits p _ _ => cases p <;> rfl
  | _ => rfl

theorem edge_offered {lib : Lib} {op : V2.Op2} (h : Offered lib op) : Offered lib (edgeOf op) := by
  cases op <;> exact h

/-- C142: no other method is strict.  For every method of a type that `Strict` does not name there are a buffer and arguments with which the call succeeds
through the type, while the v3 `Buffer` panics: run from the texts. -/
theorem C142_others : ∃ T : Texts, T.Parsed ∧ ∀ (fuel depth : Nat), 2 ^ 64 < fuel → 4 ≤ depth → ∀ (lib : Lib) (op : V2.Op2), Offered lib op →
    Strict lib op = false → ∃ (s : St) (u : Use), WF s ∧ u.Good s ∧ u.lib = lib ∧ Two.goName u.op = Two.goName op ∧
    (∃ r, u.run T fuel depth s = some r) ∧ Use.run T fuel depth { u with lib := .v3 } s = none := by
  obtain ⟨T, hT⟩ := parsed
  refine ⟨T, hT, fun fuel depth hf hd lib op hoff hs => ?_⟩
  have hg : Use.Good (edgeAt op) ⟨lib, edgeOf op, edgeVar, .other⟩ := ⟨edge_sound lib op hs, edge_offered hoff, edgeVar_valid⟩
  have hw : WF (edgeAt op) := by cases op <;> first | exact edge_wf | exact bare_wf
  obtain ⟨⟨v, q, h1⟩, p, q', h2⟩ := differs lib op hs
  obtain ⟨t, a, _⟩ := (made_of hT hf hd hw (.inl hg.sound) hg.offered hg.outs h1).ok
  exact ⟨_, _, hw, hg, rfl, edge_name op, ⟨_, a⟩, lost hT hf hd hw (.inl hg.sound) (fun k => absurd k (by simp)) hg.outs h2⟩

/-- The calls of the example of C140 go through strict methods, but for the bit that is set through a `MiniBuffer`. -/
example : (mixedUses.map fun u => Strict u.lib u.op) = [true, true, false, true, false, true] := by decide

/-- Two of them too many for the buffer: no type takes them. -/
example : ∃ T : Texts, T.Parsed ∧ ∀ lib, lib ≠ .v1mini ∧ lib ≠ .v1 → ∀ r,
    runAll T (2 ^ 64 + 1) 4 [⟨lib, .read .u16 .be (some 11) 1, oneVar, .other⟩] demo ≠ some r := by
  obtain ⟨T, hT, h⟩ := C142_strict
  refine ⟨T, hT, fun lib hl r hr => ?_⟩
  obtain ⟨t, a, _⟩ := (h (2 ^ 64 + 1) 4 (by decide) (by decide) [⟨lib, .read .u16 .be (some 11) 1, oneVar, .other⟩] demo demo_wf (by
    intro u hu
    cases List.mem_singleton.1 hu
    exact ⟨rfl, fun _ => trivial, oneVar_valid⟩) (by
    intro u hu
    cases List.mem_singleton.1 hu
    obtain ⟨h1, h2⟩ := hl
    cases lib <;> first | rfl | exact absurd rfl h1 | exact absurd rfl h2) r.1 (abs r.2)).1 ⟨r.2, hr, rfl⟩
  have k := v3_succeeds hT (by decide) (by decide) _ demo_wf (by
    intro u hu
    cases List.mem_singleton.1 hu
    rfl) (by
    intro u hu
    cases List.mem_singleton.1 hu
    rfl) a
  cases k

end Crunch.Wire
