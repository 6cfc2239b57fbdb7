import Verif.Wire
import Verif.Props.V1Mini
import Verif.Props.Streams

/-!
# What one version writes another one reads (C132)
-/

namespace Crunch.Wire
open Spec
open V3 (St WF enc dec length_enc demo demo_wf)

/-- The state after a message. -/
def wrote (s : St) (m : Msg) : St :=
  { s.write s.b.off.toInt.toNat m.bytes with
    b := { (s.write s.b.off.toInt.toNat m.bytes).b with off := s.b.off + Int64.ofNat m.data.length * Int64.ofNat m.k.kind.size } }

theorem sizeOf_eq (k : V2.UKind) : V1.sizeOf k = Int64.ofNat k.kind.size := by cases k <;> rfl
theorem count_asAny (k : V2.UKind) (l : List k.kind.Ty) : (V1.asAny k l).count = l.length := by cases k <;> rfl
theorem integers_asAny (k : V2.UKind) (l : List k.kind.Ty) : integers k (V1.asAny k l) = some l := by cases k <;> rfl

theorem length_bytes (m : Msg) : m.bytes.length = m.data.length * m.k.kind.size := length_enc _ _ _

theorem write_one {s : St} (h : WF s) (lib : Lib) (m : Msg) (hne : m.data ≠ []) (h0 : 0 ≤ s.b.off.toInt)
    (hfit : s.b.off.toInt + (m.data.length * m.k.kind.size : Nat) ≤ s.b.buf.len) : write lib m s = some (wrote s m) := by
  have hlm := h.ok.len_le_max
  have hms : m.data.length * m.k.kind.size ≤ maxAlloc := by omega
  have hfit' : s.b.off.toInt + m.data.length * m.k.kind.size ≤ s.b.buf.len := by rw [← Int.natCast_mul]; exact hfit
  have hb := V3.buffer_write_run h m.k.kind m.e s.b.off m.data hms
  rw [if_pos ⟨hne, h0, hfit'⟩] at hb
  have hm := V3.mini_write_run h.ok m.k.kind m.e s.b.off m.data hms hne
  rw [if_pos ⟨h0, hfit'⟩] at hm
  have nb : V3.Buffer.WriteNext m.k.kind m.e m.data s = (.ok (), wrote s m) := by rw [V3.writeNext_run, hb]; rfl
  have nm : V3.Mini.WriteNext m.k.kind m.e m.data s = (.ok (), wrote s m) := by rw [V3.mini_writeNext_run, hm]; rfl
  cases lib with
  | v1 =>
    have hw : (V1.Buffer.WriteComplex s.b.off (V1.asAny m.k m.data) (V1.sizeOf m.k) (some m.e)).run ⟨s, false⟩ =
        (.ok (), ⟨s.write s.b.off.toInt.toNat m.bytes, false⟩) := by
      show (V1.Buffer.writeComplex _ _ _ _).run _ = _
      have hl := length_bytes m
      have hp : 0 < m.data.length * m.k.kind.size := Nat.mul_pos (List.length_pos_iff.mpr hne) (V3.size_pos _)
      rw [V1.writeComplex_kind m.k m.e _ m.data hms, V1.write_lit_run h _ _ (by show m.bytes.length ≤ _; omega),
        if_pos (by show 0 < m.bytes.length ∧ _ ∧ _ + (m.bytes.length : Int) ≤ _; omega)]
      rfl
    simp only [write, (V1.C74_writeComplexNext s _ _ _).1, hw]
    simp only [count_asAny, sizeOf_eq]
    rfl
  | v1mini =>
    simp only [write, V1.C80_mini_writeComplexNext, V1.C80_mini_writeComplex h.ok m.k m.e _ m.data hms, V2.mini_write_typed, hm]
    simp only [count_asAny, sizeOf_eq]
    rfl
  | v2 =>
    simp only [write, V2.writeNext_typed m.k m.e m.data s, nb]
    rfl
  | v2mini =>
    simp only [write, V2.mini_writeNext_typed, nm]
    rfl
  | v3 => simp only [write, nb]; rfl
  | v3mini => simp only [write, nm]; rfl

/-- The state after a message has been read. -/
def past (s : St) (m : Msg) : St := { s with b := { s.b with off := s.b.off + Int64.ofNat m.data.length * Int64.ofNat m.k.kind.size } }

theorem read_one {s : St} (h : WF s) (lib : Lib) (m : Msg) (hne : m.data ≠ []) (h0 : 0 ≤ s.b.off.toInt)
    (hfit : s.b.off.toInt + (m.data.length * m.k.kind.size : Nat) ≤ s.b.buf.len)
    (hc : slice s.bytes s.b.off.toInt.toNat (m.data.length * m.k.kind.size) = m.bytes) (x : Var m.k) (hx : x.list.length = m.data.length) :
    read lib m.head x s = some (m, past s m) := by
  have hM := maxAlloc_lt
  have hlm := h.ok.len_le_max
  have hms : m.data.length * m.k.kind.size ≤ maxAlloc := by omega
  have hpos : 0 < m.data.length := List.length_pos_iff.mpr hne
  have hle : m.data.length ≤ m.data.length * m.k.kind.size := Nat.le_mul_of_pos_right _ (V3.size_pos _)
  have hfit' : s.b.off.toInt + m.data.length * m.k.kind.size ≤ s.b.buf.len := by rw [← Int.natCast_mul]; exact hfit
  have hn : (Int64.ofNat m.data.length).toInt = m.data.length := toInt_ofNat (by omega)
  have hdec : dec m.k.kind m.e m.data.length (s.bytes.drop s.b.off.toInt.toNat) = m.data := by
    refine Eq.trans (V3.dec_congr (m := enc m.k.kind m.e m.data) ?_) (V3.dec_enc m.k.kind m.e m.data)
    rw [V3.slice_drop, Nat.add_zero, hc]
    unfold slice
    rw [List.drop_zero, List.take_of_length_le (by rw [length_enc]; omega)]
    rfl
  have hb := V3.buffer_read_run h m.k.kind m.e s.b.off (Int64.ofNat m.data.length)
  rw [hn, if_pos ⟨by omega, h0, hfit'⟩, Int.toNat_natCast, hdec] at hb
  have hlo : V3.loops (Int64.ofNat m.data.length) = m.data.length := by unfold V3.loops; omega
  have hm := V3.mini_read_callOut h.ok m.k.kind m.e s.b.off (Int64.ofNat m.data.length) x.list (by rw [hx]; omega)
  rw [hlo, if_pos ⟨h0, hfit', by omega⟩, hdec, List.drop_of_length_le (by omega), List.append_nil] at hm
  have nb : V3.Buffer.ReadNext m.k.kind m.e (Int64.ofNat m.data.length) s = (.ok m.data, past s m) := by rw [V3.readNext_run, hb]; rfl
  have nm : V3.Mini.callOut (V3.Mini.ReadNext m.k.kind m.e (Int64.ofNat m.data.length)) x.list s = (.ok m.data, past s m) := by
    rw [V3.mini_readNext_run, hm]; rfl
  have hlen := V3.length_bytes h.ok
  have hr1 : 0 < (Int64.ofNat m.data.length).toInt := by omega
  have hr2 : s.b.off.toInt + (Int64.ofNat m.data.length).toInt * m.k.kind.size ≤ s.bytes.length := by rw [hn, hlen]; exact hfit'
  cases lib with
  | v1 =>
    obtain ⟨l, e1, e2⟩ := V1.C71_readComplex_is_read h m.k m.e s.b.off _ hr1 h0 hr2
    rw [V2.read_typed m.k m.e _ _ s, hb] at e2
    cases e2
    simp only [read, Msg.head, (V1.C74_readComplexNext s _ _ _).1, e1]
    show Option.map _ (Option.map _ (integers m.k (V1.asAny m.k m.data))) = _
    rw [integers_asAny, sizeOf_eq]
    rfl
  | v1mini =>
    obtain ⟨l, _, e1, e2⟩ := V1.C80_mini_readComplex h.ok m.k m.e s.b.off _ hr1 h0 hr2 x.any x.list (by rw [hn]; omega)
    rw [V2.mini_read_typed, hm] at e2
    cases e2
    have e3 : V3.Mini.callOut (V1.Mini.ReadComplexNext (Int64.ofNat m.data.length) (V1.sizeOf m.k) (some m.e)) x.any s =
        (.ok (V1.asAny m.k m.data), past s m) := by
      unfold V3.Mini.callOut at e1 ⊢
      rw [V1.C80_mini_readComplexNext, sizeOf_eq] at *
      generalize V1.Mini.ReadComplex s.b.off (Int64.ofNat m.data.length) (Int64.ofNat m.k.kind.size) (some m.e) (s, x.any) = r at e1 ⊢
      rcases r with ⟨_ | _, t, o⟩
      · cases e1; rfl
      · cases e1
    simp only [read, Msg.head, e3]
    show Option.map _ (Option.map _ (integers m.k (V1.asAny m.k m.data))) = _
    rw [integers_asAny]
    rfl
  | v2 =>
    simp only [read, Msg.head, V2.readNext_typed m.k m.e _ s, nb]
    rfl
  | v2mini =>
    simp only [read, Msg.head, V2.mini_readNext_typed, nm]
    rfl
  | v3 => simp only [read, Msg.head, nb]; rfl
  | v3mini => simp only [read, Msg.head, nm]; rfl

theorem length_all (ms : List Msg) : (ms.flatMap Msg.bytes).length = size ms := by
  induction ms with
  | nil => rfl
  | cons m ms ih => rw [List.flatMap_cons, List.length_append, ih, length_bytes]; simp [size]

theorem size_cons (m : Msg) (ms : List Msg) : size (m :: ms) = m.data.length * m.k.kind.size + size ms := by simp [size]

theorem moved (o : Int64) (m : Msg) (hms : m.data.length * m.k.kind.size ≤ maxAlloc) (h0 : 0 ≤ o.toInt)
    (h1 : o.toInt + (m.data.length * m.k.kind.size : Nat) ≤ maxAlloc) :
    (o + Int64.ofNat m.data.length * Int64.ofNat m.k.kind.size).toInt = o.toInt + (m.data.length * m.k.kind.size : Nat) := by
  have hM := maxAlloc_lt
  rw [toInt_add, show Int64.ofNat m.data.length = len m.data from rfl, V3.len_mul m.data m.k.kind.size hms (V3.size_pos _), ← Int.natCast_mul]
  omega

theorem write_stream {s : St} (h : WF s) (ms : List (Lib × Msg)) (hne : ∀ m ∈ ms, m.2.data ≠ []) (h0 : 0 ≤ s.b.off.toInt)
    (hfit : s.b.off.toInt + size (ms.map (·.2)) ≤ s.b.buf.len) :
    ∃ s1, writeAll ms s = some s1 ∧ WF s1 ∧ s1.b.off.toInt = s.b.off.toInt + size (ms.map (·.2)) ∧ s1.b.buf = s.b.buf ∧
      s1.bytes = patch s.bytes s.b.off.toInt.toNat ((ms.map (·.2)).flatMap Msg.bytes) := by
  induction ms generalizing s with
  | nil => exact ⟨s, rfl, h, by simp [size], rfl, (patch_nil _ _).symm⟩
  | cons lm ms ih =>
    obtain ⟨lib, m⟩ := lm
    rw [List.map_cons, size_cons] at hfit
    dsimp only at hfit
    have hlm := h.ok.len_le_max
    have hb := V3.length_bytes h.ok
    have hl := length_bytes m
    have hone := write_one h lib m (hne _ (List.mem_cons_self ..)) h0 (by omega)
    have hoff := moved s.b.off m (by omega) h0 (by omega)
    have hw := h.write s.b.off.toInt.toNat m.bytes
    obtain ⟨s1, e1, e2, e3, e4, e5⟩ := ih (s := wrote s m) ⟨hw.ok, hw.cap, hw.bcap⟩ (fun x hx => hne x (List.mem_cons_of_mem _ hx))
      (by show 0 ≤ (s.b.off + _).toInt; omega)
      (by show (s.b.off + _).toInt + _ ≤ (s.b.buf.len : Int); omega)
    refine ⟨s1, by simp only [writeAll, hone, Option.bind]; exact e1, e2, ?_, e4, ?_⟩
    · rw [e3, List.map_cons, size_cons]
      show (s.b.off + _).toInt + _ = _
      dsimp only
      omega
    · rw [e5]
      show patch (s.write s.b.off.toInt.toNat m.bytes).bytes (s.b.off + _).toInt.toNat _ = _
      rw [V3.bytes_write h.ok (by omega), hoff, show (s.b.off.toInt + (m.data.length * m.k.kind.size : Nat)).toNat = s.b.off.toInt.toNat + m.bytes.length by omega,
        List.map_cons, List.flatMap_cons]
      exact patch_patch_adj (by rw [length_all, hb]; omega)

theorem read_stream {s : St} (h : WF s) (x : (h : Head) → Var h.k) (hx : ∀ h, (x h).list.length = h.n) (ms : List (Lib × Msg))
    (hne : ∀ m ∈ ms, m.2.data ≠ []) (h0 : 0 ≤ s.b.off.toInt) (hfit : s.b.off.toInt + size (ms.map (·.2)) ≤ s.b.buf.len)
    (hc : slice s.bytes s.b.off.toInt.toNat (size (ms.map (·.2))) = (ms.map (·.2)).flatMap Msg.bytes) :
    ∃ o : Int64, o.toInt = s.b.off.toInt + size (ms.map (·.2)) ∧
      readAll x (ms.map fun m => (m.1, m.2.head)) s = some (ms.map (·.2), { s with b := { s.b with off := o } }) := by
  induction ms generalizing s with
  | nil => exact ⟨s.b.off, by simp [size], rfl⟩
  | cons lm ms ih =>
    obtain ⟨lib, m⟩ := lm
    rw [List.map_cons, size_cons] at hfit hc
    rw [List.flatMap_cons] at hc
    dsimp only at hfit hc
    have hlm := h.ok.len_le_max
    have hl := length_bytes m
    have hs1 : slice s.bytes s.b.off.toInt.toNat (m.data.length * m.k.kind.size) = m.bytes := by
      have := congrArg (List.take (m.data.length * m.k.kind.size)) hc
      rw [List.take_append_of_le_length (by omega), List.take_of_length_le (l := m.bytes) (by omega)] at this
      rw [← this]
      unfold slice; rw [List.take_take, Nat.min_eq_left (by omega)]
    have hs2 : slice s.bytes (s.b.off.toInt.toNat + m.data.length * m.k.kind.size) (size (ms.map (·.2))) = (ms.map (·.2)).flatMap Msg.bytes := by
      have := congrArg (List.drop (m.data.length * m.k.kind.size)) hc
      rw [List.drop_append, hl, Nat.sub_self, List.drop_zero, List.drop_of_length_le (l := m.bytes) (by omega), List.nil_append] at this
      rw [← this]
      unfold slice; rw [List.drop_take, List.drop_drop]; congr 1; omega
    have hone := read_one h lib m (hne _ (List.mem_cons_self ..)) h0 (by omega) hs1 (x m.head) (hx _)
    have hoff := moved s.b.off m (by omega) h0 (by omega)
    obtain ⟨o, e1, e2⟩ := ih (s := past s m) ⟨h.ok, h.cap, h.bcap⟩ (fun x hx => hne x (List.mem_cons_of_mem _ hx))
      (by show 0 ≤ (s.b.off + _).toInt; omega)
      (by show (s.b.off + _).toInt + _ ≤ (s.b.buf.len : Int); omega)
      (by show slice s.bytes (s.b.off + _).toInt.toNat _ = _
          rw [hoff, show (s.b.off.toInt + (m.data.length * m.k.kind.size : Nat)).toNat = s.b.off.toInt.toNat + m.data.length * m.k.kind.size by omega]
          exact hs2)
    refine ⟨o, ?_, ?_⟩
    · rw [e1, List.map_cons, size_cons]
      show (s.b.off + _).toInt + _ = _
      dsimp only
      omega
    · simp only [List.map_cons, readAll, hone, Option.bind, e2]
      rfl

/-- C132: a list of messages, written through any of the six buffer types — a different one for each message if one likes —
leaves the same bytes; … -/
theorem C132_written {s : St} (h : WF s) (ms : List (Lib × Msg)) (hne : ∀ m ∈ ms, m.2.data ≠ []) (h0 : 0 ≤ s.b.off.toInt)
    (hfit : s.b.off.toInt + size (ms.map (·.2)) ≤ s.bytes.length) :
    ∃ s1, writeAll ms s = some s1 ∧ s1.b.off.toInt = s.b.off.toInt + size (ms.map (·.2)) ∧
      s1.bytes = patch s.bytes s.b.off.toInt.toNat ((ms.map (·.2)).flatMap Msg.bytes) := by
  rw [V3.length_bytes h.ok] at hfit
  obtain ⟨s1, e1, _, e3, _, e5⟩ := write_stream h ms hne h0 hfit
  exact ⟨s1, e1, e3, e5⟩

/-- … and whoever has these bytes in a buffer of their own, at whatever place, reads the messages back, again through any of the six types,
whatever is in the variables given to the `MiniBuffer`s; reading changes nothing but the offset.
The reader may divide the bytes into messages in another way (`rs`), if it comes to the same bytes. -/
theorem C132_read {s t : St} (h : WF s) (g : WF t) (ms rs : List (Lib × Msg)) (hne : ∀ m ∈ ms, m.2.data ≠ []) (hne' : ∀ m ∈ rs, m.2.data ≠ [])
    (h0 : 0 ≤ s.b.off.toInt) (hfit : s.b.off.toInt + size (ms.map (·.2)) ≤ s.bytes.length)
    (g0 : 0 ≤ t.b.off.toInt) (gfit : t.b.off.toInt + size (ms.map (·.2)) ≤ t.bytes.length)
    (same : (rs.map (·.2)).flatMap Msg.bytes = (ms.map (·.2)).flatMap Msg.bytes)
    (x : (h : Head) → Var h.k) (hx : ∀ h, (x h).list.length = h.n) (s1 : St) (hw : writeAll ms s = some s1)
    (sent : slice t.bytes t.b.off.toInt.toNat (size (ms.map (·.2))) = slice s1.bytes s.b.off.toInt.toNat (size (ms.map (·.2)))) :
    ∃ o : Int64, o.toInt = t.b.off.toInt + size (ms.map (·.2)) ∧
      readAll x (rs.map fun m => (m.1, m.2.head)) t = some (rs.map (·.2), { t with b := { t.b with off := o } }) := by
  obtain ⟨s2, e1, _, e5⟩ := C132_written h ms hne h0 hfit
  rw [hw] at e1
  cases e1
  have hz : size (rs.map (·.2)) = size (ms.map (·.2)) := by rw [← length_all, ← length_all, same]
  have := read_stream g x hx rs hne' g0 (by rw [hz, ← V3.length_bytes g.ok]; exact gfit) (by
    rw [hz, sent, e5, same, ← length_all, slice_patch_self (by rw [length_all]; omega)])
  rw [hz] at this
  exact this

/-- Two messages, of which the first is written by v1 and the second by a v3 MiniBuffer. -/
def letter : List (Lib × Msg) := [(.v1, ⟨.u16, .be, [(1 : UInt16), (2 : UInt16)]⟩), (.v3mini, ⟨.u32, .le, [(70000 : UInt32)]⟩)]
/-- The same bytes in three messages, for a v2 MiniBuffer, a v1 MiniBuffer and a v2 Buffer. -/
def letter' : List (Lib × Msg) :=
  [(.v2mini, ⟨.u16, .be, [(1 : UInt16)]⟩), (.v1mini, ⟨.u16, .be, [(2 : UInt16)]⟩), (.v2, ⟨.u32, .le, [(70000 : UInt32)]⟩)]
/-- The variables for the results. -/
def vars (h : Head) : Var h.k := ⟨List.replicate h.n (match h with | ⟨.u16, _, _⟩ => (7 : UInt16) | ⟨.u32, _, _⟩ => (7 : UInt32) | ⟨.u64, _, _⟩ => (7 : UInt64)), .other⟩

theorem letter_ne : ∀ m ∈ letter, m.2.data ≠ [] := by
  intro m hm
  simp only [letter, List.mem_cons, List.not_mem_nil, or_false] at hm
  rcases hm with rfl | rfl <;> nofun
theorem letter_ne' : ∀ m ∈ letter', m.2.data ≠ [] := by
  intro m hm
  simp only [letter', List.mem_cons, List.not_mem_nil, or_false] at hm
  rcases hm with rfl | rfl | rfl <;> nofun

example : (writeAll letter demo).map (fun s => s.bytes) = some (patch demo.bytes 3 [0, 1, 0, 2, 112, 17, 1, 0]) := by
  obtain ⟨s1, e1, _, e3⟩ := C132_written demo_wf letter letter_ne (by decide) (by decide)
  rw [e1, Option.map_some, e3]; decide
example (s1 : St) (hw : writeAll letter demo = some s1) : ∃ o : Int64, o.toInt = 11 ∧
    readAll vars (letter'.map fun m => (m.1, m.2.head)) { s1 with b := { s1.b with off := 3 } } =
      some (letter'.map (·.2), { s1 with b := { s1.b with off := o } }) := by
  obtain ⟨s2, e1, w, e3, e4, e5⟩ := write_stream demo_wf letter letter_ne (by decide) (by decide)
  rw [hw] at e1
  cases e1
  exact C132_read (t := { s1 with b := { s1.b with off := 3 } }) demo_wf ⟨w.ok, w.cap, w.bcap⟩ letter letter' letter_ne letter_ne' (by decide) (by decide) (by show (0 : Int) ≤ 3; decide)
    (by show (3 : Int) + _ ≤ (s1.bytes.length : Int); rw [V3.length_bytes w.ok, e4]; decide) (by decide) vars (fun h => List.length_replicate ..) s1 hw rfl

end Crunch.Wire
