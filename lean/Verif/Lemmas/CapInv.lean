import Verif.Lemmas.SecInv
import Verif.Lemmas.OpClass
import Verif.Lemmas.Basic

/-! The capacities and the length of the content, section by section. -/

namespace Crunch
open V3 (St)

/-- The slice fits and the capacities are those of a content no longer than the real one. -/
def CapLe (s : St) : Prop := SliceOK s.mem s.b.buf ∧ s.b.cap.toInt ≤ s.b.buf.len ∧ s.b.bcap = s.b.cap * 8

/-- The capacities are those of the content. -/
def CapEq (s : St) : Prop := s.b.cap = Int64.ofNat s.b.buf.len ∧ s.b.bcap = s.b.cap * 8

theorem capEq_wf {s : St} : CapEq s ∧ SliceOK s.mem s.b.buf ↔ V3.WF s := by
  have e : Int64.ofNat s.b.buf.len * 8 = Int64.ofNat (8 * s.b.buf.len) := by
    rw [Nat.mul_comm, Int64.ofNat_mul]; rfl
  constructor
  · rintro ⟨⟨h2, h3⟩, h1⟩
    exact ⟨h1, h2, by rw [h3, h2, e]⟩
  · rintro ⟨h1, h2, h3⟩
    exact ⟨⟨h2, by rw [h3, h2, e]⟩, h1⟩

theorem SameFrame.ok {s s' : St} (h : SameFrame s s') (w : SliceOK s.mem s.b.buf) : SliceOK s'.mem s.b.buf :=
  ⟨w.len_le, by rw [h.2]; exact w.fits, by rw [h.2]; exact w.small⟩

theorem capLe_frame : OnFrame CapLe := by
  intro s s' h hs
  have hf := h.1
  simp only [frame, V3.Buf.mk.injEq] at hf
  obtain ⟨h1, -, h2, -, h3⟩ := hf
  unfold CapLe
  rw [h1, h2, h3]; exact ⟨h.ok hs.1, hs.2⟩

theorem capEq_frame : OnFrame CapEq := by
  intro s s' h hs
  have hf := h.1
  simp only [frame, V3.Buf.mk.injEq] at hf
  obtain ⟨h1, -, h2, -, h3⟩ := hf
  unfold CapEq
  rw [h1, h2, h3]; exact hs

theorem ofNat_le (n : Nat) : (Int64.ofNat n).toInt ≤ n := by
  rw [Int64.toInt_ofNat', show Int64.size = 2 ^ 64 from rfl]
  by_cases h : (n : Int) < 2 ^ 63
  · exact Int.le_of_eq (Int.bmod_eq_of_le (by omega) (by omega))
  · have := @Int.bmod_lt n (2 ^ 64) (by decide)
    omega

theorem appendMem_len (t : Slice) (bs : List UInt8) (m : Heap) : (appendMem t (.lit bs) m).1.len = t.len + bs.length := by
  unfold appendMem
  simp only []
  split <;> rfl

theorem keeps_class {I : St → Prop} {g : Bool} (hI : OnFrame I) : OpClass fun _ p => Keeps I g p :=
  ⟨fun _ => trivial, fun hp hf => hp.bind hf, fun h => h.keeps, fun _ h => h.keeps hI⟩

theorem appendMem_lit (t : Slice) (bs : List UInt8) (m : Heap) :
    appendMem t (.lit bs) m = if t.len + bs.length ≤ t.cap then ({ t with len := t.len + bs.length }, m.blit t.arr (t.off + t.len) bs)
      else (⟨m.arrays.length, 0, t.len + bs.length, min (t.len + bs.length + m.slack t.cap (t.len + bs.length)) maxAlloc⟩,
        m.alloc (m.view t ++ bs ++ List.replicate (min (t.len + bs.length + m.slack t.cap (t.len + bs.length)) maxAlloc -
          (t.len + bs.length)) 0)) := rfl

theorem appendMem_ok {t : Slice} {m : Heap} (w : SliceOK m t) (bs : List UInt8)
    (h : t.len + bs.length ≤ t.cap ∨ t.len + bs.length ≤ maxAlloc) :
    SliceOK (appendMem t (.lit bs) m).2 (appendMem t (.lit bs) m).1 := by
  rw [appendMem_lit]
  by_cases hc : t.len + bs.length ≤ t.cap
  · rw [if_pos hc]
    exact ⟨hc, (w.blit _ _ _).fits, (w.blit _ _ _).small⟩
  · rw [if_neg hc]
    have hl := length_view w
    have hlen : ((m.alloc (m.view t ++ bs ++ List.replicate (min (t.len + bs.length + m.slack t.cap (t.len + bs.length)) maxAlloc -
        (t.len + bs.length)) 0)).array m.arrays.length).length = min (t.len + bs.length + m.slack t.cap (t.len + bs.length)) maxAlloc := by
      rw [array_alloc_self]
      simp only [List.length_append, List.length_replicate, hl]
      omega
    refine ⟨?_, ?_, ?_⟩
    · show t.len + bs.length ≤ min _ _
      omega
    · show 0 + min _ _ ≤ _
      rw [hlen]; omega
    · show List.length _ ≤ _
      rw [hlen]; omega

namespace V2

theorem refresh_capEq (k : Prog Unit) (h : Buffer.refresh = .lock k) (s : St) : CapEq (secRun k s) := by
  cases h
  exact ⟨rfl, rfl⟩

theorem refresh_closed : ∃ k, Buffer.refresh = .lock k ∧ Closed k ∧ ∀ g (I : St → Prop), Keeps I g k :=
  ⟨_, rfl, fun _ _ => trivial, fun _ _ _ _ => trivial⟩

theorem refresh_keeps_eq (g : Bool) : Keeps CapEq g Buffer.refresh := by
  obtain ⟨k, e, h1, h2⟩ := refresh_closed
  rw [e]
  exact ⟨h1, fun s _ => .inl (refresh_capEq k e s), h2 _ _⟩
theorem refresh_keeps_le (g : Bool) : Keeps CapLe g Buffer.refresh :=
  ⟨fun _ _ => trivial, fun _ hs => .inl ⟨hs.1, ofNat_le _, rfl⟩, fun _ _ => trivial⟩
theorem refresh_owes : Owe CapEq Buffer.refresh := by
  obtain ⟨k, e, h1, _⟩ := refresh_closed
  rw [e]
  exact ⟨h1, refresh_capEq k e⟩

theorem reset_keeps_eq (g : Bool) : Keeps CapEq g Buffer.reset :=
  ⟨fun _ => trivial, fun _ _ => .inl ⟨rfl, rfl⟩, fun _ => trivial⟩
theorem reset_keeps_le (g : Bool) : Keeps CapLe g Buffer.reset := by
  refine ⟨fun _ => trivial, fun s _ => .inl ⟨⟨Nat.le_refl _, ?_, ?_⟩, (show (0 : Int64).toInt ≤ ((0 : Nat) : Int) by decide), rfl⟩,
    fun _ => trivial⟩
  · exact Nat.zero_le _
  · show ((s.mem.alloc []).array s.mem.arrays.length).length ≤ _
    rw [array_alloc_self]; exact Nat.zero_le _

/-- What `Grow` does inside its first section once it has the slice. -/
def growSec (n : Int64) (s : Slice) : Prog Unit :=
  (Prog.makeZero n).bind fun z => (Prog.appendTo s z).bind fun r => (Prog.assignBuf r).bind fun _ =>
    Prog.Unlock.bind fun _ => Buffer.refresh

theorem grow_split (n : Int64) : Buffer.grow n = .lock (.getBuf (growSec n)) := rfl

theorem growSec_cases (n : Int64) (s : Slice) :
    (∃ q, growSec n s = .panic q) ∨ ∃ bs, (s.len + bs.length ≤ s.cap ∨ s.len + bs.length ≤ maxAlloc) ∧
      growSec n s = .append s (.lit bs) fun r => .setBuf r (.unlock Buffer.refresh) := by
  unfold growSec Prog.makeZero
  split
  · exact .inl ⟨_, rfl⟩
  · simp only [Prog.bind]
    unfold Prog.appendTo
    split
    · rename_i h; exact .inr ⟨_, h, rfl⟩
    · exact .inl ⟨_, rfl⟩

theorem growSec_closed (n : Int64) : Closed (.getBuf (growSec n)) := by
  intro s
  rcases growSec_cases n s with ⟨q, e⟩ | ⟨x, hx, e⟩
  · show Closed (growSec n s); rw [e]; trivial
  · show Closed (growSec n s); rw [e]; exact fun _ => trivial

theorem growSec_keeps {I : St → Prop} {g : Bool} (h : Keeps I g Buffer.refresh) (n : Int64) : Keeps I g (.getBuf (growSec n)) := by
  intro s
  rcases growSec_cases n s with ⟨q, e⟩ | ⟨x, hx, e⟩
  · show Keeps _ _ (growSec n s); rw [e]; trivial
  · show Keeps _ _ (growSec n s); rw [e]; exact fun _ => h

theorem grow_keeps_eq (n : Int64) : Keeps CapEq true (Buffer.grow n) := by
  rw [grow_split]
  refine ⟨growSec_closed n, fun s hs => ?_, growSec_keeps (refresh_keeps_eq _) n⟩
  change CapEq (secRun (growSec n s.b.buf) s) ∨ true = true ∧ OweAt CapEq (growSec n s.b.buf) s
  rcases growSec_cases n s.b.buf with ⟨q, e⟩ | ⟨x, hx, e⟩
  · left; rw [e]; exact hs
  · right; rw [e]; exact ⟨rfl, refresh_owes⟩

theorem grow_keeps_le (n : Int64) (g : Bool) : Keeps CapLe g (Buffer.grow n) := by
  rw [grow_split]
  refine ⟨growSec_closed n, fun s hs => .inl ?_, growSec_keeps (refresh_keeps_le _) n⟩
  change CapLe (secRun (growSec n s.b.buf) s)
  rcases growSec_cases n s.b.buf with ⟨q, e⟩ | ⟨x, hx, e⟩
  · rw [e]; exact hs
  · rw [e]
    refine ⟨appendMem_ok hs.1 x hx, ?_, hs.2.2⟩
    show s.b.cap.toInt ≤ ((appendMem s.b.buf (.lit x) s.mem).1.len : Int)
    rw [appendMem_len]
    have := hs.2.1
    omega

/-- The calls that change the length of the content before the capacities. -/
def isGrow : Op2 → Bool
  | .grow _ => true
  | _ => false

theorem exec_keeps {I : St → Prop} {g : Bool} (hI : OnFrame I) (op : Op2) (hg : ∀ n, op = .grow n → Keeps I g (Buffer.grow n))
    (hr : Keeps I g Buffer.refresh) (hz : Keeps I g Buffer.reset) : Keeps I g (exec op) :=
  have := keeps_class (g := g) hI
  (exec_is (P := fun _ p => Keeps I g p) op (fun n e => ⟨hg n e⟩) ⟨hr⟩ (fun _ => ⟨hz⟩)).out

theorem exec_keeps_le (op : Op2) : Keeps CapLe false (exec op) :=
  exec_keeps capLe_frame op (fun n _ => grow_keeps_le n _) (refresh_keeps_le _) (reset_keeps_le _)

theorem exec_keeps_eq (op : Op2) : Keeps CapEq (isGrow op) (exec op) :=
  exec_keeps capEq_frame op (fun n e => by subst e; exact grow_keeps_eq n) (refresh_keeps_eq _) (reset_keeps_eq _)

end V2

namespace V1

/-- The calls that change the length of the content before the capacities. -/
def isGrow1 : Op1 → Bool
  | .grow _ => true
  | _ => false

theorem exec1_keeps {I : St → Prop} {g : Bool} (hI : OnFrame I) (op : Op1) (hg : ∀ n, op = .grow n → Keeps I g (V2.Buffer.grow n))
    (hr : Keeps I g V2.Buffer.refresh) : Keeps I g (exec1 op) :=
  have := keeps_class (g := g) hI
  (exec1_is (P := fun _ p => Keeps I g p) op (fun n e => ⟨hg n e⟩) ⟨hr⟩).out

theorem exec1_keeps_le (op : Op1) : Keeps CapLe false (exec1 op) :=
  exec1_keeps capLe_frame op (fun n _ => V2.grow_keeps_le n _) (V2.refresh_keeps_le _)

theorem exec1_keeps_eq (op : Op1) : Keeps CapEq (isGrow1 op) (exec1 op) :=
  exec1_keeps capEq_frame op (fun n e => by subst e; exact V2.grow_keeps_eq n) (V2.refresh_keeps_eq _)

end V1

variable {O V : Type} {ex : O → Prog V} {allowed : O → Prop} {c0 c : Conf O V} {τ : Trace O V}

/-- Sections that keep `I`: it holds whenever nobody is inside. -/
theorem shared_keeps {I : St → Prop} (hex : ∀ op, allowed op → Brk false false (ex op)) (hk : ∀ op, allowed op → Keeps I false (ex op))
    (q : Quiet c0) (h0 : I c0.sh.st) (e : Exec ex allowed c0 τ c) (hf : c.sh.locked = false) : I c.sh.st := by
  obtain ⟨h, a, v⟩ := exec_inv hex q e
  rw [v.free_done hf]
  rcases exec_debt (g := fun _ => false) hex hk q h0 e with h | ⟨i, _, _, _, h, _⟩
  · exact h
  · exact nomatch h

/-- It also holds when nobody is in a call that may owe it. -/
theorem shared_owes {I : St → Prop} {g : O → Bool} (hex : ∀ op, allowed op → Brk false false (ex op))
    (hk : ∀ op, allowed op → Keeps I (g op) (ex op)) (q : Quiet c0) (h0 : I c0.sh.st) (e : Exec ex allowed c0 τ c)
    (hn : ∀ i op p, c.thr i = .busy op p → g op = false) : I (after τ c0.sh.st) := by
  rcases exec_debt hex hk q h0 e with h | ⟨i, op, p, h1, h2, _⟩
  · exact h
  · rw [hn i op p h1] at h2; exact nomatch h2

theorem shared_owes_free {I : St → Prop} {g : O → Bool} (hex : ∀ op, allowed op → Brk false false (ex op))
    (hk : ∀ op, allowed op → Keeps I (g op) (ex op)) (q : Quiet c0) (h0 : I c0.sh.st) (e : Exec ex allowed c0 τ c)
    (hn : ∀ i op p, c.thr i = .busy op p → g op = false) (hf : c.sh.locked = false) : I c.sh.st := by
  obtain ⟨h, a, v⟩ := exec_inv hex q e
  rw [v.free_done hf]
  exact shared_owes hex hk q h0 e hn

theorem shared_owes_idle {I : St → Prop} {g : O → Bool} (hex : ∀ op, allowed op → Brk false false (ex op))
    (hk : ∀ op, allowed op → Keeps I (g op) (ex op)) (q : Quiet c0) (h0 : I c0.sh.st) (e : Exec ex allowed c0 τ c)
    (hn : ∀ i, c.thr i = .idle) : I c.sh.st := by
  obtain ⟨h, a, v⟩ := exec_inv hex q e
  have hs : I (after τ c0.sh.st) := shared_owes hex hk q h0 e fun i op p hi => by rw [hn i] at hi; exact nomatch hi
  cases a with
  | false => rw [v.done rfl]; exact hs
  | true =>
    obtain ⟨i, op, p, _, hi, _⟩ := v.active rfl
    rw [hn i] at hi; exact nomatch hi

theorem wf_capLe {s : St} (h : V3.WF s) : CapLe s :=
  ⟨h.ok, by rw [h.cap]; exact ofNat_le _, (capEq_wf.mpr h).1.2⟩

end Crunch
