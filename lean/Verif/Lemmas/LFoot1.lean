import Verif.Lemmas.LFoot
import Verif.Lemmas.SrcComplex
import Verif.Lemmas.V1Foot

/-! The places that the statements access that only the v1 texts without a mutex have. -/

namespace Crunch.Src
open V3 (Buf)

variable {R W : Loc → Prop} {b : Buf} {v : V}

theorem lfoot_for {c : Env → LProg V} {body post : Env → LProg (Out × Env)} {Q : Buf → V → Out × Env → Prop} {n : Int64}
    (g : A → Int64 → Env) (o : A → V) (I : Int64 → A → Prop)
    (hc : ∀ i a (k : V → LProg (Out × Env)), c (g a i) >>= k = k (.bool (decide (i < n))))
    (hp : ∀ i a (k : Out × Env → LProg (Out × Env)), post (g a i) >>= k = k (.next, g a (i + 1)))
    (hb : ∀ i a, I i a → i < n → LFoot R W (fun b' v' r => b' = b ∧ ∃ a', v' = o a' ∧ r = (.next, g a' i) ∧ I (i + 1) a') b (o a) (body (g a i) >>= pure))
    (hq : ∀ a i, I i a → Q b (o a) (.next, g a i)) (fuel : Nat) (i : Int64) (a : A) (hi : I i a) : LFoot R W Q b (o a) (loopFor c body post fuel (g a i)) := by
  induction fuel generalizing i a with
  | zero => exact fun _ => trivial
  | succ fuel ih =>
    rw [loopFor, hc]
    by_cases hn : i < n
    · rw [decide_eq_true hn]
      have hb := hb i a hi hn
      rw [bind_pure] at hb
      refine lfoot_bind (hb.mono fun b' v' r h => ?_)
      obtain ⟨rfl, a', rfl, rfl, h2⟩ := h
      show LFoot R W Q b' (o a') (post (g a' i) >>= fun r => loopFor c body post fuel r.2)
      rw [hp]
      exact ih _ _ h2
    · rw [decide_eq_false hn]
      exact lfoot_pure (hq _ _ hi)

theorem lfoot_range {body : Int64 → Env → LProg (Out × Env)} {Q : Buf → V → Out × Env → Prop} {n : Int64} (g : A → Env)
    (hb : ∀ i a, LFoot R W (fun b' v' r => b' = b ∧ v' = v ∧ ∃ a', r = (.next, g a')) b v (body i (g a) >>= pure))
    (hq : ∀ a, Q b v (.next, g a)) (fuel : Nat) (i : Int64) (a : A) : LFoot R W Q b v (loopRange body n fuel i (g a)) := by
  induction fuel generalizing i a with
  | zero => exact fun _ => trivial
  | succ fuel ih =>
    rw [loopRange]
    refine lfoot_ite (fun _ => ?_) fun _ => lfoot_pure (hq _)
    have hb := hb i a
    rw [bind_pure] at hb
    refine lfoot_bind (hb.mono fun b' v' r h => ?_)
    obtain ⟨rfl, rfl, a', rfl⟩ := h
    exact ih _ _

theorem BitElem.step {o i : Int64} (a : BitElem b o i) (h0 : -8 < (o + i).toInt) (h1 : (o + i).toInt < 8 * b.buf.len) : BitElem b o (i + 1) := by
  have hs := a.small; have hi := a.hi
  rw [a.pos] at h0 h1
  have ho : -8 < o.toInt := by
    rcases a.inv with rfl | h
    · have z : (0 : Int64).toInt = 0 := rfl
      omega
    · exact h.1
  have e : (i + 1).toInt = i.toInt + 1 := by
    have e1 : (1 : Int64).toInt = 1 := rfl
    rw [toInt_add]; omega
  exact ⟨hs, by omega, .inr ⟨ho, by omega⟩⟩

/-! ## complex values -/

section
variable {Q : Buf → V → α → Prop}

theorem lfoot_assert_u8 {x : V1.Any} {k : V → LProg α} (h : ∀ s, x = .bytes s → LFoot R W Q b v (k (.bytes (.mem s)))) :
    LFoot R W Q b v (assertK .u8 (goAny x) >>= k) := by
  cases x <;> simp only [goAny, assertK, pure_bind, LawfulSem.fail_bind] <;> first | exact h _ rfl | exact lfoot_fail
theorem lfoot_assert_u16 {x : V1.Any} {k : V → LProg α} (h : ∀ l, x = .u16 l → LFoot R W Q b v (k (.lu16 l))) :
    LFoot R W Q b v (assertK .u16 (goAny x) >>= k) := by
  cases x <;> simp only [goAny, assertK, pure_bind, LawfulSem.fail_bind] <;> first | exact h _ rfl | exact lfoot_fail
theorem lfoot_assert_u32 {x : V1.Any} {k : V → LProg α} (h : ∀ l, x = .u32 l → LFoot R W Q b v (k (.lu32 l))) :
    LFoot R W Q b v (assertK .u32 (goAny x) >>= k) := by
  cases x <;> simp only [goAny, assertK, pure_bind, LawfulSem.fail_bind] <;> first | exact h _ rfl | exact lfoot_fail
theorem lfoot_assert_u64 {x : V1.Any} {k : V → LProg α} (h : ∀ l, x = .u64 l → LFoot R W Q b v (k (.lu64 l))) :
    LFoot R W Q b v (assertK .u64 (goAny x) >>= k) := by
  cases x <;> simp only [goAny, assertK, pure_bind, LawfulSem.fail_bind] <;> first | exact h _ rfl | exact lfoot_fail

theorem lfoot_order {o : V1.ByteOrder} {k : Spec.Endian → LProg α} (h : ∀ e, LFoot R W Q b v (k e)) : LFoot R W Q b v (orderOf (.order o) >>= k) := by
  cases o with
  | none => exact fun _ => trivial
  | some e => exact h e

theorem lfoot_make {n : Int64} {k : Crunch.Src → LProg α} (h : 0 ≤ n.toInt → ∀ l, l.length = n.toInt.toNat → LFoot R W Q b v (k (.lit l))) :
    LFoot R W Q b v (Sem.make n >>= k) := by
  refine lfoot_lift fun l => ?_
  unfold Prog.makeZero
  split
  · trivial
  · rename_i g
    exact h (by omega) _ (List.length_replicate ..)

theorem lfoot_loadLit {l : List UInt8} {i : Int64} {k : UInt8 → LProg α} (h : 0 ≤ i.toInt → i.toInt < l.length → ∀ x, LFoot R W Q b v (k x)) :
    LFoot R W Q b v (Sem.load (.lit l) i >>= k) := lfoot_lift fun _ => by
  rw [prog_srcLit]
  exact foot_idx trivial h

theorem lfoot_setIdx' {d : List β} {i : Int64} {x : β} {k : List β → LProg α} (h : ∀ d', d'.length = d.length → LFoot R W Q b v (k d')) :
    LFoot R W Q b v (Sem.setIdx d i x >>= k) := lfoot_lift fun _ => foot_setIdx trivial h

theorem lfoot_reslice' {s : Slice} {lo hi : Int64} {k : Slice → LProg α}
    (h : 0 ≤ lo.toInt → lo.toInt ≤ hi.toInt → hi.toInt ≤ s.cap → ∀ t : Slice, t.arr = s.arr → t.off = s.off + lo.toInt.toNat →
      t.len = hi.toInt.toNat - lo.toInt.toNat → t.cap ≤ s.cap → LFoot R W Q b v (k t)) : LFoot R W Q b v (Sem.reslice s lo hi >>= k) :=
  lfoot_lift fun _ => foot_reslice trivial fun h1 h2 h3 t h4 h5 h6 h7 => h h1 h2 h3 t h4 h5 h6 (by omega)

end

end Crunch.Src
