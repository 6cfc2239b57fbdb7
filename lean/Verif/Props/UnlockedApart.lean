import Verif.Lemmas.UnlockedApart
import Verif.Props.Client

/-!
# Goroutines that use different parts of a buffer without a mutex (C123)

The v3 `Buffer` and the `MiniBuffer`s have no mutex.  Goroutines may still share one as long as no call of one changes a part that a call of another one
accesses, and no call copies or makes memory: every call then does what it does when its goroutine is the only one.
-/

namespace Crunch.Src

/-- C123: goroutines that share a buffer without a mutex, run from the text of v3/buffer.generated.go, and use different parts of it, do not notice one another. -/
theorem C123_buffer :
    ∃ funs, compileAll V3Buffer.text = some funs ∧
    ∀ (fuel depth : Nat), 2 ^ 64 < fuel → 3 ≤ depth → ∀ {c0 c : Conf V3.Op V} {τ : Trace V3.Op V}, Quiet c0 →
    Exec (microBuf ⟨funs, V3Buffer.errs⟩ fuel depth) Fits c0 τ c → (∀ i, ∀ op ∈ started i τ, V3.copies op = false) →
    (∀ i j, i < j → ∀ op ∈ started i τ, ∀ op' ∈ started j τ, PartsApart V3.accesses V3.changes op op') →
    Unnoticed modelBuf V3.changes c0 τ c := by
  obtain ⟨funs, hc, h⟩ := C120_buffer_alone
  cases (V3Buffer.link).symm.trans hc
  exact ⟨_, hc, fun fuel depth hf hd c0 c τ q e hcp ap => unnoticed (V3Buffer.kinds fuel depth) (h fuel depth hf hd) (fun op k h => by unfold V3.accesses; rw [V3.accesses_of_changes h]; rfl) q e hcp ap⟩

/-- C123: the same for v3/minibuf.generated.go. -/
theorem C123_mini :
    ∃ funs, compileAll V3Mini.text = some funs ∧
    ∀ (fuel depth : Nat), 2 ^ 64 < fuel → 3 ≤ depth → ∀ {c0 c : Conf (V3.Outs × V3.Op) V} {τ : Trace (V3.Outs × V3.Op) V}, Quiet c0 →
    Exec (microMini ⟨funs, V3Mini.errs⟩ fuel depth) HasMini c0 τ c → (∀ i, ∀ op ∈ started i τ, (fun x => V3.copies x.2) op = false) →
    (∀ i j, i < j → ∀ op ∈ started i τ, ∀ op' ∈ started j τ, PartsApart (fun x => V3.accessesMini x.2) (fun x => V3.changes x.2) op op') →
    Unnoticed modelMini (fun x => V3.changes x.2) c0 τ c := by
  obtain ⟨funs, hc, h⟩ := C120_mini_alone
  cases (V3Mini.link).symm.trans hc
  refine ⟨_, hc, fun fuel depth hf hd c0 c τ q e hcp ap => unnoticed (m := modelMini) (V3Mini.kinds fuel depth) (fun op ho s b => ?_) (fun _ _ => V3.accesses_of_changes) q e hcp ap⟩
  obtain ⟨m, hm⟩ := Option.isSome_iff_exists.mp ho.2
  refine (h fuel depth hf hd op.1 op.2 ho.1 m hm s b).trans ?_
  unfold modelMini; rw [hm]

/-- C123: the same for v2/minibuf.go. -/
theorem C123_v2_mini :
    ∃ funs, compileAll (V2Utils.text ++ V2Mini.text) = some funs ∧
    ∀ (fuel depth : Nat), 2 ^ 64 < fuel → 4 ≤ depth → ∀ {c0 c : Conf (V3.Outs × V2.Op2) V} {τ : Trace (V3.Outs × V2.Op2) V}, Quiet c0 →
    Exec (microMini2 ⟨funs, V2Mini.errs⟩ fuel depth) HasMini2 c0 τ c → (∀ i, ∀ op ∈ started i τ, (fun x => V2.copiesMini x.2) op = false) →
    (∀ i j, i < j → ∀ op ∈ started i τ, ∀ op' ∈ started j τ, PartsApart (fun x => V2.accessesMini x.2) (fun x => V2.alters x.2) op op') →
    Unnoticed modelMini2 (fun x => V2.alters x.2) c0 τ c := by
  obtain ⟨funs, hc, h⟩ := C120_v2_mini_alone
  cases ((compileAll_append V2Utils.link V2Mini.link)).symm.trans hc
  refine ⟨_, hc, fun fuel depth hf hd c0 c τ q e hcp ap => unnoticed (m := modelMini2) (V2Mini.kinds fuel depth) (fun op ho s b => ?_) (fun _ _ => V2.accesses_of_alters) q e hcp ap⟩
  obtain ⟨m, hm⟩ := Option.isSome_iff_exists.mp ho.2
  refine (h fuel depth hf hd op.1 op.2 ho.1 m hm s b).trans ?_
  unfold modelMini2; rw [hm]

/-- C123: the same for v1/minibuf.go. -/
theorem C123_v1_mini :
    ∃ funs, compileAll (V1Utils.text ++ V1Mini.text) = some funs ∧
    ∀ (fuel depth : Nat), 2 ^ 64 < fuel → 4 ≤ depth → ∀ {c0 c : Conf (V3.Outs × V1.Any × V1.Op1) V} {τ : Trace (V3.Outs × V1.Any × V1.Op1) V}, Quiet c0 →
    Exec (microMini1 ⟨funs, V1Mini.errs⟩ fuel depth) HasMini1 c0 τ c → (∀ i, ∀ op ∈ started i τ, (fun x => V1.copiesMini1 x.2.2) op = false) →
    (∀ i j, i < j → ∀ op ∈ started i τ, ∀ op' ∈ started j τ, PartsApart (fun x => V1.accessesMini1 x.2.2) (fun x => V1.alters1 x.2.2) op op') →
    Unnoticed modelMini1 (fun x => V1.alters1 x.2.2) c0 τ c := by
  obtain ⟨funs, hc, h⟩ := C120_v1_mini_alone
  cases ((compileAll_append V1Utils.link V1Mini.link)).symm.trans hc
  refine ⟨_, hc, fun fuel depth hf hd c0 c τ q e hcp ap => unnoticed (m := modelMini1) (V1Mini.kinds fuel depth) (fun op ho s b => ?_) (fun _ _ => V1.accesses_of_alters) q e hcp ap⟩
  obtain ⟨m, hm⟩ := Option.isSome_iff_exists.mp ho.2
  refine (h fuel depth hf hd op.1 op.2.1 op.2.2 ho.1 m hm s b).trans ?_
  unfold modelMini1; rw [hm]

/-- Calls at the byte offset and calls at the bit offset that read use different parts; so do calls that read bytes and calls that seek, and calls that write
with a position and calls that ask for an offset.  Two calls that write do not. -/
example : PartsApart V3.accesses V3.changes (.readByte none) (.readBits none 3) ∧ PartsApart V3.accesses V3.changes (.read .u32 .le none 2) (.seekBit 4 true) ∧
    PartsApart V3.accesses V3.changes (.write .u16 .be (some 0) [7]) .byteOffset ∧ ¬ PartsApart V3.accesses V3.changes (.setBit (some 0)) (.setBit (some 90)) := by
  refine ⟨?_, ?_, ?_, fun h => (h .bytes).1 ⟨rfl, rfl⟩⟩ <;> (intro k; rcases k with (_ | _ | _ | _) | _ | _ <;> decide)

/-- One goroutine reads bytes at the byte offset while another one reads bits at the bit offset, step by step in turn. -/
example (f d : Nat) : ∃ τ c, Exec (microBuf V3Buffer.P (f + 100) (d + 3)) Fits (rest _ _ V3.demo) τ c ∧ (∀ i, c.thr i = .idle) ∧
    (finished 0 τ).map (·.2) = [.ok (.u8 6)] ∧ (finished 1 τ).map (·.2) = [.ok (.u8 0)] ∧ c.sh.st.b.off = 4 ∧ c.sh.st.b.boff = 6 := by
  obtain ⟨τ, c, e, hi, h⟩ := sched_ex_done (ex := microBuf V3Buffer.P (f + 100) (d + 3)) (allowed := Fits) (rest_quiet V3.demo) 2
    ((0, some (.readByte none)) :: (1, some (.readBit none)) :: steps 0 2 ++ steps 1 3 ++ steps 0 3 ++ steps 1 3 ++ steps 0 2 ++ steps 1 1)
    (fun τ c => isU8 6 (finished 0 τ) && isU8 0 (finished 1 τ) && c.sh.st.b.off == 4 && c.sh.st.b.boff == 6)
    (allowed_of fun op ho => by rcases List.mem_cons.mp ho with rfl | ho <;> first | trivial | (rw [List.mem_singleton.mp ho]; trivial)) (by decide) (by compute)
  simp only [Bool.and_eq_true] at h
  exact ⟨τ, c, e, hi, isU8_eq h.1.1.1, isU8_eq h.1.1.2, eq_of_beq h.1.2, eq_of_beq h.2⟩

end Crunch.Src
