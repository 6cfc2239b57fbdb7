import Verif.Lemmas.Store

/-! The 32 typed writers (16 of `Buffer`, 16 of `MiniBuffer`) in one uniform shape. -/

namespace Crunch.V3
open Spec

theorem adr0 (m w : Nat) : Int64.ofNat m * Int64.ofNat w = Int64.ofNat (m * w) := (ofNat_mul m w).symm

theorem adr (m w k : Nat) : Int64.ofNat k + Int64.ofNat m * Int64.ofNat w = Int64.ofNat (m * w + k) := by
  rw [ofNat_add, ofNat_mul, Int64.add_comm]

theorem bind_pure_unit (m : GoM σ Unit) : (m >>= fun _ => pure ()) = m := bind_pure' m

/-- The loop of every typed writer, for non-empty data. -/
theorem write_loop (k : Kind) (e : Endian) (off : Int64) (data : List k.Ty) (h0 : data ≠ [])
    (hl : data.length < 2 ^ 63) (body : Int64 → Unit → GoM St Unit)
    (hf : ∀ m (h : m < data.length),
      body (Int64.ofNat m) () = storeFrom off (m * k.size) (encode e k.size (k.pat data[m]))) :
    doLoop body (len data) 0 () = storeFrom off 0 (enc k e data) := by
  have hp : 0 < data.length := List.length_pos_iff.mpr h0
  rw [len, doLoop_pos _ _ hp hl, iter_store k e off data _ hf _ 0 (by omega)]
  simp

local macro "body" t:term : tactic => `(tactic|
  (intro m hm
   simp only [idx_ofNat hm ‹_›, pure_bind', encode, Kind.size, Kind.pat, pat_i16, pat_i32, pat_i64, ← $t,
     List.reverse_cons, List.reverse_nil, List.nil_append, List.cons_append, storeFrom,
     bind_pure_unit, Nat.add_assoc, Nat.reduceAdd, ← adr, ← adr0, Int64.reduceOfNat]))

/-- `MiniBuffer`'s writers, for non-empty data. -/
theorem mini_write_eq (k : Kind) (e : Endian) (off : Int64) (data : List k.Ty) (h0 : data ≠ [])
    (hl : data.length < 2 ^ 63) :
    Mini.Write k e off data = storeFrom off 0 (enc k e data) := by
  cases k <;> cases e <;> refine write_loop _ _ off data h0 hl _ ?_
  · body bytes_u16
  · body bytes_u16
  · body bytes_u32
  · body bytes_u32
  · body bytes_u64
  · body bytes_u64
  · body bytes_i16
  · body bytes_i16
  · body bytes_i32
  · body bytes_i32
  · body bytes_i64
  · body bytes_i64
  · body bytes_u32
  · body bytes_u32
  · body bytes_u64
  · body bytes_u64

/-- `Buffer`'s writers are `MiniBuffer`'s behind the two range checks. -/
theorem buffer_write_mini (k : Kind) (e : Endian) (off : Int64) (data : List k.Ty) :
    Buffer.Write k e off data = (do
      let b ← getB
      panicIf (off + len data * Int64.ofNat k.size > b.cap) (.err BufferOverwriteError)
      panicIf (off < 0) (.err BufferUnderwriteError)
      Mini.Write k e off data) := by
  cases k <;> cases e <;> rfl

/-- With empty data the first index expression panics. -/
theorem mini_write_nil (k : Kind) (e : Endian) (off : Int64) :
    Mini.Write k e off [] = throwP .index := by
  cases k <;> cases e <;> (
    refine (doLoop_le_one _ _ (by decide) _).trans ?_
    simp only [idx_nil, throwP_bind])

theorem mini_writeNext (k : Kind) (e : Endian) (data : List k.Ty) :
    Mini.WriteNext k e data = (do
      let b ← getB
      Mini.Write k e b.off data
      Mini.SeekByte (len data * Int64.ofNat k.size) true) := by
  cases k <;> cases e <;> rfl

theorem buffer_writeNext (k : Kind) (e : Endian) (data : List k.Ty) :
    Buffer.WriteNext k e data = (do
      let b ← getB
      Buffer.Write k e b.off data
      Buffer.SeekByte (len data * Int64.ofNat k.size) true) := by
  cases k <;> cases e <;> rfl

end Crunch.V3
