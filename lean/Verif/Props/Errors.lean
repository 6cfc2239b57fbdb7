import Verif.V3.Errors
import Verif.V2.Errors
import Verif.V1.Errors

/-!
# The error values (C63)
-/

namespace Crunch

/-- The exported errors of the v3 package, in source order. -/
def V3.errors : List GoError :=
  [V3.BufferOverreadError, V3.BufferUnderreadError, V3.BufferOverwriteError, V3.BufferUnderwriteError,
   V3.BufferInvalidByteCountError, V3.BytesBufNegativeReadError]

/-- The exported errors of the v2 package. -/
def V2.errors : List GoError :=
  [V2.BufferOverreadError, V2.BufferUnderreadError, V2.BufferOverwriteError, V2.BufferUnderwriteError,
   V2.BufferInvalidByteCountError, V2.BufferInvalidBitError]

/-- The exported errors of the v1 package. -/
def V1.errors : List GoError :=
  [V1.BufferOverreadError, V1.BufferUnderreadError, V1.BufferOverwriteError, V1.BufferUnderwriteError,
   V1.BufferInvalidIntegerSizeError, V1.BufferInvalidEndiannessError, V1.BufferInvalidByteCountError, V1.BufferInvalidBitError]

theorem append_colon_inj {a a' b b' : List Char} (h : ':' ∉ a) (h' : ':' ∉ a') (e : a ++ ':' :: b = a' ++ ':' :: b') :
    a = a' ∧ b = b' := by
  induction a generalizing a' with
  | nil =>
    cases a' with
    | nil => exact ⟨rfl, (List.cons.inj e).2⟩
    | cons c a' =>
      have := (List.cons.inj e).1
      exact absurd (this ▸ List.mem_cons_self) h'
  | cons c a ih =>
    cases a' with
    | nil =>
      have := (List.cons.inj e).1
      exact absurd (this ▸ List.mem_cons_self) h
    | cons c' a' =>
      obtain ⟨e1, e2⟩ := List.cons.inj e
      obtain ⟨i1, i2⟩ := ih (fun m => h (List.mem_cons_of_mem _ m)) (fun m => h' (List.mem_cons_of_mem _ m)) e2
      exact ⟨by rw [e1, i1], i2⟩

/-- C63: the text of an error determines the error, for all errors whatever their texts, as long as the scope has no colon. -/
theorem C63_text_determines_error (e e' : GoError) (h : ':' ∉ e.scope.toList) (h' : ':' ∉ e'.scope.toList)
    (ht : V3.errorString e = V3.errorString e') : e = e' := by
  have ht := congrArg String.toList ht
  unfold V3.errorString at ht
  simp only [String.toList_append, List.append_assoc, List.append_cancel_left_eq] at ht
  have c : ": ".toList = [':', ' '] := by decide
  rw [c] at ht
  obtain ⟨h1, h2⟩ := append_colon_inj h h' ht
  have h2 := (List.cons.inj h2).2
  rcases e with ⟨s, m⟩
  rcases e' with ⟨s', m'⟩
  simp only at h1 h2
  rw [String.toList_inj.mp h1, String.toList_inj.mp h2]

/-- C63: the three packages format errors alike: `crunch: `, the scope, a colon and a space, the message. -/
theorem C63_format (e : GoError) :
    V3.errorString e = "crunch: " ++ e.scope ++ ": " ++ e.msg ∧ V2.errorString e = V3.errorString e ∧
      V1.errorString e = V3.errorString e := ⟨rfl, rfl, rfl⟩

theorem scopes_plain : ∀ e ∈ V3.errors ++ V2.errors ++ V1.errors, ':' ∉ e.scope.toList := by decide +kernel

theorem nodup_map {l : List GoError} (h : l.Nodup) (hs : ∀ e ∈ l, ':' ∉ e.scope.toList) : (l.map V3.errorString).Nodup := by
  rw [List.nodup_iff_pairwise_ne, List.pairwise_map]
  refine List.Pairwise.imp_of_mem ?_ h
  intro a b ha hb hne he
  exact hne (C63_text_determines_error a b (hs a ha) (hs b hb) he)

/-- C63: within each package the errors and their texts are pairwise distinct. -/
theorem C63_errors_distinct :
    (V3.errors.Nodup ∧ (V3.errors.map V3.errorString).Nodup) ∧
    (V2.errors.Nodup ∧ (V2.errors.map V2.errorString).Nodup) ∧
    (V1.errors.Nodup ∧ (V1.errors.map V1.errorString).Nodup) := by
  have n3 : V3.errors.Nodup := by decide +kernel
  have n2 : V2.errors.Nodup := by decide +kernel
  have n1 : V1.errors.Nodup := by decide +kernel
  refine ⟨⟨n3, nodup_map n3 fun e he => scopes_plain e ?_⟩, ⟨n2, nodup_map n2 fun e he => scopes_plain e ?_⟩,
    ⟨n1, nodup_map n1 fun e he => scopes_plain e ?_⟩⟩ <;> simp [he]

example : V3.errorString V3.BufferOverreadError = "crunch: buffer: read exceeds buffer capacity" := by decide +kernel
/-- A colon in the scope would make texts ambiguous. -/
example : V3.errorString ⟨"a: b", "c"⟩ = V3.errorString ⟨"a", "b: c"⟩ := by decide +kernel

end Crunch
