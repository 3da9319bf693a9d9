/-!
# Specification vocabulary for byte streams, independent of the model
-/
namespace Spec

/-- The three bytes that, after a 0x07, act as delimiters for the reader: ACK, start, end. -/
def IsDelim (b : UInt8) : Prop := b = 0xF3 ∨ b = 0xF0 ∨ b = 0x0F

instance (b : UInt8) : Decidable (IsDelim b) := by unfold IsDelim; infer_instance

/-- No 0x07 in the byte string is directly followed by a delimiter byte. -/
def NoDelim (bs : List UInt8) : Prop :=
  ∀ x d y, bs = x ++ 7 :: d :: y → ¬ IsDelim d

/-- `NoDelim` can be evaluated. -/
def noDelimB : List UInt8 → Bool
  | a :: b :: r => !(a == 7 && decide (IsDelim b)) && noDelimB (b :: r)
  | _ => true

theorem noDelimB_iff (bs : List UInt8) : noDelimB bs = true ↔ NoDelim bs := by
  fun_induction noDelimB bs with
  | case1 a b r ih =>
    rw [Bool.and_eq_true, ih]
    constructor
    · rintro ⟨h1, h2⟩ x d y he
      match x with
      | [] =>
        simp at he
        obtain ⟨rfl, rfl, rfl⟩ := he
        simpa using h1
      | z :: x =>
        simp at he
        exact h2 x d y he.2
    · intro h
      refine ⟨?_, fun x d y he => h (a :: x) d y (by rw [he]; rfl)⟩
      have := h [] b r
      by_cases ha : a = 7
      · subst ha; simpa using this rfl
      · simp [ha]
  | case2 l hl =>
    simp only [true_iff]
    intro x d y he
    match x with
    | [] => exact absurd he (hl _ _ _)
    | z :: [] => exact absurd he (hl _ _ _)
    | z :: w :: x => exact absurd he (hl _ _ _)

instance (bs : List UInt8) : Decidable (NoDelim bs) := decidable_of_iff _ (noDelimB_iff bs)

/-- The stream `bs` has its first delimiter `07 d` after the bytes `tok`; `rest` follows. -/
def Token (bs tok : List UInt8) (d : UInt8) (rest : List UInt8) : Prop :=
  bs = tok ++ 7 :: d :: rest ∧ IsDelim d ∧ NoDelim tok

end Spec
