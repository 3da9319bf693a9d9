import Verif.Spec.Http
/-! # Canonical paths (C53) -/
namespace Spec
open Comfo

/-- An element of a path that names something. -/
def Plain (e : Str) : Prop := e ≠ [] ∧ e ≠ ['.'] ∧ e ≠ ['.', '.'] ∧ '/' ∉ e

instance (e : Str) : Decidable (Plain e) := inferInstanceAs (Decidable (_ ∧ _ ∧ _ ∧ _))

/-- Elements, each with a slash before it. -/
def pathText : List Str → Str
  | [] => []
  | e :: es => '/' :: (e ++ pathText es)

/-- The path names things only, one below the other, with or without a slash at the end. -/
def Canonical (p : Str) : Prop :=
  p = ['/'] ∨ ∃ es, es ≠ [] ∧ (∀ e ∈ es, Plain e) ∧ (p = pathText es ∨ p = pathText es ++ ['/'])

end Spec
