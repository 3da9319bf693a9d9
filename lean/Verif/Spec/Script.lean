import Verif.Model.Conn
import Verif.Spec.Stream
/-!
# Vocabulary to talk about what a read script delivers to one query
-/
namespace Spec
open Comfo

/-- The bytes the connection hands over before it first stalls or after it first fails
(the bytes that come with the failure included). -/
def delivered : List RdEv → List UInt8
  | [] => []
  | .data bs :: r => bs ++ delivered r
  | .fail bs :: _ => bs
  | .stall :: _ => []

/-- Whether the connection fails (EOF or read error) before it first stalls. -/
def breaks : List RdEv → Bool
  | [] => false
  | .data _ :: r => breaks r
  | .fail _ :: _ => true
  | .stall :: _ => false

/-- No `Read` returns `0, nil`. -/
def NoEmptyReads (rd : List RdEv) : Prop := ∀ bs, RdEv.data bs ∈ rd → bs ≠ []

instance : Decidable (NoEmptyReads rd) :=
  decidable_of_iff (∀ ev ∈ rd, ev ≠ .data []) <| by
    constructor
    · intro h bs hb he; subst he; exact h _ hb rfl
    · intro h ev hm he; subst he; exact h _ hm rfl

end Spec
