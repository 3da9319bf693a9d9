import Verif.Spec.Client
/-!
# Queries and pauses in the actions of a request (C40, C41, C43, C44, C45, C48)
-/
namespace Spec
open Comfo

/-- The number of times the unit was asked for the state of the fans. -/
def fanQueries (acts : List Act) : Nat := (written acts).count (frame 0x0B [])

/-- The pauses made, in nanoseconds. -/
def pauses (acts : List Act) : List Int :=
  acts.filterMap fun
    | .sleep d => some d
    | _ => none

/-- The frames written, in order, without acknowledgements. -/
def queries (acts : List Act) : List (List UInt8) := (written acts).filter (· != ack)

end Spec
