import Verif.Spec.Prompt
/-!
# How long the requests that change a setting take (C107)
-/
namespace Spec
open Comfo

/-- The time a request that changes a setting takes at the most once it is its turn, in nanoseconds, if at
most `r` Get requests for the same cache are under way at a time. -/
def busy (δ r : Nat) : Call → Nat
  | .setComfort _ => 8000000000 + (100 + 3 * r) * δ
  | .setProfile _ _ => 11000000000 + (100 + 3 * r) * δ
  | .setSpeed _ _ => 65000000000 + (500 + 36 * r) * δ
  | _ => 0

/-- Two requests that wait for each other: both change the fans, or both the comfort temperature. -/
def rivals : Call → Call → Bool
  | .setSpeed _ _, .setSpeed _ _ | .setSpeed _ _, .setProfile _ _ => true
  | .setProfile _ _, .setSpeed _ _ | .setProfile _ _, .setProfile _ _ => true
  | .setComfort _, .setComfort _ => true
  | _, _ => false

/-- The client has not got its answer yet, and waits for requests like `c` or they for it. -/
def isRival (c : Call) (d : Client) : Bool :=
  match d.prog with
  | .ret _ => false
  | _ => rivals c d.call

/-- What there is to do for all such clients. -/
def workload (δ r : Nat) (c : Call) (s : Sys σ) : Nat :=
  ((s.clients.filter (isRival c)).map fun d => busy δ r d.call).sum

end Spec
