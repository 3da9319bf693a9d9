import Verif.Spec.EndToEnd
/-! # Requests that are repeated (C104) -/
namespace Spec
open Comfo

/-- Nobody but request `j` writes the command `cmd`, with any data. -/
def NoOther (cmd : UInt8) (j : Nat) (trace : List (Tid × Act)) : Prop :=
  ∀ t d r, t ≠ .client j → (t, Act.wrote (frame cmd d) r) ∉ trace

/-- Request `i` has refreshed cache `id`, with success. -/
def Refreshed (s : Sys σ) (i : Nat) (id : CacheId) : Prop :=
  ∃ e, (Tid.client i, Act.store id e) ∈ s.sh.trace

end Spec
