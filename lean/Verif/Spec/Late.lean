import Verif.Spec.Prompt
/-!
# Reads that are answered too late (C109)
-/
namespace Spec
open Comfo

/-- A Get request for cache `id` arrives at `m`, is not answered at `n`, and by then the last moment to answer
is past. -/
def LateRead (S : Setup σ) (f : Nat → Sys σ) (i : Nat) (id : CacheId) (m n : Nat) : Prop :=
  m ≤ n ∧ (f m).clients[i]? = some { call := getCall id, prog := (getCall id).prog S.cv } ∧
  (∀ r, ¬ Answered (f n) i (getCall id) r) ∧ ¬ InTime (f m).sh.world.clock (f n).sh.world.clock

end Spec
