import Verif.Spec.Served
/-!
# What the unit has said
-/
namespace Spec
open Comfo

/-- The unit has sent a reply that stands for `v`: in the log kept while the server started, or in the
trace of what was done since. -/
def Told (id : CacheId) (v : CVal id) (startup : List IoEv) (trace : List (Tid × Act)) : Prop :=
  ∃ q : Packet, q.command = requestCode id + 1 ∧ decode id q.data = some v ∧
    (IoEv.got true (q, none) ∈ startup ∨ ∃ t, (t, Act.got true (q, none)) ∈ trace)

end Spec
