import Verif.Spec.Served
/-! # Which timer is responsible for which cache -/
namespace Spec
open Comfo

/-- `tier k`: the caches that are to be refreshed when timer `k` fires (every 5 s, 5 min, 1 h). -/
def tier : Tick → List CacheId
  | .fast => [.temps, .fans]
  | .slow => [.profiles, .bypass]
  | .glacial => [.boot, .errors]

/-- None of the refreshes of cache `id` which the worker began in `ext` failed. -/
def WorkerSucceeds (id : CacheId) (ext : List (Tid × Act)) : Prop :=
  ∀ t, (.worker, .note id t) ∈ ext → ∃ v, (.worker, Act.store id { val := v, last := t }) ∈ ext

end Spec
