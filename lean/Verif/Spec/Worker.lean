import Verif.Spec.Age
import Verif.Spec.Sync
import Verif.Props.Cache
/-! # What the cache worker is for (C88) -/
namespace Spec
open Comfo

/-- The reasons for which the worker works: timer `k` fired, or a request to flush `t`. -/
inductive Job
  | tick (k : Tick)
  | flush (t : Int)

/-- A look at cache `id`: at time `T` it holds an entry stamped `c.last`. If that is no longer than
4.5 s ago nothing is asked of the unit and nothing is stored; otherwise the cache is refreshed. -/
def Looked (id : CacheId) (acts : List Act) : Prop :=
  ∃ T c rest, acts = .lock (.cache id) :: .now T :: .load id c :: rest ∧
    (T - c.last ≤ 4500000000 → effects rest = []) ∧
    (4500000000 < T - c.last → rest.head? = some (.note id T) ∧ RefreshRun id (effects rest))

/-- Looks at the caches `ids`, one after the other. -/
inductive LookedAt : List CacheId → List Act → Prop
  | nil : LookedAt [] []
  | cons {id ids acts rest} : Looked id acts → LookedAt ids rest → LookedAt (id :: ids) (acts ++ rest)

/-- All that is done for a job: after a tick, looks at the two caches of the timer; for a flush,
refreshes of the caches asked for, and then the answer. -/
def Job.Done : Job → List Act → Prop
  | .tick k, acts => LookedAt (tier k) acts
  | .flush t, acts => ∃ work, acts = work ++ [.sendFlushed (knownCache t)] ∧
      RefreshRuns ((Props.flushTargets t).getD []) (effects work)

/-- Jobs done one after the other. -/
inductive JobsDone : List Job → List Act → Prop
  | nil : JobsDone [] []
  | snoc {js acts j more} : JobsDone js acts → j.Done more → JobsDone (js ++ [j]) (acts ++ more)

/-- The flush requests handed to the worker, in order. -/
def handed (trace : List (Tid × Act)) : List Int :=
  trace.filterMap fun
    | (_, .sendFlush t) => some t
    | _ => none

/-- The flush requests among the jobs. -/
def flushes (js : List Job) : List Int :=
  js.filterMap fun
    | .flush t => some t
    | .tick _ => none

end Spec
