import Verif.Spec.Served
import Verif.Spec.Polling
/-!
Specification: what a goroutine does between taking the lock of a cache and giving it back.
-/
namespace Spec
open Comfo

/-- Actions that concern the cache `id`, the clock, or the line. -/
def AtHome (id : CacheId) : Act → Prop
  | .now _ | .wrote _ _ | .got _ _ | .lock .pm | .unlock .pm => True
  | .load i _ | .store i _ | .note i _ => i = id
  | _ => False

/-- The number of times an answer of the unit was waited for. -/
def reads (acts : List Act) : Nat :=
  (acts.filter fun | .got _ _ => true | _ => false).length

/-- At most one query of the unit, for the value of cache `id`; nothing else is sent or waited for,
and no other cache is touched. -/
structure Errand (id : CacheId) (acts : List Act) : Prop where
  home : ∀ a ∈ acts, AtHome id a
  query : written acts <+: [frame (requestCode id) [], ack]
  once : reads acts ≤ 1

/-- Cache `id` is read, and nothing else is done. -/
def Glance (id : CacheId) (acts : List Act) : Prop := ∀ a ∈ acts, ∃ c, a = .load id c

/-- How a lock is taken and given back. -/
def taking (l : Lock) (excl : Bool) : Act := if excl then .lock l else .rlock l
def releasing (l : Lock) (excl : Bool) : Act := if excl then .unlock l else .runlock l

/-- Goroutine `t` has taken `l`, has not given it back yet, and has done `acts` since. -/
def Within (s : Sys σ) (t : Tid) (l : Lock) (excl : Bool) (acts : List Act) : Prop :=
  ∃ pre mid, s.sh.trace = pre ++ (t, taking l excl) :: mid ∧ (t, releasing l excl) ∉ mid ∧
    acts = actsOf t mid

/-- Goroutine `t` takes a step from `s` to `s'`. -/
def Moves (L : Line σ) (t : Tid) (s s' : Sys σ) : Prop :=
  Work L s s' ∧ ∃ a, s'.sh.trace = s.sh.trace ++ [(t, a)]

end Spec
