import Verif.Spec.Sync
/-!
# Executions without end, and fairness
-/
namespace Spec
open Comfo

/-- An execution without end. It may begin at any moment of the life of the server; requests, ticks
and changes of the environment go on. -/
structure Endless (S : Setup σ) (f : Nat → Sys σ) : Prop where
  start : ∃ w, Reachable S (Sys.initial w) (f 0)
  step : ∀ n, Step S (f n) (f (n + 1))

/-- Goroutine `t` does something between `s` and `s'`. -/
def Takes (t : Tid) (s s' : Sys σ) : Prop :=
  ∃ ext a, s'.sh.trace = s.sh.trace ++ ext ∧ (t, a) ∈ ext

/-- Goroutine `t` could do something now. -/
def Able (L : Line σ) (s : Sys σ) (t : Tid) : Prop := ∃ s', Work L s s' ∧ Takes t s s'

/-- Goroutine `t` is about to take `l`, for itself alone or shared. -/
def WaitsFor (s : Sys σ) (t : Tid) (l : Lock) : Prop := Poised s t (.lock l) ∨ Poised s t (.rlock l)

/-- Go's run-time is fair. -/
structure Fair (S : Setup σ) (f : Nat → Sys σ) : Prop where
  /-- The scheduler forgets nobody: who can go on all the time does. -/
  sched : ∀ t n, (∀ m, n ≤ m → Able S.line (f m) t) → ∃ m, n ≤ m ∧ Takes t (f m) (f (m + 1))
  /-- The mutexes let nobody starve: who waits for a lock for ever waits for somebody who keeps it
  for ever. -/
  locks : ∀ t l n, (∀ m, n ≤ m → WaitsFor (f m) t l) →
    ∃ h : Held, h.lock = l ∧ ∃ m, n ≤ m ∧ ∀ k, m ≤ k → h ∈ (f k).sh.held
  /-- `select` prefers no channel and channels prefer no sender for ever: if somebody waits for ever
  to send a flush to the worker, then the worker does not come back to its `select` for ever. -/
  select : ∀ i n, (∀ m, n ≤ m → ∃ v, Poised (f m) (.client i) (.sendFlush v)) →
    ∃ m, n ≤ m ∧ ∀ k, m ≤ k → (f k).worker ≠ .ret ()

end Spec
