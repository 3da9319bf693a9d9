import Verif.Spec.Jobs
import Verif.Spec.Age
/-!
# Timers that fire in time (C110)
-/
namespace Spec
open Comfo

/-- How often the timers should fire, in nanoseconds: five seconds, five minutes, one hour. -/
def tickPeriod : Tick → Nat
  | .fast => 5000000000
  | .slow => 300000000000
  | .glacial => 3600000000000

/-- In step `n` the worker takes a tick of timer `k`. -/
def TakesTick (f : Nat → Sys σ) (k : Tick) (n : Nat) : Prop :=
  (f n).worker = .ret () ∧ f (n + 1) = { f n with worker := onTick k }

/-- Timer `k` fires in time. A `time.Ticker` has a channel that holds one tick and is filled at least once in each
period it was created with; so when a period has passed in which the worker took no tick, there is one for it to take.
Then it does not wait for longer than `δ`, and `select` lets it take up at most `j` other jobs first. -/
structure Ticking (f : Nat → Sys σ) (k : Tick) (δ j : Nat) : Prop where
  soon : ∀ m c n, m ≤ c → c ≤ n → (∀ i, m ≤ i → i ≤ n → ¬ TakesTick f k i) →
    (∀ i, c ≤ i → i ≤ n → (f i).worker = .ret ()) →
    (f (n + 1)).sh.world.clock ≤ (f m).sh.world.clock + k.period + (δ : Nat) ∨
    (f (n + 1)).sh.world.clock ≤ (f c).sh.world.clock + (δ : Nat)
  turn : ∀ m c n js, m ≤ c → (∀ i, m ≤ i → i < n → ¬ TakesTick f k i) →
    (f m).sh.world.clock + k.period ≤ (f c).sh.world.clock → Begun f c n js → js.length ≤ j

/-- An execution of the server as in C106 to C108, with at most `r` Get requests for the same values at a time. -/
structure Timely (S : Setup σ) (w : World σ) (f : Nat → Sys σ) (δ r : Nat) : Prop where
  line : S.line.NoPanic
  calls : ∀ c, S.calls c → OnServer c
  run : Execution S w f
  prompt : Prompt S.line f δ
  queued : Queued f
  handover : Handover f δ
  readers : ∀ n id, readers (f n) id ≤ r

/-- Every job the worker takes up is one that is done within `A`, according to C108. -/
def JobsWithin (f : Nat → Sys σ) (δ r A : Nat) : Prop :=
  ∀ n, (f n).worker = .ret () → (f (n + 1)).worker ≠ .ret () → ∃ j, Begun f n (n + 1) [j] ∧ jobTime δ r j ≤ A

/-- The time from one tick the worker takes to the end of what it does about the next, at the most, if a job takes at most
`A`: a period, what it is at and the `j` jobs before, and the job itself. -/
def tickTime (δ r A j : Nat) (k : Tick) : Nat := tickPeriod k + (j + 1) * (A + δ) + jobTime δ r (.tick k)

end Spec
