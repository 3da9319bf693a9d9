import Verif.Spec.Turn
import Verif.Spec.Hold
import Verif.Spec.Timed
import Verif.Spec.Served
/-!
# Executions in which nobody dawdles (C106)

`Spec.Timed` says how long things last at the least. Here is what is needed to say how long they last
at the most: how fast goroutines are scheduled, and in which order they get a mutex.
-/
namespace Spec
open Comfo

/-- An execution. A state may be repeated, so finite executions are among them. -/
structure Execution (S : Setup σ) (w : World σ) (f : Nat → Sys σ) : Prop where
  start : f 0 = Sys.initial w
  next : ∀ n, Step S (f n) (f (n + 1)) ∨ f (n + 1) = f n

/-- Goroutine `t` does nothing between `m` and `n`. -/
def Still (f : Nat → Sys σ) (t : Tid) (m n : Nat) : Prop :=
  actsOf t (f n).sh.trace = actsOf t (f m).sh.trace

/-- How long an action lasts at the most, in nanoseconds, if the processor and the mutexes it needs are
there within `δ`: a read is ended by its timer after a second (C86), a pause lasts as long as it was
meant to. -/
def lasting (δ : Nat) : Act → Nat
  | .got _ _ => 1000000000 + δ
  | .sleep ns => ns + δ
  | _ => δ

/-- A goroutine that can go on does so in time: if it can go on from `m` to `n` and does nothing, then no
more than the time for its next action has passed. -/
def Prompt (L : Line σ) (f : Nat → Sys σ) (δ : Nat) : Prop :=
  ∀ t m n, m ≤ n → (∀ k, m ≤ k → k ≤ n → ∃ s', Moves L t (f k) s') → Still f t m n →
    ∀ a, Poised (f m) t a → (f (n + 1)).sh.world.clock ≤ (f m).sh.world.clock + (lasting δ a : Nat)

/-- Nobody is overtaken: while `t` waits for a lock, to have it alone or (`x = false`) to share it, only those
get it who waited for it already when `t` began to; but who wants to share it need not wait for others who
do. (`sync.Mutex` keeps to this once someone has waited for a millisecond. `sync.RWMutex` keeps to it except
that those who wait to share it are let in first when it becomes free; that is assumed not to happen.) -/
def Queued (f : Nat → Sys σ) : Prop :=
  ∀ l x t m n, m ≤ n → Poised (f m) t (taking l x) → Still f t m n →
    ∀ u b, (b || x) = true → u ≠ t → (f (n + 1)).sh.trace = (f n).sh.trace ++ [(u, taking l b)] →
      Poised (f m) u (taking l b) ∧ Still f u m n

/-- Goroutine `t` has the lock of cache `id`, or is about to take it. -/
def AtCache (s : Sys σ) (id : CacheId) (t : Tid) : Prop :=
  ∃ b, Poised s t (taking (.cache id) b) ∨ ⟨.cache id, b, t⟩ ∈ s.sh.held

/-- The client waits for the answer to a Get request for cache `id`. -/
def isReading (id : CacheId) (c : Client) : Bool :=
  match c.prog with
  | .ret _ => false
  | _ => c.call = getCall id

/-- The number of such clients. -/
def readers (s : Sys σ) (id : CacheId) : Nat := s.clients.countP (isReading id)

/-- The caches a request refreshes: those of the values it changes. -/
def touches : Call → CacheId → Prop
  | .setSpeed _ _, id => id = .fans ∨ id = .profiles
  | .setProfile _ _, id => id = .profiles
  | .setComfort _, id => id = .temps
  | _, _ => False

/-- Goroutine `t` refreshes cache `id` or is about to; that is, it uses the cache and is no Get request. -/
def Refreshing (s : Sys σ) (id : CacheId) (t : Tid) : Prop :=
  AtCache s id t ∧ ∀ i c, t = .client i → s.clients[i]? = some c → c.call ≠ getCall id

/-- How many goroutines refresh the cache at the same time at the most: the cache worker, and one request
that changes one of its values. -/
def refreshers : CacheId → Nat
  | .temps | .fans | .profiles => 2
  | .boot | .bypass | .errors => 1

/-- How long they take together at the most: a second for the answer to each of them, and a second whenever
another goroutine uses the line first. While one of them has the cache the other cannot use the line, so that
is twice for the last one and once for the other. -/
def turnover (δ : Nat) : CacheId → Nat
  | .temps | .fans | .profiles => 5000000000 + 39 * δ
  | .boot | .bypass | .errors => 3000000000 + 22 * δ

end Spec
