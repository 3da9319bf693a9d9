import Verif.Spec.Prompt
import Verif.Spec.Worker
/-!
# How long the cache worker is busy (C108)
-/
namespace Spec
open Comfo

/-- The caches a job of the worker is about. -/
def Job.caches : Job → List CacheId
  | .tick k => tier k
  | .flush t => (Props.flushTargets t).getD []

/-- The time it takes at the most to refresh a cache, if at most `r` Get requests for it are under way at a
time. -/
def cacheTime (δ r : Nat) (id : CacheId) : Nat := turnover δ id + 3 * r * δ

/-- The time a job takes at the most. -/
def jobTime (δ r : Nat) (j : Job) : Nat := (j.caches.map (cacheTime δ r)).sum + 4 * δ

/-- The worker and the request that waits for its answer meet in time. -/
def Handover (f : Nat → Sys σ) (δ : Nat) : Prop :=
  ∀ b m n, m ≤ n → (∀ k, m ≤ k → k ≤ n → Poised (f k) .worker (.sendFlushed b) ∧
    ∃ i, Poised (f k) (.client i) (.recvFlushed b)) →
    (f (n + 1)).sh.world.clock ≤ (f m).sh.world.clock + (δ : Nat)

/-- The jobs the worker takes up between `m` and `n`, in order. -/
inductive Begun (f : Nat → Sys σ) (m : Nat) : Nat → List Job → Prop
  | start : Begun f m m []
  | tick {n js k} : Begun f m n js → (f n).worker = .ret () → (f (n + 1)).worker = onTick k →
    Begun f m (n + 1) (js ++ [.tick k])
  | flush {n js t} : Begun f m n js → (f n).worker = .ret () → (f (n + 1)).worker = flushCaches t →
    Begun f m (n + 1) (js ++ [.flush t])
  | goOn {n js} : Begun f m n js → ((f n).worker = .ret () → (f (n + 1)).worker = .ret ()) →
    Begun f m (n + 1) js

end Spec
