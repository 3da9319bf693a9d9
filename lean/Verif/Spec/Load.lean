import Verif.Model.Sys
import Verif.Spec.Wire
/-!
# How much traffic the server may cause

The unit answers one request at a time over a slow line, so the number of requests sent to it
matters. What counts is every frame written that is not an acknowledgement.
-/
namespace Spec
open Comfo

/-- Frames other than acknowledgements among the actions of all goroutines. -/
def load : List (Tid × Act) → Nat
  | [] => 0
  | (_, .wrote bs _) :: rest => (if bs = ack then 0 else 1) + load rest
  | _ :: rest => load rest

/-- Requests to the unit that flushing a cache may take; the numbers of `rpc/comfo/comfo.proto`,
enum `FlushType`: five single caches and all six caches at once. -/
def flushLoad (t : Int) : Nat :=
  if t = 0 ∨ t = 1 ∨ t = 2 ∨ t = 3 ∨ t = 4 then 1 else if t = 10 then 6 else 0

/-- Requests to the unit that a call may cause. Reading is free: it is served from the caches.
Changing the speed takes the command, ten rounds of polling and a refresh. -/
def callLoad : Call → Nat
  | .getBoot | .getBypass | .getErrors | .getFans | .getProfiles | .getTemps => 0
  | .setComfort _ => 2
  | .setSpeed _ _ => 12
  | .setProfile _ _ => 3
  | .flush t => flushLoad t
  | .libQuery _ | .libGet _ | .libSetComfort _ | .libSetSpeed _ | .libSetProfiles _ => 1
  | .libSetProfile _ _ => 2

/-- Executions in which the tickers have been served a given number of times. -/
inductive Run (S : Setup σ) (s₀ : Sys σ) : Nat → Sys σ → Prop
  | start : Run S s₀ 0 s₀
  | tick (k) : Run S s₀ n s → s.worker = .ret () → Run S s₀ (n + 1) { s with worker := onTick k }
  | work : Run S s₀ n s → Work S.line s s' → Run S s₀ n s'
  | arrive (c : Call) : Run S s₀ n s → S.calls c →
    Run S s₀ n { s with clients := s.clients ++ [{ call := c, prog := c.prog S.cv }] }
  | environment (line) (ns : Nat) : Run S s₀ n s → S.env s.sh.world.line line →
    Run S s₀ n { s with sh := { s.sh with
      world := { s.sh.world with line := line, clock := s.sh.world.clock + (ns : Int) } } }

end Spec
