import Verif.Model.Deadline
import Verif.Spec.Timed
/-!
# What arrives in time (C86)
-/
namespace Spec
open Comfo

/-- Nothing overtakes anything. -/
def InOrder (coming : List (Nat × RdEv)) : Prop := coming.Pairwise fun a b => a.1 ≤ b.1

/-- What arrives before `t`. -/
def before (t : Nat) (coming : List (Nat × RdEv)) : List RdEv :=
  (coming.filter fun x => x.1 < t).map (·.2)

/-- When a query that starts on this connection has written its request. -/
def askedAt (c : TimedConn) : Nat := c.clock + c.takes.headD 0

/-- One second, in nanoseconds. -/
def second : Nat := 1000000000

/-! ## The waits of a request (C86) -/

/-- How long an action takes at the most, in nanoseconds, if locks are free, writes are taken and the
processor is fast: a pause takes what it takes, reading a packet at most a second. -/
def atMost : Act → Nat
  | .sleep ns => ns
  | .got _ _ => second
  | _ => 0

/-- The waits among some actions, at their longest. -/
def longest (acts : List Act) : Nat := (acts.map atMost).sum

/-- The longest waits of each call. Changing the speed: the command (1 s), ten readings of the fans (1 s
each) with nine pauses (0.5 s each) between them, and the refresh of the profiles (1 s). -/
def patience : Call → Nat
  | .getBoot | .getBypass | .getErrors | .getFans | .getProfiles | .getTemps | .flush _ => 0
  | .setComfort _ => 2 * second
  | .setSpeed _ _ => 16500000000
  | .setProfile _ _ => 3 * second
  | .libQuery _ | .libGet _ | .libSetComfort _ | .libSetSpeed _ | .libSetProfiles _ => second
  | .libSetProfile _ _ => 2 * second

end Spec
