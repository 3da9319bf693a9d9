import Verif.Model.Response
/-!
# Fan percentages
-/
namespace Spec
open Comfo

/-- The eight percentages in the order of the set command. -/
def percentages (q : FanProfiles) : List UInt8 :=
  [q.outAway, q.outLow, q.outMid, q.inAway, q.inLow, q.inMid, q.outHigh, q.inHigh]

/-- The percentages with both entries of one mode replaced. -/
def replaceMode (mode : Nat) (speed : UInt8) (old : List UInt8) : List UInt8 :=
  match mode with
  | 0 => (old.set 0 speed).set 3 speed
  | 1 => (old.set 1 speed).set 4 speed
  | 2 => (old.set 2 speed).set 5 speed
  | 3 => (old.set 6 speed).set 7 speed
  | _ => old

end Spec
