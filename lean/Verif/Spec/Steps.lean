import Verif.Spec.Unit
/-! # Speed commands in the order in which they were sent (C74) -/
namespace Spec
open Comfo

/-- The goroutines that wrote commands to set the fan speed, in the order in which they did, one
entry for every command. -/
def speedCommands (trace : List (Tid × Act)) : List Tid :=
  trace.filterMap fun
    | (t, .wrote bs _) => if bs.take 4 = [0x07, 0xF0, 0x00, 0x99] then some t else none
    | _ => none

/-- `SetFanSpeed` request `i` reports `a`, a modification, and has read the fan profiles again after
it (which it does not do if the unit fails to answer). -/
def Stepped (s : Sys σ) (i : Nat) (abs : UInt32) (rel : Bool) (a : SpeedModified) : Prop :=
  Answered s i (.setSpeed abs rel) (.speed (.ok a)) ∧ a.modified = true ∧
    ∃ e, (Tid.client i, Act.store .profiles e) ∈ s.sh.trace

end Spec
