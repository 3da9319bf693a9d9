import Verif.Spec.Sync
/-!
# Who uses the line, and in which order (C105)
-/
namespace Spec
open Comfo

/-- Requests to the server, in contrast to calls of the library by another program. -/
def OnServer : Call → Prop
  | .libQuery _ | .libGet _ | .libSetComfort _ | .libSetSpeed _ | .libSetProfile _ _
  | .libSetProfiles _ => False
  | _ => True

/-- Goroutine `t` has the line to itself, or is about to take it. -/
def AtLine (s : Sys σ) (t : Tid) : Prop := Poised s t (.lock .pm) ∨ ⟨.pm, true, t⟩ ∈ s.sh.held

/-- The requests that change a fan setting. -/
def FanCall : Call → Prop
  | .setSpeed _ _ | .setProfile _ _ => True
  | _ => False

/-- The request that changes the comfort temperature. -/
def TempCall : Call → Prop
  | .setComfort _ => True
  | _ => False

/-- While `trace` was made, the line was given to those only who had waited for it from its beginning. -/
def InTurn (trace : List (Tid × Act)) : Prop :=
  ∀ pre u post, trace = pre ++ (u, .lock .pm) :: post → ∀ a, (u, a) ∉ pre

/-- Somebody takes the line. -/
def isTaking : Tid × Act → Bool
  | (_, .lock .pm) => true
  | _ => false

/-- How often the line was taken. -/
def turns (trace : List (Tid × Act)) : Nat := (trace.filter isTaking).length

end Spec
