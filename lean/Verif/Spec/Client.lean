import Verif.Spec.Sync
import Verif.Spec.Profiles
import Verif.Model.Client
/-! # What a request wrote on the line, and what the Python client makes of an answer (C50, C51) -/
namespace Spec
open Comfo

/-- Everything written in a series of actions. -/
def written (acts : List Act) : List (List UInt8) :=
  acts.filterMap fun
    | .wrote bs _ => some bs
    | _ => none

/-- Bytes that change nothing: the request for the value of a cache, or an acknowledgement. -/
def Harmless (bs : List UInt8) : Prop := bs = ack ∨ ∃ id, bs = frame (requestCode id) []

/-- A command that was written and then answered without error. -/
def Commanded (bs : List UInt8) (acts : List Act) : Prop :=
  ∃ pre r e q post, acts = pre ++ .wrote bs r :: .got e (q, none) :: post

/-- What a setter of the Python client makes of the answer of the server: the field `Modified`, or
an exception that tells the error. -/
def reported : Option Resp → Except PyErr Bool
  | some (.speed (.ok m)) => .ok m.modified
  | some (.comfort (.ok m)) => .ok m.modified
  | some (.speed (.err e)) => .error (.server e)
  | some (.comfort (.err e)) => .error (.server e)
  | _ => .error .transport

/-- The answers to `SetFanSpeed` and `SetFanProfile`. -/
def IsSpeed (r : Option Resp) : Prop := ∀ x, r = some x → ∃ y, x = .speed y

/-- The answers to `SetComfortTemp`. -/
def IsComfort (r : Option Resp) : Prop := ∀ x, r = some x → ∃ y, x = .comfort y

/-- The event loop a client is meant to use. -/
def loopFor (given running : Option Nat) : Option Nat := given.or running

end Spec
