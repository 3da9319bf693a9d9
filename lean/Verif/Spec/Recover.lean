import Verif.Model.PortLine
import Verif.Spec.Leak
/-!
# Vocabulary for outages of the unit
-/
namespace Spec
open Comfo Comfo.Leak

/-- The unit is silent, or answers what it is asked, in one piece. -/
def Whole (U : Responder υ) : Prop :=
  ∀ bs e u, (U.hear bs e u).1 = [] ∨
    ∃ c v, (U.hear bs e u).1 = [c] ∧ GoodReply (queried bs e) c v

/-- A good answer to a query in two pieces, the acknowledgement first; the answer to a command is
but an acknowledgement. -/
def Halves (e : Bool) (v : Packet) (pieces : List (List UInt8)) : Prop :=
  pieces = if e then [ack, frame v.command v.data] else [ack]

/-- The unit is silent, or answers what it is asked, queries in two pieces. -/
def InHalves (U : Responder υ) : Prop :=
  ∀ bs e u, (U.hear bs e u).1 = [] ∨
    ∃ v, Halves e v (U.hear bs e u).1 ∧ GoodReply (queried bs e) (U.hear bs e u).1.flatten v

/-- The unit answers when it is awake, and stays awake. -/
def Wakeful (U : Responder υ) (awake : υ → Prop) : Prop :=
  ∀ bs e u, awake u → (U.hear bs e u).1 ≠ [] ∧ awake (U.hear bs e u).2

/-- Time may pass for the unit, which it may use to wake up, but nothing else happens to the
connection. -/
def OnlyUnit (awake : υ → Prop) (env : Shore υ → Shore υ → Prop) : Prop :=
  ∀ a b, env a b → b.port = a.port ∧ b.last = a.last ∧ (awake a.unit → awake b.unit)

/-- The reads of a trace that ended with the timeout error. -/
def timeouts (trace : List (Tid × Act)) : Nat :=
  (trace.filter fun x => match x.2 with | .got _ r => decide (r = ({}, some .timeout)) | _ => false).length

/-- The reads that failed. -/
def readFailures (trace : List (Tid × Act)) : Nat :=
  (trace.filter fun x => match x.2 with | .got _ r => r.2.isSome | _ => false).length

/-- The reads of replies, i.e. of more than an acknowledgement. -/
def replyReads (trace : List (Tid × Act)) : Nat :=
  (trace.filter fun x => match x.2 with | .got e _ => e | _ => false).length

/-- The reads of replies that failed. -/
def replyFailures (trace : List (Tid × Act)) : Nat :=
  (trace.filter fun x => match x.2 with | .got e r => e && r.2.isSome | _ => false).length

end Spec
