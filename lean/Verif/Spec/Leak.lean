import Verif.Model.Leak
import Verif.Spec.Wire
import Verif.Spec.Stream
/-!
# Vocabulary for histories on a shared connection
-/
namespace Spec
open Comfo Comfo.Leak

/-- `reply` is a complete answer of the unit to `p` that carries no delimiter inside, and `v` is
what it says: an ACK for a command, an ACK and a frame of the next command for a query. -/
def GoodReply (p : Packet) (reply : List UInt8) (v : Packet) : Prop :=
  if p.expect then
    v.data.length ≤ 255 ∧ v.command = p.command + 1 ∧ v.expect = false ∧
      reply = ack ++ frame v.command v.data ∧
      NoDelim (v.command :: UInt8.ofNat v.data.length :: (v.data ++ [checksum v.command v.data]))
  else reply = ack ∧ v = {}

instance (p : Packet) (reply : List UInt8) (v : Packet) : Decidable (GoodReply p reply v) := by
  unfold GoodReply; infer_instance

/-- What arrives during some events. -/
def arrivals : List Ev → List (List UInt8)
  | [] => []
  | .arrive bs :: r => bs :: arrivals r
  | _ :: r => arrivals r

/-- Only bytes arrive and are read, and no `Read` returns nothing. -/
def OnlyReads (es : List Ev) : Prop :=
  ∀ e ∈ es, e = .deliver ∨ ∃ bs, bs ≠ [] ∧ e = .arrive bs

/-- Nothing can be read: no reader waits or no bytes are there. -/
def Quiet (st : Port) : Prop := st.queue = [] ∨ st.pending = []

/-- No query, no reader, no bytes. -/
def Idle (st : Port) : Prop := st.queue = [] ∧ st.pending = [] ∧ st.active = none

/-- A query `p` and the events from its start to its end. -/
structure Round where
  p : Packet
  es : List Ev

/-- The query returns only after what has arrived has been read, in each round. -/
def AllRead : Port → List Round → Prop
  | _, [] => True
  | st, r :: rs =>
    let st' := st.exec (.start r.p :: r.es)
    Quiet st' ∧ AllRead st' rs

/-- The events of some rounds. -/
def eventsOf (rs : List Round) : List Ev := rs.flatMap fun r => .start r.p :: r.es

/-- Where a query is, seen from the unit. -/
inductive Dialogue
  | idle
  | asked
  | answered

/-- The unit answers each query once, while it is in progress, with something that arrives in
one piece of at most 4096 bytes with a delimiter in it (each complete answer has one: the ACK).
Nothing is said about when bytes are read, and when timers fire. -/
def Lockstep : Dialogue → List Ev → Prop
  | _, [] => True
  | .idle, .start _ :: r => Lockstep .asked r
  | .idle, .arrive _ :: _ => False
  | .asked, .arrive bs :: r => ¬ NoDelim bs ∧ bs.length ≤ 4096 ∧ Lockstep .answered r
  | .answered, .arrive _ :: _ => False
  | _, .timeout :: r => Lockstep .idle r
  | d, .start _ :: r => Lockstep d r
  | d, .deliver :: r => Lockstep d r

/-- Number of queries that ended with the timeout error. -/
def timedOut (st : Port) : Nat :=
  (st.results.filter fun r => r.2 = .ret {} (some .timeout)).length

/-- Number of goroutines that nobody waits for: still reading, or blocked sending. -/
def leftBehind (st : Port) : Nat :=
  (st.queue.filter fun w => w.mine.isNone).length + st.stuck

end Spec
