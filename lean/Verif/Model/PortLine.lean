import Verif.Model.Leak
import Verif.Model.Sys
/-!
# The server on a connection with readers left behind

`Verif/Model/Sys.lean` lets the goroutines of the server write to and read from any `Line`. This
file makes one of the shared connection of `Verif/Model/Leak.lean`, where a query that times out
leaves its reader (`libcomfo/conn.go:33-45`) behind, and of a unit at the other end.

Simplifications, besides those of `Verif/Model/Leak.lean`: writes succeed; the bytes of the unit's
answer arrive while the query waits, and each piece is read as soon as it arrives; the timer of a
query fires when the whole answer has been read and the query still waits.
-/
namespace Comfo.Leak

/-- A unit (no counterpart in the code). `hear bs e u`: in state `u` it got the frame `bs`, which
asks for a reply if `e`. The result are the pieces in which its answer arrives, none if it is
silent, and its new state. -/
structure Responder (υ : Type) where
  hear : List UInt8 → Bool → υ → List (List UInt8) × υ

/-- The connection, the last frame written to it, and the unit. -/
structure Shore (υ : Type) where
  port : Port := {}
  last : List UInt8 := []
  unit : υ
  deriving DecidableEq

/-- All that has arrived is read, as far as there are readers. Each `Read` takes a byte at least. -/
def Port.settle (st : Port) : Port :=
  st.exec (List.replicate ((st.pending.map List.length).sum + st.pending.length) .deliver)

/-- `libcomfo/conn.go:78-123`, `:185-199`: a query, written already, waits for an answer that
arrives in the given pieces. -/
def Port.query (st : Port) (p : Packet) (pieces : List (List UInt8)) : Port :=
  let st := pieces.foldl (fun st c => (st.step (.arrive c)).settle) (st.step (.start p))
  if st.active.isSome then st.step .timeout else st

/-- The packet a frame is about (`libcomfo/proto.go:43-69`, `libcomfo/conn.go:128-149`: two bytes that start the frame, a
zero, the command), as the query that waits for the answer knows it. -/
def queried (frame : List UInt8) (expect : Bool) : Packet := { command := frame.getD 3 0, expect }

/-- The shared connection as a `Line`. `Port.query` checks the command of the reply like
`QueryPacket` (`libcomfo/conn.go:189-191`), which does it again. -/
def portLine (U : Responder υ) : Line (Shore υ) where
  write bs s := ((bs.length, none), if bs = pktAck then s else { s with last := bs })
  read e s :=
    let (pieces, u) := U.hear s.last e s.unit
    let port := s.port.query (queried s.last e) pieces
    ((port.results.getLast?.map (·.2)).getD .panic, { s with port, unit := u })

end Comfo.Leak
