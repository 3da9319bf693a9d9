import Verif.Model.Conn
/-!
# One query with the times at which things happen

`Verif/Model/Conn.lean` says of a read only that it returns before the timer of the query fires, or
that it does not. This file models the same functions of `libcomfo/conn.go` with a clock: bytes
arrive at given times, writes take given times, and the timer is a point of time that is handed on
from function to function as in the code. Everything else takes no time. Times are nanoseconds.

Simplification: pieces that have arrived before they are read are read one by one; that it makes no
difference how the bytes are cut is C07.
-/
namespace Comfo

/-- The connection. `here`: what has arrived and has not been read; `coming`: what successive reads
return after that, and when; `wr`, `takes`: what successive writes do and how long they take;
`late`: for each `select` of `WaitTimeout` whether the timer is chosen when scan and timer are ready
in the same moment; `sent`: the bytes accepted so far. -/
structure TimedConn where
  clock : Nat := 0
  here : List RdEv := []
  coming : List (Nat × RdEv) := []
  wr : List WrEv := []
  takes : List Nat := []
  late : List Bool := []
  sent : List UInt8 := []
  deriving DecidableEq, Repr

/-- `conn.Write(bs)`, as `Conn.write`. -/
def TimedConn.write (c : TimedConn) (bs : List UInt8) : (Nat × Option Err) × TimedConn :=
  let (r, c') := ({ wr := c.wr, sent := c.sent } : Conn).write bs
  (r, { c with wr := c'.wr, sent := c'.sent, clock := c.clock + c.takes.headD 0, takes := c.takes.tail })

/-- `scanner.Scan()`: when it returns, and what. A `Read` that finds nothing waits for the next piece.
`none`: it never returns. -/
def scanAt (s : Scanner) : Nat → List RdEv → List (Nat × RdEv) →
    Option (Nat × Option (List UInt8) × Scanner × List RdEv × List (Nat × RdEv))
  | now, here, [] =>
    match scan s here with
    | .done token s' rest => some (now, token, s', rest, [])
    | _ => none
  | now, here, (t, ev) :: coming =>
    match scan s here with
    | .done token s' rest => some (now, token, s', rest, (t, ev) :: coming)
    | _ => scanAt s (max now t) (here ++ [ev]) coming

/-- `libcomfo/conn.go:30-46` `ScanTimeout` with `WaitTimeout` (`:17-26`); `timer` is when the timer
fires. The connection is not used any more by a query that has timed out (what its reader does to
later queries is modelled in `Verif/Model/Leak.lean`). -/
def scanTimeoutAt (s : Scanner) (timer : Nat) (c : TimedConn) :
    (List UInt8 × Option Err) × Scanner × TimedConn :=
  let c' := { c with late := c.late.tail }
  match scanAt s c.clock c.here c.coming with
  | none => (([], (waitTimeout none false).2), s, { c' with clock := max c.clock timer })
  | some (t, token, s', here, coming) =>
    match (waitTimeout (if t ≤ timer then some token.isSome else none)
        (t = timer && c.late.headD false)).2 with
    | some e => (([], some e), s', { c' with clock := max c.clock timer })
    | none => ((token.getD [], none), s', { c' with clock := t, here, coming })

/-- `libcomfo/conn.go:50-124` `ReadPacket`. -/
def readPacketAt (c : TimedConn) (timer : Nat) (expect : Bool) : Go Packet × TimedConn :=
  match scanTimeoutAt {} timer c with
  | ((_, some e), _, c) => (.ret {} (some e), c)
  | ((pr, none), s, c) =>
    if pr.length ≠ 0 then (.ret {} (some .scanInput), c)
    else if !expect then (.ret {} none, c)
    else
      match scanTimeoutAt s timer c with
      | ((_, some e), _, c) => (.ret {} (some e), c)
      | ((pr, none), s, c) =>
        if pr.length ≠ 0 then (.ret {} (some .scanInput), c)
        else
          match scanTimeoutAt s timer c with
          | ((_, some e), _, c) => (.ret {} (some e), c)
          | ((pr, none), _, c) =>
            if pr.length > 0 ∧ pr.length < 4 then (.ret {} (some .tooShort), c)
            else if pr.length ≥ 4 then (unmarshalPacket pr, c)
            else (.ret {} none, c)

/-- `libcomfo/conn.go:128-149` `WritePacket`. -/
def writePacketAt (p : Packet) (c : TimedConn) : (Bool × Option Err) × TimedConn :=
  match marshalPacket p with
  | (_, some e) => ((false, some e), c)
  | (pb, none) =>
    match c.write (pktStart ++ pb ++ pktEnd) with
    | ((_, some e), c) => ((false, some e), c)
    | ((_, none), c) => ((true, none), c)

/-- `libcomfo/conn.go:152-164` `WriteAck`. -/
def writeAckAt (c : TimedConn) : (Bool × Option Err) × TimedConn :=
  match c.write pktAck with
  | ((_, some e), c) => ((false, some e), c)
  | ((num, none), c) => if num ≠ pktAck.length then ((false, some .ack), c) else ((false, none), c)

/-- `libcomfo/conn.go:170-200` `QueryPacket` from when it has the lock; `:182` the timer,
`time.NewTimer(time.Second)`. -/
def queryPacketAt (p : Packet) (c : TimedConn) : Go Packet × TimedConn :=
  match writePacketAt p c with
  | ((_, some e), c) => (.ret {} (some e), c)
  | ((_, none), c) =>
    let timer := c.clock + 1000000000
    match readPacketAt c timer p.expect with
    | (.panic, c) => (.panic, c)
    | (.ret out (some e), c) => (.ret out (some e), c)
    | (.ret out none, c) =>
      if p.expect ∧ out.command ≠ p.command + 1 then (.ret out (some .invalidResponse), c)
      else
        match writeAckAt c with
        | ((_, err), c) => (.ret out err, c)

end Comfo
