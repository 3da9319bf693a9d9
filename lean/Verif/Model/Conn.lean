import Verif.Model.Scanner
/-!
# Model of `libcomfo/conn.go`: one query on the connection
-/
namespace Comfo

/-- Result of one `Write` call (`io.Writer`, used by `libcomfo/conn.go:143`, `:154`):
all bytes accepted; `short n`: only `n` bytes accepted, no error; `fail n`: `n` bytes accepted
and a non-nil error. An exhausted script accepts everything. -/
inductive WrEv
  | ok
  | short (n : Nat)
  | fail (n : Nat)
  deriving DecidableEq, Repr

/-- The connection to the unit as the code sees it (`io.ReadWriter`): what successive reads and
writes will return, for each `select` of `WaitTimeout` whether the timer is chosen although the
scan has finished, and the bytes accepted so far. -/
structure Conn where
  rd : List RdEv := []
  wr : List WrEv := []
  late : List Bool := []
  sent : List UInt8 := []
  deriving DecidableEq, Repr

/-- `conn.Write(bs)`: returns `(n, err)`. -/
def Conn.write (c : Conn) (bs : List UInt8) : (Nat × Option Err) × Conn :=
  match c.wr with
  | [] => ((bs.length, none), { c with sent := c.sent ++ bs })
  | .ok :: w => ((bs.length, none), { c with wr := w, sent := c.sent ++ bs })
  | .short n :: w =>
    (((bs.take n).length, none), { c with wr := w, sent := c.sent ++ bs.take n })
  | .fail n :: w =>
    (((bs.take n).length, some .io), { c with wr := w, sent := c.sent ++ bs.take n })

/-- `libcomfo/conn.go:17-26` `WaitTimeout`: `wait` is the value the channel yields (`none` if it
never does before the timer fires), `timerFirst` whether `select` picks the timer when both are
ready. -/
def waitTimeout (wait : Option Bool) (timerFirst : Bool) : Bool × Option Err :=
  match wait with
  | some result => if timerFirst then (false, some .timeout) else (result, none)
  | none => (false, some .timeout)

/-- `libcomfo/conn.go:30-46` `ScanTimeout`: the bool from `Scan` is discarded (line 38), and
`scanner.Bytes()` is nil when there is no token. After a timeout the caller never uses the
scanner again. The second component is `none` only for the impossible `diverged`. -/
def scanTimeout (s : Scanner) (c : Conn) : Option ((List UInt8 × Option Err) × Scanner × Conn) :=
  match scan s c.rd with
  | .diverged => none
  | .blocked rest =>
    some (([], (waitTimeout none false).2), s, { c with rd := rest, late := c.late.tail })
  | .done token s' rest =>
    let c' := { c with rd := rest, late := c.late.tail }
    match (waitTimeout (some token.isSome) (c.late.headD false)).2 with
    | some e => some (([], some e), s', c')
    | none => some ((token.getD [], none), s', c')

/-- `libcomfo/conn.go:50-124` `ReadPacket`. A fresh scanner is used for each call (line 52).
`panic` also stands for non-termination of the scan (proved impossible). -/
def readPacket (c : Conn) (expect : Bool) : Go Packet × Conn :=
  match scanTimeout {} c with
  | none => (.panic, c)
  | some ((_, some e), _, c) => (.ret {} (some e), c)
  | some ((pr, none), s, c) =>
    if pr.length ≠ 0 then (.ret {} (some .scanInput), c)
    else if !expect then (.ret {} none, c)
    else
      match scanTimeout s c with
      | none => (.panic, c)
      | some ((_, some e), _, c) => (.ret {} (some e), c)
      | some ((pr, none), s, c) =>
        if pr.length ≠ 0 then (.ret {} (some .scanInput), c)
        else
          match scanTimeout s c with
          | none => (.panic, c)
          | some ((_, some e), _, c) => (.ret {} (some e), c)
          | some ((pr, none), _, c) =>
            if pr.length > 0 ∧ pr.length < 4 then (.ret {} (some .tooShort), c)
            else if pr.length ≥ 4 then (unmarshalPacket pr, c)
            else (.ret {} none, c)

/-- `libcomfo/conn.go:128-149` `WritePacket`. The number of bytes written is ignored
(line 143). -/
def writePacket (p : Packet) (c : Conn) : (Bool × Option Err) × Conn :=
  match marshalPacket p with
  | (_, some e) => ((false, some e), c)
  | (pb, none) =>
    let wr := pktStart ++ pb
    let wr := wr ++ pktEnd
    match c.write wr with
    | ((_, some e), c) => ((false, some e), c)
    | ((_, none), c) => ((true, none), c)

/-- `libcomfo/conn.go:152-164` `WriteAck`. The named result `out` is never set, so it is false
even on success. -/
def writeAck (c : Conn) : (Bool × Option Err) × Conn :=
  match c.write pktAck with
  | ((_, some e), c) => ((false, some e), c)
  | ((num, none), c) =>
    if num ≠ pktAck.length then ((false, some .ack), c) else ((false, none), c)

/-- `libcomfo/conn.go:170-200` `QueryPacket`, without the mutex (lines 173-174), which is the
subject of the concurrency model. The command comparison is on `uint8` (line 191). -/
def queryPacket (p : Packet) (c : Conn) : Go Packet × Conn :=
  match writePacket p c with
  | ((_, some e), c) => (.ret {} (some e), c)
  | ((_, none), c) =>
    match readPacket c p.expect with
    | (.panic, c) => (.panic, c)
    | (.ret out (some e), c) => (.ret out (some e), c)
    | (.ret out none, c) =>
      if p.expect ∧ out.command ≠ p.command + 1 then (.ret out (some .invalidResponse), c)
      else
        match writeAck c with
        | ((_, err), c) => (.ret out err, c)

end Comfo
