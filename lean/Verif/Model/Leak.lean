import Verif.Model.Conn
/-!
# The connection shared with the readers of queries that timed out

`ScanTimeout` (`libcomfo/conn.go:30-46`) starts a goroutine that calls `scanner.Scan()`. When
the timer wins, nobody stops that goroutine: it stays blocked in `conn.Read`. The scripts of
`Verif/Model/Conn.lean` say for each query what *its own* reads return. This file models the
one connection all readers share, so that it says which reader gets which bytes.

Simplifications: writes always succeed (their failures are covered by `Conn`), the connection
does not fail, and a timer fires only while its query waits for a read. Readers blocked in
`Read` on the same connection are served in the order in which they started to wait (the read
lock of `internal/poll.FD` is a FIFO semaphore). A read hands over one chunk; if the chunk does
not fit into the free part of the scanner's buffer (initially 4096 bytes) and contains no
delimiter up to there, the model lets the same reader go on with the same chunk.
-/
namespace Comfo.Leak

/-- A goroutine blocked in `Read` inside `scanner.Scan()` (`libcomfo/conn.go:35`): the scanner as
it was when this `Scan` was called, what its reads have returned since, and whether somebody
still waits for it: `some n` if it is the query in progress, which has `n` of its (at most three)
scans to go, including this one; `none` if the timer of its query has fired. -/
structure Waiter where
  scanner : Scanner := {}
  got : List (List UInt8) := []
  mine : Option Nat
  deriving DecidableEq, Repr

/-- The connection and everything that happened on it.
* `queue`: the goroutines blocked in `Read`, the longest waiting first;
* `pending`: chunks received and not read yet;
* `active`: the query in progress, i.e. the holder of `pm` (`libcomfo/conn.go:173`);
* `stuck`: goroutines whose `Scan` has returned after their query timed out: they block for
  ever in `done <- ...` (line 35), as nobody receives from the unbuffered channel any more;
* `results`: the queries that have returned, in order. -/
structure Port where
  queue : List Waiter := []
  pending : List (List UInt8) := []
  active : Option Packet := none
  stuck : Nat := 0
  results : List (Packet × Go Packet) := []
  deriving DecidableEq, Repr

/-- `libcomfo/conn.go:78-123`: what `ReadPacket` does with the result of a scan, when `n` scans
(3, 2 or 1) were to go before it. `none`: it starts the next scan. -/
def afterScan (expect : Bool) (n : Nat) (token : Option (List UInt8)) : Option (Go Packet) :=
  let pr := token.getD []
  if n = 3 then
    if pr.length ≠ 0 then some (.ret {} (some .scanInput))
    else if !expect then some (.ret {} none)
    else none
  else if n = 2 then
    if pr.length ≠ 0 then some (.ret {} (some .scanInput)) else none
  else if pr.length > 0 ∧ pr.length < 4 then some (.ret {} (some .tooShort))
  else if pr.length ≥ 4 then some (unmarshalPacket pr)
  else some (.ret {} none)

/-- `libcomfo/conn.go:93-123`: `ReadPacket` goes on, with `n` scans to go, until it has to wait
for a read (`inl`) or returns (`inr`). -/
def advance (expect : Bool) : Nat → Scanner → (Nat × Scanner) ⊕ Go Packet
  | 0, _ => .inr .panic
  | n + 1, s =>
    match scan s [] with
    | .blocked _ => .inl (n + 1, s)
    | .diverged => .inr .panic
    | .done token s' _ =>
      match afterScan expect (n + 1) token with
      | some r => .inr r
      | none => advance expect n s'

/-- `libcomfo/conn.go:185-199`: `QueryPacket` after `ReadPacket` has returned. -/
def queryResult (p : Packet) : Go Packet → Go Packet
  | .ret out none =>
    if p.expect ∧ out.command ≠ p.command + 1 then .ret out (some .invalidResponse)
    else .ret out none
  | r => r

/-- The chunks in an unread part of a script (no counterpart in the code). -/
def chunksOf (rd : List RdEv) : List (List UInt8) :=
  rd.filterMap fun | .data bs => some bs | _ => none

/-- `ReadPacket` returned: `QueryPacket` returns and releases `pm`. -/
def Port.finish (st : Port) (p : Packet) (r : Go Packet) : Port :=
  { st with active := none, results := st.results ++ [(p, queryResult p r)] }

/-- What can happen: a query gets `pm`, bytes arrive, the longest waiting `Read` returns, the
timer of the query in progress fires. -/
inductive Ev
  | start (p : Packet)
  | arrive (bs : List UInt8)
  | deliver
  | timeout
  deriving DecidableEq, Repr

/-- One event. Events that cannot happen in the state (a query while another one holds `pm`, a
delivery without reader or bytes, a timer without query) leave it unchanged. -/
def Port.step (st : Port) : Ev → Port
  | .start p =>
    match st.active with
    | some _ => st
    | none => { st with active := some p, queue := st.queue ++ [{ mine := some 3 }] }
  | .arrive bs => { st with pending := st.pending ++ [bs] }
  | .deliver =>
    match st.queue, st.pending with
    | w :: q, c :: cs =>
      match scan w.scanner ((w.got ++ [c]).map .data) with
      | .diverged => st
      | .blocked _ =>
        { st with queue := q ++ [{ w with got := w.got ++ [c] }], pending := cs }
      | .done token s' rest =>
        let st' := { st with queue := q, pending := chunksOf rest ++ cs }
        match w.mine, st.active with
        | some n, some p =>
          match afterScan p.expect n token with
          | some r => st'.finish p r
          | none =>
            match advance p.expect (n - 1) s' with
            | .inr r => st'.finish p r
            | .inl (n', s'') => { st' with queue := q ++ [{ scanner := s'', mine := some n' }] }
        | _, _ => { st' with stuck := st.stuck + 1 }
    | _, _ => st
  | .timeout =>
    match st.active with
    | none => st
    | some p =>
      { st with
        active := none
        queue := st.queue.map fun w => { w with mine := none }
        results := st.results ++ [(p, .ret {} (some .timeout))] }

/-- A history. -/
def Port.exec (st : Port) (evs : List Ev) : Port := evs.foldl Port.step st

end Comfo.Leak
