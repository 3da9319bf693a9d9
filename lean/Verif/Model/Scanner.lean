import Verif.Model.Proto
/-!
# Model of the connection's read side and of `bufio.Scanner`

`bufio.Scanner` is part of the Go standard library (go1.22, `bufio/scan.go`), not of /repo;
`ReadPacket` depends on its buffering and error behaviour, so it is modelled here and is part
of the trusted base. The split function is `libcomfo/conn.go:56-73`.
-/
namespace Comfo

/-- Result of one `Read` call on the connection (`io.Reader` contract, used by
`libcomfo/conn.go:50-52`):
* `data bs`: returns `len(bs), nil` (`bs` may be empty);
* `fail bs`: returns `len(bs)` bytes and a non-nil error (`io.EOF` or any other);
* `stall`: blocks until the timer of the current query has fired.
A reader asked for fewer bytes than `bs` has hands out the first part and keeps the rest.
An exhausted script blocks. Not modelled: readers that violate the contract by returning
impossible counts. -/
inductive RdEv
  | data (bs : List UInt8)
  | fail (bs : List UInt8)
  | stall
  deriving DecidableEq, Repr

/-- Size of a read script, used as recursion bound only (no counterpart in the code). -/
def rdSize : List RdEv → Nat
  | [] => 0
  | .data bs :: r => bs.length + 1 + rdSize r
  | .fail bs :: r => bs.length + 1 + rdSize r
  | .stall :: r => 1 + rdSize r

/-- Result of the inner read loop of `Scan`: blocked, or `n` bytes and whether `s.err` was
set. -/
inductive ReadRes
  | blocked (rest : List RdEv)
  | got (bs : List UInt8) (err : Bool) (rest : List RdEv)
  deriving DecidableEq, Repr

/-- `bufio/scan.go` (go1.22), inner `for loop := 0; ; { n, err := s.r.Read(...) ... }`:
repeat while reads return `0, nil`, at most `maxConsecutiveEmptyReads = 100` times, after which
`io.ErrNoProgress` is set. `room` is `len(s.buf) - s.end`; a `Read` into an empty slice returns
`0, nil`, so `room = 0` ends in `io.ErrNoProgress`. -/
def readLoop (room : Nat) : Nat → List RdEv → ReadRes
  | _, [] => if room = 0 then .got [] true [] else .blocked []
  | loop, ev :: r =>
    if room = 0 then .got [] true (ev :: r)
    else match ev with
    | .stall => .blocked r
    | .data bs =>
      if bs = [] then
        if loop + 1 > 100 then .got [] true r else readLoop room (loop + 1) r
      else if bs.length ≤ room then .got bs false r
      else .got (bs.take room) false (.data (bs.drop room) :: r)
    | .fail bs =>
      if bs.length ≤ room then .got bs true r
      else .got (bs.take room) false (.fail (bs.drop room) :: r)

/-- `libcomfo/conn.go:56-73` `splitFunc`: scan for `esc` followed by `ack`, `start` or `end`;
`some (advance, token)` or `none` for "no token yet" (`return 0, nil, nil`). The loop index `i`
is the number of elements consumed so far; `atEOF` is ignored by the code. -/
def splitFrom (i : Nat) (pre : List UInt8) : List UInt8 → Option (Nat × List UInt8)
  | [] => none
  | a :: r =>
    if a = esc then
      match r with
      | char :: _ =>
        if char = ackB ∨ char = startB ∨ char = endB then some (i + 2, pre)
        else splitFrom (i + 1) (pre ++ [a]) r
      | [] => splitFrom (i + 1) (pre ++ [a]) r
    else splitFrom (i + 1) (pre ++ [a]) r

/-- `libcomfo/conn.go:56-73`: `splitFunc(data, atEOF)`. -/
def splitFunc (data : List UInt8) : Option (Nat × List UInt8) := splitFrom 0 [] data

/-- The fields of `bufio.Scanner` that matter here: `win = s.buf[s.start:s.end]`,
`start = s.start`, `cap = len(s.buf)`, `err = (s.err != nil)`. Initially (`NewScanner`)
everything is zero. -/
structure Scanner where
  win : List UInt8 := []
  start : Nat := 0
  cap : Nat := 0
  err : Bool := false
  deriving DecidableEq, Repr

/-- `bufio.startBufSize`. -/
def startBufSize : Nat := 4096
/-- `bufio.MaxScanTokenSize`, the default `maxTokenSize`. -/
def maxTokenSize : Nat := 65536

/-- Result of `Scanner.Scan()`: returned with `s.token` (`some` iff `Scan` returned true; after
`Scan` returned false `Bytes()` is nil), or blocked in `Read`, or recursion bound exhausted
(proved impossible). -/
inductive ScanRes
  | done (token : Option (List UInt8)) (s : Scanner) (rest : List RdEv)
  | blocked (rest : List RdEv)
  | diverged
  deriving DecidableEq, Repr

/-- Make room in the buffer, `bufio/scan.go` (go1.22) from "Must read more data" up to the read:
shift the window to the front if the buffer is full or more than half consumed, then double a
full buffer. `none` is `ErrTooLong`. -/
def makeRoom (s : Scanner) : Option Scanner :=
  let s := if s.start > 0 ∧ (s.start + s.win.length = s.cap ∨ s.start > s.cap / 2) then
      { s with start := 0 } else s
  if s.start + s.win.length = s.cap then
    if s.cap ≥ maxTokenSize then none
    else
      let newSize := if s.cap * 2 = 0 then startBufSize else s.cap * 2
      some { s with cap := min newSize maxTokenSize, start := 0 }
  else some s

/-- `bufio/scan.go` (go1.22) `Scan`, the outer `for` loop. First argument: recursion bound. -/
def scanLoop : Nat → Scanner → List RdEv → ScanRes
  | 0, _, _ => .diverged
  | n + 1, s, rd =>
    match splitFunc s.win with
    | some (adv, token) =>
      .done (some token) { s with win := s.win.drop adv, start := s.start + adv } rd
    | none =>
      if s.err then .done none { s with win := [], start := 0 } rd
      else
        match makeRoom s with
        | none => .done none { s with err := true } rd
        | some s =>
          match readLoop (s.cap - (s.start + s.win.length)) 0 rd with
          | .blocked rest => .blocked rest
          | .got bs err rest => scanLoop n { s with win := s.win ++ bs, err := err } rest

/-- `Scanner.Scan()`. -/
def scan (s : Scanner) (rd : List RdEv) : ScanRes := scanLoop (rdSize rd + 2) s rd

end Comfo
