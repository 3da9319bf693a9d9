# Formal model of ti-mo/comfo in Lean 4

The model is a set of total, executable Lean functions that follow the Go and Python sources
function by function. Each definition cites the file and lines it models and states its
simplifications. Specifications written independently of the model's helpers are in
`lean/Verif/Spec/`, helper lemmas in `lean/Verif/Lemmas/`, the property theorems in
`lean/Verif/Props/`, named after the property (`C14_…`). Beside each theorem is an `example` with a
concrete case that meets its hypotheses.
`Props/RepoTests` runs the test cases of `libcomfo/*_test.go` on the model, except those that use mock
requests, real time or printing.

## Conventions

* A byte is `UInt8`; a Go slice is a `List UInt8`; `uint8/16/32` arithmetic is the Lean machine type
  of that width (so it wraps as in Go).
* A Go `(value, error)` return is a pair `α × Option Err`. A function that could panic returns
  `Go α := ret value err | panic`, and every index and type assertion in it is a possible `panic`.
* `float32` temperatures are modelled by integers. All values the program can produce are integers in
  [-20, 255], and intermediate results are below 2^24, where float32 arithmetic is exact. The one
  conversion whose result Go leaves to the implementation (a negative float to uint32) is a parameter
  (`FloatConv`), with the behaviour of amd64 as an instance.
* Times are integers, nanoseconds since Go's zero time.

## Layers of the model

1. **Codec** (`Model/Proto`): `MarshalPacket`, `UnmarshalPacket`.
2. **Scanner** (`Model/Scanner`): `bufio.Scanner` (Go's standard library, not in /repo) with its
   buffer geometry (4096 initial, 65536 maximum, shifting, doubling), sticky errors and the rule about
   101 empty reads, because the behaviour of `ReadPacket` depends on it; and the split function.
3. **Connection alone** (`Model/Conn`): the connection is a *script*: a list of results of successive
   `Read` calls (data, error with data, or nothing until the query timer fires), a list of results of
   `Write` calls, and a list of bits saying for each `select` whether the timer wins although the scan
   is ready. Theorems quantify over all scripts, so over every behaviour of unit, serial line, TCP
   stack, timer and of other goroutines that read from the connection. Written bytes are logged.
   With a clock (`Model/Deadline`): the same functions with the times at which bytes arrive, for C86
   only.
4. **Connection shared with leaked readers** (`Model/Leak`): the reader goroutines of queries that
   timed out stay blocked in `Read`, in a queue, and take what arrives first. Theorems are about every
   sequence of events (a query starts, bytes arrive, bytes are delivered, a timer fires).
   `Model/PortLine` puts the whole server of layer 8 on such a connection, with a unit at its end
   that may be silent, for C100.
5. **Messages and API** (`Model/Response`, `Model/Api`): the eight response types, the set requests,
   the library calls.
6. **Programs** (`Model/Prog`, `Model/Server`): everything above the connection, again, as trees of
   primitive actions (lock, unlock, read the clock, sleep, write, read a packet, load or store a
   cache, channel operations). `Prog.run` interprets one goroutine alone, on a `World` (line, clock,
   caches, log of the I/O). `Line σ` is what `Write` and `ReadPacket` do, for any type `σ` of states of
   the other end; `scriptLine` is the instance given by layer 3. Theorems such as `queryPacketP_run`
   show that the programs run alone are the functions of layers 3 and 5.
7. **Histories** (`Model/History`): requests, flushes, ticks and pauses one after the other.
8. **Interleaving** (`Model/Sys`): any number of requests that arrive at any time, the cache worker,
   its two channels, the mutexes with Go's rules, and an environment that may change the other end of
   the line. One step is one primitive action of one goroutine. Theorems are about every reachable
   state; proofs are inductions over steps with ghost state (`Lemmas/Ghost`), a calculus of
   postconditions for the programs (`Lemmas/Post`) and the rules of the locks (`Lemmas/LockInv`).
9. **HTTP and configuration** (`Model/Http`): routing, connection mode.
10. **Python client** (`Model/Client`, the asynchronous variants in `Model/Async`).
11. **Messages on the wire** (`Model/PbDesc`, `Model/Pb`, `Model/PbBind`): the descriptors embedded in
    the generated code of both languages, the wire format, and how both sides build and read bodies.
    JSON in `Model/Json`: text to values and back, values to messages and back.

## Per property: what is modelled and how it is proved

| id | model | theorem shape |
|----|-------|---------------|
| C01 | `marshalPacket`, `unmarshalPacket` | round-trip equation, induction on payload |
| C02 | same | iff |
| C03 | same | equation against `Spec.frameBody` (flatMap / sum) |
| C04 | `unmarshalPacket` in `Go` monad | no panic; iff against relational `Spec.Unescapes` |
| C05 | same | for all positions/replacements, induction over payload with run-parity argument |
| C06 | same | length-directed reference decoder is a left inverse; canonical re-encoding |
| C07 | `Scanner`, `readPacket` | two scripts with equal concatenation give equal results |
| C08, C09 | `readPacket` on `ack ++ start ++ body ++ end ++ rest` | result is p or error; exact iff no delimiter pair inside; negation by witness |
| C10 | `readPacket` total by construction (fuel shown sufficient) | result is not `panic`, fuel never exhausted |
| C11, C12 | `readPacket` | classification by the first delimiters of the received bytes |
| C13 | `queryPacket`, `setQuery` | negations by witness, `_partial` under error-free connection; `C13_exact_partial`: exactly which line behaviours are reported as success |
| C14 | `queryPacket`, `getQuery`, getters | success implies existence of the frame in the received bytes |
| C15, C16 | `queryPacket` | `sent` log equations; with C19, C20, C24, C25, C55 also the other direction (`Props/Healthy.lean`): what is sent whatever the unit does, and success when it answers |
| C17 | getters in `Go` monad | never `panic` |
| C18–C26 | decoders, set requests, API setters | field equations against `Spec`, no-I/O equations on the script state |
| C27 | interleaving, `pm` | I/O log is a concatenation of whole transactions; every caller gets the reply of its own |
| C28, C29 | interleaving, `am`/`pm`, unit of `Spec.ProfileUnit` | serialisability invariant; negation by schedule for C29 |
| C30 | interleaving, all locks | rank argument in all reachable states; termination measure |
| C31, C32 | interleaving, worker and channels | invariants; progress with a decreasing measure |
| C33, C63 | shared connection with leaked readers | invariants over all event sequences; negations by witness |
| C34 | interleaving, lock sets | mutual-exclusion invariant; race witnesses for the setters |
| C35–C37 | `update`, `World`, histories, interleaving | equations, invariants |
| C38 | timed history | invariant |
| C39–C45 | `modifySpeed`, `setFanSpeed`, `setFanProfileRpc`, `setComfortTemp` | equations and log statements, negations by witness; for C40, C41, C43–C45 also `Cxx_request…`: the same for a request in every interleaving (`Props/Requests`, by the `Post` calculus); `C41_fresh_partial` (`Props/Fresh`): the percentages compared were read by a query that began after the command |
| C46, C47 | `flushCaches` | equations; negation by witness; `C47_request_partial`: freshness in every interleaving if the refresh succeeded |
| C48 | `updatePoll`, interleaving | bound by induction on count; `C48_request` counts the queries and pauses of a request in every interleaving; locks released in every interleaving |
| C49 | `protobuf` functions | field equations, injectivity |
| C50–C52, C60 | Python methods composed with the server in any interleaving | decision logic, field equations |
| C53, C62 | `serveHTTP` routing over strings, client paths, `cleanPath` of the router | iff; redirects lead to canonical paths (`Props/Path`) |
| C54 | `connectUnit` | iff |
| C55 | getters on scripts with a well-formed reply | equation |
| C56 | `setFanSpeed`, clock; interleaving with times (`Spec.Clocked`) | lower bound on elapsed time; waiting of a goroutine adds up |
| C57, C58 | interleaving over `scriptLine` / any line | invariants: provenance of served values, monotonicity |
| C42, C59 | interleaving, unit of `Spec.SettingUnit` | negations by history, `_partial` invariants |
| C64 | interleaving, time stamps of caches | invariant over scheme with time stamps |
| C65, C66 | interleaving, units of `Spec.SettingUnit`, `Spec.ReportUnit` | negations by history, `_partial` invariants on what was read back |
| C61 | UTF-8 validity of encoded strings | negation by witness; that it lasts, from C58 and the scan of the trace; `ping` from C87; `_partial` for all valid names |

| C67 | bytes of both descriptors, parser of the wire format | equation with the transcription of comfo.proto |
| C68 | both codecs, composed with routing and with the server in any interleaving | round trips for all values |
| C69 | Go's decoder of request bodies, with its limit on nested groups | iff against relational `Spec.Message`; uniqueness; the limit is exact |
| C70, C71 | interleaving, all writes to the connection | invariant over what programs may write; negations by history |
| C72 | interleaving with the ticks counted, all writes | potential: what each program may still send (`Prog.AtMost`), invariant |
| C73 | `startCaches`, then interleaving | C37 with the log of the start-up; negations by history |
| C74 | interleaving, all units that carry out what they confirm | states at past moments (`moment`), fan lock, C39; induction along the commands; negation by history |
| C75 | interleaving, all units that carry out what they confirm | as C74, for the fan profiles and the comfort temperature; negation by histories |
| C76 | `config.go` and the beginning of `main`, pflag and viper as far as used | accepted command lines = generated ones, by induction on the words; last value by induction |
| C77 | as C76, with the environment of `comfo.service` | negation by evaluation; C76 |
| C78 | both Go clients, composed with routing, codecs and the server in any interleaving | round trips for all values; URLs by evaluation, paths by their last slash |
| C79 | `writeError`, error responses, the client's decoding of them | round trip of errors; case analysis of every way to success |
| C80 | interleaving with times | invariant: actions of a goroutine are as far apart as its timers demand; clock read first and last; texts of durations are read back |
| C81 | interleaving with times, all units that fall silent | as C80 for the worker between hand-over and answer of a flush |
| C82 | interleaving, all actions while a cache's lock is held | rules with a neutral state (`Neutral`), which then hold for every action of every goroutine (`neutral_trace`); lock order for progress |
| C83 | texts of all errors of the handlers, through server and client | the texts are different; C79; C83_reason: actions of every request, in every interleaving |
| C84 | interleaving, text of the error a client gets | shape of the execution of a refused request; the number is read out of the text |
| C85 | interleaving, any unit | what a request has written and got (`dialogue`), from the shapes of its actions; exchanges by `Transaction` (Spec/Log) |
| C86 | one query with the times of arrival; interleaving for the requests | the run with a clock is aligned, scan by scan, with the run of Model/Conn on what arrives before the timer fires; waits of programs by induction |
| C87 | one method of the Python client, on any network | cases over the twelve methods and all answers |
| C88 | all interleavings | induction over steps; postcondition of each job on all its paths |
| C89 | JSON reader and writer, messages from and to JSON, routing, both clients | the reader accepts exactly the texts of a grammar (both directions, induction on nesting); iff against relations on JSON values; texts written are in the grammar |
| C90 | as C89, for `FlushCache` | negation by witness; cases over names |
| C91 | client methods on top of all interleavings, with a unit that works | composition of C87 with C39, C42, C51, C59 and C65 |
| C92, C93 | `Model/Logging`: records, log/slog's text format with strconv's quoting; `Spec/Logging`: a reader of such logs | round trip for all byte strings; all paths of the logging update, whose erasure is `update` |
| C94 | the error texts of `Model/GoClient`; `Spec/Range`: a reader of ranges in texts | from C83_reason, in every interleaving |
| C95 | `Model/Main`: `main` and `ConnectUnit` with their log records, on top of `boot` (C76) and `startCaches` (C73) | all paths of the program; a run on any line for what is served afterwards |
| C96 | `Spec/Read` gives, for each getter, the place of each field in the reply of the unit; composition of C57, C95, C37 and C87 | the start and all interleavings afterwards, for any script of the connection |
| C97 | `Model/ServerLog`: the handlers, the poll loop, the flushes and the timers with the records they log; erasure to the programs of `Model/Server` | all paths of each program, then all interleavings by C88's invariant |
| C98 | `Model/PacketText`: `Packet.String`; `Spec/PacketText` has a reader | induction on the data |
| C99 | `Model/Repr`: `__repr__` with Python's `repr` and `pformat`; `Spec/Repr` has a reader for dictionaries | induction on the characters of a string and on the entries |
| C100 | `Model/PortLine`: the server (`Model/Sys`) on the connection of `Model/Leak`, with any unit at the other end | invariant of line and trace (number of readers left behind against timeouts so far) over all executions; negation by a concrete execution |
| C101 | `Model/Sys`, infinite executions and fairness in `Spec/Live` | a goroutine that is never done hangs from some time on (programs are well-founded); nobody hangs at a lock, by induction on the order of the locks; then the worker, then the requests |
| C102 | `Model/Sys` on a connection that is closed in the sense of `Spec/Closed` (`readPacket` at the end of the stream) | invariant of line and trace from the moment of closing; no refresh succeeds, so caches are frozen; cases over the paths of each request; negation by a concrete execution |
| C103 | all layers: `Model/GoClient`, `Http`, `Path`, `Pb`, `JsonLib`, `Server`, `Sys`, `Conn`; the network as a function that brings a response the server made, or none (`Spec/GoRead`) | composition: a call without error has got a response of status 200 (C79), which the server makes of a successful answer only; the answer is the struct (C78); the server side as in C91 and C96 |
| C104 | interleaving, units of `Spec.ReportUnit` | the load of the second request shows the last reply stored before it (`Lemmas/Moment`), which is not older than the first request's own; so it shows the setting, and the handler stops there |
| C105 | interleaving | rules (`Lemmas/Turn`): a request takes the line only while it holds `fanLock` or `tempLock`, and keeps that until it has given the line back; these locks are exclusive (C09), so requests at the line have different ones. For the turns: a goroutine that did nothing since is where it was, and nobody begins with the line; so all who get it before the one who waits were at the line with it |
| C106 | executions as sequences of states (`Spec/Prompt`) with a clock; scheduling delay and order at the mutexes as hypotheses | rules (`Lemmas/PaceHold`): what is done within a lock costs at most one read and one wait for the line; the wait for a lock is bounded by the holds of those before (`Lemmas/Pace`), these are counted by C105 for the line and by their outer lock for a cache (`Lemmas/Refresh`); who waits for a cache is one of the three of C105 but not at the line (`Lemmas/Tight`) |
| C107 | as C106 | rules with what is left of a budget as ghost state (`Lemmas/Budget`): the actions of a request cost at most so much, the waits included; the wait for a cache is bounded as in C106, that for the line by C105, and nobody waits for the lock of the library, because only who holds `fanLock` takes it (`Lemmas/Refresh`); the wait for `fanLock` or `tempLock` is bounded by the budgets of the requests before (`Lemmas/Takes`) |
| C108 | as C106 | the budgets of C107 for the jobs of the worker, with the wait for each cache as `Spec.refreshers` says (`Lemmas/Jobs`); an invariant along the execution: the worker is idle, which lasts `δ` as long as a flush request waits, or busy with a job whose budget is accounted for |
| C109 | as C106; violated by a schedule of 70 steps | a general test of schedules with pauses for promptness and fairness, proved right (`Lemmas/Play`) and evaluated; the partial theorem from C106 |
| C110 | as C108; the periods of the timers from the code (`Tick.period`), that they fire as a hypothesis on executions (`Spec.Ticking`) | the worker waits, which ends soon after the timer is due, or is busy with a job whose time is known (C108); by induction along the execution a tick is taken and dealt with in a known time, then C64 |
| C111 | as C110; what the unit shows is a predicate on what goroutines write and receive (`Spec.Shows`) | the scan of the trace that defines the current value (C37) is followed past the change: what it takes up later began later; the refresh for the tick of C110 is read off the worker's path and cannot fail; then C64; for the getters of the Python client C87 and C96 (`C111_python`), for Go clients C103 (`C111_go`) |
| C112 | as C111 and C66 | what is served after the bound was read after `p` (`read_since`, from C110 and C111), so after the command; then the invariant of C66: whatever is read after the command and before the next one shows the setting; for the Python client with C91 and `op_later` of C111, for Go clients with C103 and `go_answered_later` |
| C113 | one query; what a write does is the script of the writer, also one that breaks the contract of `io.Writer` | cases on the script; violated by three witnesses |

All properties are expressible in the model.

## Findings: properties the code violates

The full statement stays in `properties.jsonl`; the negation is proved with a concrete witness
(`…_violated`), and the strongest true variant found as `…_partial`.

* **C09** A reply containing 0x07 0x0F, 0x07 0xF0 or 0x07 0xF3 inside its body (for example length 7
  followed by 0x0F) is cut at that point: the split function does not know escapes. Partial: a frame
  is received iff it contains no such pair.
* **C12** More than 64 KiB without a delimiter make the scanner give up; `ReadPacket` ignores the
  scanner's error and takes the empty token for an acknowledgement.
* **C13** A set command succeeds without acknowledgement on end of file, on a read error, and when a
  start or end delimiter arrives in place of the ACK. Partial: without read errors a delimiter must
  have arrived first.
* **C21** `1875000 / w` is truncated to 16 bits: periods 1 to 28 give a wrong speed.
* **C29** `SetFanProfiles` does not take the API mutex: its update can be lost in the middle of a
  `SetFanProfile`.
* **C33, C63** A query that times out leaves its reader goroutine in `Read`. It takes the first part of
  the next reply. A unit whose replies arrive in single reads is never heard again.
* **C34** `SetComfortTemp`, `SetFanSpeed`, `SetFanProfile` and `UpdatePoll` read caches without lock.
* **C40, C43** `uint32` arguments are truncated to 8 bits before they are checked.
* **C41** If every query while polling fails, an older reading that matches counts as success. This is
  the only way: if one query of the request succeeded, what it compares was read after the command
  (`C41_fresh_partial`), although it looks without the lock.
* **C42, C59** Setters compare with a cached value. When the setting was changed on the panel, or (C42)
  after a call that failed while polling, nothing is sent and success is reported.
* **C45** A negative comfort temperature converted to `uint32`.
* **C47** `FlushCache` reports success although the unit did not answer.
* **C52** An explicit event loop is never stored; every async method then raises `AttributeError`.
* **C61** A device name that is not valid UTF-8 cannot be encoded: `GetBootInfo` fails for ever,
  and with it `ping` of the Python client.
* **C65** `SetFanProfile` compares only the in-percentage: an out-fan that differs is left as it is. Its
  arguments are cut to 8 bits and the full number is reported back.
* **C66** The refresh after a successful command may fail silently; the old value is served.
* **C70** An empty `SetComfortTemp` body sets 0 °C (below the range of the unit's own panel), an empty
  `SetFanSpeed` body lowers the speed: proto3 does not distinguish an absent number from zero.
* **C73** `StartCaches` ignores errors: a cache that could not be read is served as zeros (0 °C, no
  malfunctions), and a relative `SetFanSpeed` counts from speed 0 (`C73_increase_lowers_violated`).
* **C74** `SetFanSpeed` ignores a failed refresh after its command: the next relative request counts
  from the old speed, and a step is lost (`C74_violated`).
* **C75** `SetComfortTemp` looks at the cache before it takes its lock, so that two simultaneous
  requests for the same temperature both send the command and both report the same change
  (`C75_violated`); and after a failed refresh the next request reports, and compares with, a value
  that is no longer set (`C75_violated_failed`).
* **C77** `systemd/comfo.service` sets `COMFO_USB_DEVICE`, the program reads `COMFO_TARGET`: editing the
  device in the service file has no effect.
* **C84** `SetFanSpeed` quotes the value it refuses after cutting it to 8 bits: Abs = 300 is refused with
  "value '44' out of range", a step down from mode 0 with "value '255' out of range".
* **C90** A JSON request to flush a cache with a misspelled name flushes `BootInfo` and is answered with
  success: the generated server asks `protojson` to ignore what it does not know, which includes names
  of enumeration values, and the default is `BootInfo`.
* **C100** If the answers of the unit arrive in one piece, one timeout makes the server deaf for ever:
  each later answer is taken by the reader of the query before, and the query times out and leaves
  its own reader to take the next. All caches keep their old values and no change is confirmed,
  though the unit answers everything. Only if acknowledgement and reply arrive separately, each
  later query takes one reader off the list, until the server is well again. Commands do not; until
  then each of them fails.
* **C102** When the other end has closed the connection, `SetComfortTemp` reports success as long as
  writes are accepted (the end of the stream is taken for an acknowledgement, see C13), and again each
  time, as the cache does not change; `SetFanSpeed` does if the old readings happen to match. The
  server never connects again, and Get requests give no hint of it.
* **C109** A Get request can miss the write timeout even if the scheduler takes no time at all: the worker
  and a request that changes a value refresh the same cache one after the other, and each of their
  exchanges with the unit waits for one of somebody else; five exchanges of a second each. Partial: only
  for the temperatures, fans and profiles, only if such a request is under way, and only just.
* **C113** `WriteAck` never sets its boolean result, so that it is false although the ACK was written; `WaitTimeout`
  returns false if the channel yields false in time, although its comment promises true; `WritePacket` returns
  true after a short write. Partial: the errors can be relied on, and `QueryPacket` looks at nothing else.

C78 has a pitfall that is no violation of anything documented: a base URL that ends with a slash makes
every call of a Go client fail, as the path then begins with two slashes (`C78_base_path`).

C56 and C81 are properties that hold and are themselves defects of the code: the error of a speed
change that failed, and the answer to a flush of all caches while the unit does not answer, cannot
reach the client before the write timeout.

## What is modelled and what is not

| source | modelled | not modelled |
|--------|----------|--------------|
| `libcomfo/proto.go`, `conn.go`, `message.go`, `api.go`, `request_types.go`, `response_types.go`, `errors.go` | everything; error texts in `Model/GoClient`, `Packet.String` in `Model/PacketText` | nothing |
| `comfoserver/caches.go`, `server.go`, `helpers.go`, `protobuf.go`, `timers.go` | everything, the tickers as ticks that come at any time; records of failed refreshes in `Model/Logging`, of the start in `Model/Main` | — |
| `comfo.go` | `main` with what it logs and prints and its exit status (C95), `ConnectUnit`, write timeout (C56, C81), the log handler | `ListenAndServe`: what it returns is an input |
| `routes.go`, `logger.go` | everything | `Headers`, which no route uses |
| `config.go`, `systemd/comfo.service` | everything | help texts |
| `rpc/comfo/comfo.twirp.go` | `ServeHTTP`, `parseTwirpPath`, `checkContentType` path to the handlers, the responses, both clients | hooks, interceptors and custom headers (none are set) |
| `rpc/comfo/comfo.pb.go`, `comfo_pb2.py` | descriptors, structs, binary and JSON encoding and decoding | reflection, getters, unknown fields kept in a message |
| `python/comfo/client.py`, `types.py`, `exceptions.py`, `comfo_twirp.py` | everything | — |

Deferred unlocks are spelled out on every path. Run-time panics are proved unreachable (C10, C17,
C44), so what Go does with locks during a panic is not modelled.

## Assumptions about things outside the repository

* Go: `bufio.Scanner`, `strings.TrimSpace`, `encoding/binary`, `sync.Mutex`/`RWMutex`, channels,
  `select`, `time.Time.Sub`, `net/http`'s write timeout, gorilla/mux's prefix match and `cleanPath`, `path.Clean`. In layer 4, that
  goroutines blocked in `Read` are served in the order in which they called it (poll.FD's lock is
  fair in that sense).
* Go: log/slog's `TextHandler` and `strconv.AppendQuote` as written in `Model/Logging.lean`, for any
  tables of printable characters and spaces.
* pflag (parsing of long flags, `ExitOnError`) and viper (order of flag, environment and default; empty
  variables do not count) as written in `Model/Config.lean`.
* Go: `encoding/json` and `protojson` as written in `Model/Json.lean`; C78 and C79 also hold for any
  libraries that decode what they have encoded (`Spec.Lawful`). The codes and statuses of the Twirp
  library as documented.
* Python: twirp's `TwirpClient` posts to the path it is given with content type application/protobuf
  and raises `TwirpServerException` with the server's code; `repr` and `pformat` as written in
  `Model/Repr.lean`, for any table of printable characters; protobuf raises `ValueError` for integers
  out of range; see the head of `Model/Client.lean`.
* Go, for C101 only: the scheduler, the mutexes and `select` let nobody starve (`Spec.Fair`).
* Go, for C106 to C112 only: a goroutine that can go on does so within some time `δ`, and a mutex is given
  to those who wait for it in the order they came (`Spec.Prompt`, `Spec.Queued`). Of an `RWMutex` this is
  not quite true: when it becomes free, those who want to share it are let in first. In the server only
  `UpdatePoll` shares a lock, that of the fan profiles, for the time of one load. For C108: the worker and the
  request it answers meet within `δ` (`Spec.Handover`); nothing is assumed about `select`. For C110 to C112: a
  ticker has a tick ready when a period has passed without one being taken, and `select` does not pass it
  over more than `j` times, for any `j` (`Spec.Ticking`).
* Protobuf runtimes of both languages: they follow the wire format as written in `Model/Pb.lean` (zero
  values left out, fields in order of their numbers, the last value wins, unknown fields skipped);
  `time.Duration.String`.
* The unit: nothing, except in C28 and C29 (`Spec.ProfileUnit`) and the partial theorems of C42 and
  C59 (`Spec.SettingUnit`): a set command is carried out or gets lost; only carried-out commands are
  confirmed; reading reports what is stored; nobody changes the setting on the panel. Concrete units
  satisfying these laws are given, so the theorems are not vacuous. C33, C55, C63 and
  C100 say themselves what the unit sends.

## Trusted base

* The Lean 4.33.0 kernel. No axioms are added; no `sorry`, `native_decide` or `bv_decide`.
* Axioms the property theorems depend on:
* no axioms: `C113_waitTimeout_violated`, `C113_writeAck_violated`, `C113_writePacket_violated`, `C52_running_loop_partial`, `C52_violated`.
* propext: `C09_receivable_violated`, `C13_set_needs_ack_violated`, `C24_nil_panics`, `C37_zero`, `C49_protobuf_injective`, `C49_protobuf_lossless`, `C51_no_answer`, `C63_violated`.
* propext, Quot.sound: `C01_roundtrip`, `C02_size_limit`, `C03_wire_format`, `C04_total_and_strict`, `C06_unique_decoding`, `C102_violated`, `C108_begun`, `C19_marshal`, `C21_rpm_violated`, `C30_work_ends`, `C34_violated`, `C35_refresh_all_or_nothing`, `C37_served_from_unit`, `C40_abs_rejected_violated`, `C41_truthful_violated`, `C42_violated`, `C42_violated_after_failure`, `C43_profile_args_rejected_violated`, `C45_comfort_violated`, `C46_flush_only_requested`, `C47_flush_fresh_partial`, `C47_flush_fresh_violated`, `C52_methods_partial`, `C55_failed`, `C59_violated`, `C61_violated`, `C65_violated`, `C65_violated_wide`, `C66_violated`, `C70_violated_comfort`, `C70_violated_speed`, `C72_every_execution`, `C72_load`, `C73_increase_lowers_violated`, `C73_told_violated`, `C74_violated`, `C75_violated`, `C75_violated_failed`.
* `propext`, `Classical.choice`, `Quot.sound`: the other 285 theorems of `MANIFEST.json`.
* The reading of the Go and Python sources that each definition's comment cites.
* The assumptions of the previous section.

## Tests of the theorems

`seeded/LOG.jsonl` has one line per wrong program tried: the model was changed in a scratch copy and
rebuilt. `theorems_failed` are the declarations whose proof failed directly (including examples),
`property_theorems_lost` the property theorems that depend on one of them, `theorems_tightened` those
that were strengthened because they survived although their claim had become false.
