import Verif.Model.Logging
import Verif.Model.Config
/-!
# Model of `main` with what it prints (`comfo.go:31-107`, `comfoserver/timers.go:25-43`)

Not modelled: what the HTTP server of the standard library prints itself, and `--help`.
-/
namespace Comfo.Log
open Comfo.Pb Comfo.Twirp

/-- `slog.Info`. -/
def info (msg : String) (attrs : List (Bytes × Value)) : Record := ⟨.info, lit msg, attrs⟩

/-- The texts of `comfo.go:85`, `:97` and `:103`; `show` is the text of the cause. -/
def dialText (text : ε → Bytes) : DialErr ε → Bytes
  | .dial unit e => lit "unable to dial the unit at " ++ strBytes unit ++ lit ": " ++ text e
  | .openPort unit e => lit "unable to open serial device at " ++ strBytes unit ++ lit ": " ++ text e
  | .unsupported mode => lit "unsupported unit mode " ++ strBytes mode

/-- `comfo.go:76-107` `ConnectUnit` with what it logs. -/
def connectLogged (d : Dialer κ ε ω) (mode unit : Str) (w : ω) :
    ((Option κ × Option (DialErr ε)) × ω) × List Record :=
  if mode = "tcp".toList then
    let first := info "Connecting to the unit over tcp" [(lit "address", .str (strBytes unit))]
    match d (.tcp unit) w with
    | ((_, some e), w) => (((none, some (.dial unit e)), w), [first])
    | ((conn, none), w) => (((conn, none), w),
        [first, info "Connection established!" [(lit "address", .str (strBytes unit))]])
  else if mode = "serial".toList then
    let first := info "Opening serial device" [(lit "device", .str (strBytes unit))]
    match d (.serial unit 9600) w with
    | ((_, some e), w) => (((none, some (.openPort unit e)), w), [first])
    | ((conn, none), w) => (((conn, none), w),
        [first, info "Opened device" [(lit "device", .str (strBytes unit))]])
  else (((none, some (.unsupported mode)), w), [])

/-- `comfoserver/caches.go:71-78` `UpdateCaches` with what it logs. -/
def updateCachesLogged (W : Wording) (force : Bool) : Prog (List Record) :=
  (updateLogged W .boot force).bind fun r₁ =>
  (updateLogged W .bypass force).bind fun r₂ =>
  (updateLogged W .temps force).bind fun r₃ =>
  (updateLogged W .fans force).bind fun r₄ =>
  (updateLogged W .profiles force).bind fun r₅ =>
  (updateLogged W .errors force).bind fun r₆ =>
  .ret (r₁ ++ r₂ ++ r₃ ++ r₄ ++ r₅ ++ r₆)

/-- `comfoserver/timers.go:25-43` `StartCaches` with what it logs, on the calling goroutine. -/
def startCachesLogged (W : Wording) : Prog (List Record) :=
  (updateCachesLogged W true).bind fun rs =>
  .ret (info "Populating caches" [] :: rs ++ [info "Cache worker started" []])

/-- What becomes of the program. -/
inductive Fate
  | exits (status : Nat)
  | listens (address : Str)
  deriving DecidableEq, Repr

/-- `config.go:22-33` and `comfo.go:31-69`, until the server listens: what is done to the unit, what is
logged, and whether it comes to listening. `pflag` ends the program with 2 (see `parseArgs`). -/
def mainLogged (W : Wording) (text : ε → Bytes) (d : Dialer κ ε ω) (args : List Str) (env : Environ) (w : ω) :
    Prog (List Record × Fate) × ω :=
  match parseArgs Flags.start args with
  | none => (.ret ([], .exits 2), w)
  | some f =>
    let first : Record := ⟨.debug, lit "Debug logging enabled", []⟩
    match connectLogged d (find f env .mode) (find f env .target) w with
    | (((_, some e), w), recs) => (.ret (first :: recs ++
        [⟨.error, lit "Error connecting to unit", [(lit "error", .str (dialText text e))]⟩], .exits 1), w)
    | (((_, none), w), recs) => ((startCachesLogged W).bind fun rs => .ret (first :: recs ++ rs ++
        [info "API listening" [(lit "address", .str (strBytes (find f env .listen)))]],
        .listens (find f env .listen)), w)

/-- `comfo.go:69-73`: what `ListenAndServe` returned. -/
def stopped (err : Option Bytes) : List Record × Nat :=
  match err with
  | some e => ([⟨.error, lit "ListenAndServe", [(lit "error", .str e)]⟩], 1)
  | none => ([], 0)

/-- `comfo.go:31-74`, from the beginning to the end, without what the requests served in between log:
what is logged and the exit status. `served` is what `ListenAndServe` returns for an address. -/
def whole (W : Wording) (text : ε → Bytes) (d : Dialer κ ε ω) (args : List Str) (env : Environ) (w : ω)
    (served : Str → Option Bytes) : Prog (List Record × Nat) :=
  (mainLogged W text d args env w).1.bind fun x =>
    match x.2 with
    | .exits n => .ret (x.1, n)
    | .listens a => .ret (x.1 ++ (stopped (served a)).1, (stopped (served a)).2)

/-- `comfo.go:32-33`. -/
def banner (version gitRev buildTime goVersion : Bytes) : Bytes :=
  lit "Comfo API " ++ version ++ lit " - home automation endpoint for ComfoAir-based ventilation units\n\n" ++
  (lit "Git Revision: " ++ gitRev ++ lit "\nBuild time: " ++ buildTime ++ lit ", with " ++ goVersion ++
    lit "\n\n")

end Comfo.Log
