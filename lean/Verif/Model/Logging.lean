import Verif.Model.Json
/-!
# Model of the log

What the program logs (`logger.go`, `comfoserver/caches.go`) and how it is written
(`comfo.go:39-45`: the `TextHandler` of log/slog, Go standard library, to the standard output). Log
records of the start (`comfo.go:46-100`, `comfoserver/timers.go:29`, `:42`) are not modelled.
The tables of the unicode package are parameters. The time at the beginning of a line is a
parameter too.
-/
namespace Comfo.Log
open Comfo.Pb Comfo.Twirp Comfo.Json

/-- `slog.Level`, as far as used. -/
inductive Level
  | debug | info | error
  deriving DecidableEq, Repr

/-- `slog.Level.String`. -/
def Level.name : Level → Bytes
  | .debug => lit "DEBUG"
  | .info => lit "INFO"
  | .error => lit "ERROR"

/-- `slog.Value`: strings, and durations in nanoseconds. An error is written as the string it
makes. -/
inductive Value
  | str (s : Bytes)
  | dur (ns : Int)
  deriving DecidableEq, Repr

/-- `slog.Record` without the time. -/
structure Record where
  level : Level
  msg : Bytes
  attrs : List (Bytes × Value)
  deriving DecidableEq, Repr

/-! ## Text -/

/-- `unicode.IsPrint` and `unicode.IsSpace` outside ASCII. -/
structure Unicode where
  print : Nat → Bool
  space : Nat → Bool

/-- A piece of a string: a character, or a byte that is not part of one. -/
inductive Piece
  | char (c : Nat)
  | bad (b : UInt8)
  deriving DecidableEq, Repr

/-- The character that is encoded in UTF-8. -/
def codeOf : Bytes → Nat
  | [a] => a.toNat
  | [a, b] => (a.toNat - 0xC0) * 64 + (b.toNat - 0x80)
  | [a, b, c] => (a.toNat - 0xE0) * 4096 + (b.toNat - 0x80) * 64 + (c.toNat - 0x80)
  | [a, b, c, d] => (a.toNat - 0xF0) * 262144 + (b.toNat - 0x80) * 4096 + (c.toNat - 0x80) * 64 + (d.toNat - 0x80)
  | _ => 0

/-- The string as `utf8.DecodeRuneInString` cuts it up. The first argument bounds the number of
pieces. -/
def pieces : Nat → Bytes → List Piece
  | 0, _ => []
  | _ + 1, [] => []
  | n + 1, b :: bs =>
    match [1, 2, 3, 4].find? fun k => k ≤ (b :: bs).length && validUtf8 ((b :: bs).take k) with
    | some k => .char (codeOf ((b :: bs).take k)) :: pieces n ((b :: bs).drop k)
    | none => .bad b :: pieces n bs

/-- The condition in the loop of `needsQuoting` (log/slog, `text_handler.go`) with `safeSet`
(`json_handler.go`). -/
def Piece.unsafe (U : Unicode) : Piece → Bool
  | .char c =>
    if c < 0x80 then c ≠ 92 && (c = 32 || c = 61 || c < 32 || c = 34)
    else c = 0xFFFD || U.space c || !U.print c
  | .bad _ => true

/-- `needsQuoting`. -/
def needsQuoting (U : Unicode) (s : Bytes) : Bool :=
  s = [] || (pieces s.length s).any (Piece.unsafe U)

/-- `strconv.IsPrint`. -/
def isPrint (U : Unicode) (c : Nat) : Bool := if c < 0x80 then 32 ≤ c && c < 127 else U.print c

/-- Hexadecimal digits. -/
def hexText : Nat → Nat → Bytes
  | 0, _ => []
  | k + 1, n => hexText k (n / 16) ++ [hexDigit (n % 16)]

/-- `strconv.appendEscapedRune` and the part of `appendQuotedWith` for bytes that are not part of a
character. -/
def Piece.quoted (U : Unicode) : Piece → Bytes
  | .bad b => lit "\\x" ++ hexText 2 b.toNat
  | .char c =>
    if c = 34 ∨ c = 92 then [92, UInt8.ofNat c]
    else if isPrint U c then utf8Of c
    else if c = 7 then lit "\\a"
    else if c = 8 then lit "\\b"
    else if c = 12 then lit "\\f"
    else if c = 10 then lit "\\n"
    else if c = 13 then lit "\\r"
    else if c = 9 then lit "\\t"
    else if c = 11 then lit "\\v"
    else if c < 32 ∨ c = 127 then lit "\\x" ++ hexText 2 c
    else if c < 0x10000 then lit "\\u" ++ hexText 4 c
    else lit "\\U" ++ hexText 8 c

/-- `strconv.AppendQuote`. -/
def quote (U : Unicode) (s : Bytes) : Bytes :=
  34 :: (pieces s.length s).flatMap (Piece.quoted U) ++ [34]

/-- `handleState.appendString` (log/slog, `handler.go`) for text. -/
def stringText (U : Unicode) (s : Bytes) : Bytes := if needsQuoting U s then quote U s else s

/-- `appendTextValue` (log/slog, `text_handler.go`). -/
def valueText (U : Unicode) : Value → Bytes
  | .str s => stringText U s
  | .dur d => durString d

/-- `handleState.appendAttr` for text, with the separator before it. -/
def attrText (U : Unicode) (a : Bytes × Value) : Bytes :=
  32 :: stringText U a.1 ++ 61 :: valueText U a.2

/-- `commonHandler.handle` (log/slog, `handler.go`): the line for a record. -/
def line (U : Unicode) (time : Bytes) (r : Record) : Bytes :=
  lit "time=" ++ time ++ lit " level=" ++ stringText U r.level.name ++ lit " msg=" ++ stringText U r.msg ++
    r.attrs.flatMap (attrText U) ++ [10]

/-- `TextHandler.Enabled` with the level of `comfo.go:40-43`. -/
def enabled (debug : Bool) : Level → Bool
  | .debug => debug
  | _ => true

/-- What is written for records and their times. -/
def output (U : Unicode) (debug : Bool) (rs : List (Bytes × Record)) : Bytes :=
  (rs.filter fun r => enabled debug r.2.level).flatMap fun r => line U r.1 r.2

/-! ## Records -/

/-- `logger.go:16-21`. -/
def requestRecord (method uri : Bytes) (start stop : Int) : Record :=
  ⟨.debug, lit "Request", [(lit "method", .str method), (lit "URI", .str uri),
    (lit "route", .str (lit "twirp")), (lit "duration", .dur (timeSub stop start))]⟩

/-- `logger.go:11-23` around `rpc/comfo/comfo.twirp.go:1151` `ServeHTTP`, as `routes.go:27` sets it
up: `Logger` is on the route of the service only. `serve` is what happens without it. -/
def serveLogged (clean : Str → Str) (cd : Codec) (cv : FloatConv) (uri : Bytes) (r : HttpReq) :
    Prog (HttpAns × List Record) :=
  if clean r.path = r.path ∧ comfoPathPrefix.isPrefixOf r.path then
    .now fun start =>
    (serve clean cd cv r).bind fun a =>
    .now fun stop =>
    .ret (a, [requestRecord (r.method.flatMap fun c => utf8Of c.toNat) uri start stop])
  else (serve clean cd cv r).bind fun a => .ret (a, [])

/-- The messages of `comfoserver/caches.go:130`, `:157`, `:184`, `:211`, `:270` and `:297`. -/
def updateMsg : CacheId → Bytes
  | .boot => lit "BootInfoCache.Update() - Updating boot info cache"
  | .bypass => lit "BypassCache.Update() - Updating bypass cache"
  | .temps => lit "TempCache.Update() - Updating temperature cache"
  | .fans => lit "FanCache.Update() - Updating fan cache"
  | .profiles => lit "FanProfilesCache.Update() - Updating fan profiles cache"
  | .errors => lit "Errors.Update() - Updating errors cache"

/-- The same. -/
def updateRecord (W : Wording) (id : CacheId) (e : Err) : Record :=
  ⟨.error, updateMsg id, [(lit "error", .str (errorText W (.lib e)))]⟩

/-- `comfoserver/caches.go:110-132` (boot), `:137-159` (bypass), `:164-186` (temps), `:191-213` (fans),
`:250-272` (profiles), `:277-299` (errors): `Update` with what it logs. The record is written before
the lock is released. -/
def updateLogged (W : Wording) (id : CacheId) (force : Bool) : Prog (List Record) :=
  let refresh (now : Int) : Prog (List Record) :=
    .note id now <|
    id.fetch.bind fun (v, err) =>
    match err with
    | none => .store id { val := v, last := now } <| .unlock (.cache id) <| .ret []
    | some e => .unlock (.cache id) <| .ret [updateRecord W id e]
  .lock (.cache id) <|
  .now fun now =>
  if force then refresh now
  else
    .load id fun c =>
    if !isStale c.last now then .unlock (.cache id) <| .ret [] else refresh now

end Comfo.Log
