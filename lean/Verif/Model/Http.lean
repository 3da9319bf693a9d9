import Verif.Model.Sys
/-!
# Model of the way from an HTTP request to a handler

`comfo.go`, `routes.go` and the generated `rpc/comfo/comfo.twirp.go`. Strings are lists of code
points (Go strings are bytes; invalid UTF-8 is not modelled). Hooks, interceptors and logging are
not modelled: the server sets none (`routes.go:26` passes nil) and logging has no effect. The
decoding of request bodies is a parameter here (`Codec`); `Model/PbBind.lean` has the protobuf
instance, the JSON encoding stays a parameter.
-/
namespace Comfo

abbrev Str := List Char

/-- `strings.Split(s, sep)` for a one-character separator. -/
def splitOn (c : Char) : Str → List Str
  | [] => [[]]
  | x :: xs =>
    if x = c then [] :: splitOn c xs
    else match splitOn c xs with
      | [] => [[x]]
      | p :: ps => (x :: p) :: ps

/-- `strings.Join(ps, sep)`. -/
def joinWith (c : Char) : List Str → Str
  | [] => []
  | [p] => p
  | p :: ps => p ++ c :: joinWith c ps

/-- `rpc/comfo/comfo.twirp.go:3176-3185` `parseTwirpPath`: prefix, service, method. -/
def parseTwirpPath (path : Str) : Str × Str × Str :=
  let parts := splitOn '/' path
  if parts.length < 2 then ([], [], [])
  else
    let method := parts.getD (parts.length - 1) []
    let pkgService := parts.getD (parts.length - 2) []
    let pre := joinWith '/' (parts.take (parts.length - 2))
    (pre, pkgService, method)

/-- The ten methods of the service, `rpc/comfo/comfo.proto:8-23`. -/
inductive Method
  | getBootInfo | getTemps | getBypass | getFans | getFanProfiles | getErrors
  | setFanSpeed | setComfortTemp | setFanProfile | flushCache
  deriving DecidableEq, Repr

/-- The switch of `ServeHTTP`, `rpc/comfo/comfo.twirp.go:1183-1218`. -/
def Method.ofName (name : Str) : Option Method :=
  if name = "GetBootInfo".toList then some .getBootInfo
  else if name = "GetTemps".toList then some .getTemps
  else if name = "GetBypass".toList then some .getBypass
  else if name = "GetFans".toList then some .getFans
  else if name = "GetFanProfiles".toList then some .getFanProfiles
  else if name = "GetErrors".toList then some .getErrors
  else if name = "SetFanSpeed".toList then some .setFanSpeed
  else if name = "SetComfortTemp".toList then some .setComfortTemp
  else if name = "SetFanProfile".toList then some .setFanProfile
  else if name = "FlushCache".toList then some .flushCache
  else none

/-- How a body is encoded. -/
inductive Fmt
  | json | protobuf
  deriving DecidableEq, Repr

/-- `unicode.IsSpace` (Go standard library). -/
def isSpace (c : Char) : Bool :=
  c == '\t' || c == '\n' || c == '\x0b' || c == '\x0c' || c == '\r' || c == ' ' ||
  c.toNat == 0x85 || c.toNat == 0xA0 || c.toNat == 0x1680 ||
  (0x2000 ≤ c.toNat && c.toNat ≤ 0x200A) || c.toNat == 0x2028 || c.toNat == 0x2029 ||
  c.toNat == 0x202F || c.toNat == 0x205F || c.toNat == 0x3000

/-- `strings.ToLower`, as far as ASCII results go: besides A to Z, `İ` (U+0130) and the Kelvin sign
(U+212A) have an ASCII letter as their lower case. Other characters are left alone; their lower case
is never ASCII and the result is only compared with ASCII strings. -/
def toLower (c : Char) : Char :=
  if 'A' ≤ c ∧ c ≤ 'Z' then Char.ofNat (c.toNat + 32)
  else if c.toNat = 0x130 then 'i'
  else if c.toNat = 0x212A then 'k'
  else c

/-- `strings.TrimSpace`. -/
def trimStr (s : Str) : Str := ((s.dropWhile isSpace).reverse.dropWhile isSpace).reverse

/-- The content-type switch every `serve…` function begins with, e.g.
`rpc/comfo/comfo.twirp.go:1222-1236`. -/
def contentFmt (header : Str) : Option Fmt :=
  let media := trimStr ((header.takeWhile (· ≠ ';')).map toLower)
  if media = "application/json".toList then some .json
  else if media = "application/protobuf".toList then some .protobuf
  else none

/-- An HTTP request. -/
structure HttpReq where
  method : Str
  path : Str
  contentType : Str
  body : List UInt8

/-- Where a request ends up. -/
inductive Dispatch
  /-- The router answers 301 (gorilla/mux: the path is not in canonical form). -/
  | redirect
  /-- The router answers 404. -/
  | notFound
  /-- Twirp error `bad_route`. -/
  | badRoute
  /-- The service method is called, if the body can be decoded. -/
  | handler (m : Method) (f : Fmt)
  deriving DecidableEq, Repr

/-- `rpc/comfo/comfo.twirp.go:1151-1219` `ServeHTTP` with the content-type switch. -/
def serveHTTP (r : HttpReq) : Dispatch :=
  if r.method ≠ "POST".toList then .badRoute
  else
    let (pre, pkgService, method) := parseTwirpPath r.path
    if pkgService ≠ "comfo.api.Comfo".toList then .badRoute
    else if pre ≠ "/twirp".toList then .badRoute
    else match Method.ofName method with
      | none => .badRoute
      | some m =>
        match contentFmt r.contentType with
        | none => .badRoute
        | some f => .handler m f

/-- `rpc/comfo/comfo.twirp.go:1149` `ComfoPathPrefix`. -/
def comfoPathPrefix : Str := "/twirp/comfo.api.Comfo/".toList

/-- `routes.go:20-44` `NewRouter`: one route, by prefix. `routes` is empty (`routes.go:49`).
`clean` is gorilla/mux's `cleanPath`; it is not part of the repository. -/
def router (clean : Str → Str) (r : HttpReq) : Dispatch :=
  if clean r.path ≠ r.path then .redirect
  else if comfoPathPrefix.isPrefixOf r.path then serveHTTP r
  else .notFound

/-- The method of a request to the server; the library calls have none. -/
def Call.method : Call → Option Method
  | .getBoot => some .getBootInfo
  | .getBypass => some .getBypass
  | .getErrors => some .getErrors
  | .getFans => some .getFans
  | .getProfiles => some .getFanProfiles
  | .getTemps => some .getTemps
  | .setComfort _ => some .setComfortTemp
  | .setSpeed _ _ => some .setFanSpeed
  | .setProfile _ _ => some .setFanProfile
  | .flush _ => some .flushCache
  | _ => none

/-- Decoding of request bodies, `rpc/comfo/comfo.twirp.go:1248-1259` (JSON) and `:1331-1340` (protobuf) and the
same for the other methods: the body becomes a message of the method's type, or an error. -/
structure Codec where
  decode : Method → Fmt → List UInt8 → Option Call
  typed : ∀ {m f b c}, decode m f b = some c → c.method = some m

/-- `utf8.ValidString` (Go standard library), which both encoders apply to strings: RFC 3629. -/
def validUtf8 : List UInt8 → Bool
  | [] => true
  | a :: rest =>
    if a < 0x80 then validUtf8 rest
    else
      match rest with
      | [] => false
      | b :: rest =>
        if 0xC2 ≤ a ∧ a ≤ 0xDF then cont b && validUtf8 rest
        else
          match rest with
          | [] => false
          | c :: rest =>
            if a = 0xE0 then 0xA0 ≤ b && b ≤ 0xBF && cont c && validUtf8 rest
            else if a = 0xED then 0x80 ≤ b && b ≤ 0x9F && cont c && validUtf8 rest
            else if 0xE1 ≤ a ∧ a ≤ 0xEF then cont b && cont c && validUtf8 rest
            else
              match rest with
              | [] => false
              | d :: rest =>
                if a = 0xF0 then 0x90 ≤ b && b ≤ 0xBF && cont c && cont d && validUtf8 rest
                else if a = 0xF4 then 0x80 ≤ b && b ≤ 0x8F && cont c && cont d && validUtf8 rest
                else if 0xF1 ≤ a ∧ a ≤ 0xF3 then cont b && cont c && cont d && validUtf8 rest
                else false
where cont (b : UInt8) : Bool := 0x80 ≤ b && b ≤ 0xBF

/-- Whether an answer can be encoded: the only string in the answers that is not made by the server
itself is the device name. -/
def Resp.marshals : Resp → Bool
  | .boot (.ok b) => validUtf8 b.deviceName
  | _ => true

/-- What the client gets. -/
inductive HttpAns
  | redirect | notFound | badRoute
  /-- Twirp error `malformed`. -/
  | malformed
  | answer (r : Resp)
  /-- Twirp error `internal`: the answer of the handler cannot be encoded
  (`rpc/comfo/comfo.twirp.go:1302-1307` and the same for protobuf and the other methods). -/
  | marshalFailed

/-- The answer of a handler on its way out. -/
def Resp.http (r : Resp) : HttpAns := if r.marshals then .answer r else .marshalFailed

/-- The program of a request. -/
def serve (clean : Str → Str) (cd : Codec) (cv : FloatConv) (r : HttpReq) : Prog HttpAns :=
  match router clean r with
  | .redirect => .ret .redirect
  | .notFound => .ret .notFound
  | .badRoute => .ret .badRoute
  | .handler m f =>
    match cd.decode m f r.body with
    | none => .ret .malformed
    | some c => (c.prog cv).map Resp.http

/-! ## `ConnectUnit` -/

/-- What `ConnectUnit` does outside the program. -/
inductive Dial
  /-- `net.Dial("tcp", addr)`. -/
  | tcp (addr : Str)
  /-- `serial.OpenPort` with a device name and a baud rate. -/
  | serial (name : Str) (baud : Nat)
  deriving DecidableEq, Repr

/-- The errors of `ConnectUnit`, wrapping the cause. -/
inductive DialErr (ε : Type)
  | dial (unit : Str) (e : ε)
  | openPort (unit : Str) (e : ε)
  | unsupported (mode : Str)
  deriving DecidableEq, Repr

/-- The net and the serial devices: the outcome (a connection and an error, either of which may be
nil) of an attempt, and what is left of the world. The world is threaded through so that every
attempt shows. -/
abbrev Dialer (κ ε ω : Type) := Dial → ω → (Option κ × Option ε) × ω

/-- `comfo.go:78-107` `ConnectUnit`. The result is a connection (`none` is nil) and an error. -/
def connectUnit (d : Dialer κ ε ω) (mode unit : Str) (w : ω) :
    (Option κ × Option (DialErr ε)) × ω :=
  if mode = "tcp".toList then
    match d (.tcp unit) w with
    | ((_, some e), w) => ((none, some (.dial unit e)), w)
    | ((conn, none), w) => ((conn, none), w)
  else if mode = "serial".toList then
    match d (.serial unit 9600) w with
    | ((_, some e), w) => ((none, some (.openPort unit e)), w)
    | ((conn, none), w) => ((conn, none), w)
  else ((none, some (.unsupported mode)), w)

end Comfo
