import Verif.Model.PbBind
/-!
# Model of the Twirp clients in Go and of the responses of the server

`rpc/comfo/comfo.twirp.go`: the responses `ServeHTTP` writes (`writeError` and the end of the
`serve…` functions), and the two clients (`NewComfoProtobufClient`, `NewComfoJSONClient`).

Strings in errors are bytes here. Hooks, interceptors and headers set through the context are not
modelled (nobody sets any), nor are panics of handlers (what the unit sends cannot cause any, C17)
and request bodies that cannot be read to the end. `encoding/json` and `protojson` are the parameter
`JsonLib`, what is assumed of them is `Spec.Lawful`. A base URL is what `url.Parse` makes of it: a
scheme (or none), a host and a path, nothing else (no user, query or fragment, no characters that
are escaped).
-/
namespace Comfo.Twirp
open Comfo.Pb

abbrev Bytes := List UInt8

/-- A string literal. -/
def lit (s : String) : Bytes := s.toList.map fun c => UInt8.ofNat c.toNat

/-- A struct: the values of its fields under the numbers of their tags. -/
abbrev Struct := List (Nat × Val)

/-! ## Errors -/

/-- The error codes of the Twirp library. The code for data loss, which nothing here uses, is left
out. -/
inductive Code
  | canceled | unknown | invalidArgument | malformed | deadlineExceeded | notFound | badRoute
  | alreadyExists | permissionDenied | unauthenticated | resourceExhausted | failedPrecondition
  | aborted | outOfRange | unimplemented | internal | unavailable
  deriving DecidableEq, Repr

/-- The codes as strings. -/
def Code.name : Code → Bytes
  | .canceled => lit "canceled"
  | .unknown => lit "unknown"
  | .invalidArgument => lit "invalid_argument"
  | .malformed => lit "malformed"
  | .deadlineExceeded => lit "deadline_exceeded"
  | .notFound => lit "not_found"
  | .badRoute => lit "bad_route"
  | .alreadyExists => lit "already_exists"
  | .permissionDenied => lit "permission_denied"
  | .unauthenticated => lit "unauthenticated"
  | .resourceExhausted => lit "resource_exhausted"
  | .failedPrecondition => lit "failed_precondition"
  | .aborted => lit "aborted"
  | .outOfRange => lit "out_of_range"
  | .unimplemented => lit "unimplemented"
  | .internal => lit "internal"
  | .unavailable => lit "unavailable"

/-- `twirp.ServerHTTPStatusFromErrorCode`. -/
def Code.status : Code → Nat
  | .canceled => 408
  | .unknown => 500
  | .invalidArgument => 400
  | .malformed => 400
  | .deadlineExceeded => 408
  | .notFound => 404
  | .badRoute => 404
  | .alreadyExists => 409
  | .permissionDenied => 403
  | .unauthenticated => 401
  | .resourceExhausted => 429
  | .failedPrecondition => 412
  | .aborted => 409
  | .outOfRange => 400
  | .unimplemented => 501
  | .internal => 500
  | .unavailable => 503

/-- All codes. -/
def codes : List Code :=
  [.canceled, .unknown, .invalidArgument, .malformed, .deadlineExceeded, .notFound, .badRoute,
    .alreadyExists, .permissionDenied, .unauthenticated, .resourceExhausted, .failedPrecondition,
    .aborted, .outOfRange, .unimplemented, .internal, .unavailable]

/-- `twirp.IsValidErrorCode`, with the code. -/
def Code.ofName (n : Bytes) : Option Code := codes.find? fun c => c.name = n

/-- `twirp.Error`; the metadata is a Go map, here with the latest entry first. -/
structure TwErr where
  code : Code
  msg : Bytes
  metas : List (Bytes × Bytes)
  deriving DecidableEq, Repr

/-- `Meta`. -/
def TwErr.get (e : TwErr) (k : Bytes) : Bytes := (e.metas.lookup k).getD []

/-- `WithMeta`. -/
def TwErr.withMeta (e : TwErr) (k v : Bytes) : TwErr := { e with metas := (k, v) :: e.metas }

/-- `twirp.NewError`. -/
def newError (code : Code) (msg : Bytes) : TwErr := ⟨code, msg, []⟩

/-- `twirp.InternalErrorWith`: the text of the cause and its type. -/
def internalErrorWith (text type : Bytes) : TwErr :=
  (newError .internal text).withMeta (lit "cause") type

/-- `rpc/comfo/comfo.twirp.go:3340-3349` `wrapInternal`. -/
def wrapInternal (err : Bytes) (pre : String) : TwErr :=
  internalErrorWith (lit pre ++ lit ": " ++ err) (lit "*comfo.wrappedError")

/-- `rpc/comfo/comfo.twirp.go:3400-3402` `malformedRequestError`. -/
def malformedRequestError (msg : String) : TwErr := newError .malformed (lit msg)

/-- `string(r)` for a code point, UTF-8. -/
def strBytes (s : Str) : Bytes :=
  s.flatMap fun c =>
    let n := c.toNat
    if n < 0x80 then [UInt8.ofNat n]
    else if n < 0x800 then [UInt8.ofNat (0xC0 + n / 64), UInt8.ofNat (0x80 + n % 64)]
    else if n < 0x10000 then
      [UInt8.ofNat (0xE0 + n / 4096), UInt8.ofNat (0x80 + n / 64 % 64), UInt8.ofNat (0x80 + n % 64)]
    else [UInt8.ofNat (0xF0 + n / 262144), UInt8.ofNat (0x80 + n / 4096 % 64),
      UInt8.ofNat (0x80 + n / 64 % 64), UInt8.ofNat (0x80 + n % 64)]

/-- `rpc/comfo/comfo.twirp.go:3405-3409` `badRouteError`. -/
def badRouteError (msg : Bytes) (r : HttpReq) : TwErr :=
  (newError .badRoute msg).withMeta (lit "twirp_invalid_route")
    (strBytes r.method ++ lit " " ++ strBytes r.path)

/-- `rpc/comfo/comfo.twirp.go:3224-3228` `twerrJSON`. -/
structure TwerrJson where
  code : Bytes
  msg : Bytes
  metas : List (Bytes × Bytes)
  deriving DecidableEq, Repr

/-- `encoding/json` and `protojson`. -/
structure JsonLib where
  /-- `json.Marshal` of an error; `none`: it fails. -/
  encErr : TwerrJson → Option Bytes
  /-- `Decode` with `DisallowUnknownFields`, `rpc/comfo/comfo.twirp.go:3275-3278`. -/
  decErr : Bytes → Option TwerrJson
  /-- Encoding of requests, `rpc/comfo/comfo.twirp.go:3486-3487`. -/
  encReq : Method → Struct → Option Bytes
  /-- Encoding of answers, e.g. `rpc/comfo/comfo.twirp.go:1302-1303`. -/
  encRes : Method → Struct → Option Bytes
  /-- Decoding of answers, `rpc/comfo/comfo.twirp.go:3525-3531`. -/
  decRes : Method → Bytes → Option Struct

/-- `rpc/comfo/comfo.twirp.go:3232-3251` `marshalErrorToJSON`. -/
def marshalErrorToJSON (J : JsonLib) (e : TwErr) : Bytes :=
  let msg := if e.msg.length > 1000000 then e.msg.take 1000000 else e.msg
  match J.encErr ⟨e.code.name, msg, e.metas⟩ with
  | some buf => buf
  | none => lit ("{\"type\": \"internal\", \"msg\": \"There was an error but it could not be " ++
      "serialized into JSON\"}")

/-- An HTTP response, as far as a client looks at it. -/
structure HttpRes where
  status : Nat
  location : Bytes
  /-- The body, or the error on reading it. -/
  body : Except Bytes Bytes

/-- `rpc/comfo/comfo.twirp.go:3105-3143` `writeError`, for Twirp errors. -/
def writeError (J : JsonLib) (e : TwErr) : HttpRes :=
  ⟨e.code.status, [], .ok (marshalErrorToJSON J e)⟩

/-! ## Responses of the server -/

/-- Texts that are not from this repository, or of no concern. -/
structure Wording where
  /-- `err.Error()` of an error of the connection. -/
  io : Bytes
  /-- The type of such an error, `%T`. -/
  ioType : Bytes
  /-- The texts at `rpc/comfo/comfo.twirp.go:1165`, `:1173`, `:1178`, `:1215`, `:1233`. -/
  route : HttpReq → Bytes
  /-- The error of the encoder. -/
  encoder : Bytes
  /-- The body of the router's 404 and 301, and where the latter points to. -/
  notFound : Bytes
  moved : Bytes
  location : HttpReq → Bytes

/-- The first argument of `twirp.InvalidArgumentError`: `comfoserver/helpers.go:22`, `:37`,
`comfoserver/server.go:80`, `:172`, `:186`. -/
def _root_.Comfo.Refusal.argument : Refusal → Bytes
  | .bothAbsRel => lit "Abs/Rel"
  | .speedRange _ => lit "FanSpeed"
  | .tempTooLarge => lit "ComfortTemp"
  | .modeRange => lit "Mode"
  | .targetRange => lit "TargetSpeed"

/-- The second argument of `twirp.InvalidArgumentError`, at the same places; for the first the text of
`comfoserver/errors.go:7`. -/
def _root_.Comfo.Refusal.validationMsg : Refusal → Bytes
  | .bothAbsRel => lit "Abs and Rel are mutually exclusive"
  | .speedRange v => lit "value '" ++ digits 20 v.toNat ++ lit "' out of range"
  | .tempTooLarge => lit "is too large"
  | .modeRange => lit "(profile) out of range, expected 1-4"
  | .targetRange => lit "out of range, expected 15-100 (percentage)"

/-- `err.Error()`: the texts of `libcomfo/errors.go:6-22` and `comfoserver/errors.go:6`. -/
def errorText (W : Wording) : SrvErr → Bytes
  | .pollFailed => lit "failure polling result after set operation"
  | .lib .pktLen => lit "unexpected packet length"
  | .lib .payloadSize => lit "detected payload size larger than packet allows"
  | .lib .verifyChecksum => lit "error verifying checksum of the payload"
  | .lib .tooShort => lit "input was too short"
  | .lib .tooLong => lit "input was too long"
  | .lib .timeout => lit "operation timed out"
  | .lib .scanInput => lit "unexpected input while scanning for token"
  | .lib .ack => lit "error writing ACK to connection"
  | .lib .invalidResponse => lit "unexpected response type"
  | .lib .tooHigh => lit "value too high"
  | .lib .tooLow => lit "value is too low"
  | .lib .requestType => lit "unknown request type"
  | .lib .responseType => lit "unknown response type"
  | .lib .decodeNil => lit "attempting to decode nil Packet"
  | .lib .zeroValue => lit "unexpected zero value (risk of dividing by zero)"
  | .lib .notExist => lit "item does not exist"
  | .lib .unknownMode => lit "unknown speed mode"
  | .lib .io => W.io

/-- The type of an error: all but those of the connection are made by `errors.New`. -/
def errorType (W : Wording) : SrvErr → Bytes
  | .lib .io => W.ioType
  | _ => lit "*errors.errorString"

/-- `twirp.InvalidArgumentError`. -/
def invalidArgumentError (argument validationMsg : Bytes) : TwErr :=
  (newError .invalidArgument (argument ++ lit " " ++ validationMsg)).withMeta (lit "argument") argument

/-- The errors of the handlers: `twirp.InvalidArgumentError` (`comfoserver/server.go:80`, `:172`,
`:186`, `comfoserver/helpers.go:22`, `:37`), `twirp.InternalError` (`comfoserver/server.go:91`,
`:138`, `:144`) and, in `SetFanProfile`, `twirp.InternalErrorWith` (`:215`). -/
def handlerError (W : Wording) (m : Method) : Comfo.Twirp → TwErr
  | .invalidArgument r => invalidArgumentError r.argument r.validationMsg
  | .internal e =>
    if m = .setFanProfile then internalErrorWith (errorText W e) (errorType W e)
    else newError .internal (errorText W e)

/-- The error in an answer. -/
def _root_.Comfo.Resp.error? : Resp → Option Comfo.Twirp
  | .boot (.err e) | .bypass (.err e) | .errors (.err e) | .fans (.err e) | .profiles (.err e)
  | .temps (.err e) | .comfort (.err e) | .speed (.err e) | .flushed (.err e) => some e
  | _ => none

/-- Encoding of an answer: `rpc/comfo/comfo.twirp.go:1302-1303` (JSON), `:1383` (protobuf). -/
def encAnswer (J : JsonLib) : Fmt → Method → Struct → Option Bytes
  | .json, m, s => J.encRes m s
  | .protobuf, m, s => goMarshal (goOutput m) s

/-- The response to a request for a method, in the format of the request; `:1291-1319` (JSON) and
`:1372-1398` (protobuf) for the answer of the handler. -/
def respond (J : JsonLib) (W : Wording) (f : Fmt) (m : Method) (r : HttpReq) : HttpAns → HttpRes
  | .redirect => ⟨301, W.location r, .ok W.moved⟩
  | .notFound => ⟨404, [], .ok W.notFound⟩
  | .badRoute => writeError J (badRouteError (W.route r) r)
  | .malformed =>
    match f with
    | .json => writeError J (malformedRequestError "the json request could not be decoded")
    | .protobuf => writeError J (malformedRequestError "the protobuf request could not be decoded")
  | .answer a =>
    match a.error? with
    | some e => writeError J (handlerError W m e)
    | none =>
      match goStruct m a with
      | none => writeError J (newError .internal (lit "received a nil response"))
      | some s =>
        match encAnswer J f m s with
        | none => failed
        | some b => ⟨200, [], .ok b⟩
  | .marshalFailed => failed
where
  failed : HttpRes := writeError J (match f with
    | .json => wrapInternal W.encoder "failed to marshal json response"
    | .protobuf => wrapInternal W.encoder "failed to marshal proto response")

/-! ## URLs -/

/-- A base URL. -/
structure Url where
  scheme : Str
  host : Str
  path : Str
  deriving DecidableEq, Repr

/-- `rpc/comfo/comfo.twirp.go:3146-3155` `sanitizeBaseURL`. -/
def sanitizeBaseURL (u : Url) : Url :=
  if u.scheme = [] then { u with scheme := "http".toList } else u

/-- `path.Clean` for rooted paths. -/
def cleanParts : List Str → List Str → List Str
  | acc, [] => acc.reverse
  | acc, p :: ps =>
    if p = [] ∨ p = ".".toList then cleanParts acc ps
    else if p = "..".toList then cleanParts acc.tail ps
    else cleanParts (p :: acc) ps

/-- `path.Join` of a root and further elements. -/
def pathJoin (elems : List Str) : Str :=
  '/' :: joinWith '/' (cleanParts [] (splitOn '/' (joinWith '/' (elems.filter (· ≠ [])))))

/-- `rpc/comfo/comfo.twirp.go:3165-3171` `baseServicePath`. -/
def baseServicePath (pre pkg service : Str) : Str :=
  let full := if pkg ≠ [] then pkg ++ '.' :: service else service
  pathJoin ["/".toList, pre, full] ++ ['/']

/-- The beginning of every URL, `rpc/comfo/comfo.twirp.go:89-90` and `:604-605`. -/
def serviceURL (base : Url) : Url :=
  let u := sanitizeBaseURL base
  { u with path := u.path ++ baseServicePath "/twirp".toList "comfo.api".toList "Comfo".toList }

/-- A URL for a method. -/
def Url.plus (u : Url) (s : String) : Url := { u with path := u.path ++ s.toList }

/-- `rpc/comfo/comfo.twirp.go:91-102` and `:606-617` `urls`. -/
def urls (base : Url) : List Url :=
  [(serviceURL base).plus "GetBootInfo", (serviceURL base).plus "GetTemps",
    (serviceURL base).plus "GetBypass", (serviceURL base).plus "GetFans",
    (serviceURL base).plus "GetFanProfiles", (serviceURL base).plus "GetErrors",
    (serviceURL base).plus "SetFanSpeed", (serviceURL base).plus "SetComfortTemp",
    (serviceURL base).plus "SetFanProfile", (serviceURL base).plus "FlushCache"]

/-- The URL a method uses: `rpc/comfo/comfo.twirp.go:143`, `:189`, `:235`, `:281`, `:327`, `:373`,
`:419`, `:465`, `:511`, `:557`, and in the JSON client `:658`, `:704`, `:750`, `:796`, `:842`,
`:888`, `:934`, `:980`, `:1026`, `:1072`. -/
def urlIndex : Method → Nat
  | .getBootInfo => 0
  | .getTemps => 1
  | .getBypass => 2
  | .getFans => 3
  | .getFanProfiles => 4
  | .getErrors => 5
  | .setFanSpeed => 6
  | .setComfortTemp => 7
  | .setFanProfile => 8
  | .flushCache => 9

/-! ## Errors in the client -/

/-- `rpc/comfo/comfo.twirp.go:3334-3336`. -/
def isHTTPRedirect (status : Nat) : Bool := 300 ≤ status && status ≤ 399

/-- A status code in decimal. -/
def itoa (n : Nat) : Bytes := digits 20 n

/-- `rpc/comfo/comfo.twirp.go:3300-3332` `twirpErrorFromIntermediary`. -/
def errorFromIntermediary (status : Nat) (msg bodyOrLocation : Bytes) : TwErr :=
  let code : Code :=
    if isHTTPRedirect status then .internal
    else if status = 400 then .internal
    else if status = 401 then .unauthenticated
    else if status = 403 then .permissionDenied
    else if status = 404 then .badRoute
    else if status = 429 then .resourceExhausted
    else if status = 502 ∨ status = 503 ∨ status = 504 then .unavailable
    else .unknown
  let e := newError code msg
  let e := e.withMeta (lit "http_error_from_intermediary") (lit "true")
  let e := e.withMeta (lit "status_code") (itoa status)
  if isHTTPRedirect status then e.withMeta (lit "location") bodyOrLocation
  else e.withMeta (lit "body") bodyOrLocation

/-- `rpc/comfo/comfo.twirp.go:3257-3295` `errorFromResponse`. `msg` is the text formatted from the
status. -/
def errorFromResponse (J : JsonLib) (msg : Nat → Bytes) (r : HttpRes) : TwErr :=
  if isHTTPRedirect r.status then errorFromIntermediary r.status (msg r.status) r.location
  else
    match r.body with
    | .error e => wrapInternal e "failed to read server error response body"
    | .ok body =>
      match J.decErr body with
      | none => errorFromIntermediary r.status (msg r.status) body
      | some tj =>
        if tj.code = [] then errorFromIntermediary r.status (msg r.status) body
        else
          match Code.ofName tj.code with
          | none =>
            (newError .internal
              (lit "invalid type returned from server error response: " ++ tj.code)).withMeta
              (lit "body") body
          | some code =>
            tj.metas.reverse.foldl (fun e kv => e.withMeta kv.1 kv.2) (newError code tj.msg)

/-! ## The clients -/

/-- A request on its way. -/
structure Outgoing where
  scheme : Str
  host : Str
  req : HttpReq

/-- The surroundings of a call: the network with everything behind it, what `ctx.Err()` returns the
first, second and third time, the texts of errors, and the error on closing a body. -/
structure Net (ω : Type) where
  exchange : Outgoing → ω → Except Bytes HttpRes × ω
  ctx : Nat → Option Bytes
  msg : Nat → Bytes
  lib : Bytes
  close : Option Bytes

/-- `rpc/comfo/comfo.twirp.go:3208-3221` `newRequest`. -/
def newRequest (u : Url) (body : Bytes) (contentType : String) : Outgoing :=
  ⟨u.scheme, u.host, ⟨"POST".toList, u.path, contentType.toList, body⟩⟩

/-- `rpc/comfo/comfo.twirp.go:3436-3482` `doProtobufRequest`; `i` and `o` are the positions of the
messages in the descriptor. -/
def doProtobufRequest (J : JsonLib) (n : Net ω) (u : Url) (i o : Nat) (inp : Struct) (w : ω) :
    Except TwErr Struct × ω :=
  match goMarshal i inp with
  | none => (.error (wrapInternal n.lib "failed to marshal proto request"), w)
  | some body =>
    match n.ctx 0 with
    | some e => (.error (wrapInternal e "aborted because context was done"), w)
    | none =>
      match n.exchange (newRequest u body "application/protobuf") w with
      | (.error e, w) => (.error (wrapInternal e "failed to do request"), w)
      | (.ok resp, w) =>
        match n.ctx 1 with
        | some e => (.error (wrapInternal e "aborted because context was done"), w)
        | none =>
          if resp.status ≠ 200 then (.error (errorFromResponse J n.msg resp), w)
          else
            match resp.body with
            | .error e => (.error (wrapInternal e "failed to read response body"), w)
            | .ok bs =>
              match n.ctx 2 with
              | some e => (.error (wrapInternal e "aborted because context was done"), w)
              | none =>
                match goUnmarshal o bs with
                | none => (.error (wrapInternal n.lib "failed to unmarshal proto response"), w)
                | some out => (.ok out, w)

/-- `rpc/comfo/comfo.twirp.go:3485-3538` `doJSONRequest`. -/
def doJSONRequest (J : JsonLib) (n : Net ω) (u : Url) (m : Method) (inp : Struct) (w : ω) :
    Except TwErr Struct × ω :=
  match J.encReq m inp with
  | none => (.error (wrapInternal n.lib "failed to marshal json request"), w)
  | some body =>
    match n.ctx 0 with
    | some e => (.error (wrapInternal e "aborted because context was done"), w)
    | none =>
      match n.exchange (newRequest u body "application/json") w with
      | (.error e, w) => (.error (wrapInternal e "failed to do request"), w)
      | (.ok resp, w) =>
        match n.ctx 1 with
        | some e => (.error (wrapInternal e "aborted because context was done"), w)
        | none =>
          if resp.status ≠ 200 then (.error (errorFromResponse J n.msg resp), w)
          else
            match resp.body with
            | .error e => (.error (wrapInternal e "failed to unmarshal json response"), w)
            | .ok bs =>
              match J.decRes m bs with
              | none => (.error (wrapInternal n.lib "failed to unmarshal json response"), w)
              | some out =>
                match n.ctx 2 with
                | some e => (.error (wrapInternal e "aborted because context was done"), w)
                | none =>
                  match n.close with
                  | some e => (.error (wrapInternal e "failed to close response body"), w)
                  | none => (.ok out, w)

/-- A method of a client, e.g. `rpc/comfo/comfo.twirp.go:141-156` and `:656-671`. -/
def goClient (J : JsonLib) (n : Net ω) (f : Fmt) (base : Url) (m : Method) (inp : Struct) (w : ω) :
    Except TwErr Struct × ω :=
  let u := (urls base).getD (urlIndex m) (serviceURL base)
  match f with
  | .protobuf => doProtobufRequest J n u (goInput m) (goOutput m) inp w
  | .json => doJSONRequest J n u m inp w

/-- The argument of a method for a call: the fields of `Noop`, `FanSpeedTarget`, `ComfortTarget`,
`FanProfileTarget`, `FlushCacheRequest` (`rpc/comfo/comfo.pb.go:766-767`, `:266`, `:637-638`,
`:1099`). -/
def goArg : Call → Struct
  | .setSpeed a r => [(1, .u32 a), (2, .bool r)]
  | .setComfort t => [(1, .u32 t)]
  | .setProfile m t => [(1, .u32 m), (2, .u32 t)]
  | .flush t => [(1, .enum t)]
  | _ => []

end Comfo.Twirp
