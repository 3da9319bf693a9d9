import Verif.Model.GoClient
import Verif.Spec.Proto
/-!
# What is assumed of the JSON libraries, and what a client of the service expects (C78, C79)
-/
namespace Spec
open Comfo Comfo.Pb Comfo.Twirp

/-- All strings of an error are UTF-8. -/
def IsText (e : TwErr) : Prop :=
  validUtf8 e.msg = true ∧ ∀ kv ∈ e.metas, validUtf8 kv.1 = true ∧ validUtf8 kv.2 = true

/-- The same for an error as it is sent. -/
def IsTextJson (t : TwerrJson) : Prop :=
  validUtf8 t.code = true ∧ validUtf8 t.msg = true ∧
    ∀ kv ∈ t.metas, validUtf8 kv.1 = true ∧ validUtf8 kv.2 = true

/-- The argument of a call is a value of its type: enumerations have 32 bits. -/
def ArgFits : Call → Prop
  | .flush t => -2147483648 ≤ t ∧ t < 2147483648
  | _ => True

/-- JSON loses nothing: what has been encoded is decoded as what it was. `dec` is the decoding of
requests in the server. -/
structure Lawful (J : JsonLib) (dec : Method → Bytes → Option Call) : Prop where
  err : ∀ t, IsTextJson t → ∃ b t', J.encErr t = some b ∧ J.decErr b = some t' ∧
    t'.code = t.code ∧ t'.msg = t.msg ∧ ∀ k, t'.metas.lookup k = t.metas.lookup k
  req : ∀ c m, c.method = some m → ArgFits c →
    ∃ b, J.encReq m (goArg c) = some b ∧ dec m b = some c
  res : ∀ m r s, goStruct m r = some s → r.marshals = true → ShortName r → ExactTemps r →
    ∃ b, J.encRes m s = some b ∧ J.decRes m b = some s

/-- A request that carries a call: it goes to the server of the base URL, is meant for the method,
and the server does for it what the call asks for, and nothing else. -/
structure Carries (clean : Str → Str) (cd : Codec) (cv : FloatConv) (base : Url) (f : Fmt)
    (m : Method) (c : Call) (snt : Outgoing) : Prop where
  host : snt.host = base.host
  scheme : snt.scheme = if base.scheme = [] then "http".toList else base.scheme
  meant : MeantFor clean m f snt.req
  run : serve clean cd cv snt.req = (c.prog cv).bind fun a => .ret a.http

/-- A call is not disturbed: its context is never done and bodies can be closed. -/
def Undisturbed (n : Net ω) : Prop := (∀ k, n.ctx k = none) ∧ n.close = none

/-- The body of an answer is that of a struct. -/
def Decodes (J : JsonLib) (f : Fmt) (m : Method) (b : Bytes) (s : Struct) : Prop :=
  match f with
  | .json => J.decRes m b = some s
  | .protobuf => goUnmarshal (goOutput m) b = some s

/-- Two errors a caller cannot tell apart: the same code, text and metadata. -/
def SameError (a b : TwErr) : Prop := a.code = b.code ∧ a.msg = b.msg ∧ ∀ k, a.get k = b.get k

/-- The texts of an error of the connection are UTF-8, and not longer than a megabyte. -/
def TextOf (W : Wording) (e : Comfo.Twirp) : Prop :=
  e = .internal (.lib .io) → validUtf8 W.io = true ∧ validUtf8 W.ioType = true ∧
    W.io.length ≤ 1000000

/-- The name of the argument that is refused, as it is called in the messages of the service. -/
def refused : Refusal → String
  | .bothAbsRel => "Abs/Rel"
  | .speedRange _ => "FanSpeed"
  | .tempTooLarge => "ComfortTemp"
  | .modeRange => "Mode"
  | .targetRange => "TargetSpeed"

/-- What a client should see of an error of a handler. -/
def ErrorFor (W : Wording) (e : Comfo.Twirp) (e' : TwErr) : Prop :=
  match e with
  | .invalidArgument a => e'.code = .invalidArgument ∧
      e'.msg = lit (refused a) ++ lit " " ++ a.validationMsg ∧
      e'.get (lit "argument") = lit (refused a)
  | .internal x => e'.code = .internal ∧ e'.msg = errorText W x

/-- The HTTP status of the errors this server makes, as documented for Twirp
(https://twitchtv.github.io/twirp/docs/errors.html). -/
def documentedStatus : Code → Option Nat
  | .invalidArgument => some 400
  | .malformed => some 400
  | .badRoute => some 404
  | .internal => some 500
  | _ => none

/-- The code for a response that is not from a Twirp server, as documented
(https://twitchtv.github.io/twirp/docs/errors.html#http-errors-from-intermediary-proxies). -/
def proxyCode (status : Nat) : Code :=
  if 300 ≤ status ∧ status < 400 then .internal
  else match status with
    | 400 => .internal
    | 401 => .unauthenticated
    | 403 => .permissionDenied
    | 404 => .badRoute
    | 429 => .resourceExhausted
    | 502 => .unavailable
    | 503 => .unavailable
    | 504 => .unavailable
    | _ => .unknown

/-- The struct of an answer: every field of the message with its number in `comfo.proto`. -/
def answerFields : Resp → Struct
  | .boot (.ok b) => [(1, .u32 b.majorVersion), (2, .u32 b.minorVersion), (3, .u32 b.betaVersion),
      (4, .str b.deviceName)]
  | .bypass (.ok b) => [(1, .u32 b.factor), (2, .u32 b.level), (3, .u32 b.correction),
      (4, .bool b.summerMode)]
  | .errors (.ok e) => [(1, .bool e.filter)]
  | .fans (.ok f) => [(1, .u32 f.inPercent), (2, .u32 f.outPercent), (3, .u32 f.inSpeed),
      (4, .u32 f.outSpeed)]
  | .profiles (.ok p) => [(1, .u32 p.outAway), (2, .u32 p.outLow), (3, .u32 p.outMid),
      (4, .u32 p.outHigh), (5, .bool p.inFanActive), (6, .u32 p.inAway), (7, .u32 p.inLow),
      (8, .u32 p.inMid), (9, .u32 p.inHigh), (10, .u32 p.currentOut), (11, .u32 p.currentIn),
      (12, .u32 p.currentMode)]
  | .temps (.ok t) => [(1, .f32 (f32Bits t.comfort)), (2, .f32 (f32Bits t.outsideAir)),
      (3, .f32 (f32Bits t.supplyAir)), (4, .f32 (f32Bits t.insideAir)),
      (5, .f32 (f32Bits t.exhaustAir)), (6, .f32 (f32Bits t.geoHeat)),
      (7, .f32 (f32Bits t.reheating)), (8, .f32 (f32Bits t.kitchenHood))]
  | .comfort (.ok c) => [(1, .bool c.modified), (2, .u32 c.originalTemp), (3, .u32 c.targetTemp),
      (4, .str (durString c.reqTime))]
  | .speed (.ok s) => [(1, .bool s.modified), (2, .u32 s.originalSpeed), (3, .u32 s.targetSpeed),
      (4, .str (durString s.reqTime))]
  | .flushed (.ok f) => [(1, .bool f.success), (2, .str (durString f.reqTime))]
  | _ => []

end Spec
