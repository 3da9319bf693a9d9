import Verif.Model.Prog
/-!
# Model of `comfoserver`: caches, worker, RPC handlers

Handlers are programs (`Verif/Model/Prog.lean`). `defer X.Unlock()` is spelled out on every path.
Logging (`slog`) has no effect on the model. Request messages are passed field by field; Twirp
never hands a nil message to a handler. The context argument is unused by all handlers.
-/
namespace Comfo

/-! ## Staleness -/

/-- `time.Time.Sub` (Go standard library): the difference saturates at the int64 range. -/
def timeSub (t u : Int) : Int :=
  if t - u > 9223372036854775807 then 9223372036854775807
  else if t - u < -9223372036854775808 then -9223372036854775808
  else t - u

/-- `comfoserver/timers.go:12`: `time.Second * 5`, in nanoseconds. -/
def fastCacheStale : Int := 5000000000

/-- `comfoserver/caches.go:303-312` `isStale`. -/
def isStale (last now : Int) : Bool :=
  let errorMargin := fastCacheStale / 10
  if timeSub now last > fastCacheStale ∨ timeSub now last > fastCacheStale - errorMargin then true
  else false

/-! ## Caches -/

/-- The library call each cache's `Update` makes: `comfoserver/caches.go:126` (boot), `:153`
(bypass), `:180` (temps), `:207` (fans), `:266` (profiles), `:293` (errors). -/
def CacheId.fetch : (id : CacheId) → Prog (CVal id × Option Err)
  | .boot => getBootloaderP
  | .bypass => getBypassP
  | .temps => getTemperaturesP
  | .fans => getFansP
  | .profiles => getFanProfilesP
  | .errors => getErrorsP

/-- The six `Update` methods, `comfoserver/caches.go:110-132` (boot), `:137-159` (bypass),
`:164-186` (temps), `:191-213` (fans), `:250-272` (profiles), `:277-299` (errors). They differ only
in the cache and the library call. The two assignments (value, time stamp) are one action; both
are made under the cache lock. -/
def update (id : CacheId) (force : Bool) : Prog Unit :=
  let refresh (now : Int) : Prog Unit :=
    .note id now <|
    id.fetch.bind fun (v, err) =>
    match err with
    | none => .store id { val := v, last := now } <| .unlock (.cache id) <| .ret ()
    | some _ => .unlock (.cache id) <| .ret ()
  .lock (.cache id) <|
  .now fun now =>
  if force then refresh now
  else
    .load id fun c =>
    if !isStale c.last now then .unlock (.cache id) <| .ret () else refresh now

/-- `comfoserver/caches.go:71-78` `UpdateCaches`. -/
def updateCaches (force : Bool) : Prog Unit :=
  (update .boot force).bind fun _ =>
  (update .bypass force).bind fun _ =>
  (update .temps force).bind fun _ =>
  (update .fans force).bind fun _ =>
  (update .profiles force).bind fun _ =>
  update .errors force

/-- `comfoserver/caches.go:82-105` `FlushCaches`; the enum constants of
`rpc/comfo/comfo.pb.go:26-31`. An enum in a proto3 message may hold any int32. -/
def flushCaches (t : Int) : Prog Unit :=
  if t = 0 then (update .boot true).bind fun _ => .sendFlushed true <| .ret ()
  else if t = 4 then (update .bypass true).bind fun _ => .sendFlushed true <| .ret ()
  else if t = 1 then (update .fans true).bind fun _ => .sendFlushed true <| .ret ()
  else if t = 2 then (update .temps true).bind fun _ => .sendFlushed true <| .ret ()
  else if t = 3 then (update .profiles true).bind fun _ => .sendFlushed true <| .ret ()
  else if t = 10 then (updateCaches true).bind fun _ => .sendFlushed true <| .ret ()
  else .sendFlushed false <| .ret ()

/-- The tickers of `comfoserver/timers.go:9-21`. -/
inductive Tick
  | fast | slow | glacial
  deriving DecidableEq, Repr

/-- `comfoserver/timers.go:16`: `time.Minute * 5`. -/
def slowCacheStale : Int := 5 * 60 * 1000000000

/-- `comfoserver/timers.go:20`: `time.Hour`. -/
def glacialCacheStale : Int := 3600 * 1000000000

/-- The periods the tickers are created with, `comfoserver/timers.go:35-37`. The system below lets ticks come at
any time; only C110 says when they do. -/
def Tick.period : Tick → Int
  | .fast => fastCacheStale
  | .slow => slowCacheStale
  | .glacial => glacialCacheStale

/-- The ticker branches of `CacheWorker`, `comfoserver/timers.go:49-64`. -/
def onTick : Tick → Prog Unit
  | .fast => (update .temps false).bind fun _ => update .fans false
  | .slow => (update .profiles false).bind fun _ => update .bypass false
  | .glacial => (update .boot false).bind fun _ => update .errors false

/-- Errors handlers wrap with `twirp.InternalError` (`comfoserver/server.go:91`, `:138`, `:144`,
`:215`): errors of the library and `errSetPollFailed` (`comfoserver/errors.go:6`). -/
inductive SrvErr
  | lib (e : Err)
  | pollFailed
  deriving DecidableEq, Repr

/-- The reasons to refuse a request, one per call of `twirp.InvalidArgumentError`. Their texts are in
`Verif/Model/GoClient.lean`. -/
inductive Refusal
  /-- `comfoserver/helpers.go:22`. -/
  | bothAbsRel
  /-- `comfoserver/helpers.go:37`, with the value formatted there. -/
  | speedRange (v : UInt8)
  /-- `comfoserver/server.go:80`. -/
  | tempTooLarge
  /-- `comfoserver/server.go:172`. -/
  | modeRange
  /-- `comfoserver/server.go:186`. -/
  | targetRange
  deriving DecidableEq, Repr

/-- Twirp errors. -/
inductive Twirp
  | invalidArgument (why : Refusal)
  | internal (e : SrvErr)
  deriving DecidableEq, Repr

/-- Result of a handler. -/
inductive Rpc (α : Type)
  | ok (a : α)
  | err (e : Twirp)
  deriving DecidableEq, Repr

/-- The loop of `UpdatePoll`, `comfoserver/caches.go:229-244`. The two cache fields are read
without a lock. -/
def pollLoop (inPct outPct : UInt8) : Nat → Prog (Option SrvErr)
  | 0 => .ret (some .pollFailed)
  | n + 1 =>
    (update .fans true).bind fun _ =>
    .load .fans fun (f : Entry Fans) =>
    if f.val.inPercent = inPct then
      .load .fans fun (g : Entry Fans) =>
      if g.val.outPercent = outPct then .ret none
      else .sleep 500000000 <| pollLoop inPct outPct n
    else .sleep 500000000 <| pollLoop inPct outPct n

/-- `comfoserver/caches.go:218-245` `UpdatePoll`. On the error path of line 224 the read lock
stays held. -/
def updatePoll (count : Nat) (tgtSpeed : UInt8) : Prog (Option SrvErr) :=
  .rlock (.cache .profiles) <|
  .load .profiles fun (c : Entry FanProfiles) =>
  match c.val.lookup tgtSpeed with
  | (_, some e) => .ret (some (.lib e))
  | ((inPct, outPct), none) =>
    .runlock (.cache .profiles) <|
    pollLoop inPct outPct count

/-! ## Handlers -/

/-- Conversion of a `float32` to `uint8` and `uint32` (`comfoserver/server.go:83`, `:103`). For
values that do not fit, the Go specification leaves the result to the implementation, so these are
arbitrary functions that are right where the language defines them. -/
structure FloatConv where
  u8 : Int → UInt8
  u32 : Int → UInt32
  u8_ok : ∀ t : Int, 0 ≤ t → t ≤ 255 → ((u8 t).toNat : Int) = t
  u32_ok : ∀ t : Int, 0 ≤ t → t ≤ 255 → ((u32 t).toNat : Int) = t

/-- Conversion as on amd64: truncation to the low bits. -/
def amd64 : FloatConv where
  u8 t := UInt8.ofNat (t % 256).toNat
  u32 t := UInt32.ofNat (t % 4294967296).toNat
  u8_ok t h1 h2 := by simp; omega
  u32_ok t h1 h2 := by simp; omega

/-- `rpc.ComfortModified`; `ReqTime` in nanoseconds instead of a string. -/
structure ComfortModified where
  modified : Bool
  originalTemp : UInt32
  targetTemp : UInt32
  reqTime : Int
  deriving DecidableEq, Repr

/-- `comfoserver/server.go:68-107` `SetComfortTemp`. -/
def setComfortTemp (cv : FloatConv) (comfortTemp : UInt32) : Prog (Rpc ComfortModified) :=
  .now fun start =>
  .load .temps fun (c : Entry Temps) =>
  let origTemp := c.val.comfort
  let targetTemp := comfortTemp.toUInt8
  let answer (modified : Bool) (stop : Int) : Rpc ComfortModified := .ok
    { modified, originalTemp := cv.u32 origTemp, targetTemp := comfortTemp,
      reqTime := timeSub stop start }
  if comfortTemp > 255 then .ret (.err (.invalidArgument .tempTooLarge))
  else if cv.u8 origTemp ≠ targetTemp then
    .lock .temp <|
    (setComfortP targetTemp).bind fun err =>
    match err with
    | some e => .unlock .temp <| .ret (.err (.internal (.lib e)))
    | none =>
      (update .temps true).bind fun _ =>
      .now fun stop =>
      .unlock .temp <| .ret (answer true stop)
  else .now fun stop => .ret (answer false stop)

/-- `comfoserver/helpers.go:13-41` `modifySpeed`. -/
def modifySpeed (baseSpeed : UInt8) (abs : UInt32) (rel : Bool) : UInt8 × Option Twirp :=
  if abs ≠ 0 ∧ rel then (0, some (.invalidArgument .bothAbsRel))
  else
    let tgtSpeed := if abs ≠ 0 then abs.toUInt8 else if rel then baseSpeed + 1 else baseSpeed - 1
    if tgtSpeed < 1 ∨ tgtSpeed > 4 then (baseSpeed, some (.invalidArgument (.speedRange tgtSpeed)))
    else (tgtSpeed, none)

/-- `rpc.FanSpeedModified` and `rpc.FanProfileModified`; `ReqTime` in nanoseconds. -/
structure SpeedModified where
  modified : Bool
  originalSpeed : UInt32
  targetSpeed : UInt32
  reqTime : Int
  deriving DecidableEq, Repr

/-- `comfoserver/server.go:111-160` `SetFanSpeed`. -/
def setFanSpeed (abs : UInt32) (rel : Bool) : Prog (Rpc SpeedModified) :=
  .now fun start =>
  .lock .fan <|
  .load .profiles fun (c : Entry FanProfiles) =>
  let origSpeed := c.val.currentMode
  match modifySpeed origSpeed abs rel with
  | (_, some e) => .unlock .fan <| .ret (.err e)
  | (tgtSpeed, none) =>
    let answer (modified : Bool) (stop : Int) : Rpc SpeedModified := .ok
      { modified, originalSpeed := origSpeed.toUInt32, targetSpeed := tgtSpeed.toUInt32,
        reqTime := timeSub stop start }
    if tgtSpeed ≠ origSpeed then
      (setSpeedP tgtSpeed).bind fun err =>
      match err with
      | some e => .unlock .fan <| .ret (.err (.internal (.lib e)))
      | none =>
        (updatePoll 10 tgtSpeed).bind fun err =>
        match err with
        | some e => .unlock .fan <| .ret (.err (.internal e))
        | none =>
          (update .profiles true).bind fun _ =>
          .now fun stop => .unlock .fan <| .ret (answer true stop)
    else .now fun stop => .unlock .fan <| .ret (answer false stop)

/-- `comfoserver/server.go:164-231` `SetFanProfile`. -/
def setFanProfileRpc (modeArg targetArg : UInt32) : Prog (Rpc SpeedModified) :=
  .now fun start =>
  let mode := modeArg.toUInt8
  let tgtSpeed := targetArg.toUInt8
  if mode < 1 ∨ mode > 4 then .ret (.err (.invalidArgument .modeRange))
  else
    let mode := mode - 1
    if tgtSpeed < 15 ∨ tgtSpeed > 100 then .ret (.err (.invalidArgument .targetRange))
    else
      .lock .fan <|
      let cont (origSpeed : UInt8) : Prog (Rpc SpeedModified) :=
        let answer (modified : Bool) (stop : Int) : Rpc SpeedModified := .ok
          { modified, originalSpeed := origSpeed.toUInt32, targetSpeed := targetArg,
            reqTime := timeSub stop start }
        if origSpeed ≠ tgtSpeed then
          (setFanProfileP mode tgtSpeed).bind fun err =>
          match err with
          | some e => .unlock .fan <| .ret (.err (.internal (.lib e)))
          | none =>
            (update .profiles true).bind fun _ =>
            .now fun stop => .unlock .fan <| .ret (answer true stop)
        else .now fun stop => .unlock .fan <| .ret (answer false stop)
      if mode = 0 then .load .profiles fun (c : Entry FanProfiles) => cont c.val.inAway
      else if mode = 1 then .load .profiles fun (c : Entry FanProfiles) => cont c.val.inLow
      else if mode = 2 then .load .profiles fun (c : Entry FanProfiles) => cont c.val.inMid
      else if mode = 3 then .load .profiles fun (c : Entry FanProfiles) => cont c.val.inHigh
      else .panic

/-- `rpc.FlushCacheResponse`. -/
structure FlushResponse where
  success : Bool
  reqTime : Int
  deriving DecidableEq, Repr

/-- `comfoserver/server.go:234-246` `FlushCache`. -/
def flushCacheRpc (t : Int) : Prog (Rpc FlushResponse) :=
  .now fun start =>
  .sendFlush t <|
  .recvFlushed fun success =>
  .now fun stop =>
  .ret (.ok { success, reqTime := timeSub stop start })

/-! ## Protobuf views -/

/-- The messages of `rpc/comfo/comfo.proto`; floats as in `Temps`. -/
structure PbBootInfo where
  majorVersion : UInt32
  minorVersion : UInt32
  betaVersion : UInt32
  deviceName : List UInt8
  deriving DecidableEq, Repr

structure PbBypass where
  factor : UInt32
  level : UInt32
  correction : UInt32
  summerMode : Bool
  deriving DecidableEq, Repr

structure PbTemps where
  comfort : Int
  outsideAir : Int
  supplyAir : Int
  insideAir : Int
  exhaustAir : Int
  geoHeat : Int
  reheating : Int
  kitchenHood : Int
  deriving DecidableEq, Repr

structure PbFans where
  inPercent : UInt32
  outPercent : UInt32
  inSpeed : UInt32
  outSpeed : UInt32
  deriving DecidableEq, Repr

structure PbFanProfiles where
  outAway : UInt32
  outLow : UInt32
  outMid : UInt32
  outHigh : UInt32
  inFanActive : Bool
  inAway : UInt32
  inLow : UInt32
  inMid : UInt32
  inHigh : UInt32
  currentOut : UInt32
  currentIn : UInt32
  currentMode : UInt32
  deriving DecidableEq, Repr

structure PbErrors where
  filter : Bool
  deriving DecidableEq, Repr

/-- `comfoserver/protobuf.go:20-31`. -/
def BootInfo.protobuf (b : BootInfo) : PbBootInfo :=
  { betaVersion := b.betaVersion.toUInt32, majorVersion := b.majorVersion.toUInt32,
    minorVersion := b.minorVersion.toUInt32, deviceName := b.deviceName }

/-- `comfoserver/protobuf.go:35-46`. -/
def Bypass.protobuf (b : Bypass) : PbBypass :=
  { correction := b.correction.toUInt32, factor := b.factor.toUInt32, level := b.level.toUInt32,
    summerMode := b.summerMode }

/-- `comfoserver/protobuf.go:50-65`. -/
def Temps.protobuf (t : Temps) : PbTemps :=
  { comfort := t.comfort, outsideAir := t.outsideAir, supplyAir := t.supplyAir,
    insideAir := t.insideAir, exhaustAir := t.exhaustAir, geoHeat := t.geoHeat,
    reheating := t.reheating, kitchenHood := t.kitchenHood }

/-- `comfoserver/protobuf.go:69-80`. -/
def Fans.protobuf (f : Fans) : PbFans :=
  { inPercent := f.inPercent.toUInt32, outPercent := f.outPercent.toUInt32,
    inSpeed := f.inSpeed.toUInt32, outSpeed := f.outSpeed.toUInt32 }

/-- `comfoserver/protobuf.go:84-105`. -/
def FanProfiles.protobuf (fp : FanProfiles) : PbFanProfiles :=
  { outAway := fp.outAway.toUInt32, outLow := fp.outLow.toUInt32, outMid := fp.outMid.toUInt32,
    outHigh := fp.outHigh.toUInt32, inFanActive := fp.inFanActive, inAway := fp.inAway.toUInt32,
    inLow := fp.inLow.toUInt32, inMid := fp.inMid.toUInt32, inHigh := fp.inHigh.toUInt32,
    currentOut := fp.currentOut.toUInt32, currentIn := fp.currentIn.toUInt32,
    currentMode := fp.currentMode.toUInt32 }

/-- `comfoserver/protobuf.go:109-117`. -/
def Errors.protobuf (e : Errors) : PbErrors := { filter := e.filter }

/-- The six `Protobuf` methods with their locking, called by the `Get*` handlers
(`comfoserver/server.go:33-60`). -/
def protobuf (id : CacheId) (conv : CVal id → β) : Prog (Rpc β) :=
  .lock (.cache id) <|
  .load id fun c =>
  .unlock (.cache id) <|
  .ret (.ok (conv c.val))

/-- `comfoserver/server.go:33-35`. -/
def getBootInfoRpc : Prog (Rpc PbBootInfo) := protobuf .boot BootInfo.protobuf
/-- `comfoserver/server.go:38-40`. -/
def getBypassRpc : Prog (Rpc PbBypass) := protobuf .bypass Bypass.protobuf
/-- `comfoserver/server.go:43-45`. -/
def getErrorsRpc : Prog (Rpc PbErrors) := protobuf .errors Errors.protobuf
/-- `comfoserver/server.go:48-50`. -/
def getFansRpc : Prog (Rpc PbFans) := protobuf .fans Fans.protobuf
/-- `comfoserver/server.go:53-55`. -/
def getFanProfilesRpc : Prog (Rpc PbFanProfiles) := protobuf .profiles FanProfiles.protobuf
/-- `comfoserver/server.go:58-60`. -/
def getTempsRpc : Prog (Rpc PbTemps) := protobuf .temps Temps.protobuf

/-- `comfoserver/timers.go:25-43` `StartCaches`, the part before the worker starts. -/
def startCaches : Prog Unit := updateCaches true

/-- `comfo.go:65`: the server's `WriteTimeout`, in nanoseconds. `net/http` counts it from the moment
the header of the request has been read, and drops responses written later.
Nothing in the model is cut off by it; `Spec.InTime` says which responses it lets through. -/
def writeTimeout : Int := 5000000000

end Comfo
