import Verif.Model.Main
import Verif.Model.Sys
/-!
# What the server logs while it runs

Only refreshes log (`comfoserver/caches.go:130`, `:157`, `:184`, `:211`, `:270`, `:297`); here is what
that comes to for the functions that refresh caches, and for each request. They are the programs of
`Model/Server.lean` and `Model/Sys.lean`, with the records as an additional result.
-/
namespace Comfo.Log
open Comfo.Pb Comfo.Twirp

/-- `comfoserver/caches.go:82-105` `FlushCaches`. -/
def flushCachesLogged (W : Wording) (t : Int) : Prog (List Record) :=
  if t = 0 then (updateLogged W .boot true).bind fun rs => .sendFlushed true <| .ret rs
  else if t = 4 then (updateLogged W .bypass true).bind fun rs => .sendFlushed true <| .ret rs
  else if t = 1 then (updateLogged W .fans true).bind fun rs => .sendFlushed true <| .ret rs
  else if t = 2 then (updateLogged W .temps true).bind fun rs => .sendFlushed true <| .ret rs
  else if t = 3 then (updateLogged W .profiles true).bind fun rs => .sendFlushed true <| .ret rs
  else if t = 10 then (updateCachesLogged W true).bind fun rs => .sendFlushed true <| .ret rs
  else .sendFlushed false <| .ret []

/-- The ticker branches of `CacheWorker`, `comfoserver/timers.go:49-64`. -/
def onTickLogged (W : Wording) : Tick → Prog (List Record)
  | .fast => (updateLogged W .temps false).bind fun r₁ =>
      (updateLogged W .fans false).bind fun r₂ => .ret (r₁ ++ r₂)
  | .slow => (updateLogged W .profiles false).bind fun r₁ =>
      (updateLogged W .bypass false).bind fun r₂ => .ret (r₁ ++ r₂)
  | .glacial => (updateLogged W .boot false).bind fun r₁ =>
      (updateLogged W .errors false).bind fun r₂ => .ret (r₁ ++ r₂)

/-- The loop of `UpdatePoll`, `comfoserver/caches.go:229-244`; `rs` has been logged before. -/
def pollLoopLogged (W : Wording) (inPct outPct : UInt8) : Nat → List Record → Prog (Option SrvErr × List Record)
  | 0, rs => .ret (some .pollFailed, rs)
  | n + 1, rs =>
    (updateLogged W .fans true).bind fun r =>
    .load .fans fun (f : Entry Fans) =>
    if f.val.inPercent = inPct then
      .load .fans fun (g : Entry Fans) =>
      if g.val.outPercent = outPct then .ret (none, rs ++ r)
      else .sleep 500000000 <| pollLoopLogged W inPct outPct n (rs ++ r)
    else .sleep 500000000 <| pollLoopLogged W inPct outPct n (rs ++ r)

/-- `comfoserver/caches.go:218-245` `UpdatePoll`. -/
def updatePollLogged (W : Wording) (count : Nat) (tgtSpeed : UInt8) : Prog (Option SrvErr × List Record) :=
  .rlock (.cache .profiles) <|
  .load .profiles fun (c : Entry FanProfiles) =>
  match c.val.lookup tgtSpeed with
  | (_, some e) => .ret (some (.lib e), [])
  | ((inPct, outPct), none) =>
    .runlock (.cache .profiles) <|
    pollLoopLogged W inPct outPct count []

/-- `comfoserver/server.go:68-107` `SetComfortTemp`. -/
def setComfortTempLogged (W : Wording) (cv : FloatConv) (comfortTemp : UInt32) :
    Prog (Rpc ComfortModified × List Record) :=
  .now fun start =>
  .load .temps fun (c : Entry Temps) =>
  let origTemp := c.val.comfort
  let targetTemp := comfortTemp.toUInt8
  let answer (modified : Bool) (stop : Int) : Rpc ComfortModified := .ok
    { modified, originalTemp := cv.u32 origTemp, targetTemp := comfortTemp,
      reqTime := timeSub stop start }
  if comfortTemp > 255 then .ret (.err (.invalidArgument .tempTooLarge), [])
  else if cv.u8 origTemp ≠ targetTemp then
    .lock .temp <|
    (setComfortP targetTemp).bind fun err =>
    match err with
    | some e => .unlock .temp <| .ret (.err (.internal (.lib e)), [])
    | none =>
      (updateLogged W .temps true).bind fun rs =>
      .now fun stop =>
      .unlock .temp <| .ret (answer true stop, rs)
  else .now fun stop => .ret (answer false stop, [])

/-- `comfoserver/server.go:111-160` `SetFanSpeed`. -/
def setFanSpeedLogged (W : Wording) (abs : UInt32) (rel : Bool) : Prog (Rpc SpeedModified × List Record) :=
  .now fun start =>
  .lock .fan <|
  .load .profiles fun (c : Entry FanProfiles) =>
  let origSpeed := c.val.currentMode
  match modifySpeed origSpeed abs rel with
  | (_, some e) => .unlock .fan <| .ret (.err e, [])
  | (tgtSpeed, none) =>
    let answer (modified : Bool) (stop : Int) : Rpc SpeedModified := .ok
      { modified, originalSpeed := origSpeed.toUInt32, targetSpeed := tgtSpeed.toUInt32,
        reqTime := timeSub stop start }
    if tgtSpeed ≠ origSpeed then
      (setSpeedP tgtSpeed).bind fun err =>
      match err with
      | some e => .unlock .fan <| .ret (.err (.internal (.lib e)), [])
      | none =>
        (updatePollLogged W 10 tgtSpeed).bind fun x =>
        match x.1 with
        | some e => .unlock .fan <| .ret (.err (.internal e), x.2)
        | none =>
          (updateLogged W .profiles true).bind fun rs =>
          .now fun stop => .unlock .fan <| .ret (answer true stop, x.2 ++ rs)
    else .now fun stop => .unlock .fan <| .ret (answer false stop, [])

/-- `comfoserver/server.go:164-231` `SetFanProfile`. -/
def setFanProfileLogged (W : Wording) (modeArg targetArg : UInt32) :
    Prog (Rpc SpeedModified × List Record) :=
  .now fun start =>
  let mode := modeArg.toUInt8
  let tgtSpeed := targetArg.toUInt8
  if mode < 1 ∨ mode > 4 then .ret (.err (.invalidArgument .modeRange), [])
  else
    let mode := mode - 1
    if tgtSpeed < 15 ∨ tgtSpeed > 100 then .ret (.err (.invalidArgument .targetRange), [])
    else
      .lock .fan <|
      let cont (origSpeed : UInt8) : Prog (Rpc SpeedModified × List Record) :=
        let answer (modified : Bool) (stop : Int) : Rpc SpeedModified := .ok
          { modified, originalSpeed := origSpeed.toUInt32, targetSpeed := targetArg,
            reqTime := timeSub stop start }
        if origSpeed ≠ tgtSpeed then
          (setFanProfileP mode tgtSpeed).bind fun err =>
          match err with
          | some e => .unlock .fan <| .ret (.err (.internal (.lib e)), [])
          | none =>
            (updateLogged W .profiles true).bind fun rs =>
            .now fun stop => .unlock .fan <| .ret (answer true stop, rs)
        else .now fun stop => .unlock .fan <| .ret (answer false stop, [])
      if mode = 0 then .load .profiles fun (c : Entry FanProfiles) => cont c.val.inAway
      else if mode = 1 then .load .profiles fun (c : Entry FanProfiles) => cont c.val.inLow
      else if mode = 2 then .load .profiles fun (c : Entry FanProfiles) => cont c.val.inMid
      else if mode = 3 then .load .profiles fun (c : Entry FanProfiles) => cont c.val.inHigh
      else .panic

/-- A request with what it logs. A request to flush leaves that to the worker. -/
def progLogged (W : Wording) (cv : FloatConv) : Call → Prog (Resp × List Record)
  | .setComfort v => (setComfortTempLogged W cv v).map fun x => (.comfort x.1, x.2)
  | .setSpeed a r => (setFanSpeedLogged W a r).map fun x => (.speed x.1, x.2)
  | .setProfile m t => (setFanProfileLogged W m t).map fun x => (.speed x.1, x.2)
  | c => (c.prog cv).map fun r => (r, [])

end Comfo.Log
