import Verif.Model.Conn
import Verif.Model.Response
/-!
# Model of `libcomfo/message.go`, `libcomfo/request_types.go`, `libcomfo/api.go`

Functions that use the connection take a `Conn` and return the connection afterwards. The mutex
`am` of `SetFanProfile` (`libcomfo/api.go:39-40`) is the subject of the concurrency model.
-/
namespace Comfo

/-! ## Set requests -/

/-- The implementations of the interface `SetRequest` (`libcomfo/message.go:7-10`):
`setSpeedT` (`libcomfo/request_types.go:40-42`), `setComfortT` (`:57-59`), `FanProfiles` (`:73`). -/
inductive SetRequest
  | speed (speed : UInt8)
  | comfort (temperature : Int)
  | fanProfiles (q : FanProfiles)
  deriving DecidableEq, Repr

/-- `libcomfo/request_types.go:44`, `:61`, `:73` `requestType()`, with the constants of
`:33-35`. -/
def SetRequest.requestType : SetRequest → UInt8
  | .speed _ => 0x99
  | .comfort _ => 0xD3
  | .fanProfiles _ => 0xCF

/-- `libcomfo/message.go:124-137` `temperature.MarshalBinary` for whole degrees (the only
values the API can construct, `libcomfo/api.go:16`). `byte(f)` of a float in [0, 255] truncates. -/
def temperatureMarshal (t : Int) : UInt8 × Option Err :=
  if t > 107 then (0, some .tooHigh)
  else if t < -20 then (0, some .tooLow)
  else (UInt8.ofNat ((t + 20) * 2).toNat, none)

/-- `libcomfo/request_types.go:45-52`, `:62-70`, `:77-91` `MarshalBinary()`. -/
def SetRequest.marshalBinary : SetRequest → List UInt8 × Option Err
  | .speed s => if s > 4 then ([], some .tooHigh) else ([s], none)
  | .comfort t =>
    match temperatureMarshal t with
    | (_, some e) => ([], some e)
    | (b, none) => ([b], none)
  | .fanProfiles q =>
    ([q.outAway, q.outLow, q.outMid, q.inAway, q.inLow, q.inMid, q.outHigh, q.inHigh], none)

/-- `libcomfo/message.go:36-60` `EncodeSetRequest`. -/
def encodeSetRequest (inp : SetRequest) : Packet × Option Err :=
  let cmd := inp.requestType
  if cmd = 0 then ({}, some .requestType)
  else
    match inp.marshalBinary with
    | (_, some e) => ({}, some e)
    | (bin, none) => ({ command := cmd, data := bin, expect := false }, none)

/-- `libcomfo/message.go:89-99` `setQuery`. -/
def setQuery (inp : SetRequest) (c : Conn) : Go Unit × Conn :=
  match encodeSetRequest inp with
  | (_, some e) => (.ret () (some e), c)
  | (sr, none) =>
    match queryPacket sr c with
    | (.panic, c) => (.panic, c)
    | (.ret _ e, c) => (.ret () e, c)

/-! ## Get requests -/

/-- The constants of type `getRequest`, `libcomfo/request_types.go:16-25`. -/
inductive GetRequest
  | fans | bootloader | firmware | fanProfiles | temps | errors | bypass | hours
  deriving DecidableEq, Repr

/-- `libcomfo/request_types.go:16-25`. -/
def GetRequest.code : GetRequest → UInt8
  | .fans => 0x0B
  | .bootloader => 0x67
  | .firmware => 0x69
  | .fanProfiles => 0xCD
  | .temps => 0xD1
  | .errors => 0xD9
  | .bypass => 0xDF
  | .hours => 0xDD

/-- `libcomfo/message.go:22-31` `EncodeGetRequest`. -/
def encodeGetRequest (gr : GetRequest) : Packet := { command := gr.code, expect := true }

/-- The dynamic types of the interface `Response` (`libcomfo/message.go:15-18`). -/
inductive Response
  | fans (v : Fans)
  | bootInfo (v : BootInfo)
  | fanProfiles (v : FanProfiles)
  | temps (v : Temps)
  | errors (v : Errors)
  | hours (v : Hours)
  | bypass (v : Bypass)
  deriving DecidableEq, Repr

/-- Apply a constructor to the result of `UnmarshalBinary`. No counterpart in the code. -/
def Go.map (f : α → β) : Go α → Go β
  | .ret v e => .ret (f v) e
  | .panic => .panic

/-- `libcomfo/message.go:65-85` `DecodeResponse` with the map `ResponseType`
(`libcomfo/response_types.go:12-21`). `none` is the nil interface. -/
def decodeResponse (inp : Packet) : Go (Option Response) :=
  if inp.command = 0 then .ret none (some .decodeNil)
  else if inp.command = 0x0C then (Fans.unmarshalBinary inp.data).map (some ∘ .fans)
  else if inp.command = 0x68 then (BootInfo.unmarshalBinary inp.data).map (some ∘ .bootInfo)
  else if inp.command = 0x6A then (BootInfo.unmarshalBinary inp.data).map (some ∘ .bootInfo)
  else if inp.command = 0xCE then (FanProfiles.unmarshalBinary inp.data).map (some ∘ .fanProfiles)
  else if inp.command = 0xD2 then (Temps.unmarshalBinary inp.data).map (some ∘ .temps)
  else if inp.command = 0xDA then (Errors.unmarshalBinary inp.data).map (some ∘ .errors)
  else if inp.command = 0xDE then (Hours.unmarshalBinary inp.data).map (some ∘ .hours)
  else if inp.command = 0xE0 then (Bypass.unmarshalBinary inp.data).map (some ∘ .bypass)
  else .ret none (some .responseType)

/-- `libcomfo/message.go:103-115` `getQuery`. -/
def getQuery (inp : GetRequest) (c : Conn) : Go (Option Response) × Conn :=
  match queryPacket (encodeGetRequest inp) c with
  | (.panic, c) => (.panic, c)
  | (.ret _ (some e), c) => (.ret none (some e), c)
  | (.ret qp none, c) => (decodeResponse qp, c)

/-- The common shape of the eight getters in `libcomfo/api.go:68-154`: on error return the zero
value, otherwise assert the dynamic type (`assert` returns `none` for a failing assertion, which
panics; asserting on a nil interface panics too). -/
def getter (gr : GetRequest) (zero : α) (assert : Response → Option α) (c : Conn) : Go α × Conn :=
  match getQuery gr c with
  | (.panic, c) => (.panic, c)
  | (.ret _ (some e), c) => (.ret zero (some e), c)
  | (.ret none none, c) => (.panic, c)
  | (.ret (some resp) none, c) =>
    match assert resp with
    | some v => (.ret v none, c)
    | none => (.panic, c)

/-- `libcomfo/api.go:69-77`. -/
def getTemperatures (c : Conn) : Go Temps × Conn :=
  getter .temps {} (fun | .temps v => some v | _ => none) c
/-- `libcomfo/api.go:80-88`. -/
def getBypass (c : Conn) : Go Bypass × Conn :=
  getter .bypass {} (fun | .bypass v => some v | _ => none) c
/-- `libcomfo/api.go:91-99`. -/
def getFans (c : Conn) : Go Fans × Conn :=
  getter .fans {} (fun | .fans v => some v | _ => none) c
/-- `libcomfo/api.go:102-110`. -/
def getHours (c : Conn) : Go Hours × Conn :=
  getter .hours {} (fun | .hours v => some v | _ => none) c
/-- `libcomfo/api.go:113-121`. -/
def getBootloader (c : Conn) : Go BootInfo × Conn :=
  getter .bootloader {} (fun | .bootInfo v => some v | _ => none) c
/-- `libcomfo/api.go:124-132`. -/
def getFirmware (c : Conn) : Go BootInfo × Conn :=
  getter .firmware {} (fun | .bootInfo v => some v | _ => none) c
/-- `libcomfo/api.go:135-143`. -/
def getFanProfiles (c : Conn) : Go FanProfiles × Conn :=
  getter .fanProfiles {} (fun | .fanProfiles v => some v | _ => none) c
/-- `libcomfo/api.go:146-154`. -/
def getErrors (c : Conn) : Go Errors × Conn :=
  getter .errors {} (fun | .errors v => some v | _ => none) c

/-! ## Setters -/

/-- `libcomfo/api.go:14-17`. -/
def setComfort (val : UInt8) (c : Conn) : Go Unit × Conn :=
  setQuery (.comfort (val.toNat : Int)) c

/-- `libcomfo/api.go:20-23`. -/
def setSpeed (val : UInt8) (c : Conn) : Go Unit × Conn := setQuery (.speed val) c

/-- `libcomfo/api.go:63-66`. A nil pointer (`none`) panics in the value-receiver method call
`in.requestType()` (`libcomfo/message.go:39`). -/
def setFanProfiles (fp : Option FanProfiles) (c : Conn) : Go Unit × Conn :=
  match fp with
  | none => (.panic, c)
  | some q => setQuery (.fanProfiles q) c

/-- The `switch` of `libcomfo/api.go:47-56`. -/
def patchProfile (mode speed : UInt8) (cfp : FanProfiles) : FanProfiles :=
  if mode = 0 then { cfp with inAway := speed, outAway := speed }
  else if mode = 1 then { cfp with inLow := speed, outLow := speed }
  else if mode = 2 then { cfp with inMid := speed, outMid := speed }
  else if mode = 3 then { cfp with inHigh := speed, outHigh := speed }
  else cfp

/-- `libcomfo/api.go:26-59` `SetFanProfile`. -/
def setFanProfile (mode speed : UInt8) (c : Conn) : Go Unit × Conn :=
  if mode > 3 then (.ret () (some .unknownMode), c)
  else if speed > 100 then (.ret () (some .tooHigh), c)
  else
    match getFanProfiles c with
    | (.panic, c) => (.panic, c)
    | (.ret _ (some e), c) => (.ret () (some e), c)
    | (.ret cfp none, c) => setQuery (.fanProfiles (patchProfile mode speed cfp)) c

end Comfo
