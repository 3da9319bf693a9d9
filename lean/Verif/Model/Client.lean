import Verif.Model.Http
/-!
# Model of the Python client, `python/comfo`

A method is a program (`Py`) that makes remote calls and returns or raises. Arguments are Python
integers (`Int`) and, where that is the default, `None`. The Twirp and protobuf libraries are not
part of the repository; of them is assumed that a call is answered with what the handler returned,
or raises `TwirpServerException` with the code of the handler's error, or (`none`) raises
`TwirpServerException` with another code than `InvalidArgument`: no answer, no route, an answer
that cannot be encoded. C68 shows that the messages in between lose nothing. Assigning an integer outside the range of `uint32` to a message field raises
`ValueError`.
-/
namespace Comfo

/-- Exceptions, `python/comfo/exceptions.py:4-13` and those of Python and its libraries. -/
inductive PyErr
  | invalidFanSpeed | invalidTemperature | invalidDutyPercent
  | valueError | attributeError
  /-- `TwirpServerException` with the error of a handler. -/
  | server (e : Twirp)
  /-- `TwirpServerException` with some other code, not `InvalidArgument`. -/
  | transport
  deriving DecidableEq, Repr

/-- What a method does. -/
inductive Py (α : Type) : Type
  | ret (a : α)
  | raise (e : PyErr)
  /-- A remote call; `none`: no answer from a handler. -/
  | rpc (c : Call) (k : Option Resp → Py α)

/-- Run a method. `net` is the network with everything behind it. -/
def Py.run (net : Call → ω → Option Resp × ω) : Py α → ω → Except PyErr α × ω
  | .ret a, w => (.ok a, w)
  | .raise e, w => (.error e, w)
  | .rpc c k, w => (k (net c w).1).run net (net c w).2

/-- Sequencing. -/
def Py.bind : Py α → (α → Py β) → Py β
  | .ret a, f => f a
  | .raise e, _ => .raise e
  | .rpc c k, f => .rpc c fun r => (k r).bind f

/-- Assignment to a `uint32` field of a message. -/
def pyU32 (v : Int) : Option UInt32 :=
  if 0 ≤ v ∧ v < 4294967296 then some (UInt32.ofNat v.toNat) else none

/-- `python/comfo/types.py:70-75` `FanProfiles.VALID_SPEEDS`. -/
def validSpeeds : List Int := [1, 2, 3, 4]

/-- `TwirpClient` and `.Modified` of the answer to `SetFanSpeed` or `SetFanProfile`. -/
def speedModified : Option Resp → Py Bool
  | some (.speed (.ok m)) => .ret m.modified
  | some (.speed (.err e)) => .raise (.server e)
  | _ => .raise .transport

/-- `.Modified` of the answer to `SetComfortTemp`. -/
def comfortModified : Option Resp → Py Bool
  | some (.comfort (.ok m)) => .ret m.modified
  | some (.comfort (.err e)) => .raise (.server e)
  | _ => .raise .transport

/-- `python/comfo/client.py:124-141` `set_fan_speed`. Fields of a message that are not given are
zero. -/
def pySetFanSpeed (speed : Int) : Py Bool :=
  if speed ∉ validSpeeds then .raise .invalidFanSpeed
  else
    match pyU32 speed with
    | none => .raise .valueError
    | some v => .rpc (.setSpeed v false) speedModified

/-- The `except` clause of `python/comfo/client.py:160-165` and `:181-186`. -/
def catchInvalid : Py Bool → Py Bool
  | .raise (.server (.invalidArgument _)) => .ret false
  | p => p

/-- `python/comfo/client.py:150-165` `increase_fan_speed`. -/
def pyIncreaseFanSpeed : Py Bool :=
  .rpc (.setSpeed 0 true) fun r => catchInvalid (speedModified r)

/-- `python/comfo/client.py:171-188` `decrease_fan_speed`. -/
def pyDecreaseFanSpeed : Py Bool :=
  .rpc (.setSpeed 0 false) fun r => catchInvalid (speedModified r)

/-- `python/comfo/client.py:194-208` `set_comfort_temperature`. -/
def pySetComfortTemperature (temperature : Option Int) : Py Bool :=
  match temperature with
  | none => .raise .invalidTemperature
  | some t =>
    if t < 0 ∨ t > 255 then .raise .invalidTemperature
    else
      match pyU32 t with
      | none => .raise .valueError
      | some v => .rpc (.setComfort v) comfortModified

/-- `python/comfo/client.py:220-239` `configure_fan_profile`. -/
def pyConfigureFanProfile (profile percent : Int) : Py Bool :=
  if profile ∉ validSpeeds then .raise .invalidFanSpeed
  else if percent < 15 ∨ percent > 100 then .raise .invalidDutyPercent
  else
    match pyU32 profile, pyU32 percent with
    | some m, some p => .rpc (.setProfile m p) speedModified
    | _, _ => .raise .valueError

/-! ## Getters -/

/-- `python/comfo/types.py:19-27`. Python integers are unbounded. -/
structure PyBootInfo where
  MajorVersion : Nat
  MinorVersion : Nat
  BetaVersion : Nat
  DeviceName : List UInt8
  deriving DecidableEq, Repr

/-- `python/comfo/types.py:30-38`. -/
structure PyBypass where
  Factor : Nat
  Level : Nat
  Correction : Nat
  SummerMode : Bool
  deriving DecidableEq, Repr

/-- `python/comfo/types.py:41-53`. -/
structure PyTemps where
  Comfort : Int
  OutsideAir : Int
  SupplyAir : Int
  InsideAir : Int
  ExhaustAir : Int
  GeoHeat : Int
  Reheating : Int
  KitchenHood : Int
  deriving DecidableEq, Repr

/-- `python/comfo/types.py:56-64`. -/
structure PyFans where
  InPercent : Nat
  OutPercent : Nat
  InSpeed : Nat
  OutSpeed : Nat
  deriving DecidableEq, Repr

/-- `python/comfo/types.py:67-92`. -/
structure PyFanProfiles where
  OutAway : Nat
  OutLow : Nat
  OutMid : Nat
  OutHigh : Nat
  InFanActive : Bool
  InAway : Nat
  InLow : Nat
  InMid : Nat
  InHigh : Nat
  CurrentOut : Nat
  CurrentIn : Nat
  CurrentMode : Nat
  deriving DecidableEq, Repr

/-- `python/comfo/types.py:95-100`. -/
structure PyErrors where
  Filter : Bool
  deriving DecidableEq, Repr

/-- `python/comfo/types.py:22-27`. -/
def PyBootInfo.init (pb : PbBootInfo) : PyBootInfo :=
  { MajorVersion := pb.majorVersion.toNat, MinorVersion := pb.minorVersion.toNat,
    BetaVersion := pb.betaVersion.toNat, DeviceName := pb.deviceName }

/-- `python/comfo/types.py:33-38`. -/
def PyBypass.init (pb : PbBypass) : PyBypass :=
  { Factor := pb.factor.toNat, Level := pb.level.toNat, Correction := pb.correction.toNat,
    SummerMode := pb.summerMode }

/-- `python/comfo/types.py:44-53`. -/
def PyTemps.init (pb : PbTemps) : PyTemps :=
  { Comfort := pb.comfort, OutsideAir := pb.outsideAir, SupplyAir := pb.supplyAir,
    InsideAir := pb.insideAir, ExhaustAir := pb.exhaustAir, GeoHeat := pb.geoHeat,
    Reheating := pb.reheating, KitchenHood := pb.kitchenHood }

/-- `python/comfo/types.py:59-64`. -/
def PyFans.init (pb : PbFans) : PyFans :=
  { InPercent := pb.inPercent.toNat, OutPercent := pb.outPercent.toNat,
    InSpeed := pb.inSpeed.toNat, OutSpeed := pb.outSpeed.toNat }

/-- `python/comfo/types.py:77-92`. -/
def PyFanProfiles.init (pb : PbFanProfiles) : PyFanProfiles :=
  { OutAway := pb.outAway.toNat, OutLow := pb.outLow.toNat, OutMid := pb.outMid.toNat,
    OutHigh := pb.outHigh.toNat, InFanActive := pb.inFanActive, InAway := pb.inAway.toNat,
    InLow := pb.inLow.toNat, InMid := pb.inMid.toNat, InHigh := pb.inHigh.toNat,
    CurrentOut := pb.currentOut.toNat, CurrentIn := pb.currentIn.toNat,
    CurrentMode := pb.currentMode.toNat }

/-- `python/comfo/types.py:98-100`. -/
def PyErrors.init (pb : PbErrors) : PyErrors := { Filter := pb.filter }

/-- `python/comfo/client.py:42-53` `get_bootinfo`. -/
def pyGetBootinfo : Py PyBootInfo :=
  .rpc .getBoot fun
    | some (.boot (.ok pb)) => .ret (.init pb)
    | some (.boot (.err e)) => .raise (.server e)
    | _ => .raise .transport

/-- `python/comfo/client.py:33-36` `ping`. -/
def pyPing : Py Bool := pyGetBootinfo.bind fun _ => .ret true

/-- `python/comfo/client.py:59-66` `get_bypass`. -/
def pyGetBypass : Py PyBypass :=
  .rpc .getBypass fun
    | some (.bypass (.ok pb)) => .ret (.init pb)
    | some (.bypass (.err e)) => .raise (.server e)
    | _ => .raise .transport

/-- `python/comfo/client.py:72-79` `get_temps`. -/
def pyGetTemps : Py PyTemps :=
  .rpc .getTemps fun
    | some (.temps (.ok pb)) => .ret (.init pb)
    | some (.temps (.err e)) => .raise (.server e)
    | _ => .raise .transport

/-- `python/comfo/client.py:85-92` `get_fans`. -/
def pyGetFans : Py PyFans :=
  .rpc .getFans fun
    | some (.fans (.ok pb)) => .ret (.init pb)
    | some (.fans (.err e)) => .raise (.server e)
    | _ => .raise .transport

/-- `python/comfo/client.py:98-105` `get_fan_profiles`. -/
def pyGetFanProfiles : Py PyFanProfiles :=
  .rpc .getProfiles fun
    | some (.profiles (.ok pb)) => .ret (.init pb)
    | some (.profiles (.err e)) => .raise (.server e)
    | _ => .raise .transport

/-- `python/comfo/client.py:111-118` `get_errors`. -/
def pyGetErrors : Py PyErrors :=
  .rpc .getErrors fun
    | some (.errors (.ok pb)) => .ret (.init pb)
    | some (.errors (.err e)) => .raise (.server e)
    | _ => .raise .transport

/-! ## Construction and the asynchronous variants -/

/-- A `Comfo` object as far as the asynchronous variants go: `none` if there is no attribute
`loop`. Event loops are numbers. -/
structure PyComfo where
  loop : Option Nat
  deriving DecidableEq, Repr

/-- `python/comfo/client.py:22-31` `__init__`. `loop` is the argument (`none`: `None`), `running`
the running event loop; `asyncio.get_running_loop` raises `RuntimeError` if there is none. -/
def pyInit (loop running : Option Nat) : PyComfo :=
  match loop with
  | none =>
    match running with
    | some l => { loop := some l }
    | none => { loop := none }
  | some _ => { loop := none }

/-- What an `async_…` variant does: `self.loop.run_in_executor(None, f)`,
`python/comfo/client.py:40`, `:57`, `:70`, `:83`, `:96`, `:109`, `:122`, `:145`, `:169`, `:192`,
`:212`, `:247`. The result is the loop whose executor runs `f`. -/
def pyAsync (self : PyComfo) : Except PyErr Nat :=
  match self.loop with
  | some l => .ok l
  | none => .error .attributeError

/-! ## Routes -/

/-- The `url` of each method of `ComfoClient`, `python/comfo/comfo_twirp.py:95-176`, with the
default `server_path_prefix`. -/
def clientUrl : Method → Str
  | .getBootInfo => "/twirp/comfo.api.Comfo/GetBootInfo".toList
  | .getTemps => "/twirp/comfo.api.Comfo/GetTemps".toList
  | .getBypass => "/twirp/comfo.api.Comfo/GetBypass".toList
  | .getFans => "/twirp/comfo.api.Comfo/GetFans".toList
  | .getFanProfiles => "/twirp/comfo.api.Comfo/GetFanProfiles".toList
  | .getErrors => "/twirp/comfo.api.Comfo/GetErrors".toList
  | .setFanSpeed => "/twirp/comfo.api.Comfo/SetFanSpeed".toList
  | .setComfortTemp => "/twirp/comfo.api.Comfo/SetComfortTemp".toList
  | .setFanProfile => "/twirp/comfo.api.Comfo/SetFanProfile".toList
  | .flushCache => "/twirp/comfo.api.Comfo/FlushCache".toList

/-- The request `TwirpClient` makes. That it is a POST request with this content type is assumed of
the library. -/
def clientReq (m : Method) (body : List UInt8) : HttpReq :=
  ⟨"POST".toList, clientUrl m, "application/protobuf".toList, body⟩

end Comfo
