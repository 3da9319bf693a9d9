import Verif.Spec.Client
/-! # What the methods of the Python client are for (C87) -/
namespace Spec
open Comfo

/-- The methods that exist in two variants, with their arguments. -/
inductive PyOp
  | ping | getBootinfo | getBypass | getTemps | getFans | getFanProfiles | getErrors
  | setFanSpeed (speed : Int)
  | increaseFanSpeed | decreaseFanSpeed
  | setComfortTemperature (temperature : Option Int)
  | configureFanProfile (profile percent : Int)

/-- What they return. -/
inductive PyVal
  | bool (b : Bool)
  | boot (o : PyBootInfo) | bypass (o : PyBypass) | temps (o : PyTemps) | fans (o : PyFans)
  | profiles (o : PyFanProfiles) | errors (o : PyErrors)

/-- The one remote call that a method makes, or the exception it raises instead. -/
def PyOp.asks : PyOp → Except PyErr Call
  | .ping => .ok .getBoot
  | .getBootinfo => .ok .getBoot
  | .getBypass => .ok .getBypass
  | .getTemps => .ok .getTemps
  | .getFans => .ok .getFans
  | .getFanProfiles => .ok .getProfiles
  | .getErrors => .ok .getErrors
  | .setFanSpeed s =>
    if 1 ≤ s ∧ s ≤ 4 then .ok (.setSpeed (UInt32.ofNat s.toNat) false) else .error .invalidFanSpeed
  | .increaseFanSpeed => .ok (.setSpeed 0 true)
  | .decreaseFanSpeed => .ok (.setSpeed 0 false)
  | .setComfortTemperature none => .error .invalidTemperature
  | .setComfortTemperature (some t) =>
    if 0 ≤ t ∧ t ≤ 255 then .ok (.setComfort (UInt32.ofNat t.toNat)) else .error .invalidTemperature
  | .configureFanProfile m p =>
    if ¬ (1 ≤ m ∧ m ≤ 4) then .error .invalidFanSpeed
    else if ¬ (15 ≤ p ∧ p ≤ 100) then .error .invalidDutyPercent
    else .ok (.setProfile (UInt32.ofNat m.toNat) (UInt32.ofNat p.toNat))

/-- The same for a client with an event loop (`true`) or without: without, the asynchronous
variants ask for nothing. -/
def PyOp.asksAsync (op : PyOp) (loop : Bool) : Except PyErr Call :=
  if loop then op.asks else .error .attributeError

/-- What a method makes of an answer of the server: what was asked for, `True` for a ping, whether
something was modified for a change, where a refused step up or down is no modification. Errors of
the server and missing answers are raised. -/
def PyOp.returns : PyOp → Option Resp → Except PyErr PyVal
  | .ping, some (.boot (.ok _)) => .ok (.bool true)
  | .getBootinfo, some (.boot (.ok v)) => .ok (.boot
      ⟨v.majorVersion.toNat, v.minorVersion.toNat, v.betaVersion.toNat, v.deviceName⟩)
  | .getBypass, some (.bypass (.ok v)) => .ok (.bypass
      ⟨v.factor.toNat, v.level.toNat, v.correction.toNat, v.summerMode⟩)
  | .getTemps, some (.temps (.ok v)) => .ok (.temps ⟨v.comfort, v.outsideAir, v.supplyAir,
      v.insideAir, v.exhaustAir, v.geoHeat, v.reheating, v.kitchenHood⟩)
  | .getFans, some (.fans (.ok v)) => .ok (.fans
      ⟨v.inPercent.toNat, v.outPercent.toNat, v.inSpeed.toNat, v.outSpeed.toNat⟩)
  | .getFanProfiles, some (.profiles (.ok v)) => .ok (.profiles
      ⟨v.outAway.toNat, v.outLow.toNat, v.outMid.toNat, v.outHigh.toNat, v.inFanActive,
        v.inAway.toNat, v.inLow.toNat, v.inMid.toNat, v.inHigh.toNat, v.currentOut.toNat,
        v.currentIn.toNat, v.currentMode.toNat⟩)
  | .getErrors, some (.errors (.ok v)) => .ok (.errors ⟨v.filter⟩)
  | .setFanSpeed _, some (.speed (.ok m)) => .ok (.bool m.modified)
  | .increaseFanSpeed, some (.speed (.ok m)) => .ok (.bool m.modified)
  | .decreaseFanSpeed, some (.speed (.ok m)) => .ok (.bool m.modified)
  | .increaseFanSpeed, some (.speed (.err (.invalidArgument _))) => .ok (.bool false)
  | .decreaseFanSpeed, some (.speed (.err (.invalidArgument _))) => .ok (.bool false)
  | .setComfortTemperature _, some (.comfort (.ok m)) => .ok (.bool m.modified)
  | .configureFanProfile _ _, some (.speed (.ok m)) => .ok (.bool m.modified)
  | .ping, some (.boot (.err e)) => .error (.server e)
  | .getBootinfo, some (.boot (.err e)) => .error (.server e)
  | .getBypass, some (.bypass (.err e)) => .error (.server e)
  | .getTemps, some (.temps (.err e)) => .error (.server e)
  | .getFans, some (.fans (.err e)) => .error (.server e)
  | .getFanProfiles, some (.profiles (.err e)) => .error (.server e)
  | .getErrors, some (.errors (.err e)) => .error (.server e)
  | .setFanSpeed _, some (.speed (.err e)) => .error (.server e)
  | .increaseFanSpeed, some (.speed (.err e)) => .error (.server e)
  | .decreaseFanSpeed, some (.speed (.err e)) => .error (.server e)
  | .setComfortTemperature _, some (.comfort (.err e)) => .error (.server e)
  | .configureFanProfile _ _, some (.speed (.err e)) => .error (.server e)
  | _, _ => .error .transport

end Spec
