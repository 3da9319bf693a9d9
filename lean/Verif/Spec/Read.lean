import Verif.Spec.Async
import Verif.Spec.Device
/-! # What a getter of the Python client returns, in terms of the bytes of the unit (C96) -/
namespace Spec
open Comfo

/-- The command of the reply that a getter is about. -/
def PyOp.replyCode : PyOp → Option UInt8
  | .ping | .getBootinfo => some 0x68
  | .getBypass => some 0xE0
  | .getTemps => some 0xD2
  | .getFans => some 0x0C
  | .getFanProfiles => some 0xCE
  | .getErrors => some 0xDA
  | _ => none

/-- White space, in UTF-8, neither begins nor ends `bs`. -/
def Trimmed (bs : List UInt8) : Prop := ∀ e ∈ spaceEncodings, ¬ e <+: bs ∧ ¬ e <:+ bs

/-- The result `x` of a getter stands for the payload: which byte is which field, and in which unit.
Revolutions per minute are what the formula gives, modulo 65536 (C21). -/
def PyOp.Stands : PyOp → List UInt8 → PyVal → Prop
  | .ping, pl, .bool b => b = true ∧ pl.length = 13
  | .getBootinfo, major :: minor :: beta :: name, .boot o =>
    o.MajorVersion = major.toNat ∧ o.MinorVersion = minor.toNat ∧ o.BetaVersion = beta.toNat ∧
    name.length = 10 ∧ Trimmed o.DeviceName ∧
    ∃ pre post, name = pre ++ o.DeviceName ++ post ∧ AllSpace pre ∧ AllSpace post
  | .getBypass, [_, _, factor, level, correction, _, summer], .bypass o =>
    o.Factor = factor.toNat ∧ o.Level = level.toNat ∧ o.Correction = correction.toNat ∧
    (o.SummerMode = true ↔ summer = 1)
  | .getTemps, [comfort, outside, supply, inside, exhaust, _, geo, reheat, hood], .temps o =>
    o.Comfort = degrees comfort ∧ o.OutsideAir = degrees outside ∧ o.SupplyAir = degrees supply ∧
    o.InsideAir = degrees inside ∧ o.ExhaustAir = degrees exhaust ∧ o.GeoHeat = degrees geo ∧
    o.Reheating = degrees reheat ∧ o.KitchenHood = degrees hood
  | .getFans, [inp, out, i1, i0, o1, o0], .fans o =>
    o.InPercent = inp.toNat ∧ o.OutPercent = out.toNat ∧
    bigEndian [i1, i0] ≠ 0 ∧ o.InSpeed = 1875000 / bigEndian [i1, i0] % 65536 ∧
    bigEndian [o1, o0] ≠ 0 ∧ o.OutSpeed = 1875000 / bigEndian [o1, o0] % 65536
  | .getFanProfiles, [oa, ol, om, ia, il, im, co, ci, mode, active, oh, ih, _, _], .profiles o =>
    o.OutAway = oa.toNat ∧ o.OutLow = ol.toNat ∧ o.OutMid = om.toNat ∧ o.OutHigh = oh.toNat ∧
    o.InAway = ia.toNat ∧ o.InLow = il.toNat ∧ o.InMid = im.toNat ∧ o.InHigh = ih.toNat ∧
    o.CurrentOut = co.toNat ∧ o.CurrentIn = ci.toNat ∧ o.CurrentMode = mode.toNat ∧
    (o.InFanActive = true ↔ active = 1)
  | .getErrors, pl, .errors o => pl.length = 17 ∧ (o.Filter = true ↔ pl[8]? = some 1)
  | _, _, _ => False

/-- The result for a cache that has never been filled. -/
def PyOp.zero : PyOp → Option PyVal
  | .ping => some (.bool true)
  | .getBootinfo => some (.boot ⟨0, 0, 0, []⟩)
  | .getBypass => some (.bypass ⟨0, 0, 0, false⟩)
  | .getTemps => some (.temps ⟨0, 0, 0, 0, 0, 0, 0, 0⟩)
  | .getFans => some (.fans ⟨0, 0, 0, 0⟩)
  | .getFanProfiles => some (.profiles ⟨0, 0, 0, 0, false, 0, 0, 0, 0, 0, 0, 0⟩)
  | .getErrors => some (.errors ⟨false⟩)
  | _ => none

/-- The cache a getter reads. -/
def PyOp.cache : PyOp → Option CacheId
  | .ping | .getBootinfo => some .boot
  | .getBypass => some .bypass
  | .getTemps => some .temps
  | .getFans => some .fans
  | .getFanProfiles => some .profiles
  | .getErrors => some .errors
  | _ => none

end Spec
