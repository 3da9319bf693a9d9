import Verif.Model.PbBind
import Verif.Spec.Http
/-!
# The protocol as documented in `rpc/comfo/comfo.proto`, and the protobuf wire format (C67–C70)
-/
namespace Spec
open Comfo Comfo.Pb

/-! ## `rpc/comfo/comfo.proto` -/

/-- A field. -/
def pbField (kind : Kind) (name : String) (num : Nat) : FieldDesc := ⟨name.toList, num, kind⟩

/-- A method: names of the method and of its messages. -/
def pbMethod (name input output : String) : MethodDesc :=
  ⟨name.toList, ".comfo.api.".toList ++ input.toList, ".comfo.api.".toList ++ output.toList⟩

/-- The messages, `rpc/comfo/comfo.proto:6` and `:25-141`. -/
def protoMessages : List MsgDesc := [
  ⟨"Noop".toList, [], []⟩,
  ⟨"Bypass".toList, [pbField .uint32 "Factor" 1, pbField .uint32 "Level" 2,
    pbField .uint32 "Correction" 3, pbField .bool "SummerMode" 4], []⟩,
  ⟨"BootInfo".toList, [pbField .uint32 "MajorVersion" 1, pbField .uint32 "MinorVersion" 2,
    pbField .uint32 "BetaVersion" 3, pbField .string "DeviceName" 4], []⟩,
  ⟨"ComfortTarget".toList, [pbField .uint32 "ComfortTemp" 1], []⟩,
  ⟨"ComfortModified".toList, [pbField .bool "Modified" 1, pbField .uint32 "OriginalTemp" 2,
    pbField .uint32 "TargetTemp" 3, pbField .string "ReqTime" 4], []⟩,
  ⟨"Errors".toList, [pbField .bool "Filter" 1], []⟩,
  ⟨"Fans".toList, [pbField .uint32 "InPercent" 1, pbField .uint32 "OutPercent" 2,
    pbField .uint32 "InSpeed" 3, pbField .uint32 "OutSpeed" 4], []⟩,
  ⟨"FanProfiles".toList, [pbField .uint32 "OutAway" 1, pbField .uint32 "OutLow" 2,
    pbField .uint32 "OutMid" 3, pbField .uint32 "OutHigh" 4, pbField .bool "InFanActive" 5,
    pbField .uint32 "InAway" 6, pbField .uint32 "InLow" 7, pbField .uint32 "InMid" 8,
    pbField .uint32 "InHigh" 9, pbField .uint32 "CurrentOut" 10, pbField .uint32 "CurrentIn" 11,
    pbField .uint32 "CurrentMode" 12], []⟩,
  ⟨"FanProfileTarget".toList, [pbField .uint32 "Mode" 1, pbField .uint32 "TargetSpeed" 2], []⟩,
  ⟨"FanProfileModified".toList, [pbField .bool "Modified" 1, pbField .uint32 "OriginalSpeed" 2,
    pbField .uint32 "TargetSpeed" 3, pbField .string "ReqTime" 4], []⟩,
  ⟨"FanSpeedTarget".toList, [pbField .uint32 "Abs" 1, pbField .bool "Rel" 2], []⟩,
  ⟨"FanSpeedModified".toList, [pbField .bool "Modified" 1, pbField .uint32 "OriginalSpeed" 2,
    pbField .uint32 "TargetSpeed" 3, pbField .string "ReqTime" 4], []⟩,
  ⟨"Hours".toList, [pbField .uint32 "FanAway" 1, pbField .uint32 "FanLow" 2,
    pbField .uint32 "FanMid" 3, pbField .uint32 "FanHigh" 4, pbField .uint32 "FrostProtect" 5,
    pbField .uint32 "Reheating" 6, pbField .uint32 "BypassOpen" 7, pbField .uint32 "Filter" 8], []⟩,
  ⟨"Temps".toList, [pbField .float "Comfort" 1, pbField .float "OutsideAir" 2,
    pbField .float "SupplyAir" 3, pbField .float "InsideAir" 4, pbField .float "ExhaustAir" 5,
    pbField .float "GeoHeat" 6, pbField .float "Reheating" 7, pbField .float "KitchenHood" 8], []⟩,
  ⟨"FlushCacheRequest".toList,
    [pbField (.enum ".comfo.api.FlushCacheRequest.CacheType".toList) "Cache" 1],
    [⟨"CacheType".toList, [("BootInfo".toList, 0), ("Fans".toList, 1), ("Temps".toList, 2),
      ("Profiles".toList, 3), ("Bypass".toList, 4), ("All".toList, 10)]⟩]⟩,
  ⟨"FlushCacheResponse".toList, [pbField .bool "Success" 1, pbField .string "ReqTime" 2], []⟩]

/-- The service, `rpc/comfo/comfo.proto:8-23`. -/
def protoMethods : List MethodDesc := [
  pbMethod "GetBootInfo" "Noop" "BootInfo",
  pbMethod "GetTemps" "Noop" "Temps",
  pbMethod "GetBypass" "Noop" "Bypass",
  pbMethod "GetFans" "Noop" "Fans",
  pbMethod "GetFanProfiles" "Noop" "FanProfiles",
  pbMethod "GetErrors" "Noop" "Errors",
  pbMethod "SetFanSpeed" "FanSpeedTarget" "FanSpeedModified",
  pbMethod "SetComfortTemp" "ComfortTarget" "ComfortModified",
  pbMethod "SetFanProfile" "FanProfileTarget" "FanProfileModified",
  pbMethod "FlushCache" "FlushCacheRequest" "FlushCacheResponse"]

/-- `rpc/comfo/comfo.proto`. -/
def protoFile : FileDesc :=
  { package := "comfo.api".toList
    version := "proto3".toList
    messages := protoMessages
    services := [⟨"Comfo".toList, protoMethods⟩] }

/-! ## Wire format (https://protobuf.dev/programming-guides/encoding) -/

/-- Groups of seven bits, the low ones first. -/
def le7 : List UInt8 → Nat
  | [] => 0
  | b :: bs => b.toNat % 128 + 128 * le7 bs

/-- A number of at most 64 bits in at most ten bytes; all but the last have the high bit set. -/
def IsVarint (v : Nat) (bs : List UInt8) : Prop :=
  ∃ init last, bs = init ++ [last] ∧ (∀ b ∈ init, 128 ≤ b.toNat) ∧ last.toNat < 128 ∧
    bs.length ≤ 10 ∧ v = le7 bs ∧ v < 2 ^ 64

/-- The contents of a field for each wire type. -/
inductive Payload : Nat → Wire → List UInt8 → Prop
  | varint {v bs} : IsVarint v bs → Payload 0 (.varint v) bs
  | fixed64 {bs} : bs.length = 8 → Payload 1 (.fixed64 bs) bs
  | bytes {s l} : IsVarint s.length l → Payload 2 (.bytes s) (l ++ s)
  | fixed32 {bs} : bs.length = 4 → Payload 5 (.fixed32 bs) bs

/-- The numbers of fields. -/
def FieldNum (n : Nat) : Prop := 1 ≤ n ∧ n < 2 ^ 29

/-- What may be between the beginning and the end of a group, which does not count: fields, here with
numbers up to 31 bits, and groups, nested at most so deep. -/
inductive Inside : Nat → List UInt8 → Prop
  | nil {d} : Inside d []
  | field {d num wt val t p rest} : 1 ≤ num → num < 2 ^ 31 → IsVarint (num * 8 + wt) t →
      Payload wt val p → Inside d rest → Inside d (t ++ p ++ rest)
  | group {d num t mid t' rest} : 1 ≤ num → num < 2 ^ 31 → IsVarint (num * 8 + 3) t →
      Inside d mid → IsVarint (num * 8 + 4) t' → Inside (d + 1) rest →
      Inside (d + 1) (t ++ mid ++ t' ++ rest)

/-- The bytes of a message with these fields. Groups, which are deprecated, may occur between
fields; what is in them does not count. -/
inductive Message : List Rec → List UInt8 → Prop
  | nil : Message [] []
  | field {num wt val t p rs rest} : FieldNum num → IsVarint (num * 8 + wt) t → Payload wt val p →
      Message rs rest → Message (⟨num, val⟩ :: rs) (t ++ p ++ rest)
  | group {num t mid t' rs rest} : FieldNum num → IsVarint (num * 8 + 3) t →
      Inside 10000 mid → IsVarint (num * 8 + 4) t' → Message rs rest →
      Message rs (t ++ mid ++ t' ++ rest)

/-- The last number that came in a field, 0 if none did. -/
def lastVarint (num : Nat) (rs : List Rec) : Nat :=
  ((rs.filterMap fun r => match r with
    | ⟨n, .varint v⟩ => if n = num then some v else none
    | _ => none).getLast?).getD 0

/-- What a request with these fields asks for. -/
def asked (m : Method) (rs : List Rec) : Call :=
  match m with
  | .getBootInfo => .getBoot
  | .getTemps => .getTemps
  | .getBypass => .getBypass
  | .getFans => .getFans
  | .getFanProfiles => .getProfiles
  | .getErrors => .getErrors
  | .setFanSpeed => .setSpeed (UInt32.ofNat (lastVarint 1 rs)) (lastVarint 2 rs ≠ 0)
  | .setComfortTemp => .setComfort (UInt32.ofNat (lastVarint 1 rs))
  | .setFanProfile => .setProfile (UInt32.ofNat (lastVarint 1 rs)) (UInt32.ofNat (lastVarint 2 rs))
  | .flushCache => .flush (Int.bmod (lastVarint 1 rs) (2 ^ 32))

/-! ## Answers -/

/-- Without the time the request took. -/
def untimed : Resp → Resp
  | .speed (.ok s) => .speed (.ok { s with reqTime := 0 })
  | .comfort (.ok c) => .comfort (.ok { c with reqTime := 0 })
  | .flushed (.ok f) => .flushed (.ok { f with reqTime := 0 })
  | r => r

/-- An answer of this method that is not an error. -/
def Success (m : Method) (r : Resp) : Prop :=
  match m, r with
  | .getBootInfo, .boot (.ok _) | .getTemps, .temps (.ok _) | .getBypass, .bypass (.ok _)
  | .getFans, .fans (.ok _) | .getFanProfiles, .profiles (.ok _) | .getErrors, .errors (.ok _)
  | .setFanSpeed, .speed (.ok _) | .setFanProfile, .speed (.ok _)
  | .setComfortTemp, .comfort (.ok _) | .flushCache, .flushed (.ok _) => True
  | _, _ => False

/-- Whole numbers that a `float32` represents exactly. -/
def Exact (t : Int) : Prop := -16777216 < t ∧ t < 16777216

/-- All temperatures can be represented. -/
def ExactTemps : Resp → Prop
  | .temps (.ok t) => Exact t.comfort ∧ Exact t.outsideAir ∧ Exact t.supplyAir ∧ Exact t.insideAir ∧
      Exact t.exhaustAir ∧ Exact t.geoHeat ∧ Exact t.reheating ∧ Exact t.kitchenHood
  | _ => True

/-- No name of 2^64 bytes. -/
def ShortName : Resp → Prop
  | .boot (.ok b) => b.deviceName.length < 2 ^ 64
  | _ => True

end Spec
