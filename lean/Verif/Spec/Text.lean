import Verif.Spec.GoClient
import Verif.Spec.Timed
/-!
# How texts in answers and errors are read (C80, C83, C84)
-/
namespace Spec
open Comfo Comfo.Pb Comfo.Twirp

/-- A decimal number: digits only, at least one. -/
def readNat : Bytes → Option Nat
  | [] => none
  | b :: bs => go 0 (b :: bs)
where
  go (n : Nat) : Bytes → Option Nat
    | [] => some n
    | b :: bs => if 48 ≤ b.toNat ∧ b.toNat ≤ 57 then go (10 * n + (b.toNat - 48)) bs else none

/-- The number `n` with `k` decimal places, in a unit of `u` nanoseconds; `none` if there are no
digits, or if it is not a whole number of nanoseconds. -/
def amount (n : Option Nat) (k u : Nat) : Option Nat :=
  n.bind fun n => if n * u % 10 ^ k = 0 then some (n * u / 10 ^ k) else none

/-- A sum of numbers with units, as `time.ParseDuration` reads it: `total` nanoseconds are done, `n`
are the digits of the present number, `k` the decimal places among them, if it has a point. -/
def readParts (total : Nat) (n : Option Nat) (k : Option Nat) : Bytes → Option Nat
  | [] => if n = none ∧ k = none then some total else none
  -- ms
  | 109 :: 115 :: bs => (amount n (k.getD 0) 1000000).bind fun x => readParts (total + x) none none bs
  -- ns
  | 110 :: 115 :: bs => (amount n (k.getD 0) 1).bind fun x => readParts (total + x) none none bs
  -- µs
  | 0xC2 :: 0xB5 :: 115 :: bs =>
    (amount n (k.getD 0) 1000).bind fun x => readParts (total + x) none none bs
  -- h
  | 104 :: bs => (amount n (k.getD 0) 3600000000000).bind fun x => readParts (total + x) none none bs
  -- m
  | 109 :: bs => (amount n (k.getD 0) 60000000000).bind fun x => readParts (total + x) none none bs
  -- s
  | 115 :: bs => (amount n (k.getD 0) 1000000000).bind fun x => readParts (total + x) none none bs
  -- the point
  | 46 :: bs => if k = none then readParts total n (some 0) bs else none
  | b :: bs =>
    if 48 ≤ b.toNat ∧ b.toNat ≤ 57 then
      readParts total (some (10 * n.getD 0 + (b.toNat - 48))) (k.map (· + 1)) bs
    else none

/-- A duration as Go writes it, in nanoseconds. -/
def readDuration : Bytes → Option Int
  | [] => none
  | 45 :: bs => if bs = [] then none else Option.map (fun n : Nat => -(n : Int)) (readParts 0 none none bs)
  | bs => Option.map (fun n : Nat => (n : Int)) (readParts 0 none none bs)

example : readDuration (lit "1m1.5s") = some 61500000000 ∧ readDuration (lit "-2h0m0s") =
    some (-7200000000000) ∧ readDuration (lit "1.5ns") = none ∧ readDuration (lit "12") = none := by
  decide +kernel

/-- An integer. -/
def readInt : Bytes → Option Int
  | 45 :: bs => Option.map (fun n : Nat => -(n : Int)) (readNat bs)
  | bs => Option.map (fun n : Nat => (n : Int)) (readNat bs)

/-- The number between the first two single quotes. -/
def quoted (msg : Bytes) : Option Int :=
  readInt (((msg.dropWhile (· ≠ 39)).drop 1).takeWhile (· ≠ 39))

example : quoted (lit "mode '-12' and '7'") = some (-12) ∧ quoted (lit "mode 3") = none := by
  decide +kernel

/-- The speed a target stands for when the unit is at speed `mode`
(`rpc/comfo/comfo.proto:87-93`). -/
def askedSpeed (mode : UInt8) (abs : UInt32) (rel : Bool) : Int :=
  if abs ≠ 0 then abs.toNat else if rel then mode.toNat + 1 else (mode.toNat : Int) - 1

/-- What is wrong with a request, if it can be told without the unit: `mode` is the mode in the cache.
Arguments of `SetFanSpeed` and `SetFanProfile` count modulo 256 (see C40, C43). -/
def Fault (mode : UInt8) : Call → Refusal → Prop
  | .setComfort v, .tempTooLarge => 255 < v.toNat
  | .setSpeed abs rel, .bothAbsRel => abs ≠ 0 ∧ rel = true
  | .setSpeed abs rel, .speedRange v => (abs = 0 ∨ rel = false) ∧
      (v.toNat : Int) = askedSpeed mode abs rel % 256 ∧ ¬ (1 ≤ v.toNat ∧ v.toNat ≤ 4)
  | .setProfile m _, .modeRange => ¬ (1 ≤ m.toNat % 256 ∧ m.toNat % 256 ≤ 4)
  | .setProfile m t, .targetRange => (1 ≤ m.toNat % 256 ∧ m.toNat % 256 ≤ 4) ∧
      ¬ (15 ≤ t.toNat % 256 ∧ t.toNat % 256 ≤ 100)
  | _, _ => False

/-- `mode` is the mode a `SetFanSpeed` request found in the cache; of no concern for others. -/
def FoundMode (c : Call) (acts : List Act) (mode : UInt8) : Prop :=
  ∀ abs rel, c = .setSpeed abs rel → ∃ t p rest,
    acts = .now t :: .lock .fan :: .load .profiles p :: rest ∧ mode = p.val.currentMode

/-- The number of the field `ReqTime` in the answers of a method (`rpc/comfo/comfo.proto:46`, `:84`,
`:99`, `:140`). -/
def reqTimeField : Method → Nat
  | .flushCache => 2
  | _ => 4

/-- The text of an error of the connection is none of the texts of `libcomfo` and `comfoserver`. -/
def Foreign (W : Wording) : Prop := ∀ x, x ≠ .lib .io → errorText W x ≠ W.io

end Spec
