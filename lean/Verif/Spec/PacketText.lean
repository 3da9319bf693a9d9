import Verif.Spec.Text
/-!
# How the text of a packet is read (C98)
-/
namespace Spec
open Comfo Comfo.Pb Comfo.Twirp

/-- The value of a hexadecimal digit. -/
def hexDigitOf (b : UInt8) : Option Nat :=
  if 48 ≤ b.toNat ∧ b.toNat ≤ 57 then some (b.toNat - 48)
  else if 97 ≤ b.toNat ∧ b.toNat ≤ 102 then some (b.toNat - 87)
  else none

/-- A hexadecimal number of one or two digits. -/
def readHexByte : Bytes → Option Nat
  | [a] => hexDigitOf a
  | [a, b] => (hexDigitOf a).bind fun x => (hexDigitOf b).map fun y => 16 * x + y
  | _ => none

/-- Decimal numbers below 256 with one space between them. -/
def readBytes : Bytes → Option (List UInt8)
  | bs => if bs = [] then some [] else go bs.length bs
where
  go : Nat → Bytes → Option (List UInt8)
    | 0, _ => none
    | k + 1, bs =>
      (readNat (bs.takeWhile (· ≠ 32))).bind fun n =>
      if n < 256 then
        match bs.dropWhile (· ≠ 32) with
        | [] => some [UInt8.ofNat n]
        | _ :: rest => (go k rest).map (UInt8.ofNat n :: ·)
      else none

/-- The rest of a text after a given beginning. -/
def after (start bs : Bytes) : Option Bytes := if start <+: bs then some (bs.drop start.length) else none

/-- The text of a packet: `<Packet {Command: 1d, Data: [7 0], Expect: true}>`. -/
def readPacketText (bs : Bytes) : Option Packet :=
  (after (lit "<Packet {Command: ") bs).bind fun r =>
  (readHexByte (r.takeWhile (· ≠ 44))).bind fun c =>
  (after (lit ", Data: [") (r.dropWhile (· ≠ 44))).bind fun r =>
  (readBytes (r.takeWhile (· ≠ 93))).bind fun d =>
  (after (lit "], Expect: ") (r.dropWhile (· ≠ 93))).bind fun r =>
  if r = lit "true}>" then some ⟨UInt8.ofNat c, d, true⟩
  else if r = lit "false}>" then some ⟨UInt8.ofNat c, d, false⟩
  else none

example : readPacketText (lit "<Packet {Command: 1d, Data: [7 0], Expect: true}>") = some ⟨29, [7, 0], true⟩ ∧
    readPacketText (lit "<Packet {Command: 1D, Data: [], Expect: true}>") = none ∧
    readPacketText (lit "<Packet {Command: 1, Data: [256], Expect: true}>") = none := by decide +kernel

end Spec
