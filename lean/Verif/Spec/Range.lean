import Verif.Spec.Text
/-!
# How a range is read from the text of an error (C94)
-/
namespace Spec
open Comfo Comfo.Pb Comfo.Twirp

/-- A decimal digit. -/
def digit (b : UInt8) : Bool := decide (48 ≤ b.toNat ∧ b.toNat ≤ 57)

/-- Two numbers with a hyphen between them, whatever follows. -/
def readRange (bs : Bytes) : Option (Nat × Nat) :=
  match readNat (bs.takeWhile digit), bs.dropWhile digit with
  | some a, 45 :: r => (readNat (r.takeWhile digit)).map fun b => (a, b)
  | _, _ => none

/-- The range after the first "expected " in a text. -/
def expected : Bytes → Option (Nat × Nat)
  | [] => none
  | b :: bs =>
    if lit "expected " <+: b :: bs then readRange ((b :: bs).drop 9) else expected bs

example : expected (lit "x out of range, expected 7-12 (apples)") = some (7, 12) ∧
    expected (lit "expected seven") = none ∧ expected (lit "1-2") = none := by decide +kernel

/-- The value of an argument of a request, by the name that errors use for it
(`rpc/comfo/comfo.proto:59-62`, `:101-105`). -/
def argumentOf : Call → Bytes → Option Nat
  | .setComfort v, n => if n = lit "ComfortTemp" then some v.toNat else none
  | .setProfile m t, n =>
    if n = lit "Mode" then some m.toNat else if n = lit "TargetSpeed" then some t.toNat else none
  | _, _ => none

end Spec
