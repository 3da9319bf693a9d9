import Verif.Model.GoClient
/-!
# How a packet is printed
-/
namespace Comfo.Twirp
open Comfo.Pb

/-- A hexadecimal digit, in lower case. -/
def hexChar (n : Nat) : UInt8 := UInt8.ofNat (if n < 10 then 48 + n else 87 + n)

/-- `%x` of a byte: no leading zero. -/
def hexByte (b : UInt8) : Bytes :=
  if b.toNat < 16 then [hexChar b.toNat] else [hexChar (b.toNat / 16), hexChar (b.toNat % 16)]

/-- `%v` of the elements of a slice of bytes: in decimal, with spaces between them. -/
def bytesText : List UInt8 → Bytes
  | [] => []
  | [b] => itoa b.toNat
  | b :: bs => itoa b.toNat ++ 32 :: bytesText bs

/-- `libcomfo/proto.go:38-40` `String`. Slices that are nil and slices that are empty are printed alike. -/
def packetText (p : Packet) : Bytes :=
  lit "<Packet {Command: " ++ hexByte p.command ++ lit ", Data: [" ++ bytesText p.data ++ lit "], Expect: " ++
    (if p.expect then lit "true" else lit "false") ++ lit "}>"

end Comfo.Twirp
