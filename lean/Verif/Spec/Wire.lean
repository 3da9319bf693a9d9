/-!
# Specification of the wire format, independent of the model

Nothing in this file refers to the model of the code.
-/
namespace Spec

/-- Every 0x07 doubled, everything else unchanged. -/
def doubled (bs : List UInt8) : List UInt8 :=
  bs.flatMap fun b => if b = 7 then [7, 7] else [b]

/-- Sum of a byte string as an unbounded natural number. -/
def byteSum (bs : List UInt8) : Nat := (bs.map UInt8.toNat).sum

/-- The checksum: command + length + payload + 173, modulo 256. -/
def checksum (cmd : UInt8) (payload : List UInt8) : UInt8 :=
  UInt8.ofNat ((cmd.toNat + payload.length + byteSum payload + 173) % 256)

/-- Body of a frame: `00 cmd len payload-with-doubled-07 checksum`. -/
def body (cmd : UInt8) (payload : List UInt8) : List UInt8 :=
  0 :: cmd :: UInt8.ofNat payload.length :: (doubled payload ++ [checksum cmd payload])

/-- A complete frame: `07 F0 body 07 0F`. -/
def frame (cmd : UInt8) (payload : List UInt8) : List UInt8 :=
  [0x07, 0xF0] ++ body cmd payload ++ [0x07, 0x0F]

/-- The acknowledgement `07 F3`. -/
def ack : List UInt8 := [0x07, 0xF3]

/-- `Unescapes wire payload`: the receiver's reading of a (possibly malformed) escaped byte
string. A pair `07 07` stands for one 07, an unpaired 07 stands for nothing, any other byte
for itself; a pair is always formed as early as possible. -/
inductive Unescapes : List UInt8 → List UInt8 → Prop
  | nil : Unescapes [] []
  | plain {b w p} : b ≠ 7 → Unescapes w p → Unescapes (b :: w) (b :: p)
  | pair {w p} : Unescapes w p → Unescapes (7 :: 7 :: w) (7 :: p)
  | stray {w p} : w.head? ≠ some 7 → Unescapes w p → Unescapes (7 :: w) p

/-- Properly escaped: the 0x07 bytes come in pairs. -/
inductive Paired : List UInt8 → Prop
  | nil : Paired []
  | plain {b w} : b ≠ 7 → Paired w → Paired (b :: w)
  | pair {w} : Paired w → Paired (7 :: 7 :: w)

/-- Reference length-directed receiver: read `n` payload bytes, undoing the doubling; return
them and the rest of the input. -/
def takePayload : Nat → List UInt8 → Option (List UInt8 × List UInt8)
  | 0, w => some ([], w)
  | n + 1, b :: w =>
    if b = 7 then
      match w with
      | b' :: w' => if b' = 7 then (takePayload n w').map fun (p, r) => (7 :: p, r) else none
      | [] => none
    else (takePayload n w).map fun (p, r) => (b :: p, r)
  | _ + 1, [] => none

/-- Reference length-directed receiver for a frame body; also returns the unread rest. -/
def parseBody : List UInt8 → Option ((UInt8 × List UInt8) × List UInt8)
  | 0 :: cmd :: len :: w =>
    match takePayload len.toNat w with
    | some (p, ck :: r) => if ck = checksum cmd p then some ((cmd, p), r) else none
    | _ => none
  | _ => none

end Spec
