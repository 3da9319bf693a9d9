import Verif.Model.Basic
/-!
# Model of `libcomfo/proto.go`: packets and their wire representation
-/
namespace Comfo

/-- `libcomfo/proto.go:6` `esc byte = 0x07`. -/
def esc : UInt8 := 0x07
/-- `libcomfo/proto.go:7` `ack byte = 0xF3`. -/
def ackB : UInt8 := 0xF3
/-- `libcomfo/proto.go:8` `start byte = 0xF0`. -/
def startB : UInt8 := 0xF0
/-- `libcomfo/proto.go:9` `end byte = 0x0F`. -/
def endB : UInt8 := 0x0F

/-- `libcomfo/proto.go:11`. -/
def pktStart : List UInt8 := [esc, startB]
/-- `libcomfo/proto.go:12`. -/
def pktEnd : List UInt8 := [esc, endB]
/-- `libcomfo/proto.go:13`. -/
def pktAck : List UInt8 := [esc, ackB]

/-- `libcomfo/proto.go:16`. -/
def cmdOffset : Nat := 0
/-- `libcomfo/proto.go:18`. -/
def lenOffset : Nat := cmdOffset + 2
/-- `libcomfo/proto.go:20`. -/
def dataOffset : Nat := lenOffset + 1

/-- `libcomfo/proto.go:26-35` `type Packet struct`. The zero value is `{}`.
Simplification: a nil and an empty `Data` slice are not distinguished. -/
structure Packet where
  command : UInt8 := 0
  data : List UInt8 := []
  expect : Bool := false
  deriving DecidableEq, Repr

/-- `libcomfo/proto.go:108-122` `escapeData`: append an extra 0x07 in front of every 0x07. -/
def escapeData : List UInt8 → List UInt8
  | [] => []
  | v :: r => if v = 0x07 then 0x07 :: v :: escapeData r else v :: escapeData r

/-- `libcomfo/proto.go:125-147` `unescapeData`. The loop index `i` is the position of the head
of the remaining list; `i++` inside the body consumes a second element. A 0x07 that is not
followed by a 0x07 is dropped. -/
def unescapeData : List UInt8 → List UInt8
  | [] => []
  | [a] => if a = 0x07 then [] else [a]
  | a :: b :: r =>
    if a = 0x07 then
      if b = 0x07 then 0x07 :: unescapeData r else unescapeData (b :: r)
    else a :: unescapeData (b :: r)

/-- `libcomfo/proto.go:151-169` `calculateChecksum`: a `uint64` accumulator, truncated. -/
def calculateChecksum (cmd dataLen : UInt8) (data : List UInt8) : UInt8 :=
  let tempSum : UInt64 := 0 + cmd.toUInt64
  let tempSum := tempSum + dataLen.toUInt64
  let tempSum := data.foldl (fun s v => s + v.toUInt64) tempSum
  let tempSum := tempSum + 173
  tempSum.toUInt8

/-- `libcomfo/proto.go:172-175` `verifyChecksum`. -/
def verifyChecksum (inp cmd dataLen : UInt8) (data : List UInt8) : Bool :=
  inp == calculateChecksum cmd dataLen data

/-- `libcomfo/proto.go:43-69` `MarshalPacket`.
Simplification: `make` followed by `copy` into disjoint, exactly filling ranges
(lines 58-66) is written as concatenation. -/
def marshalPacket (p : Packet) : List UInt8 × Option Err :=
  let dataLen := p.data.length
  if dataLen > 255 then ([], some .tooLong)
  else
    let data := escapeData p.data
    ([0x00, p.command] ++ [UInt8.ofNat dataLen] ++ data
      ++ [calculateChecksum p.command (UInt8.ofNat dataLen) p.data], none)

/-- `libcomfo/proto.go:72-105` `UnmarshalPacket`. Every index and slice expression
(lines 78, 81, 84, 86) is a possible panic. -/
def unmarshalPacket (inp : List UInt8) : Go Packet :=
  if inp.length < 4 then .ret {} (some .pktLen)
  else
    match inp[cmdOffset + 1]?, inp[lenOffset]?, inp[inp.length - 1]?,
        slice inp dataOffset (inp.length - 1) with
    | some cmd, some dataLen, some cksum, some raw =>
      let data := unescapeData raw
      if dataLen.toNat ≠ data.length then .ret {} (some .payloadSize)
      else if !verifyChecksum cksum cmd dataLen data then .ret {} (some .verifyChecksum)
      else .ret { command := cmd, data := data } none
    | _, _, _, _ => .panic

end Comfo
