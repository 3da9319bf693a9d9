import Verif.Model.Api
/-!
# The tests of the repository, run on the model

`libcomfo/*_test.go`, case by case in the order of the files, with the names of the cases. They
prove nothing for all inputs; they show that the model does what the authors of the code expect of
it. Left out are the cases with requests of unknown type (`mockSetReq`), which the model cannot make,
`TestWaitTimeout`, which measures real time, and `TestPacketString`, since printing is not modelled.
-/
namespace Comfo.Props

/-! ## `libcomfo/conn_test.go` -/

/-- `TestConn`, `libcomfo/conn_test.go:17-93`, with `Limit = 0` and without `Receives`: `emits`, then
an error or, with `HangEOF` and a `HangTime` longer than the timer, nothing in time; with `HangStart`
not even `emits`. -/
def testConn (emits : List UInt8) (hangStart hangEOF : Bool) : Conn :=
  { rd := if hangStart then [.stall] else
      (if emits = [] then [] else [.data emits]) ++ [if hangEOF then .stall else .fail []] }

/-- A case of `TestReadPacket`, `:145-236`. -/
def readTest (c : Conn) (pkt : Packet) (err : Option Err) : Bool :=
  (readPacket c true).1 == .ret pkt err

-- single and double escaped 0x07s in payload
example : readTest (testConn [esc, ackB, 0x07, 0xF0, 0x00, 0x0C, 0x06, 0xAA, 0xBB, 0x11, 0x07, 0x07,
    0x07, 0x07, 0x07, 0x07, 0x4A, esc, endB, esc, ackB] false false)
    { command := 0x0C, data := [0xAA, 0xBB, 0x11, 0x7, 0x7, 0x7] } none = true := by decide
-- timeout reading first response ACK
example : readTest (testConn [] true false) {} (some .timeout) = true := by decide
-- timeout reading start sequence
example : readTest (testConn [esc, ackB] false true) {} (some .timeout) = true := by decide
-- timeout reading end sequence
example : readTest (testConn [esc, ackB, esc, startB] false true) {} (some .timeout) = true := by decide
-- garbage before ACK
example : readTest (testConn [esc, ackB, 0xF0, 0x0B, esc, startB] false false) {} (some .scanInput)
    = true := by decide
-- impossible packet length (need at least 4 bytes)
example : readTest (testConn [esc, ackB, esc, startB, 0xF0, 0x0B, esc, endB] false false) {}
    (some .tooShort) = true := by decide
-- packet unmarshal error (any)
example : readTest (testConn [esc, ackB, esc, startB, 0xF0, 0x0B, 0xBA, 0xAA, esc, endB] false false)
    {} (some .payloadSize) = true := by decide

-- `TestWritePacket`, oversized packet (handle MarshalPacket error)
example : (writePacket { data := List.replicate 256 0 } {}).1.2 = some .tooLong := by decide +kernel

-- `TestWriteAck`, writer not expecting input
example : (writeAck { wr := [.fail 0] }).1.2 ≠ none := by decide
-- incomplete ACK write
example : (writeAck { wr := [.short 1] }).1.2 ≠ none := by decide

-- `TestQueryPacket`, invalid response command type (0x00)
example :
    let r := queryPacket { command := 0x0B, expect := true }
      (testConn [esc, ackB, esc, startB, 0x00, 0x00, 0x00, 0xAD, esc, endB] false false)
    r.1 = .ret {} (some .invalidResponse) ∧
      r.2.sent = [esc, startB, 0x00, 0x0B, 0x00, 0xB8, esc, endB] := by decide

/-! ## `libcomfo/proto_test.go` -/

/-- A case of `TestFull`, `:20-78`. -/
def fullTest (pkt : Packet) (b : List UInt8) : Bool :=
  unmarshalPacket b == .ret pkt none && marshalPacket pkt == (b, none)

-- get rf status (empty payload)
example : fullTest { command := 0xE5 } [0x00, 0xE5, 0x00, 0x92] = true := by decide
-- escape 07
example : fullTest { command := 0xAB, data := [0x7, 0x1, 0x2] }
    [0x00, 0xAB, 0x03, 0x7, 0x7, 0x1, 0x2, 0x65] = true := by decide
-- escape double 07
example : fullTest { command := 0xAB, data := [0x7, 0x7, 0x1, 0x2] }
    [0x00, 0xAB, 0x04, 0x7, 0x7, 0x7, 0x7, 0x1, 0x2, 0x6D] = true := by decide

-- `TestUnmarshalPacket`, input too short
example : unmarshalPacket [0x00, 0x00, 0x00] = .ret {} (some .pktLen) := by decide
-- incorrect length specifier (larger than payload)
example : unmarshalPacket [0x00, 0x00, 0xff, 0x00] = .ret {} (some .payloadSize) := by decide
-- incorrect length specifier (includes escaped 7s)
example : unmarshalPacket [0x00, 0x00, 0x02, 0x07, 0x07, 0x00] = .ret {} (some .payloadSize) := by
  decide
-- correct length specifier and checksum (escaped 7s)
example : unmarshalPacket [0x00, 0x00, 0x01, 0x07, 0x07, 0xB5] =
    .ret { command := 0, data := [0x07] } none := by decide
-- incorrect checksum
example : unmarshalPacket [0x00, 0x00, 0x00, 0x00] = .ret {} (some .verifyChecksum) := by decide

-- `TestMarshalPacket`, input too long
example : marshalPacket { data := (List.range 256).map UInt8.ofNat } = ([], some .tooLong) := by
  decide +kernel

/-! ## `libcomfo/message_test.go` -/

-- `TestTemperatureMarshalBinary`: average, high, low, too low, too high
example : temperatureMarshal 25 = (90, none) := by decide
example : temperatureMarshal 107 = (254, none) := by decide
example : temperatureMarshal (-20) = (0, none) := by decide
example : temperatureMarshal (-21) = (0, some .tooLow) := by decide
example : temperatureMarshal 108 = (0, some .tooHigh) := by decide

-- `TestTemperatureUnmarshalBinary`: average, high, low
example : temperatureUnmarshal 90 = 25 := by decide
example : temperatureUnmarshal 255 = 107 := by decide
example : temperatureUnmarshal 0 = -20 := by decide

-- `TestEncodeGetRequest`
example : (encodeGetRequest .bootloader).command = 0x67 ∧ (encodeGetRequest .bootloader).expect = true :=
  by decide

-- `TestEncodeSetRequest`, setSpeedT
example : encodeSetRequest (.speed 3) = ({ command := 0x99, data := [3], expect := false }, none) := by
  decide

-- `TestDecodeResponse`: Bypass, response with nil command, non-existing response type
example : decodeResponse { command := 0xE0, data := [0xFF, 0xFF, 0xF0, 0x90, 0x01, 0xFF, 1] } =
    .ret (some (.bypass ⟨240, 144, 1, true⟩)) none := by decide
example : decodeResponse {} = .ret none (some .decodeNil) := by decide
example : decodeResponse { command := 0xFF } = .ret none (some .responseType) := by decide

/-- A case of `TestConnSetRequest`, `:218-285`: the outcome, and that nothing but `receives` has been
written, or a beginning of it. -/
def setTest (q : SetRequest) (receives emits : List UInt8) (err : Option Err) : Bool :=
  let r := setQuery q (testConn emits false false)
  r.1 == .ret () err && r.2.sent.isPrefixOf receives

-- set comfort temperature
example : setTest (.comfort 42)
    [0x07, 0xF0, 0x00, 0xD3, 0x01, 0x7C, 0xFD, esc, endB, esc, ackB] [esc, ackB] none = true := by decide
-- set fan speed mode
example : setTest (.speed 3)
    [0x07, 0xF0, 0x00, 0x99, 0x01, 0x03, 0x4A, esc, endB, esc, ackB] [esc, ackB] none = true := by decide
-- garbage before response ACK
example : setTest (.comfort 42)
    [0x07, 0xF0, 0x00, 0xD3, 0x01, 0x7C, 0xFD, esc, endB, esc, ackB]
    [0xF0, 0x0B, 0xA1, 0x2, esc, ackB] (some .scanInput) = true := by decide

-- `TestConnGetRequest`, get fan speeds
example :
    let r := getQuery .fans (testConn [esc, ackB, 0x07, 0xF0, 0x00, 0x0C, 0x06, 0xAA, 0xBB, 0x11, 0x22,
      0x33, 0x44, 0xCE, esc, endB, esc, ackB] false false)
    r.1 = .ret (some (.fans ⟨170, 187, 427, 142⟩)) none ∧
      r.2.sent = [0x07, 0xF0, 0x00, 0x0B, 0x00, 0xB8, esc, endB, esc, ackB] := by decide
-- connection write error
example : (getQuery .fans { wr := [.fail 0] }).1 = .ret none (some .io) := by decide

-- `TestLeftPad32`
example : leftPad32 [0x01, 0x02] = some [0, 0, 0x1, 0x2] ∧ leftPad32 [1, 2, 3, 4, 5] = none := by decide

/-! ## `libcomfo/request_types_test.go` -/

/-- A case of `TestSetRequestsMarshalBinary`. -/
def marshalTest (q : SetRequest) (rtype : UInt8) (b : List UInt8) (err : Option Err) : Bool :=
  q.requestType == rtype && q.marshalBinary == (b, err)

-- setSpeedT, setSpeedT too high
example : marshalTest (.speed 2) 0x99 [0x02] none = true := by decide
example : marshalTest (.speed 5) 0x99 [] (some .tooHigh) = true := by decide
-- setComfortT, setComfortT too high, setComfortT too low
example : marshalTest (.comfort 21) 0xD3 [0x52] none = true := by decide
example : marshalTest (.comfort 108) 0xD3 [] (some .tooHigh) = true := by decide
example : marshalTest (.comfort (-21)) 0xD3 [] (some .tooLow) = true := by decide
-- FanProfiles (bulk)
example : marshalTest (.fanProfiles
    ⟨10, 20, 30, 40, false, 10, 20, 30, 40, 0, 0, 0⟩) 0xCF [10, 20, 30, 10, 20, 30, 40, 40] none = true := by
  decide

/-! ## `libcomfo/response_types_test.go` -/

/-- A case of `TestAllUnmarshalBinary`. The test looks up the type of the response and calls
`UnmarshalBinary`, as `DecodeResponse` does. -/
def unmarshalTest (rtype : UInt8) (b : List UInt8) (resp : Response) (err : Option Err) : Bool :=
  decodeResponse { command := rtype, data := b } == .ret (some resp) err

-- Fans, Fans zero fan speed, Fans incorrect length
example : unmarshalTest 0x0C [33, 66, 0x04, 0xE2, 0x02, 0x71] (.fans ⟨33, 66, 1500, 3000⟩) none = true := by
  decide
example : unmarshalTest 0x0C [33, 66, 0, 0, 0, 0] (.fans {}) (some .zeroValue) = true := by decide
example : unmarshalTest 0x0C [] (.fans {}) (some .pktLen) = true := by decide
-- BootloaderVersion, BootloaderVersion incorrect length zero
example : unmarshalTest 0x68 [1, 2, 3, 97, 98, 99, 100, 101, 102, 103, 104, 105, 106]
    (.bootInfo ⟨1, 2, 3, [97, 98, 99, 100, 101, 102, 103, 104, 105, 106]⟩) none = true := by decide
example : unmarshalTest 0x68 [] (.bootInfo {}) (some .pktLen) = true := by decide
-- Errors incorrect length, Errors filter up, Errors filter down
example : unmarshalTest 0xDA [] (.errors {}) (some .pktLen) = true := by decide
example : unmarshalTest 0xDA [0, 0, 0, 0, 0, 0, 0, 0, 1, 0, 0, 0, 0, 0, 0, 0, 0] (.errors ⟨true⟩) none
    = true := by decide
example : unmarshalTest 0xDA (List.replicate 17 0) (.errors {}) none = true := by decide
-- FirmwareVersion, FirmwareVersion incorrect length zero
example : unmarshalTest 0x6A [1, 2, 3, 113, 114, 115, 116, 117, 118, 119, 120, 121, 122]
    (.bootInfo ⟨1, 2, 3, [113, 114, 115, 116, 117, 118, 119, 120, 121, 122]⟩) none = true := by decide
example : unmarshalTest 0x6A [] (.bootInfo {}) (some .pktLen) = true := by decide
-- FanProfiles, FanProfiles incorrect length
example : unmarshalTest 0xCE [5, 10, 15, 30, 35, 40, 50, 55, 60, 1, 20, 45, 0xFF, 0xFF]
    (.fanProfiles ⟨5, 10, 15, 20, true, 30, 35, 40, 45, 50, 55, 60⟩) none = true := by decide
example : unmarshalTest 0xCE [] (.fanProfiles {}) (some .pktLen) = true := by decide
-- Temps, Temps incorrect length
example : unmarshalTest 0xD2 [66, 114, 66, 114, 66, 0xFF, 114, 66, 114]
    (.temps ⟨13, 37, 13, 37, 13, 37, 13, 37⟩) none = true := by decide
example : unmarshalTest 0xD2 [] (.temps {}) (some .pktLen) = true := by decide
-- Hours, Hours incorrect length
example : unmarshalTest 0xDE [0xAA, 0x55, 0x55, 0xAA, 0xA5, 0xA5, 0x5A, 0x5A, 0xA5, 0x5A, 0x5A, 0xA5, 0xAA,
      0x55, 0x55, 0xAA, 0xBB, 0xCC, 0x11, 0x22]
    (.hours ⟨11162965, 11183525, 5921445, 13373730, 23130, 42410, 21845, 43707⟩) none = true := by
  decide
example : unmarshalTest 0xDE [] (.hours {}) (some .pktLen) = true := by decide
-- Bypass, Bypass incorrect length
example : unmarshalTest 0xE0 [0xFF, 0xFF, 0xF0, 0x90, 0x01, 0xFF, 1] (.bypass ⟨240, 144, 1, true⟩) none
    = true := by decide
example : unmarshalTest 0xE0 [] (.bypass {}) (some .pktLen) = true := by decide

-- `TestFanProfilesLookup`: empty lookup, away, low, mid, high
example :
    let fp : FanProfiles := ⟨5, 7, 9, 11, false, 4, 6, 8, 10, 3, 2, 1⟩
    fp.lookup 0 = ((0, 0), some .notExist) ∧ fp.lookup 1 = ((4, 5), none) ∧ fp.lookup 2 = ((6, 7), none) ∧
      fp.lookup 3 = ((8, 9), none) ∧ fp.lookup 4 = ((10, 11), none) := by decide

end Comfo.Props
