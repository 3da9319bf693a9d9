import Verif.Model.Proto
/-!
# Model of `libcomfo/response_types.go`: decoding reply payloads

Every index, slice or division in the Go code is a possible panic: it is an `Option` here and
`none` becomes `Go.panic`. When `UnmarshalBinary` returns an error, the model returns the zero
value of the structure; the getters do the same (`libcomfo/api.go`, named results).
-/
namespace Comfo

/-- No counterpart in the code: `none` is a run-time panic. -/
def Go.ofOption : Option α → Go α
  | some v => .ret v none
  | none => .panic

/-- `encoding/binary` `BigEndian.Uint16` (panics on short input). -/
def beUint16 (b : List UInt8) : Option UInt16 := do
  let b1 ← b[1]?
  let b0 ← b[0]?
  pure (b1.toUInt16 ||| (b0.toUInt16 <<< 8))

/-- `encoding/binary` `BigEndian.Uint32` (panics on short input). -/
def beUint32 (b : List UInt8) : Option UInt32 := do
  let b3 ← b[3]?
  let b0 ← b[0]?
  let b1 ← b[1]?
  let b2 ← b[2]?
  pure (b3.toUInt32 ||| (b2.toUInt32 <<< 8) ||| (b1.toUInt32 <<< 16) ||| (b0.toUInt32 <<< 24))

/-- `libcomfo/message.go:145-156` `leftPad32` (panics on more than 4 bytes). -/
def leftPad32 (inp : List UInt8) : Option (List UInt8) :=
  if inp.length > 4 then none else some (List.replicate (4 - inp.length) 0 ++ inp)

/-- Integer division in Go: panics on a zero divisor. -/
def div32 (a b : UInt32) : Option UInt32 := if b = 0 then none else some (a / b)

/-! ## `strings.TrimSpace` (Go standard library) -/

/-- `unicode.IsSpace` for one-byte encodings: `\t \n \v \f \r` and space. -/
def space1 (a : UInt8) : Bool := [0x09, 0x0A, 0x0B, 0x0C, 0x0D, 0x20].contains a
/-- Two-byte encodings of `unicode.IsSpace` characters: U+0085, U+00A0. -/
def space2 (a b : UInt8) : Bool := a == 0xC2 && [0x85, 0xA0].contains b
/-- Three-byte encodings: U+1680, U+2000–U+200A, U+2028, U+2029, U+202F, U+205F, U+3000. -/
def space3 (a b c : UInt8) : Bool :=
  (a == 0xE1 && b == 0x9A && c == 0x80) ||
  (a == 0xE2 && b == 0x80 && [0x80, 0x81, 0x82, 0x83, 0x84, 0x85, 0x86, 0x87, 0x88, 0x89, 0x8A,
    0xA8, 0xA9, 0xAF].contains c) ||
  (a == 0xE2 && b == 0x81 && c == 0x9F) ||
  (a == 0xE3 && b == 0x80 && c == 0x80)

/-- The left half of `strings.TrimSpace`: drop white space as long as decoding at the front
yields white space. (The ASCII fast path and the slow path of the library agree.) Invalid UTF-8
decodes to U+FFFD, which is not white space. -/
def trimLeft : List UInt8 → List UInt8
  | [] => []
  | a :: r =>
    if space1 a then trimLeft r
    else match r with
    | [] => a :: r
    | b :: r' =>
      if space2 a b then trimLeft r'
      else match r' with
      | [] => a :: r
      | c :: r'' => if space3 a b c then trimLeft r'' else a :: r

/-- The right half of `strings.TrimSpace`, on the reversed bytes: the last rune
(`utf8.DecodeLastRuneInString`) is white space iff its encoding is a suffix. -/
def trimRightRev : List UInt8 → List UInt8
  | [] => []
  | c :: r =>
    if space1 c then trimRightRev r
    else match r with
    | [] => c :: r
    | b :: r' =>
      if space2 b c then trimRightRev r'
      else match r' with
      | [] => c :: r
      | a :: r'' => if space3 a b c then trimRightRev r'' else c :: r

/-- `strings.TrimSpace`. A Go string is its bytes. -/
def trimSpace (s : List UInt8) : List UInt8 := (trimRightRev (trimLeft s).reverse).reverse

/-! ## The reply structures -/

/-- `libcomfo/response_types.go:25-30`. -/
structure BootInfo where
  majorVersion : UInt8 := 0
  minorVersion : UInt8 := 0
  betaVersion : UInt8 := 0
  deviceName : List UInt8 := []
  deriving DecidableEq, Repr

/-- `libcomfo/response_types.go:37-49`. -/
def BootInfo.unmarshalBinary (inp : List UInt8) : Go BootInfo :=
  if inp.length ≠ 13 then .ret {} (some .pktLen)
  else Go.ofOption do
    let majorVersion ← inp[0]?
    let minorVersion ← inp[1]?
    let betaVersion ← inp[2]?
    let name ← slice inp 3 inp.length
    pure { majorVersion, minorVersion, betaVersion, deviceName := trimSpace name }

/-- `libcomfo/response_types.go:53-62`. `temperature` (a float32) is modelled by an integer:
every value is a byte divided by two in integers, minus 20 (`libcomfo/message.go:142`), and such
small integers are exact in float32. -/
structure Temps where
  comfort : Int := 0
  outsideAir : Int := 0
  supplyAir : Int := 0
  insideAir : Int := 0
  exhaustAir : Int := 0
  geoHeat : Int := 0
  reheating : Int := 0
  kitchenHood : Int := 0
  deriving DecidableEq, Repr

/-- `libcomfo/message.go:141-143` `temperature.UnmarshalBinary`: `in/2` is `uint8` division. -/
def temperatureUnmarshal (inp : UInt8) : Int := ((inp / 2).toNat : Int) - 20

/-- `libcomfo/response_types.go:69-85`. -/
def Temps.unmarshalBinary (inp : List UInt8) : Go Temps :=
  if inp.length ≠ 9 then .ret {} (some .pktLen)
  else Go.ofOption do
    let comfort ← inp[0]?
    let outsideAir ← inp[1]?
    let supplyAir ← inp[2]?
    let insideAir ← inp[3]?
    let exhaustAir ← inp[4]?
    let geoHeat ← inp[6]?
    let reheating ← inp[7]?
    let kitchenHood ← inp[8]?
    pure {
      comfort := temperatureUnmarshal comfort
      outsideAir := temperatureUnmarshal outsideAir
      supplyAir := temperatureUnmarshal supplyAir
      insideAir := temperatureUnmarshal insideAir
      exhaustAir := temperatureUnmarshal exhaustAir
      geoHeat := temperatureUnmarshal geoHeat
      reheating := temperatureUnmarshal reheating
      kitchenHood := temperatureUnmarshal kitchenHood }

/-- `libcomfo/response_types.go:89-94`. -/
structure Bypass where
  factor : UInt8 := 0
  level : UInt8 := 0
  correction : UInt8 := 0
  summerMode : Bool := false
  deriving DecidableEq, Repr

/-- `libcomfo/response_types.go:101-113`. -/
def Bypass.unmarshalBinary (inp : List UInt8) : Go Bypass :=
  if inp.length ≠ 7 then .ret {} (some .pktLen)
  else Go.ofOption do
    let factor ← inp[2]?
    let level ← inp[3]?
    let correction ← inp[4]?
    let s : UInt8 ← inp[6]?
    pure { factor, level, correction, summerMode := s == 1 }

/-- `libcomfo/response_types.go:117-126`. -/
structure Hours where
  fanAway : UInt32 := 0
  fanLow : UInt32 := 0
  fanMid : UInt32 := 0
  fanHigh : UInt32 := 0
  frostProtect : UInt16 := 0
  reheating : UInt16 := 0
  bypassOpen : UInt16 := 0
  filter : UInt16 := 0
  deriving DecidableEq, Repr

/-- `libcomfo/response_types.go:133-149`. -/
def Hours.unmarshalBinary (inp : List UInt8) : Go Hours :=
  if inp.length ≠ 20 then .ret {} (some .pktLen)
  else Go.ofOption do
    let fanAway ← beUint32 (← leftPad32 (← slice inp 0 3))
    let fanLow ← beUint32 (← leftPad32 (← slice inp 3 6))
    let fanMid ← beUint32 (← leftPad32 (← slice inp 6 9))
    let frostProtect ← beUint16 (← slice inp 9 11)
    let reheating ← beUint16 (← slice inp 11 13)
    let bypassOpen ← beUint16 (← slice inp 13 15)
    let filter ← beUint16 (← slice inp 15 17)
    let fanHigh ← beUint32 (← leftPad32 (← slice inp 17 20))
    pure { fanAway, fanLow, fanMid, fanHigh, frostProtect, reheating, bypassOpen, filter }

/-- `libcomfo/response_types.go:152-157`. -/
structure Fans where
  inPercent : UInt8 := 0
  outPercent : UInt8 := 0
  inSpeed : UInt16 := 0
  outSpeed : UInt16 := 0
  deriving DecidableEq, Repr

/-- `libcomfo/response_types.go:164-185`. The conversion `uint16(1875000 / uint32(w))`
(lines 181-182) truncates. -/
def Fans.unmarshalBinary (inp : List UInt8) : Go Fans :=
  if inp.length ≠ 6 then .ret {} (some .pktLen)
  else
    match (do pure (← beUint16 (← slice inp 2 4), ← beUint16 (← slice inp 4 6)) :
        Option (UInt16 × UInt16)) with
    | none => .panic
    | some (inSpeed, outSpeed) =>
      if inSpeed == 0 || outSpeed == 0 then .ret {} (some .zeroValue)
      else Go.ofOption do
        let inPercent ← inp[0]?
        let outPercent ← inp[1]?
        let i ← div32 1875000 inSpeed.toUInt32
        let o ← div32 1875000 outSpeed.toUInt32
        pure { inPercent, outPercent, inSpeed := i.toUInt16, outSpeed := o.toUInt16 }

/-- `libcomfo/response_types.go:189-204`. -/
structure FanProfiles where
  outAway : UInt8 := 0
  outLow : UInt8 := 0
  outMid : UInt8 := 0
  outHigh : UInt8 := 0
  inFanActive : Bool := false
  inAway : UInt8 := 0
  inLow : UInt8 := 0
  inMid : UInt8 := 0
  inHigh : UInt8 := 0
  currentOut : UInt8 := 0
  currentIn : UInt8 := 0
  currentMode : UInt8 := 0
  deriving DecidableEq, Repr

/-- `libcomfo/response_types.go:211-233`. -/
def FanProfiles.unmarshalBinary (inp : List UInt8) : Go FanProfiles :=
  if inp.length ≠ 14 then .ret {} (some .pktLen)
  else Go.ofOption do
    let outAway ← inp[0]?
    let outLow ← inp[1]?
    let outMid ← inp[2]?
    let outHigh ← inp[10]?
    let inAway ← inp[3]?
    let inLow ← inp[4]?
    let inMid ← inp[5]?
    let inHigh ← inp[11]?
    let active : UInt8 ← inp[9]?
    let currentOut ← inp[6]?
    let currentIn ← inp[7]?
    let currentMode ← inp[8]?
    pure { outAway, outLow, outMid, outHigh, inFanActive := active == 1, inAway, inLow, inMid,
           inHigh, currentOut, currentIn, currentMode }

/-- `libcomfo/response_types.go:237-251` `Lookup`. -/
def FanProfiles.lookup (vp : FanProfiles) (speed : UInt8) : (UInt8 × UInt8) × Option Err :=
  if speed = 1 then ((vp.inAway, vp.outAway), none)
  else if speed = 2 then ((vp.inLow, vp.outLow), none)
  else if speed = 3 then ((vp.inMid, vp.outMid), none)
  else if speed = 4 then ((vp.inHigh, vp.outHigh), none)
  else ((0, 0), some .notExist)

/-- `libcomfo/response_types.go:255-257`. -/
structure Errors where
  filter : Bool := false
  deriving DecidableEq, Repr

/-- `libcomfo/response_types.go:264-273`. -/
def Errors.unmarshalBinary (inp : List UInt8) : Go Errors :=
  if inp.length ≠ 17 then .ret {} (some .pktLen)
  else Go.ofOption do
    let f : UInt8 ← inp[8]?
    pure { filter := f == 1 }

end Comfo
