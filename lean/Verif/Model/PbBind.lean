import Verif.Model.Pb
/-!
# Go structs and Python objects as protobuf messages; requests and answers as bytes

Go binds a struct to a message of the descriptor by position (`ProtoReflect`, e.g.
`rpc/comfo/comfo.pb.go:145-146`, and `file_comfo_proto_goTypes`, `:1390-1408`) and a field of the
struct to a field of the message by the number in its tag. Python looks up both by name.
-/
namespace Comfo.Pb

/-- The fields of the `i`-th message of the Go descriptor. -/
def goMsg (i : Nat) : List FieldDesc :=
  match parseFile goDesc with
  | none => []
  | some f =>
    match f.messages[i]? with
    | none => []
    | some m => m.fields

/-- The fields of a message of the Python descriptor. -/
def pyMsg (name : Str) : List FieldDesc :=
  match parseFile pyDesc with
  | none => []
  | some f =>
    match f.messages.find? fun m => m.name = name with
    | none => []
    | some m => m.fields

/-! ## Go -/

/-- `proto.Marshal` of a struct: the `i`-th message, with the fields by number. -/
def goMarshal (i : Nat) (struct : List (Nat × Val)) : Option (List UInt8) :=
  match allOf (fun f => struct.lookup f.num) (goMsg i) with
  | none => none
  | some vs => marshal (goMsg i) vs

/-- `proto.Unmarshal` into a struct. -/
def goUnmarshal (i : Nat) (bs : List UInt8) : Option (List (Nat × Val)) :=
  (unmarshal (goMsg i) bs).map fun vs => ((goMsg i).map (·.num)).zip vs

/-- The field of a struct with this number in its tag, of type `uint32`. -/
def goU32 (struct : List (Nat × Val)) (num : Nat) : UInt32 :=
  match struct.lookup num with
  | some (.u32 v) => v
  | _ => 0

/-- The same for `bool`. -/
def goBool (struct : List (Nat × Val)) (num : Nat) : Bool :=
  match struct.lookup num with
  | some (.bool b) => b
  | _ => false

/-- The same for an enumeration. -/
def goEnum (struct : List (Nat × Val)) (num : Nat) : Int :=
  match struct.lookup num with
  | some (.enum v) => v
  | _ => 0

/-- The position of the message a method takes: the types of the interface `Comfo`,
`rpc/comfo/comfo.twirp.go:33-54`. -/
def goInput : Method → Nat
  | .getBootInfo | .getTemps | .getBypass | .getFans | .getFanProfiles | .getErrors => 0
  | .setFanSpeed => 10
  | .setComfortTemp => 3
  | .setFanProfile => 8
  | .flushCache => 14

/-- The position of the message a method returns. -/
def goOutput : Method → Nat
  | .getBootInfo => 2
  | .getTemps => 13
  | .getBypass => 1
  | .getFans => 6
  | .getFanProfiles => 7
  | .getErrors => 5
  | .setFanSpeed => 11
  | .setComfortTemp => 4
  | .setFanProfile => 9
  | .flushCache => 15

/-- The call of a handler with a struct; tags: `rpc/comfo/comfo.pb.go:266`, `:637-638`, `:766-767`,
`:1099`. -/
def goCall (m : Method) (s : List (Nat × Val)) : Call :=
  match m with
  | .getBootInfo => .getBoot
  | .getTemps => .getTemps
  | .getBypass => .getBypass
  | .getFans => .getFans
  | .getFanProfiles => .getProfiles
  | .getErrors => .getErrors
  | .setFanSpeed => .setSpeed (goU32 s 1) (goBool s 2)
  | .setComfortTemp => .setComfort (goU32 s 1)
  | .setFanProfile => .setProfile (goU32 s 1) (goU32 s 2)
  | .flushCache => .flush (goEnum s 1)

/-- The request of a method from its body, as in `rpc/comfo/comfo.twirp.go:1331-1340` for
`GetBootInfo`. -/
def goRequest (m : Method) (body : List UInt8) : Option Call :=
  (goUnmarshal (goInput m) body).map (goCall m)

theorem goRequest_method {m : Method} {b : List UInt8} {c : Call} (h : goRequest m b = some c) :
    c.method = some m := by
  simp only [goRequest, Option.map_eq_some_iff] at h
  obtain ⟨_, -, rfl⟩ := h
  cases m <;> rfl

/-- Decoding of bodies; JSON is left open. -/
def pbCodec (json : Method → List UInt8 → Option Call)
    (hj : ∀ {m b c}, json m b = some c → c.method = some m) : Codec where
  decode m f b :=
    match f with
    | .json => json m b
    | .protobuf => goRequest m b
  typed {m f b c} h := by
    cases f
    · exact hj h
    · exact goRequest_method h

/-- A number in decimal; `k` is the number of digits at most, 20 for 64 bits. -/
def digits : Nat → Nat → List UInt8
  | 0, _ => []
  | k + 1, n =>
    if n < 10 then [UInt8.ofNat (48 + n)] else digits k (n / 10) ++ [UInt8.ofNat (48 + n % 10)]

/-- `fmtFrac`: the last `k` digits without zeros at the end. -/
def fracDigits : Nat → Nat → List UInt8 → List UInt8
  | 0, _, acc => acc
  | k + 1, v, acc =>
    fracDigits k (v / 10) (if acc ≠ [] ∨ v % 10 ≠ 0 then UInt8.ofNat (48 + v % 10) :: acc else acc)

/-- `v` divided by the `k`-th power of ten. -/
def decimal (k v : Nat) : List UInt8 :=
  digits 20 (v / 10 ^ k) ++ (match fracDigits k v [] with
    | [] => []
    | ds => 46 :: ds)

/-- `fmt.Sprint` of a `time.Duration` in nanoseconds, `comfoserver/server.go:105`, `:158`, `:229`,
`:244`: `time.Duration.String` of the Go standard library. -/
def durString (d : Int) : List UInt8 :=
  let u := d.natAbs
  let sign : List UInt8 := if d < 0 then [45] else []
  if u = 0 then [48, 115]
  else if u < 1000 then sign ++ digits 20 u ++ [110, 115]
  else if u < 1000000 then sign ++ decimal 3 u ++ [0xC2, 0xB5, 115]
  else if u < 1000000000 then sign ++ decimal 6 u ++ [109, 115]
  else
    let secs := u / 1000000000
    let s := decimal 9 (u % 60000000000) ++ [115]
    let mins := secs / 60
    if mins = 0 then sign ++ s
    else
      let ms := digits 20 (mins % 60) ++ [109] ++ s
      if mins / 60 = 0 then sign ++ ms
      else sign ++ digits 20 (mins / 60) ++ [104] ++ ms

/-- The answer of a handler as a struct: its fields under the numbers of their
tags (`rpc/comfo/comfo.pb.go:124-127`, `:195-198`, `:313-316`, `:384`, `:431-434`,
`:502-513`, `:692-695`, `:821-824`, `:995-1002`, `:1146-1147`). `none`: the answer is an error. -/
def goStruct (m : Method) (r : Resp) : Option (List (Nat × Val)) :=
  match m, r with
  | .getBypass, .bypass (.ok b) => some [(1, .u32 b.factor), (2, .u32 b.level),
      (3, .u32 b.correction), (4, .bool b.summerMode)]
  | .getBootInfo, .boot (.ok b) => some [(1, .u32 b.majorVersion), (2, .u32 b.minorVersion),
      (3, .u32 b.betaVersion), (4, .str b.deviceName)]
  | .setComfortTemp, .comfort (.ok c) => some [(1, .bool c.modified), (2, .u32 c.originalTemp),
      (3, .u32 c.targetTemp), (4, .str (durString c.reqTime))]
  | .getErrors, .errors (.ok e) => some [(1, .bool e.filter)]
  | .getFans, .fans (.ok f) => some [(1, .u32 f.inPercent), (2, .u32 f.outPercent),
      (3, .u32 f.inSpeed), (4, .u32 f.outSpeed)]
  | .getFanProfiles, .profiles (.ok p) => some [(1, .u32 p.outAway), (2, .u32 p.outLow),
      (3, .u32 p.outMid), (4, .u32 p.outHigh), (5, .bool p.inFanActive), (6, .u32 p.inAway),
      (7, .u32 p.inLow), (8, .u32 p.inMid), (9, .u32 p.inHigh), (10, .u32 p.currentOut),
      (11, .u32 p.currentIn), (12, .u32 p.currentMode)]
  | .setFanProfile, .speed (.ok s) => some [(1, .bool s.modified), (2, .u32 s.originalSpeed),
      (3, .u32 s.targetSpeed), (4, .str (durString s.reqTime))]
  | .setFanSpeed, .speed (.ok s) => some [(1, .bool s.modified), (2, .u32 s.originalSpeed),
      (3, .u32 s.targetSpeed), (4, .str (durString s.reqTime))]
  | .getTemps, .temps (.ok t) => some [(1, .f32 (f32Bits t.comfort)),
      (2, .f32 (f32Bits t.outsideAir)), (3, .f32 (f32Bits t.supplyAir)),
      (4, .f32 (f32Bits t.insideAir)), (5, .f32 (f32Bits t.exhaustAir)),
      (6, .f32 (f32Bits t.geoHeat)), (7, .f32 (f32Bits t.reheating)),
      (8, .f32 (f32Bits t.kitchenHood))]
  | .flushCache, .flushed (.ok f) => some [(1, .bool f.success), (2, .str (durString f.reqTime))]
  | _, _ => none

/-- The body of an answer, e.g. `rpc/comfo/comfo.twirp.go:1383-1387`; `none` if it is an error or
cannot be encoded. -/
def goBody (m : Method) (r : Resp) : Option (List UInt8) :=
  match goStruct m r with
  | none => none
  | some fields => goMarshal (goOutput m) fields

/-! ## Python -/

/-- `SerializeToString` of a message made with these keyword arguments; fields that are not given
are zero. A name that is not a field raises. -/
def pyMake (name : Str) (args : List (Str × Val)) : Option (List UInt8) :=
  let fs := pyMsg name
  if args.all fun a => fs.any fun f => f.name = a.1 then
    marshal fs (fs.map fun f => (args.lookup f.name).getD f.kind.zero)
  else none

/-- The bodies of the requests of the client, `python/comfo/client.py:51`, `:64`, `:77`, `:90`,
`:103`, `:116`, `:140`, `:158`, `:179`, `:205-207`, `:235-238`. The methods for the fan speed give one
of `Abs` and `Rel`; the other is zero. There is no method for `FlushCache`. -/
def pyBody : Call → Option (List UInt8)
  | .getBoot | .getBypass | .getTemps | .getFans | .getProfiles | .getErrors =>
      pyMake "Noop".toList []
  | .setSpeed abs rel =>
      pyMake "FanSpeedTarget".toList [("Abs".toList, .u32 abs), ("Rel".toList, .bool rel)]
  | .setComfort t => pyMake "ComfortTarget".toList [("ComfortTemp".toList, .u32 t)]
  | .setProfile m t =>
      pyMake "FanProfileTarget".toList [("Mode".toList, .u32 m), ("TargetSpeed".toList, .u32 t)]
  | _ => none

/-- `ParseFromString`: the attributes. -/
def pyParse (name : Str) (bs : List UInt8) : Option (List (Str × Val)) :=
  (unmarshal (pyMsg name) bs).map fun vs => ((pyMsg name).map (·.name)).zip vs

/-- An attribute that is an integer. `none`: `AttributeError`. -/
def pyU (o : List (Str × Val)) (name : String) : Option UInt32 :=
  match o.lookup name.toList with
  | some (.u32 v) => some v
  | _ => none

/-- An attribute that is a bool. -/
def pyB (o : List (Str × Val)) (name : String) : Option Bool :=
  match o.lookup name.toList with
  | some (.bool v) => some v
  | _ => none

/-- An attribute that is a string. -/
def pyS (o : List (Str × Val)) (name : String) : Option (List UInt8) :=
  match o.lookup name.toList with
  | some (.str v) => some v
  | _ => none

/-- An attribute that is a whole number in a float. -/
def pyF (o : List (Str × Val)) (name : String) : Option Int :=
  match o.lookup name.toList with
  | some (.f32 v) => f32Value v
  | _ => none

/-- The messages `ComfoClient` expects in answer, `python/comfo/comfo_twirp.py:93-182`. -/
def clientAnswer : Method → Str
  | .getBootInfo => "BootInfo".toList
  | .getTemps => "Temps".toList
  | .getBypass => "Bypass".toList
  | .getFans => "Fans".toList
  | .getFanProfiles => "FanProfiles".toList
  | .getErrors => "Errors".toList
  | .setFanSpeed => "FanSpeedModified".toList
  | .setComfortTemp => "ComfortModified".toList
  | .setFanProfile => "FanProfileModified".toList
  | .flushCache => "FlushCacheResponse".toList

/-- What the client reads of an answer: the attributes in `python/comfo/types.py:22-100`, and of the
setters' answers all numbers (`client.py` reads `Modified` only). Nobody reads `ReqTime`; it is 0
here. -/
def pyAnswer (m : Method) (bs : List UInt8) : Option Resp := do
  let o ← pyParse (clientAnswer m) bs
  match m with
  | .getBootInfo => return .boot (.ok ⟨← pyU o "MajorVersion", ← pyU o "MinorVersion",
      ← pyU o "BetaVersion", ← pyS o "DeviceName"⟩)
  | .getTemps => return .temps (.ok ⟨← pyF o "Comfort", ← pyF o "OutsideAir", ← pyF o "SupplyAir",
      ← pyF o "InsideAir", ← pyF o "ExhaustAir", ← pyF o "GeoHeat", ← pyF o "Reheating",
      ← pyF o "KitchenHood"⟩)
  | .getBypass => return .bypass (.ok ⟨← pyU o "Factor", ← pyU o "Level", ← pyU o "Correction",
      ← pyB o "SummerMode"⟩)
  | .getFans => return .fans (.ok ⟨← pyU o "InPercent", ← pyU o "OutPercent", ← pyU o "InSpeed",
      ← pyU o "OutSpeed"⟩)
  | .getFanProfiles => return .profiles (.ok ⟨← pyU o "OutAway", ← pyU o "OutLow", ← pyU o "OutMid",
      ← pyU o "OutHigh", ← pyB o "InFanActive", ← pyU o "InAway", ← pyU o "InLow", ← pyU o "InMid",
      ← pyU o "InHigh", ← pyU o "CurrentOut", ← pyU o "CurrentIn", ← pyU o "CurrentMode"⟩)
  | .getErrors => return .errors (.ok ⟨← pyB o "Filter"⟩)
  | .setFanSpeed | .setFanProfile => return .speed (.ok ⟨← pyB o "Modified", ← pyU o "OriginalSpeed",
      ← pyU o "TargetSpeed", 0⟩)
  | .setComfortTemp => return .comfort (.ok ⟨← pyB o "Modified", ← pyU o "OriginalTemp",
      ← pyU o "TargetTemp", 0⟩)
  | .flushCache => return .flushed (.ok ⟨← pyB o "Success", 0⟩)

end Comfo.Pb
