import Verif.Model.PbDesc
import Verif.Model.Client
/-!
# Model of the messages between client and server

The protobuf libraries (`google.golang.org/protobuf` v1.34.1, `go.mod:11`, and `protobuf` for Python)
are not part of the repository. What is modelled of them is the documented binary format for the
kinds of fields `rpc/comfo/comfo.proto` uses, driven by the descriptors that are embedded in
`rpc/comfo/comfo.pb.go` and `python/comfo/comfo_pb2.py`. Both libraries are taken to be the same
function of a descriptor. Not modelled: the limits on the size of a message (2 GiB) and on the depth
of nested groups, unknown fields being kept for the next encoding, JSON.
-/
namespace Comfo.Pb

/-! ## Wire format -/

/-- Up to `k` bytes of a varint. -/
def putVarint : Nat → Nat → List UInt8
  | 0, _ => []
  | k + 1, v => if v < 128 then [UInt8.ofNat v] else UInt8.ofNat (v % 128 + 128) :: putVarint k (v / 128)

/-- `protowire.AppendVarint` of a `uint64`. -/
def varint (v : Nat) : List UInt8 := putVarint 10 v

/-- Up to `k` bytes of a varint; the tenth must be 0 or 1. -/
def getVarint : Nat → List UInt8 → Option (Nat × List UInt8)
  | 0, _ => none
  | _ + 1, [] => none
  | k + 1, b :: bs =>
    if b < 128 then (if k = 0 ∧ 2 ≤ b then none else some (b.toNat, bs))
    else match getVarint k bs with
      | none => none
      | some (v, rest) => some (b.toNat - 128 + 128 * v, rest)

/-- `protowire.ConsumeVarint`: the number and the bytes after it. -/
def consumeVarint (bs : List UInt8) : Option (Nat × List UInt8) := getVarint 10 bs

/-- The contents of a field. -/
inductive Wire
  | varint (v : Nat)
  | fixed64 (bs : List UInt8)
  | bytes (bs : List UInt8)
  | fixed32 (bs : List UInt8)
  deriving DecidableEq, Repr

/-- A field of a message as it comes. -/
structure Rec where
  num : Nat
  val : Wire
  deriving DecidableEq, Repr

/-- The first `n` bytes and the others. -/
def takeBytes (n : Nat) (bs : List UInt8) : Option (List UInt8 × List UInt8) :=
  if n ≤ bs.length then some (bs.take n, bs.drop n) else none

/-- The contents of a field with wire type `wt` (`protowire.ConsumeFieldValue`; groups apart). -/
def consumeValue (wt : Nat) (bs : List UInt8) : Option (Wire × List UInt8) :=
  match wt with
  | 0 => (consumeVarint bs).map fun (v, rest) => (.varint v, rest)
  | 1 => (takeBytes 8 bs).map fun (x, rest) => (.fixed64 x, rest)
  | 2 =>
    match consumeVarint bs with
    | none => none
    | some (n, bs) => (takeBytes n bs).map fun (x, rest) => (.bytes x, rest)
  | 5 => (takeBytes 4 bs).map fun (x, rest) => (.fixed32 x, rest)
  | _ => none

/-- The greatest number of a field (`protowire.MaxValidNumber`). Inside groups, where only
`protowire.DecodeTag` looks at it, it is `math.MaxInt32`. -/
def maxNumber : List Nat → Nat
  | [] => 536870911
  | _ :: _ => 2147483647

/-- How deep groups may be nested (`protowire.DefaultRecursionLimit`, and one: the depth is checked to
be negative). -/
def maxGroups : Nat := 10001

/-- The loop of `MessageInfo.unmarshalPointer` and of `protowire.ConsumeFieldValue`: all fields that are
not inside a group. `opened` are the numbers of the groups that have begun; groups are skipped since
no message of the service has one. The first argument bounds the number of rounds. -/
def records : Nat → List Nat → List UInt8 → Option (List Rec)
  | 0, _, _ => none
  | _ + 1, [], [] => some []
  | _ + 1, _ :: _, [] => none
  | n + 1, opened, b :: bs =>
    match consumeVarint (b :: bs) with
    | none => none
    | some (tag, rest) =>
      if tag / 8 < 1 ∨ maxNumber opened < tag / 8 then none
      else if tag % 8 = 3 then
        if opened.length < maxGroups then records n (tag / 8 :: opened) rest else none
      else if tag % 8 = 4 then
        match opened with
        | [] => none
        | g :: opened => if g = tag / 8 then records n opened rest else none
      else
        match consumeValue (tag % 8) rest with
        | none => none
        | some (v, rest) =>
          match opened with
          | [] => (records n [] rest).map (⟨tag / 8, v⟩ :: ·)
          | g :: opened => records n (g :: opened) rest

/-- All fields of a message, or an error. -/
def fieldsOf (bs : List UInt8) : Option (List Rec) := records (bs.length + 1) [] bs

/-! ## Descriptors -/

/-- The kinds of fields of the messages of the service. -/
inductive Kind
  | bool | uint32 | string | float
  | enum (name : Str)
  deriving DecidableEq, Repr

/-- A field of a message type. -/
structure FieldDesc where
  name : Str
  num : Nat
  kind : Kind
  deriving DecidableEq, Repr

/-- An enumeration, with its values in order. -/
structure EnumDesc where
  name : Str
  values : List (Str × Nat)
  deriving DecidableEq, Repr

/-- A message type with the enumerations declared in it. -/
structure MsgDesc where
  name : Str
  fields : List FieldDesc
  enums : List EnumDesc
  deriving DecidableEq, Repr

/-- A method of a service. -/
structure MethodDesc where
  name : Str
  input : Str
  output : Str
  deriving DecidableEq, Repr

/-- A service. -/
structure ServiceDesc where
  name : Str
  methods : List MethodDesc
  deriving DecidableEq, Repr

/-- A `.proto` file. -/
structure FileDesc where
  package : Str
  version : Str
  messages : List MsgDesc
  services : List ServiceDesc
  deriving DecidableEq, Repr

/-- A string in a descriptor; all of them are ASCII. -/
def text (bs : List UInt8) : Str := bs.map fun b => Char.ofNat b.toNat

/-- The string in field `num`, which must be there. -/
def strField (num : Nat) : List Rec → Option Str
  | [] => none
  | ⟨n, .bytes s⟩ :: rs => if n = num then some (text s) else strField num rs
  | _ :: rs => strField num rs

/-- The number in field `num`, 0 if it is not there. -/
def natField (num : Nat) : List Rec → Nat
  | [] => 0
  | ⟨n, .varint v⟩ :: rs => if n = num then v else natField num rs
  | _ :: rs => natField num rs

/-- All messages in field `num`. -/
def subFields (num : Nat) (rs : List Rec) : List (List UInt8) :=
  rs.filterMap fun r => match r with
    | ⟨n, .bytes s⟩ => if n = num then some s else none
    | _ => none

/-- Only these fields are there. -/
def only (nums : List Nat) (rs : List Rec) : Bool := rs.all fun r => nums.contains r.num

/-- Apply to all, or fail. -/
def allOf (f : α → Option β) : List α → Option (List β)
  | [] => some []
  | a :: as =>
    match f a, allOf f as with
    | some b, some bs => some (b :: bs)
    | _, _ => none

/-- The kind of a field from its `type` and `type_name` in `FieldDescriptorProto`. -/
def kindOf (type : Nat) (name : Option Str) : Option Kind :=
  match type, name with
  | 2, none => some .float
  | 8, none => some .bool
  | 9, none => some .string
  | 13, none => some .uint32
  | 14, some n => some (.enum n)
  | _, _ => none

/-- A `FieldDescriptorProto`: name, number, label, type, type_name and json_name; the label must be
"optional" without `proto3_optional`, that is a single field without presence. -/
def parseField (bs : List UInt8) : Option FieldDesc := do
  let rs ← fieldsOf bs
  if only [1, 3, 4, 5, 6, 10] rs && natField 4 rs = 1 then
    return ⟨← strField 1 rs, natField 3 rs, ← kindOf (natField 5 rs) (strField 6 rs)⟩
  else none

/-- An `EnumValueDescriptorProto`. -/
def parseEnumValue (bs : List UInt8) : Option (Str × Nat) := do
  let rs ← fieldsOf bs
  if only [1, 2] rs then return (← strField 1 rs, natField 2 rs) else none

/-- An `EnumDescriptorProto`. -/
def parseEnum (bs : List UInt8) : Option EnumDesc := do
  let rs ← fieldsOf bs
  if only [1, 2] rs then return ⟨← strField 1 rs, ← allOf parseEnumValue (subFields 2 rs)⟩ else none

/-- A `DescriptorProto` without nested messages, extensions or oneofs. -/
def parseMsg (bs : List UInt8) : Option MsgDesc := do
  let rs ← fieldsOf bs
  if only [1, 2, 4] rs then
    return ⟨← strField 1 rs, ← allOf parseField (subFields 2 rs), ← allOf parseEnum (subFields 4 rs)⟩
  else none

/-- A `MethodDescriptorProto` without streaming. -/
def parseMethod (bs : List UInt8) : Option MethodDesc := do
  let rs ← fieldsOf bs
  if only [1, 2, 3] rs then return ⟨← strField 1 rs, ← strField 2 rs, ← strField 3 rs⟩ else none

/-- A `ServiceDescriptorProto`. -/
def parseService (bs : List UInt8) : Option ServiceDesc := do
  let rs ← fieldsOf bs
  if only [1, 2] rs then return ⟨← strField 1 rs, ← allOf parseMethod (subFields 2 rs)⟩ else none

/-- A `FileDescriptorProto`: name, package, message types, services, options and syntax. -/
def parseFile (bs : List UInt8) : Option FileDesc := do
  let rs ← fieldsOf bs
  if only [1, 2, 4, 6, 8, 12] rs then
    return ⟨← strField 2 rs, ← strField 12 rs, ← allOf parseMsg (subFields 4 rs),
      ← allOf parseService (subFields 6 rs)⟩
  else none

/-! ## Messages -/

/-- The value of a field. Floats are their bits, enumerations their `int32`. -/
inductive Val
  | bool (b : Bool)
  | u32 (v : UInt32)
  | str (s : List UInt8)
  | f32 (bits : UInt32)
  | enum (v : Int)
  deriving DecidableEq, Repr

/-- The value of a field that is not there. -/
def Kind.zero : Kind → Val
  | .bool => .bool false
  | .uint32 => .u32 0
  | .string => .str []
  | .float => .f32 0
  | .enum _ => .enum 0

/-- The tag before a field. -/
def tag (num wt : Nat) : List UInt8 := varint (num * 8 + wt)

/-- Four bytes, the low one first. -/
def le32 (v : UInt32) : List UInt8 :=
  [UInt8.ofNat (v.toNat % 256), UInt8.ofNat (v.toNat / 256 % 256),
    UInt8.ofNat (v.toNat / 65536 % 256), UInt8.ofNat (v.toNat / 16777216 % 256)]

/-- The number in four bytes, the low one first. -/
def ofLe32 : List UInt8 → UInt32
  | [a, b, c, d] => UInt32.ofNat (a.toNat + 256 * b.toNat + 65536 * c.toNat + 16777216 * d.toNat)
  | _ => 0

/-- A field of a message, encoded: nothing if it has its zero value (in proto3 such fields are not
sent), an error for a string that is not UTF-8 or a value of another kind. -/
def encodeField (f : FieldDesc) (v : Val) : Option (List UInt8) :=
  match f.kind, v with
  | .bool, .bool b => some (if b then tag f.num 0 ++ varint 1 else [])
  | .uint32, .u32 v => some (if v = 0 then [] else tag f.num 0 ++ varint v.toNat)
  | .string, .str s =>
    if validUtf8 s then some (if s = [] then [] else tag f.num 2 ++ varint s.length ++ s) else none
  | .float, .f32 v => some (if v = 0 then [] else tag f.num 5 ++ le32 v)
  | .enum _, .enum v =>
    some (if v = 0 then [] else tag f.num 0 ++ varint (v % 18446744073709551616).toNat)
  | _, _ => none

/-- `proto.Marshal` and `SerializeToString`: the fields one after the other. -/
def marshal : List FieldDesc → List Val → Option (List UInt8)
  | [], [] => some []
  | f :: fs, v :: vs =>
    match encodeField f v, marshal fs vs with
    | some a, some b => some (a ++ b)
    | _, _ => none
  | _, _ => none

/-- The low 32 bits, with sign. -/
def int32 (v : Nat) : Int :=
  if v % 4294967296 < 2147483648 then (v % 4294967296 : Nat) else (v % 4294967296 : Nat) - 4294967296

/-- What a field that has come makes of the value so far: a later one replaces an earlier one; fields
with other numbers or of another wire type are ignored. -/
def mergeField (f : FieldDesc) (r : Rec) (old : Val) : Option Val :=
  if r.num = f.num then
    match f.kind, r.val with
    | .bool, .varint v => some (.bool (v ≠ 0))
    | .uint32, .varint v => some (.u32 (UInt32.ofNat v))
    | .string, .bytes s => if validUtf8 s then some (.str s) else none
    | .float, .fixed32 bs => some (.f32 (ofLe32 bs))
    | .enum _, .varint v => some (.enum (int32 v))
    | _, _ => some old
  else some old

/-- The value of a field after all that has come. -/
def fieldVal (f : FieldDesc) : List Rec → Val → Option Val
  | [], v => some v
  | r :: rs, v =>
    match mergeField f r v with
    | none => none
    | some v => fieldVal f rs v

/-- `proto.Unmarshal` and `ParseFromString`: the values of the fields, in the order of the
descriptor. -/
def unmarshal (fs : List FieldDesc) (bs : List UInt8) : Option (List Val) :=
  match fieldsOf bs with
  | none => none
  | some rs => allOf (fun f => fieldVal f rs f.kind.zero) fs

/-! ## Floating-point numbers -/

/-- The bits of the `float32` with the value `t`, for numbers below 2^24. -/
def f32Bits (t : Int) : UInt32 :=
  if t = 0 then 0
  else
    let n := t.natAbs
    let e := Nat.log2 n
    UInt32.ofNat ((if t < 0 then 2147483648 else 0) + (e + 127) * 8388608 + (n - 2 ^ e) * 2 ^ (23 - e))

/-- The value of a `float32` (IEEE 754), if it is a whole number below 2^24. -/
def f32Value (bits : UInt32) : Option Int :=
  let neg := 2147483648 ≤ bits.toNat
  let e := bits.toNat / 8388608 % 256
  let m := bits.toNat % 8388608
  if e = 0 ∧ m = 0 then some 0
  else if 127 ≤ e ∧ e ≤ 150 ∧ (8388608 + m) % 2 ^ (150 - e) = 0 then
    let n : Int := ((8388608 + m) / 2 ^ (150 - e) : Nat)
    some (if neg then -n else n)
  else none

end Comfo.Pb
