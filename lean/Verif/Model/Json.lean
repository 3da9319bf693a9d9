import Verif.Model.GoClient
import Verif.Model.Response
/-!
# JSON: requests, answers and errors as text

What `encoding/json` and `google.golang.org/protobuf/encoding/protojson` (v1.34.1, `go.mod:11`) do
with the messages of the service and the options set in `rpc/comfo/comfo.twirp.go`. The libraries
are not part of the repository; this is their documented behaviour. Simplifications: numbers are
taken by their value (`protojson` refuses some whole numbers written with an exponent and more than
20 digits); numbers with a fraction for a `float` are refused (all temperatures are whole);
`encoding/json` also takes names of fields written with `ſ` for `s`.
-/
namespace Comfo.Json
open Comfo.Pb Comfo.Twirp

/-- A number: `mant` times the `exp`-th power of ten, negative if `neg`. -/
structure Num where
  neg : Bool
  mant : Nat
  exp : Int
  deriving DecidableEq, Repr

/-- A JSON value. Strings are bytes; the members of an object are in the order of the text. -/
inductive Json
  | null
  | bool (b : Bool)
  | num (n : Num)
  | str (s : Bytes)
  | arr (l : List Json)
  | obj (l : List (Bytes × Json))
  deriving Repr

/-! ## Reading -/

/-- White space. -/
def isWs (b : UInt8) : Bool := b = 32 || b = 9 || b = 10 || b = 13

def skipWs (bs : Bytes) : Bytes := bs.dropWhile isWs

def isDigit (b : UInt8) : Bool := 48 ≤ b && b ≤ 57

/-- The value of digits. -/
def natOf (ds : Bytes) : Nat := ds.foldl (fun n d => 10 * n + (d.toNat - 48)) 0

/-- Bytes that must not follow a number: letters, digits and `-+._`. -/
def notDelim (b : UInt8) : Bool :=
  isDigit b || (65 ≤ b && b ≤ 90) || (97 ≤ b && b ≤ 122) || b = 45 || b = 43 || b = 46 || b = 95

/-- Optional sign. -/
def minus : Bytes → Bool × Bytes
  | 45 :: r => (true, r)
  | r => (false, r)

/-- The digits after the point, if there is one. -/
def fraction : Bytes → Option (Bytes × Bytes)
  | 46 :: r => if r.takeWhile isDigit = [] then none else some (r.takeWhile isDigit, r.dropWhile isDigit)
  | r => some ([], r)

/-- The sign of an exponent. -/
def expSign : Bytes → Bool × Bytes
  | 43 :: r => (false, r)
  | 45 :: r => (true, r)
  | r => (false, r)

/-- The digits of an exponent. -/
def expDigits (r : Bytes) : Option (Int × Bytes) :=
  let (neg, r) := expSign r
  if r.takeWhile isDigit = [] then none
  else
    let e : Int := natOf (r.takeWhile isDigit)
    some (if neg then -e else e, r.dropWhile isDigit)

/-- The exponent, if there is one. -/
def exponent : Bytes → Option (Int × Bytes)
  | 101 :: r => expDigits r
  | 69 :: r => expDigits r
  | r => some (0, r)

/-- A number and what follows it. -/
def number (bs : Bytes) : Option (Num × Bytes) :=
  let (neg, bs) := minus bs
  let ip := bs.takeWhile isDigit
  if ip = [] ∨ (ip.head? = some 48 ∧ ip.length ≠ 1) then none
  else
    match fraction (bs.dropWhile isDigit) with
    | none => none
    | some (fp, r) =>
      match exponent r with
      | none => none
      | some (e, r) =>
        if r.head?.any notDelim then none
        else some (⟨neg, natOf (ip ++ fp), e - fp.length⟩, r)

/-- A hexadecimal digit. -/
def hexVal (b : UInt8) : Option Nat :=
  if 48 ≤ b ∧ b ≤ 57 then some (b.toNat - 48)
  else if 97 ≤ b ∧ b ≤ 102 then some (b.toNat - 87)
  else if 65 ≤ b ∧ b ≤ 70 then some (b.toNat - 55)
  else none

/-- Four hexadecimal digits. -/
def hex4 (a b c d : UInt8) : Option Nat :=
  match hexVal a, hexVal b, hexVal c, hexVal d with
  | some a, some b, some c, some d => some (4096 * a + 256 * b + 16 * c + d)
  | _, _, _, _ => none

/-- UTF-8. -/
def utf8Of (n : Nat) : Bytes :=
  if n < 0x80 then [UInt8.ofNat n]
  else if n < 0x800 then [UInt8.ofNat (0xC0 + n / 64), UInt8.ofNat (0x80 + n % 64)]
  else if n < 0x10000 then
    [UInt8.ofNat (0xE0 + n / 4096), UInt8.ofNat (0x80 + n / 64 % 64), UInt8.ofNat (0x80 + n % 64)]
  else [UInt8.ofNat (0xF0 + n / 262144), UInt8.ofNat (0x80 + n / 4096 % 64),
    UInt8.ofNat (0x80 + n / 64 % 64), UInt8.ofNat (0x80 + n % 64)]

/-- The escapes of two characters. -/
def escape (b : UInt8) : Option UInt8 :=
  if b = 34 ∨ b = 92 ∨ b = 47 then some b
  else if b = 98 then some 8
  else if b = 102 then some 12
  else if b = 110 then some 10
  else if b = 114 then some 13
  else if b = 116 then some 9
  else none

/-- The low half of a surrogate pair. -/
def lowHalf : Bytes → Option (Nat × Bytes)
  | 92 :: 117 :: a :: b :: c :: d :: r =>
    match hex4 a b c d with
    | some n => if 0xDC00 ≤ n ∧ n < 0xE000 then some (n, r) else none
    | none => none
  | _ => none

/-- The contents of a string after the opening quote, and what follows the closing one. Half of a
surrogate pair is an error for `protojson` (`strict`), for `encoding/json` it is U+FFFD. The first
argument bounds the number of characters. -/
def chars (strict : Bool) : Nat → Bytes → Option (Bytes × Bytes)
  | 0, _ => none
  | _ + 1, [] => none
  | n + 1, b :: r =>
    if b = 34 then some ([], r)
    else if b < 32 then none
    else if b ≠ 92 then (chars strict n r).map fun (s, r) => (b :: s, r)
    else
      match r with
      | 117 :: x :: y :: z :: u :: r =>
        match hex4 x y z u with
        | none => none
        | some c =>
          if c < 0xD800 ∨ 0xE000 ≤ c then
            (chars strict n r).map fun (s, r) => (utf8Of c ++ s, r)
          else
            match (if c < 0xDC00 then lowHalf r else none) with
            | some (d, r) => (chars strict n r).map fun (s, r) =>
                (utf8Of (0x10000 + (c - 0xD800) * 1024 + (d - 0xDC00)) ++ s, r)
            | none =>
              if strict then none
              else (chars strict n r).map fun (s, r) => (utf8Of 0xFFFD ++ s, r)
      | e :: r =>
        match escape e with
        | none => none
        | some c => (chars strict n r).map fun (s, r) => (c :: s, r)
      | [] => none

/-- `strings.ToValidUTF8` with U+FFFD for each byte that is not part of a character. -/
def toValid : Nat → Bytes → Bytes
  | 0, _ => []
  | _ + 1, [] => []
  | n + 1, b :: bs =>
    match [1, 2, 3, 4].find? fun k => k ≤ (b :: bs).length && validUtf8 ((b :: bs).take k) with
    | some k => (b :: bs).take k ++ toValid n ((b :: bs).drop k)
    | none => utf8Of 0xFFFD ++ toValid n bs

/-- A string after the opening quote. -/
def string (strict : Bool) (bs : Bytes) : Option (Bytes × Bytes) :=
  match chars strict bs.length bs with
  | none => none
  | some (s, r) =>
    if validUtf8 s then some (s, r)
    else if strict then none
    else some (toValid s.length s, r)

/-- A value that is not an array or an object. -/
def scalar (strict : Bool) : Bytes → Option (Json × Bytes)
  | 110 :: 117 :: 108 :: 108 :: r => some (.null, r)
  | 116 :: 114 :: 117 :: 101 :: r => some (.bool true, r)
  | 102 :: 97 :: 108 :: 115 :: 101 :: r => some (.bool false, r)
  | 34 :: r => (string strict r).map fun (s, r) => (.str s, r)
  | bs => (number bs).map fun (n, r) => (.num n, r)

/-- The elements of an array up to the closing bracket; `p` reads a value. The first argument bounds
their number. -/
def elems (p : Bytes → Option (Json × Bytes)) : Nat → Bytes → Option (List Json × Bytes)
  | 0, _ => none
  | n + 1, bs =>
    match p (skipWs bs) with
    | none => none
    | some (v, r) =>
      match skipWs r with
      | 44 :: r => (elems p n r).map fun (l, r) => (v :: l, r)
      | 93 :: r => some ([v], r)
      | _ => none

/-- The members of an object up to the closing brace. -/
def members (strict : Bool) (p : Bytes → Option (Json × Bytes)) :
    Nat → Bytes → Option (List (Bytes × Json) × Bytes)
  | 0, _ => none
  | n + 1, bs =>
    match skipWs bs with
    | 34 :: r =>
      match string strict r with
      | none => none
      | some (k, r) =>
        match skipWs r with
        | 58 :: r =>
          match p (skipWs r) with
          | none => none
          | some (v, r) =>
            match skipWs r with
            | 44 :: r => (members strict p n r).map fun (l, r) => ((k, v) :: l, r)
            | 125 :: r => some ([(k, v)], r)
            | _ => none
        | _ => none
    | _ => none

/-- A value and what follows it. The number is how deep arrays and objects may be nested. -/
def value (strict : Bool) : Nat → Bytes → Option (Json × Bytes)
  | 0, bs => scalar strict bs
  | d + 1, bs =>
    match bs with
    | 123 :: r =>
      match skipWs r with
      | 125 :: r => some (.obj [], r)
      | _ => (members strict (value strict d) r.length r).map fun (l, r) => (.obj l, r)
    | 91 :: r =>
      match skipWs r with
      | 93 :: r => some (.arr [], r)
      | _ => (elems (value strict d) r.length r).map fun (l, r) => (.arr l, r)
    | bs => scalar strict bs

/-- The limit on nesting of both libraries. -/
def maxDepth : Nat := 10000

/-- `json.NewDecoder(body).Decode`: the first value of a body. What follows it is not read. -/
def decode (strict : Bool) (body : Bytes) : Option Json :=
  (value strict maxDepth (skipWs body)).map (·.1)

/-! ## Messages from JSON -/

/-- The value of a number that is whole; those with more than 20 zeros fit into no field. -/
def Num.whole (n : Num) : Option Int :=
  if n.mant = 0 then some 0
  else
    let v : Option Nat :=
      if 0 ≤ n.exp then (if 20 < n.exp then none else some (n.mant * 10 ^ n.exp.toNat))
      else if n.mant % 10 ^ (-n.exp).toNat = 0 then some (n.mant / 10 ^ (-n.exp).toNat)
      else none
    v.map fun (v : Nat) => if n.neg then -(v : Int) else (v : Int)

/-- The number a string begins with, as in `protojson`'s `unmarshalUint` and `unmarshalFloat`: no
white space around; what follows the number is not read. -/
def numberIn (s : Bytes) : Option Num :=
  if (trimSpace s).length ≠ s.length then none else (number s).map (·.1)

/-- A number for an unsigned field of 32 bits. -/
def Num.u32 (n : Num) : Option Val :=
  match n.whole with
  | some v => if 0 ≤ v ∧ v < 4294967296 then some (.u32 (UInt32.ofNat v.toNat)) else none
  | none => none

/-- A number for a `float`. -/
def Num.f32 (n : Num) : Option Val :=
  match n.whole with
  | some v => if -16777216 < v ∧ v < 16777216 then some (.f32 (f32Bits v)) else none
  | none => none

/-- The values of the enumerations in the messages of the Go descriptor. -/
def goEnums : List (Str × Nat) :=
  match parseFile goDesc with
  | none => []
  | some f => f.messages.flatMap fun m => m.enums.flatMap (·.values)

/-- `unmarshalScalar` of `protojson`, with `DiscardUnknown`: a name that is not one of the
enumeration is taken for the default. There is one enumeration, `rpc/comfo/comfo.proto:124-131`. -/
def scalarVal : Kind → Json → Option Val
  | .bool, .bool b => some (.bool b)
  | .uint32, .num n => n.u32
  | .uint32, .str s => (numberIn s).bind Num.u32
  | .float, .num n => n.f32
  | .float, .str s => (numberIn s).bind Num.f32
  | .string, .str s => some (.str s)
  | .enum _, .str s =>
    match goEnums.find? fun e => strBytes e.1 = s with
    | some e => some (.enum e.2)
    | none => some (.enum 0)
  | .enum _, .num n =>
    match n.whole with
    | some v => if -2147483648 ≤ v ∧ v < 2147483648 then some (.enum v) else none
    | none => none
  | _, _ => none

/-- The value of a field of a message: `null` is the default, and twice the same name is an error. The
names are those of `rpc/comfo/comfo.proto`; the names for JSON in the descriptor are the same. -/
def fieldOf (l : List (Bytes × Json)) (f : FieldDesc) : Option Val :=
  match l.filter fun kv => kv.1 = strBytes f.name with
  | [] => some f.kind.zero
  | [(_, .null)] => some f.kind.zero
  | [(_, v)] => scalarVal f.kind v
  | _ => none

/-- `protojson.UnmarshalOptions{DiscardUnknown: true}.Unmarshal` into the `i`-th message. -/
def msgOf (i : Nat) : Json → Option Struct
  | .obj l => (allOf (fieldOf l) (goMsg i)).map fun vs => ((goMsg i).map (·.num)).zip vs
  | _ => none

/-- The request of a method from its body, as in `rpc/comfo/comfo.twirp.go:1248-1259`. -/
def jsonRequest (m : Method) (body : Bytes) : Option Call :=
  match decode true body with
  | none => none
  | some v => (msgOf (goInput m) v).map (goCall m)

theorem jsonRequest_method {m : Method} {b : Bytes} {c : Call} (h : jsonRequest m b = some c) :
    c.method = some m := by
  unfold jsonRequest at h
  split at h
  · cases h
  · rw [Option.map_eq_some_iff] at h
    obtain ⟨_, -, rfl⟩ := h
    cases m <;> rfl

/-- The answer of a method in the client, `rpc/comfo/comfo.twirp.go:3525-3531`. -/
def jsonAnswer (m : Method) (body : Bytes) : Option Struct :=
  match decode true body with
  | none => none
  | some v => msgOf (goOutput m) v

/-! ## Messages as JSON -/

/-- A hexadecimal digit, lower case. -/
def hexDigit (n : Nat) : UInt8 := UInt8.ofNat (if n < 10 then 48 + n else 87 + n)

/-- `\u00xx`. -/
def uEscape (b : UInt8) : Bytes :=
  [92, 117, 48, 48, hexDigit (b.toNat / 16), hexDigit (b.toNat % 16)]

/-- A byte of a string. -/
def quoted (b : UInt8) : Bytes :=
  if b = 34 ∨ b = 92 then [92, b]
  else if b = 8 then [92, 98]
  else if b = 12 then [92, 102]
  else if b = 10 then [92, 110]
  else if b = 13 then [92, 114]
  else if b = 9 then [92, 116]
  else if b < 32 then uEscape b
  else [b]

/-- A string, as `protojson` writes it. -/
def quote (s : Bytes) : Bytes := 34 :: s.flatMap quoted ++ [34]

/-- An integer. -/
def intText (v : Int) : Bytes := (if v < 0 then [45] else []) ++ digits 20 v.natAbs

/-- `marshalSingular` of `protojson`. Floats are written in full, as all below 10^21 are. -/
def valText : Kind → Val → Option Bytes
  | .bool, .bool b => some (if b then lit "true" else lit "false")
  | .uint32, .u32 v => some (digits 20 v.toNat)
  | .float, .f32 b => (f32Value b).map intText
  | .string, .str s => if validUtf8 s then some (quote s) else none
  | .enum _, .enum v =>
    match goEnums.find? fun e => (e.2 : Int) = v with
    | some e => some (quote (strBytes e.1))
    | none => some (intText v)
  | _, _ => none

/-- A member of an object. -/
def memberText (f : FieldDesc) (v : Val) : Option Bytes :=
  (valText f.kind v).map fun t => quote (strBytes f.name) ++ 58 :: t

/-- Members with commas between them; `space` is whether a space follows a comma, which depends on
the executable (`internal/detrand` of the protobuf library). -/
def joinText (space : Bool) : List Bytes → Bytes
  | [] => []
  | [t] => t
  | t :: ts => t ++ 44 :: ((if space then [32] else []) ++ joinText space ts)

/-- `protojson.MarshalOptions{UseProtoNames: true, EmitUnpopulated: all}.Marshal` of the `i`-th
message. -/
def msgText (space all : Bool) (i : Nat) (s : Struct) : Option Bytes :=
  match allOf (fun f => (s.lookup f.num).map fun v => (f, v)) (goMsg i) with
  | none => none
  | some fvs =>
    match allOf (fun fv : FieldDesc × Val => memberText fv.1 fv.2)
        (fvs.filter fun fv => all || decide (fv.2 ≠ fv.1.kind.zero)) with
    | none => none
    | some ts => some (123 :: joinText space ts ++ [125])

/-! ## Errors -/

/-- A string, as `encoding/json` writes it: also `<`, `>`, `&` and the two line separators are
escaped. -/
def htmlQuoted : Bytes → Bytes
  | 0xE2 :: 0x80 :: 0xA8 :: r => [92, 117, 50, 48, 50, 56] ++ htmlQuoted r
  | 0xE2 :: 0x80 :: 0xA9 :: r => [92, 117, 50, 48, 50, 57] ++ htmlQuoted r
  | b :: r => (if b = 60 ∨ b = 62 ∨ b = 38 then uEscape b else quoted b) ++ htmlQuoted r
  | [] => []

def htmlQuote (s : Bytes) : Bytes := 34 :: htmlQuoted (toValid s.length s) ++ [34]

/-- The order of byte strings. -/
def before : Bytes → Bytes → Bool
  | [], [] => false
  | [], _ :: _ => true
  | _ :: _, [] => false
  | a :: as, b :: bs => a < b || (a = b && before as bs)

/-- A map with one entry more, which replaces one with the same key; sorted by key. -/
def insertKey (k v : Bytes) : List (Bytes × Bytes) → List (Bytes × Bytes)
  | [] => [(k, v)]
  | e :: l =>
    if k = e.1 then (k, v) :: l
    else if before k e.1 then (k, v) :: e :: l
    else e :: insertKey k v l

/-- The entries of a map in order. -/
def sortedMap (l : List (Bytes × Bytes)) : List (Bytes × Bytes) :=
  l.foldr (fun kv acc => insertKey kv.1 kv.2 acc) []

/-- `json.Marshal` of `twerrJSON`, `rpc/comfo/comfo.twirp.go:3224-3228`, `:3245`. -/
def errText (t : TwerrJson) : Bytes :=
  lit "{\"code\":" ++ htmlQuote t.code ++ lit ",\"msg\":" ++ htmlQuote t.msg ++
    (if t.metas = [] then []
      else lit ",\"meta\":{" ++
        joinText false ((sortedMap t.metas).map fun kv => htmlQuote kv.1 ++ 58 :: htmlQuote kv.2) ++
        [125]) ++ [125]

/-- Lower case, as in the comparison of names by `encoding/json`. Left out: two letters outside of
ASCII that it takes for `s` and `k`. -/
def lower (b : UInt8) : UInt8 := if 65 ≤ b ∧ b ≤ 90 then b + 32 else b

/-- A string field; `null` changes nothing. -/
def strOr (old : Bytes) : Json → Option Bytes
  | .null => some old
  | .str s => some s
  | _ => none

/-- The entries of `meta` on top of those that are there; a later one replaces an earlier one. -/
def metaOf : List (Bytes × Bytes) → List (Bytes × Json) → Option (List (Bytes × Bytes))
  | acc, [] => some acc
  | acc, (k, v) :: l =>
    match strOr [] v with
    | none => none
    | some s => metaOf ((k, s) :: acc) l

/-- The members of an error one after the other, with `DisallowUnknownFields`. -/
def errMembers : TwerrJson → List (Bytes × Json) → Option TwerrJson
  | t, [] => some t
  | t, (k, v) :: l =>
    if k.map lower = lit "code" then
      match strOr t.code v with
      | none => none
      | some s => errMembers { t with code := s } l
    else if k.map lower = lit "msg" then
      match strOr t.msg v with
      | none => none
      | some s => errMembers { t with msg := s } l
    else if k.map lower = lit "meta" then
      match v with
      | .null => errMembers { t with metas := [] } l
      | .obj o =>
        match metaOf t.metas o with
        | none => none
        | some ms => errMembers { t with metas := ms } l
      | _ => none
    else none

/-- `rpc/comfo/comfo.twirp.go:3275-3278`: an error from the body of a response. -/
def errOf (body : Bytes) : Option TwerrJson :=
  match decode false body with
  | some (.obj l) => errMembers ⟨[], [], []⟩ l
  | some .null => some ⟨[], [], []⟩
  | _ => none

/-- The JSON libraries: `a` and `b` are whether the executables of the client and the server write a
space after a comma. -/
def goJson (a b : Bool) : JsonLib where
  encErr t := some (errText t)
  decErr := errOf
  encReq m s := msgText a false (goInput m) s
  encRes m s := msgText b true (goOutput m) s
  decRes := jsonAnswer

end Comfo.Json
