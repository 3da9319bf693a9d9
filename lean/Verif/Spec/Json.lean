import Verif.Model.Json
import Verif.Spec.Device
import Verif.Spec.GoClient
import Verif.Spec.Http
/-!
# JSON (RFC 8259), and what requests and answers say in it (C89, C90)
-/
namespace Spec
open Comfo Comfo.Pb Comfo.Twirp Comfo.Json

/-! ## Text -/

/-- White space. -/
def Ws (w : Bytes) : Prop := ∀ b ∈ w, b = 32 ∨ b = 9 ∨ b = 10 ∨ b = 13

def Digits (ds : Bytes) : Prop := ∀ d ∈ ds, 48 ≤ d ∧ d ≤ 57

/-- The value of digits. -/
def decimalValue (ds : Bytes) : Nat := ds.foldl (fun n d => 10 * n + (d.toNat - 48)) 0

/-- Digits without a zero in front. -/
inductive IntPart : Bytes → Prop
  | zero : IntPart [48]
  | more {d ds} : 49 ≤ d → d ≤ 57 → Digits ds → IntPart (d :: ds)

/-- A fraction, with its digits. -/
inductive FracPart : Bytes → Bytes → Prop
  | none : FracPart [] []
  | some {ds} : ds ≠ [] → Digits ds → FracPart ds (46 :: ds)

/-- An exponent. -/
inductive ExpPart : Int → Bytes → Prop
  | none : ExpPart 0 []
  | plus {e sgn ds} : e = 101 ∨ e = 69 → sgn = [] ∨ sgn = [43] → ds ≠ [] → Digits ds →
      ExpPart (decimalValue ds) (e :: (sgn ++ ds))
  | minus {e ds} : e = 101 ∨ e = 69 → ds ≠ [] → Digits ds →
      ExpPart (-(decimalValue ds : Int)) (e :: 45 :: ds)

/-- A number. -/
inductive NumText : Num → Bytes → Prop
  | mk {neg i f ft e et} : IntPart i → FracPart f ft → ExpPart e et →
      NumText ⟨neg, decimalValue (i ++ f), e - f.length⟩ ((if neg then [45] else []) ++ i ++ ft ++ et)

/-- The escapes of two characters: what follows the backslash, and what is meant. -/
def shortEscapes : List (UInt8 × UInt8) :=
  [(34, 34), (92, 92), (47, 47), (98, 8), (102, 12), (110, 10), (114, 13), (116, 9)]

/-- A hexadecimal digit. -/
def HexDigit (n : Nat) (b : UInt8) : Prop :=
  (n < 10 ∧ b.toNat = 48 + n) ∨ (10 ≤ n ∧ n < 16 ∧ (b.toNat = 87 + n ∨ b.toNat = 55 + n))

/-- `\u` and four hexadecimal digits. -/
inductive UEscape : Nat → Bytes → Prop
  | mk {x y z w a b c d} : HexDigit x a → HexDigit y b → HexDigit z c → HexDigit w d →
      UEscape (4096 * x + 256 * y + 16 * z + w) [92, 117, a, b, c, d]

/-- UTF-8 of all code points. -/
def utf8Full (c : Nat) : Bytes :=
  if c < 0x10000 then utf8 c
  else [UInt8.ofNat (0xF0 + c / 262144), UInt8.ofNat (0x80 + c / 4096 % 64),
    UInt8.ofNat (0x80 + c / 64 % 64), UInt8.ofNat (0x80 + c % 64)]

/-- What is between the quotes of a string; the first argument is the string. -/
inductive Chars : Bytes → Bytes → Prop
  | nil : Chars [] []
  | plain {b s t} : 32 ≤ b → b ≠ 34 → b ≠ 92 → Chars s t → Chars (b :: s) (b :: t)
  | esc {e b s t} : (e, b) ∈ shortEscapes → Chars s t → Chars (b :: s) (92 :: e :: t)
  | unicode {c u s t} : UEscape c u → c < 0xD800 ∨ 0xE000 ≤ c → Chars s t →
      Chars (utf8Full c ++ s) (u ++ t)
  | pair {c d u v s t} : UEscape (0xD800 + c) u → UEscape (0xDC00 + d) v → c < 1024 → d < 1024 →
      Chars s t → Chars (utf8Full (0x10000 + 1024 * c + d) ++ s) (u ++ (v ++ t))

/-- A string. -/
def StrText (s t : Bytes) : Prop := validUtf8 s = true ∧ ∃ u, Chars s u ∧ t = 34 :: (u ++ [34])

/-- A value that is not an array or an object. -/
inductive Scalar : Json → Bytes → Prop
  | null : Scalar .null [110, 117, 108, 108]
  | true : Scalar (.bool true) [116, 114, 117, 101]
  | false : Scalar (.bool false) [102, 97, 108, 115, 101]
  | num {n t} : NumText n t → Scalar (.num n) t
  | str {s t} : StrText s t → Scalar (.str s) t

/-- The elements of an array; `T` says what the text of a value is. -/
inductive Elems (T : Json → Bytes → Prop) : List Json → Bytes → Prop
  | one {v w t w'} : Ws w → T v t → Ws w' → Elems T [v] (w ++ (t ++ w'))
  | more {v w t w' l r} : Ws w → T v t → Ws w' → Elems T l r →
      Elems T (v :: l) (w ++ (t ++ (w' ++ 44 :: r)))

/-- The members of an object. -/
inductive Members (T : Json → Bytes → Prop) : List (Bytes × Json) → Bytes → Prop
  | one {k v w₁ n w₂ w₃ t w₄} : Ws w₁ → StrText k n → Ws w₂ → Ws w₃ → T v t → Ws w₄ →
      Members T [(k, v)] (w₁ ++ (n ++ (w₂ ++ 58 :: (w₃ ++ (t ++ w₄)))))
  | more {k v w₁ n w₂ w₃ t w₄ l r} : Ws w₁ → StrText k n → Ws w₂ → Ws w₃ → T v t → Ws w₄ →
      Members T l r →
      Members T ((k, v) :: l) (w₁ ++ (n ++ (w₂ ++ 58 :: (w₃ ++ (t ++ (w₄ ++ 44 :: r))))))

/-- The text of a value in which arrays and objects are nested at most so deep. -/
def Text : Nat → Json → Bytes → Prop
  | 0, v, bs => Scalar v bs
  | d + 1, v, bs => Scalar v bs ∨
      (∃ l u, v = .arr l ∧ bs = 91 :: (u ++ [93]) ∧ ((l = [] ∧ Ws u) ∨ Elems (Text d) l u)) ∨
      (∃ l u, v = .obj l ∧ bs = 123 :: (u ++ [125]) ∧ ((l = [] ∧ Ws u) ∨ Members (Text d) l u))

/-- A body: an object, possibly after white space; anything may follow it. Go reads at most 10000
nested arrays and objects. -/
def IsBody (l : List (Bytes × Json)) (body : Bytes) : Prop :=
  ∃ w t rest, body = w ++ (t ++ rest) ∧ Ws w ∧ Text 10000 (.obj l) t

/-! ## Requests -/

/-- A member of an object: not there or `null` (`none`), or there, once. -/
inductive Member (l : List (Bytes × Json)) (name : String) : Option Json → Prop
  | absent : (∀ kv ∈ l, kv.1 ≠ lit name) → Member l name none
  | null {a b} : l = a ++ (lit name, .null) :: b → (∀ kv ∈ a ++ b, kv.1 ≠ lit name) →
      Member l name none
  | there {a v b} : l = a ++ (lit name, v) :: b → (∀ kv ∈ a ++ b, kv.1 ≠ lit name) → v ≠ .null →
      Member l name (some v)

/-- A number is this integer. -/
def IsInt (n : Num) (v : Int) : Prop :=
  (if n.neg then -(n.mant : Int) else n.mant) * (10 : Int) ^ n.exp.toNat = v * (10 : Int) ^ (-n.exp).toNat

/-- Letters, digits and `-+._`, which must not follow a number. -/
def WordByte (b : UInt8) : Prop :=
  (48 ≤ b ∧ b ≤ 57) ∨ (65 ≤ b ∧ b ≤ 90) ∨ (97 ≤ b ∧ b ≤ 122) ∨ b ∈ [45, 43, 46, 95]

/-- The number a string begins with. The string does not end with white space. -/
def NumberIn (s : Bytes) (n : Num) : Prop :=
  ∃ t r, s = t ++ r ∧ NumText n t ∧ (∀ b, r.head? = some b → ¬ WordByte b) ∧
    ∀ e ∈ spaceEncodings, ¬ e <:+ s

/-- A number of 32 bits without sign; it may be written as a string. -/
inductive IsU32 : Json → UInt32 → Prop
  | num {n v} : IsInt n v.toNat → IsU32 (.num n) v
  | str {s n v} : NumberIn s n → IsInt n v.toNat → IsU32 (.str s) v

/-- A boolean. -/
inductive IsBool : Json → Bool → Prop
  | mk {b} : IsBool (.bool b) b

/-- The names of the caches, `rpc/comfo/comfo.proto:124-131`. -/
def cacheNames : List (Bytes × Int) :=
  [(lit "BootInfo", 0), (lit "Fans", 1), (lit "Temps", 2), (lit "Profiles", 3), (lit "Bypass", 4),
    (lit "All", 10)]

/-- A cache, by name or by number. -/
inductive IsCache : Json → Int → Prop
  | name {s t} : (s, t) ∈ cacheNames → IsCache (.str s) t
  | num {n t} : IsInt n t → -2147483648 ≤ t → t < 2147483648 → IsCache (.num n) t

/-- What stands for a cache: also any other name, for the cache with number 0. -/
inductive TakenForCache : Json → Int → Prop
  | cache {v t} : IsCache v t → TakenForCache v t
  | other {s} : (∀ t, (s, t) ∉ cacheNames) → TakenForCache (.str s) 0

/-- The value of a member: `zero` if it is not there. -/
def Holds (R : Json → α → Prop) (zero : α) (l : List (Bytes × Json)) (name : String) (a : α) : Prop :=
  (Member l name none ∧ a = zero) ∨ ∃ v, Member l name (some v) ∧ R v a

/-- What an object asks for as the request of a method. -/
def Asks (m : Method) (l : List (Bytes × Json)) (c : Call) : Prop :=
  match m with
  | .getBootInfo => c = .getBoot
  | .getTemps => c = .getTemps
  | .getBypass => c = .getBypass
  | .getFans => c = .getFans
  | .getFanProfiles => c = .getProfiles
  | .getErrors => c = .getErrors
  | .setFanSpeed => ∃ a r, c = .setSpeed a r ∧ Holds IsU32 0 l "Abs" a ∧ Holds IsBool false l "Rel" r
  | .setComfortTemp => ∃ t, c = .setComfort t ∧ Holds IsU32 0 l "ComfortTemp" t
  | .setFanProfile => ∃ p t, c = .setProfile p t ∧ Holds IsU32 0 l "Mode" p ∧
      Holds IsU32 0 l "TargetSpeed" t
  | .flushCache => ∃ t, c = .flush t ∧ Holds TakenForCache 0 l "Cache" t

/-- A request to flush a cache given by its name flushes this cache, and is refused if there is no
cache of that name. -/
def FlushNamed (clean : Str → Str) (cd : Codec) (cv : FloatConv) : Prop :=
  ∀ r l s, MeantFor clean .flushCache .json r → IsBody l r.body → Member l "Cache" (some (.str s)) →
    (∃ t, (s, t) ∈ cacheNames ∧
      serve clean cd cv r = ((Call.flush t).prog cv).bind fun a => .ret a.http) ∨
    ((∀ t, (s, t) ∉ cacheNames) ∧ serve clean cd cv r = .ret .malformed)

/-! ## Answers -/

/-- An integer. -/
def int (v : Int) : Json := .num ⟨decide (v < 0), v.natAbs, 0⟩

/-- A number without sign. -/
def nat (v : UInt32) : Json := int v.toNat

/-- The members of the object in the body of an answer, `rpc/comfo/comfo.proto:25-141`. -/
def answerJson : Resp → List (Bytes × Json)
  | .bypass (.ok b) => [(lit "Factor", nat b.factor), (lit "Level", nat b.level),
      (lit "Correction", nat b.correction), (lit "SummerMode", .bool b.summerMode)]
  | .boot (.ok b) => [(lit "MajorVersion", nat b.majorVersion),
      (lit "MinorVersion", nat b.minorVersion), (lit "BetaVersion", nat b.betaVersion),
      (lit "DeviceName", .str b.deviceName)]
  | .comfort (.ok c) => [(lit "Modified", .bool c.modified), (lit "OriginalTemp", nat c.originalTemp),
      (lit "TargetTemp", nat c.targetTemp), (lit "ReqTime", .str (durString c.reqTime))]
  | .errors (.ok e) => [(lit "Filter", .bool e.filter)]
  | .fans (.ok f) => [(lit "InPercent", nat f.inPercent), (lit "OutPercent", nat f.outPercent),
      (lit "InSpeed", nat f.inSpeed), (lit "OutSpeed", nat f.outSpeed)]
  | .profiles (.ok p) => [(lit "OutAway", nat p.outAway), (lit "OutLow", nat p.outLow),
      (lit "OutMid", nat p.outMid), (lit "OutHigh", nat p.outHigh),
      (lit "InFanActive", .bool p.inFanActive), (lit "InAway", nat p.inAway),
      (lit "InLow", nat p.inLow), (lit "InMid", nat p.inMid), (lit "InHigh", nat p.inHigh),
      (lit "CurrentOut", nat p.currentOut), (lit "CurrentIn", nat p.currentIn),
      (lit "CurrentMode", nat p.currentMode)]
  | .speed (.ok s) => [(lit "Modified", .bool s.modified), (lit "OriginalSpeed", nat s.originalSpeed),
      (lit "TargetSpeed", nat s.targetSpeed), (lit "ReqTime", .str (durString s.reqTime))]
  | .temps (.ok t) => [(lit "Comfort", int t.comfort), (lit "OutsideAir", int t.outsideAir),
      (lit "SupplyAir", int t.supplyAir), (lit "InsideAir", int t.insideAir),
      (lit "ExhaustAir", int t.exhaustAir), (lit "GeoHeat", int t.geoHeat),
      (lit "Reheating", int t.reheating), (lit "KitchenHood", int t.kitchenHood)]
  | .flushed (.ok f) => [(lit "Success", .bool f.success), (lit "ReqTime", .str (durString f.reqTime))]
  | _ => []

/-- The members of the object in the body of an error: the metadata is left out if there is none. -/
def IsErrorJson (t : TwerrJson) (l : List (Bytes × Json)) : Prop :=
  ∃ ms, l = [(lit "code", .str t.code), (lit "msg", .str t.msg)] ++ ms ∧
    ((t.metas = [] ∧ ms = []) ∨ ∃ kvs : List (Bytes × Bytes),
      ms = [(lit "meta", .obj (kvs.map fun kv => (kv.1, .str kv.2)))] ∧
        (kvs.map (·.1)).Nodup ∧ ∀ k, kvs.lookup k = t.metas.lookup k)

end Spec
