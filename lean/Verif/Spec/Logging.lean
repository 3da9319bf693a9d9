import Verif.Spec.Json
import Verif.Spec.Text
import Verif.Spec.Path
import Verif.Model.Logging
/-! # How the log is read (C92, C93) -/
namespace Spec
open Comfo Comfo.Pb Comfo.Twirp Comfo.Log

/-- A hexadecimal digit. -/
def nibble (b : UInt8) : Option Nat :=
  let n := b.toNat
  if 48 ≤ n ∧ n ≤ 57 then some (n - 48) else if 97 ≤ n ∧ n ≤ 102 then some (n - 87) else none

/-- A number of `k` hexadecimal digits, and what follows. -/
def readHex : Nat → Nat → Bytes → Option (Nat × Bytes)
  | 0, n, r => some (n, r)
  | _ + 1, _, [] => none
  | k + 1, n, b :: r => (nibble b).bind fun d => readHex k (16 * n + d) r

/-- The escapes of two characters of Go. -/
def goEscapes : List (UInt8 × UInt8) :=
  [(97, 7), (98, 8), (102, 12), (110, 10), (114, 13), (116, 9), (118, 11), (92, 92), (34, 34)]

/-- A Go string after the opening quote, and what follows the closing one: the string ends at the
first quote without a backslash. `n` bounds the number of characters. -/
def readQuoted : Nat → Bytes → Option (Bytes × Bytes)
  | 0, _ => none
  | _ + 1, [] => none
  | n + 1, b :: r =>
    if b = 34 then some ([], r)
    else if b < 32 then none
    else if b ≠ 92 then (readQuoted n r).map fun (s, r) => (b :: s, r)
    else
      match r with
      | [] => none
      | 120 :: r => (readHex 2 0 r).bind fun (c, r) =>
          (readQuoted n r).map fun (s, r) => (UInt8.ofNat c :: s, r)
      | 117 :: r => (readHex 4 0 r).bind fun (c, r) =>
          (readQuoted n r).map fun (s, r) => (utf8Full c ++ s, r)
      | 85 :: r => (readHex 8 0 r).bind fun (c, r) =>
          (readQuoted n r).map fun (s, r) => (utf8Full c ++ s, r)
      | e :: r => (goEscapes.lookup e).bind fun c => (readQuoted n r).map fun (s, r) => (c :: s, r)

/-- A byte of a word without quotes. -/
def bare (b : UInt8) : Bool := 32 < b && b ≠ 34 && b ≠ 61

/-- A word, with or without quotes, and what follows. -/
def readWord : Bytes → Option (Bytes × Bytes)
  | 34 :: r => readQuoted r.length r
  | r => if r.takeWhile bare = [] then none else some (r.takeWhile bare, r.dropWhile bare)

/-- A list of at most `n` keys and values, separated by spaces. -/
def readPairs : Nat → Bytes → Option (List (Bytes × Bytes))
  | 0, _ => none
  | n + 1, l =>
    match readWord l with
    | some (k, 61 :: r) =>
      match readWord r with
      | some (v, []) => some [(k, v)]
      | some (v, 32 :: r) => (readPairs n r).map fun ps => (k, v) :: ps
      | _ => none
    | _ => none

/-- A line of the log, without the line feed. -/
def readLine (l : Bytes) : Option (List (Bytes × Bytes)) := readPairs l.length l

/-- The lines of a text, each of which ends with a line feed. -/
def linesOf : Bytes → Option (List Bytes)
  | [] => some []
  | b :: r =>
    if b = 10 then (linesOf r).map ([] :: ·)
    else
      match linesOf r with
      | some (l :: ls) => some ((b :: l) :: ls)
      | _ => none

/-- A log: the keys and values of each line. -/
def readLog (t : Bytes) : Option (List (List (Bytes × Bytes))) := (linesOf t).bind fun ls => ls.mapM readLine

example : readLine (lit "level=INFO msg=\"a b\\\"\\n\\x00\"") =
    some [(lit "level", lit "INFO"), (lit "msg", lit "a b\"" ++ [10, 0])] ∧
    readLine (lit "level=INFO msg=a=b") = none ∧ readLine (lit "level=INFO  msg=a") = none := by
  decide +kernel

/-- The text of a value: a string as it is, a duration as Go writes it. -/
def Says : Value → Bytes → Prop
  | .str s, t => t = s
  | .dur d, t => readDuration t = some d

/-- The attributes of a record, as read from a line. -/
def SaysAll : List (Bytes × Value) → List (Bytes × Bytes) → Prop
  | [], [] => True
  | a :: as, p :: ps => p.1 = a.1 ∧ Says a.2 p.2 ∧ SaysAll as ps
  | _, _ => False

/-- A line with the time, the level, the message and the attributes of a record, in this order and
nothing else. -/
def Tells (time : Bytes) (r : Record) : List (Bytes × Bytes) → Prop
  | (k₁, v₁) :: (k₂, v₂) :: (k₃, v₃) :: ps =>
    k₁ = lit "time" ∧ v₁ = time ∧ k₂ = lit "level" ∧ v₂ = (match r.level with
      | .debug => lit "DEBUG" | .info => lit "INFO" | .error => lit "ERROR") ∧
    k₃ = lit "msg" ∧ v₃ = r.msg ∧ SaysAll r.attrs ps
  | _ => False

/-- One line for each record that is to be logged, in the same order. Debug records are logged only
if asked for. -/
def Logs (debug : Bool) : List (Bytes × Record) → List (List (Bytes × Bytes)) → Prop
  | [], [] => True
  | (_, r) :: rs, [] => (r.level = .debug ∧ debug = false) ∧ Logs debug rs []
  | (t, r) :: rs, l :: ls =>
    (r.level = .debug ∧ debug = false ∧ Logs debug rs (l :: ls)) ∨
    (¬ (r.level = .debug ∧ debug = false) ∧ Tells t r l ∧ Logs debug rs ls)
  | [], _ :: _ => False

/-- A time stamp: no spaces or quotes. -/
def Stamp (t : Bytes) : Prop := t ≠ [] ∧ ∀ b ∈ t, bare b = true

/-- Durations of less than 292 years. -/
def InRange : Value → Prop
  | .str _ => True
  | .dur d => d.natAbs ≤ 9223372036854775808

/-- The path is canonical and below the prefix of the service. -/
def Below (r : HttpReq) : Prop :=
  Canonical r.path ∧ ∃ rest, r.path = "/twirp/comfo.api.Comfo/".toList ++ rest

/-- The record of a request that came at `t₀` and was answered at `t₁`. -/
def RequestRecord (method uri : Bytes) (t₀ t₁ : Int) (rec : Record) : Prop :=
  rec.level = .debug ∧ rec.msg = lit "Request" ∧ ∃ d, rec.attrs = [(lit "method", .str method),
    (lit "URI", .str uri), (lit "route", .str (lit "twirp")), (lit "duration", .dur d)] ∧
    InRange (.dur d) ∧ ((t₁ - t₀).natAbs < 9223372036854775808 → d = t₁ - t₀)

/-- The beginning of the messages on a cache. -/
def cacheTitle : CacheId → Bytes
  | .boot => lit "BootInfoCache."
  | .bypass => lit "BypassCache."
  | .temps => lit "TempCache."
  | .fans => lit "FanCache."
  | .profiles => lit "FanProfilesCache."
  | .errors => lit "Errors."

/-- The record reports that cache `id` could not be refreshed, because of `e`. -/
def Reports (W : Wording) (id : CacheId) (e : Err) (r : Record) : Prop :=
  r.level = .error ∧ (∃ rest, r.msg = cacheTitle id ++ rest) ∧
    r.attrs = [(lit "error", .str (errorText W (.lib e)))]

end Spec
