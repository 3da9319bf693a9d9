import Verif.Spec.Async
import Verif.Model.Repr
/-!
# How a printed result is read (C99)

A reader for dictionaries as they are written in Python, with the values that occur.
-/
namespace Spec
open Comfo

/-- The value of a digit. -/
def hexVal? (c : Char) : Option Nat :=
  if '0' ≤ c ∧ c ≤ '9' then some (c.toNat - 48)
  else if 'a' ≤ c ∧ c ≤ 'f' then some (c.toNat - 87)
  else none

/-- A character by its code, in hexadecimal digits. -/
def charOf (ds : Str) : Option Char :=
  (ds.foldl (fun n d => n.bind fun n => (hexVal? d).map fun d => 16 * n + d) (some 0)).bind fun n =>
    if n.isValidChar then some (Char.ofNat n) else none

/-- The text of a string literal, up to the quote `q`, and what follows. -/
def readStr (q : Char) : Str → Option (Str × Str)
  | [] => none
  | '\\' :: 'x' :: a :: b :: r =>
    (charOf [a, b]).bind fun c => (readStr q r).map fun x => (c :: x.1, x.2)
  | '\\' :: 'u' :: a :: b :: c :: d :: r =>
    (charOf [a, b, c, d]).bind fun c => (readStr q r).map fun x => (c :: x.1, x.2)
  | '\\' :: 'U' :: a :: b :: c :: d :: e :: f :: g :: h :: r =>
    (charOf [a, b, c, d, e, f, g, h]).bind fun c => (readStr q r).map fun x => (c :: x.1, x.2)
  | '\\' :: 't' :: r => (readStr q r).map fun x => ('\t' :: x.1, x.2)
  | '\\' :: 'n' :: r => (readStr q r).map fun x => ('\n' :: x.1, x.2)
  | '\\' :: 'r' :: r => (readStr q r).map fun x => ('\r' :: x.1, x.2)
  | '\\' :: c :: r =>
    if c = '\\' ∨ c = '\'' ∨ c = '"' then (readStr q r).map fun x => (c :: x.1, x.2) else none
  | c :: r => if c = q then some ([], r) else (readStr q r).map fun x => (c :: x.1, x.2)

/-- A decimal digit. -/
def isDec (c : Char) : Bool := decide ('0' ≤ c ∧ c ≤ '9')

/-- The number that digits stand for. -/
def decimal (ds : Str) : Nat := ds.foldl (fun n d => 10 * n + (d.toNat - 48)) 0

/-- A number, whole or with ".0", and what follows. -/
def readNum (s : Str) : Option (Field × Str) :=
  match s with
  | '-' :: r =>
    if r.takeWhile isDec = [] then none
    else match r.dropWhile isDec with
      | '.' :: '0' :: r' => some (.float (- (decimal (r.takeWhile isDec) : Int)), r')
      | _ => none
  | r =>
    if r.takeWhile isDec = [] then none
    else match r.dropWhile isDec with
      | '.' :: '0' :: r' => some (.float (decimal (r.takeWhile isDec) : Int), r')
      | r' => some (.int (decimal (r.takeWhile isDec)), r')

/-- A value, and what follows. -/
def readField (s : Str) : Option (Field × Str) :=
  match s with
  | '\'' :: r => (readStr '\'' r).map fun x => (.str x.1, x.2)
  | '"' :: r => (readStr '"' r).map fun x => (.str x.1, x.2)
  | 'T' :: 'r' :: 'u' :: 'e' :: r => some (.bool true, r)
  | 'F' :: 'a' :: 'l' :: 's' :: 'e' :: r => some (.bool false, r)
  | r => readNum r

/-- Entries up to the closing brace, where the text ends. -/
def readEntries : Nat → Str → Option (List (Str × Field))
  | 0, _ => none
  | k + 1, '\'' :: s =>
    (readStr '\'' s).bind fun key =>
    match key.2 with
    | ':' :: ' ' :: r =>
      (readField r).bind fun v =>
      match v.2 with
      | ['}'] => some [(key.1, v.1)]
      | ',' :: ' ' :: r => (readEntries k r).map ((key.1, v.1) :: ·)
      | ',' :: '\n' :: ' ' :: r => (readEntries k r).map ((key.1, v.1) :: ·)
      | _ => none
    | _ => none
  | _, _ => none

/-- A dictionary. -/
def readDict : Str → Option (List (Str × Field))
  | '{' :: s => readEntries s.length s
  | _ => none

example : readDict "{'a': 1, 'b': 'x\\'y', 'c': -2.0,\n 'd': True}".toList =
    some [("a".toList, .int 1), ("b".toList, .str "x'y".toList), ("c".toList, .float (-2)),
      ("d".toList, .bool true)] ∧
    readDict "{'a': 1".toList = none ∧ readDict "{'a': 1.5}".toList = none := by decide +kernel

/-- A name of a field. -/
def PlainKey (s : Str) : Prop := s ≠ [] ∧ ∀ c ∈ s, ('a' ≤ c ∧ c ≤ 'z') ∨ ('A' ≤ c ∧ c ≤ 'Z')

end Spec
