import Verif.Model.Client
/-!
# How results are printed in Python, `python/comfo/types.py:11-16`

`pformat` and `repr` are Python's. `pformat` writes a dictionary on one line if it has at most 80
characters, else with one entry to a line. A string that would not fit on its own line is broken up as
well, which is not modelled: the theorems are about names for which that does not happen.
-/
namespace Comfo

/-- The values in the dictionaries. Temperatures are floats that are whole numbers (C18). -/
inductive Field
  | int (n : Nat)
  | float (t : Int)
  | bool (b : Bool)
  | str (s : Str)
  deriving DecidableEq

/-- `repr` of an integer; `k` is the number of digits at most. -/
def decText : Nat → Nat → Str
  | 0, _ => []
  | k + 1, n => if n < 10 then [Char.ofNat (48 + n)] else decText k (n / 10) ++ [Char.ofNat (48 + n % 10)]

/-- A hexadecimal digit, in lower case. -/
def hexCh (n : Nat) : Char := Char.ofNat (if n < 10 then 48 + n else 87 + n)

/-- The last `k` hexadecimal digits of a number. -/
def hexStr : Nat → Nat → Str
  | 0, _ => []
  | k + 1, n => hexStr k (n / 16) ++ [hexCh (n % 16)]

/-- `repr` of a string, between the quotes `q` (CPython, `unicode_repr`). `pr` is `str.isprintable`, of
which only the part outside ASCII is used. -/
def escapeCh (pr : Char → Bool) (q c : Char) : Str :=
  if c = q ∨ c = '\\' then ['\\', c]
  else if c = '\t' then "\\t".toList
  else if c = '\n' then "\\n".toList
  else if c = '\r' then "\\r".toList
  else if c.toNat < 32 ∨ c.toNat = 127 then "\\x".toList ++ hexStr 2 c.toNat
  else if c.toNat < 127 ∨ pr c = true then [c]
  else if c.toNat ≤ 0xFF then "\\x".toList ++ hexStr 2 c.toNat
  else if c.toNat ≤ 0xFFFF then "\\u".toList ++ hexStr 4 c.toNat
  else "\\U".toList ++ hexStr 8 c.toNat

/-- The quotes: single ones, unless the string contains these and no double ones. -/
def quoteOf (s : Str) : Char := if '\'' ∈ s ∧ '"' ∉ s then '"' else '\''

/-- `repr` of a string. -/
def reprStr (pr : Char → Bool) (s : Str) : Str :=
  quoteOf s :: (s.flatMap (escapeCh pr (quoteOf s)) ++ [quoteOf s])

/-- `repr` of a value. Floats that are whole numbers below 10^16 are written with ".0". -/
def Field.repr (pr : Char → Bool) : Field → Str
  | .int n => decText 20 n
  | .float t => if t < 0 then '-' :: (decText 20 t.natAbs ++ ".0".toList) else decText 20 t.natAbs ++ ".0".toList
  | .bool b => if b then "True".toList else "False".toList
  | .str s => reprStr pr s

/-- An entry. The keys are identifiers, for which `repr` adds quotes. -/
def entryText (pr : Char → Bool) (e : Str × Field) : Str :=
  '\'' :: (e.1 ++ "': ".toList ++ e.2.repr pr)

/-- Entries with something between them. -/
def joined (sep : Str) : List Str → Str
  | [] => []
  | [x] => x
  | x :: xs => x ++ sep ++ joined sep xs

/-- `pformat(d, sort_dicts=False)`. -/
def pformat (pr : Char → Bool) (d : List (Str × Field)) : Str :=
  let line := '{' :: (joined ", ".toList (d.map (entryText pr)) ++ ['}'])
  if line.length ≤ 80 then line
  else '{' :: (joined ",\n ".toList (d.map (entryText pr)) ++ ['}'])

/-- `python/comfo/types.py:22-27`, the dictionary of the object. `name` is the text of which
`DeviceName` has the bytes. -/
def PyBootInfo.dict (o : PyBootInfo) (name : Str) : List (Str × Field) :=
  [("MajorVersion".toList, .int o.MajorVersion), ("MinorVersion".toList, .int o.MinorVersion),
   ("BetaVersion".toList, .int o.BetaVersion), ("DeviceName".toList, .str name)]

/-- `python/comfo/types.py:33-38`. -/
def PyBypass.dict (o : PyBypass) : List (Str × Field) :=
  [("Factor".toList, .int o.Factor), ("Level".toList, .int o.Level),
   ("Correction".toList, .int o.Correction), ("SummerMode".toList, .bool o.SummerMode)]

/-- `python/comfo/types.py:44-53`. -/
def PyTemps.dict (o : PyTemps) : List (Str × Field) :=
  [("Comfort".toList, .float o.Comfort), ("OutsideAir".toList, .float o.OutsideAir),
   ("SupplyAir".toList, .float o.SupplyAir), ("InsideAir".toList, .float o.InsideAir),
   ("ExhaustAir".toList, .float o.ExhaustAir), ("GeoHeat".toList, .float o.GeoHeat),
   ("Reheating".toList, .float o.Reheating), ("KitchenHood".toList, .float o.KitchenHood)]

/-- `python/comfo/types.py:59-64`. -/
def PyFans.dict (o : PyFans) : List (Str × Field) :=
  [("InPercent".toList, .int o.InPercent), ("OutPercent".toList, .int o.OutPercent),
   ("InSpeed".toList, .int o.InSpeed), ("OutSpeed".toList, .int o.OutSpeed)]

/-- `python/comfo/types.py:77-92`. -/
def PyFanProfiles.dict (o : PyFanProfiles) : List (Str × Field) :=
  [("OutAway".toList, .int o.OutAway), ("OutLow".toList, .int o.OutLow), ("OutMid".toList, .int o.OutMid),
   ("OutHigh".toList, .int o.OutHigh), ("InFanActive".toList, .bool o.InFanActive),
   ("InAway".toList, .int o.InAway), ("InLow".toList, .int o.InLow), ("InMid".toList, .int o.InMid),
   ("InHigh".toList, .int o.InHigh), ("CurrentOut".toList, .int o.CurrentOut),
   ("CurrentIn".toList, .int o.CurrentIn), ("CurrentMode".toList, .int o.CurrentMode)]

/-- `python/comfo/types.py:98-100`. -/
def PyErrors.dict (o : PyErrors) : List (Str × Field) := [("Filter".toList, .bool o.Filter)]

end Comfo
