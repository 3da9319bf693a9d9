/-!
# What the fields of the unit's replies mean, independent of the model
-/
namespace Spec

/-- Degrees Celsius of a temperature byte, rounded down. -/
def degrees (b : UInt8) : Int := (b.toNat : Int) / 2 - 20

/-- Big-endian value of a byte string. -/
def bigEndian (bs : List UInt8) : Nat := bs.foldl (fun n b => n * 256 + b.toNat) 0

/-- The code points with the Unicode property White_Space. -/
def spaceRunes : List Nat :=
  [0x09, 0x0A, 0x0B, 0x0C, 0x0D, 0x20, 0x85, 0xA0, 0x1680, 0x2000, 0x2001, 0x2002, 0x2003, 0x2004,
   0x2005, 0x2006, 0x2007, 0x2008, 0x2009, 0x200A, 0x2028, 0x2029, 0x202F, 0x205F, 0x3000]

/-- UTF-8 encoding of code points below 0x10000. -/
def utf8 (c : Nat) : List UInt8 :=
  if c < 0x80 then [UInt8.ofNat c]
  else if c < 0x800 then [UInt8.ofNat (0xC0 + c / 64), UInt8.ofNat (0x80 + c % 64)]
  else [UInt8.ofNat (0xE0 + c / 4096), UInt8.ofNat (0x80 + c / 64 % 64),
        UInt8.ofNat (0x80 + c % 64)]

/-- The byte strings that encode one white-space character. -/
def spaceEncodings : List (List UInt8) := spaceRunes.map utf8

/-- `bs` is nothing but white space. -/
inductive AllSpace : List UInt8 → Prop
  | nil : AllSpace []
  | cons {e bs} : e ∈ spaceEncodings → AllSpace bs → AllSpace (e ++ bs)

/-- A unit that receives the eight bytes of a fan-profile set command stores them so that they
show up in the 14-byte reply to the fan-profile query; the other six bytes are its own. -/
def storeProfiles : List UInt8 → List UInt8 → List UInt8
  | [oa, ol, om, ia, il, im, oh, ih], [_, _, _, _, _, _, c6, c7, c8, c9, _, _, c12, c13] =>
    [oa, ol, om, ia, il, im, c6, c7, c8, c9, oh, ih, c12, c13]
  | _, old => old

end Spec
