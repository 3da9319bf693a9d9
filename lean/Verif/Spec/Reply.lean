import Verif.Spec.Wire
import Verif.Spec.Stream
/-!
# What it means that received bytes contain a reply
-/
namespace Spec

/-- The received bytes start with two delimiters, then a frame body with the given command and
payload whose length byte and checksum verify, then a delimiter. (The reader does not insist
on ACK, start and end in this order, so neither does this relation.) -/
def ReplyIn (bytes : List UInt8) (cmd : UInt8) (payload : List UInt8) : Prop :=
  ∃ d1 d2 d3 z len raw ck rest,
    IsDelim d1 ∧ IsDelim d2 ∧ IsDelim d3 ∧
    bytes = [7, d1, 7, d2] ++ ([z, cmd, len] ++ raw ++ [ck]) ++ [7, d3] ++ rest ∧
    NoDelim ([z, cmd, len] ++ raw ++ [ck]) ∧
    Unescapes raw payload ∧ len.toNat = payload.length ∧ ck = checksum cmd payload

end Spec
