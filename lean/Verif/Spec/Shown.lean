import Verif.Spec.Served
/-!
# What the unit shows (C111)
-/
namespace Spec
open Comfo

/-- What was written last. -/
def lastWritten (as : List Act) : Option (List UInt8) :=
  as.foldl (fun o a => match a with
    | .wrote bs _ => some bs
    | _ => o) none

/-- During `ext` the unit works, and `P` holds of what it shows for cache `id`: requests for it and acknowledgements are
taken, and whoever has asked and waits for the reply receives one that can be decoded, to a value that fulfils `P`. -/
structure Shows (id : CacheId) (P : CVal id → Prop) (ext : List (Tid × Act)) : Prop where
  writes : ∀ t bs k err, (t, .wrote bs (k, err)) ∈ ext → bs = frame (requestCode id) [] ∨ bs = ack →
    k = bs.length ∧ err = none
  reply : ∀ as t q err bs, ext = as ++ (t, .got true (q, err)) :: bs →
    lastWritten (actsOf t as) = some (frame (requestCode id) []) →
    err = none ∧ q.command = requestCode id + 1 ∧ ∃ v, decode id q.data = some v ∧ P v

end Spec
