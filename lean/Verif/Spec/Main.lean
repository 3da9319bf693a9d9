import Verif.Spec.Logging
import Verif.Model.Main
/-!
# What the program does when it starts (C95)
-/
namespace Spec
open Comfo Comfo.Pb Comfo.Twirp Comfo.Log

/-- The order in which the unit is asked for its values. -/
def startOrder : List CacheId := [.boot, .bypass, .temps, .fans, .profiles, .errors]

/-- The caches of a list are refreshed one after another, each with one exchange: `acts` are the
effects, `bad` the caches that got nothing, each with an error. -/
inductive Filled : List CacheId → List Act → List (CacheId × Err) → Prop
  | nil : Filled [] [] []
  | good (id ids t evs q v acts bad) : Transaction (requestCode id) [] true evs (q, none) →
    decode id q.data = some v → Filled ids acts bad →
    Filled (id :: ids) (.note id t :: (evs.map toAct ++ .store id ⟨v, t⟩ :: acts)) bad
  | bad (id ids t evs q e x acts bad) : Transaction (requestCode id) [] true evs (q, e) →
    outcome id q e = none → (∀ y, e = some y → x = y) → Filled ids acts bad →
    Filled (id :: ids) (.note id t :: (evs.map toAct ++ acts)) ((id, x) :: bad)

/-- One report for each of the caches, in this order. -/
def ReportsAll (W : Wording) : List (CacheId × Err) → List Record → Prop
  | [], [] => True
  | b :: bs, r :: rs => Reports W b.1 b.2 r ∧ ReportsAll W bs rs
  | _, _ => False

/-- A message of level info. -/
def Informs (msg : String) (attrs : List (Bytes × Value)) (r : Record) : Prop :=
  r.level = .info ∧ r.msg = lit msg ∧ r.attrs = attrs

/-- The record names cache `id` at the beginning of its message. -/
def Names (id : CacheId) (r : Record) : Prop := ∃ rest, r.msg = cacheTitle id ++ rest

end Spec
