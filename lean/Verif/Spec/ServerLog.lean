import Verif.Spec.Main
import Verif.Spec.Worker
import Verif.Model.ServerLog
/-!
# What the log of the running server is to say (C97)
-/
namespace Spec
open Comfo Comfo.Pb Comfo.Twirp Comfo.Log

/-- The effect begins a refresh or stores a value. -/
def refreshing : Act → Bool
  | .note _ _ | .store _ _ => true
  | _ => false

/-- `recs` accounts for the effects of a goroutine: each refresh that it has begun is either one exchange
with the unit with a result that was stored, or one exchange without a result, for which there is one
record, in order. There are no other records, and
nothing else is stored. -/
inductive Accounts (W : Wording) : List Act → List Record → Prop
  | nil : Accounts W [] []
  | other {a acts recs} : refreshing a = false → Accounts W acts recs → Accounts W (a :: acts) recs
  | good {id t evs q e v acts recs} : Transaction (requestCode id) [] true evs (q, e) →
    outcome id q e = some v → Accounts W acts recs →
    Accounts W (.note id t :: (evs.map toAct ++ .store id ⟨v, t⟩ :: acts)) recs
  | bad {id t evs q e x r acts recs} : Transaction (requestCode id) [] true evs (q, e) →
    outcome id q e = none → (∀ y, e = some y → x = y) → Reports W id x r → Accounts W acts recs →
    Accounts W (.note id t :: (evs.map toAct ++ acts)) (r :: recs)

/-- Whether cache `id` gets a value before the next refresh begins. -/
def gets (id : CacheId) : List Act → Bool
  | [] => false
  | .note _ _ :: _ => false
  | .store id' _ :: acts => if id' = id then true else gets id acts
  | _ :: acts => gets id acts

/-- The refreshes that a goroutine has begun and that gave nothing, in order. -/
def failures : List Act → List CacheId
  | [] => []
  | .note id _ :: acts => if gets id acts then failures acts else id :: failures acts
  | _ :: acts => failures acts

/-- One record of level error for each of the caches, in order, naming it. -/
def NamesEach : List CacheId → List Record → Prop
  | [], [] => True
  | id :: ids, r :: rs => (r.level = .error ∧ Names id r) ∧ NamesEach ids rs
  | _, _ => False

/-- What the worker does for a job, with what it logs. -/
def Job.logged (W : Wording) : Job → Prog (List Record)
  | .tick k => onTickLogged W k
  | .flush t => flushCachesLogged W t

/-- Jobs done one after the other by the worker, with what it logged. -/
inductive JobsLogged (W : Wording) : List Job → List Act → List Record → Prop
  | nil : JobsLogged W [] [] []
  | snoc {js acts recs j more rs} : JobsLogged W js acts recs → Path (j.logged W) more (.ret rs) →
    JobsLogged W (js ++ [j]) (acts ++ more) (recs ++ rs)

end Spec
