import Verif.Model.Sys
import Verif.Spec.Log
/-!
# What the goroutines together may do, independent of how they do it
-/
namespace Spec
open Comfo

/-- The traffic on the line, with who caused it. -/
def lineEvents (trace : List (Tid × Act)) : List (Tid × IoEv) :=
  trace.filterMap fun
    | (t, .wrote bs r) => some (t, .wrote bs r)
    | (t, .got e r) => some (t, .got e r)
    | _ => none

/-- The log of one whole query. -/
def WholeQuery (evs : List IoEv) : Prop := ∃ cmd data expect r, Transaction cmd data expect evs r

/-- The log of a query that has not ended yet. -/
def PartOfQuery (evs : List IoEv) : Prop := ∃ rest, WholeQuery (evs ++ rest)

/-- Events of goroutine `t`. -/
def byTid (t : Tid) (evs : List IoEv) : List (Tid × IoEv) := evs.map (t, ·)

/-- The cache types of `rpc/comfo/comfo.proto`. -/
def knownCache (t : Int) : Bool := t = 0 ∨ t = 1 ∨ t = 2 ∨ t = 3 ∨ t = 4 ∨ t = 10

/-- What goroutine `t` did. -/
def actsOf (t : Tid) (trace : List (Tid × Act)) : List Act :=
  trace.filterMap fun (u, a) => if u = t then some a else none

/-- `acts` leads from program `p` to `q`. -/
inductive Path : Prog α → List Act → Prog α → Prop
  | nil : Path p [] p
  | snoc : Path p acts q → q.Next a r → Path p (acts ++ [a]) r

/-- The action that leaves an entry in the log. -/
def toAct : IoEv → Act
  | .wrote bs r => .wrote bs r
  | .got e r => .got e r
  | .refresh id t => .note id t
  | .answered b => .sendFlushed b

/-- The actions that concern the line or change a cache. -/
def effects (acts : List Act) : List Act :=
  acts.filter fun
    | .wrote _ _ | .got _ _ | .note _ _ | .store _ _ => true
    | _ => false

/-- What a refresh of cache `id` may do: ask the unit for that cache, and store the answer with the
time the refresh began if and only if the query succeeded and the answer decodes. -/
inductive RefreshRun (id : CacheId) : List Act → Prop
  | failed (t evs q e) : Transaction (requestCode id) [] true evs (q, e) → outcome id q e = none →
    RefreshRun id (.note id t :: evs.map toAct)
  | good (t evs q e v) : Transaction (requestCode id) [] true evs (q, e) → outcome id q e = some v →
    RefreshRun id (.note id t :: evs.map toAct ++ [.store id { val := v, last := t }])

/-- Refreshes of the caches `ids`, one after the other. -/
inductive RefreshRuns : List CacheId → List Act → Prop
  | nil : RefreshRuns [] []
  | cons {id ids acts rest} : RefreshRun id acts → RefreshRuns ids rest →
    RefreshRuns (id :: ids) (acts ++ rest)

/-- Goroutine `t` is about to do `a`. -/
def Poised (s : Sys σ) (t : Tid) (a : Act) : Prop :=
  match t with
  | .client i => ∃ c p, s.clients[i]? = some c ∧ c.prog.Next a p
  | .worker => ∃ p, s.worker.Next a p

/-- Two goroutines are about to access the same cache, at least one of them to write it. -/
def Race (s : Sys σ) : Prop :=
  ∃ (t u : Tid) (id : CacheId) (e : Entry (CVal id)), t ≠ u ∧ Poised s t (.store id e) ∧
    ((∃ c, Poised s u (.load id c)) ∨ ∃ e', Poised s u (.store id e'))

/-- The step from `s` to `s'` is not an `RLock` overtaking a waiting `Lock` (which Go's
`sync.RWMutex` forbids). -/
def NoOvertaking (s s' : Sys σ) : Prop :=
  ∀ t l, s'.sh.trace = s.sh.trace ++ [(t, .rlock l)] → ∀ u, ¬ Poised s u (.lock l)

/-- Request `i` has returned `r`. -/
def Answered (s : Sys σ) (i : Nat) (c : Call) (r : Resp) : Prop :=
  s.clients[i]? = some { call := c, prog := .ret r }

/-- Every request has returned and the worker waits for the next tick or flush. -/
def AllDone (s : Sys σ) : Prop :=
  (∀ c ∈ s.clients, ∃ r, c.prog = .ret r) ∧ s.worker = .ret ()

/-- Any number of steps of work that has begun. -/
inductive Works (L : Line σ) : Sys σ → Sys σ → Prop
  | done : Works L s s
  | step : Work L s s' → Works L s' s'' → Works L s s''

end Spec
