import Verif.Spec.Sync
/-!
# Which value of a cache is current, read off what all goroutines did

Independent of the caches themselves: only the requests on the line and their answers count.
-/
namespace Spec
open Comfo

/-- The log entry an action leaves. -/
def evOf : Act → Option IoEv
  | .wrote bs r => some (.wrote bs r)
  | .got e r => some (.got e r)
  | .note id t => some (.refresh id t)
  | _ => none

/-- One action. Each goroutine's refresh is followed on its own (`Spec.scanEv`); the last one to
succeed counts. -/
def scanAct (id : CacheId) (s : Option (CVal id × Int) × (Tid → Cur)) (x : Tid × Act) :
    Option (CVal id × Int) × (Tid → Cur) :=
  match evOf x.2 with
  | none => s
  | some ev =>
    let r := scanEv id (s.1, s.2 x.1) ev
    (r.1, fun u => if u = x.1 then r.2 else s.2 u)

/-- The whole trace. -/
def scanAll (id : CacheId) (trace : List (Tid × Act)) :
    Option (CVal id × Int) × (Tid → Cur) :=
  trace.foldl (scanAct id) (none, fun _ => .idle)

/-- What cache `id` must hold: the result of the last successful refresh in the trace, or what it
held at the start. -/
def current (id : CacheId) (start : Entry (CVal id)) (trace : List (Tid × Act)) :
    Entry (CVal id) :=
  match (scanAll id trace).1 with
  | some (v, t) => { val := v, last := t }
  | none => start

/-- Whether goroutine `t` holds `l` after one more action; `b`: whether it did before. -/
def holdStep (t : Tid) (l : Lock) (b : Bool) (x : Tid × Act) : Bool :=
  if x.1 = t then
    match x.2 with
    | .lock l' | .rlock l' => if l' = l then true else b
    | .unlock l' | .runlock l' => if l' = l then false else b
    | _ => b
  else b

/-- Goroutine `t` holds `l` after `trace`, shared or exclusively. -/
def inside (t : Tid) (l : Lock) (trace : List (Tid × Act)) : Bool :=
  trace.foldl (holdStep t l) false

/-- The RPC that reads a cache. -/
def getCall : CacheId → Call
  | .boot => .getBoot
  | .bypass => .getBypass
  | .temps => .getTemps
  | .fans => .getFans
  | .profiles => .getProfiles
  | .errors => .getErrors

/-- Its answer for a value of the cache. -/
def getAnswer : (id : CacheId) → CVal id → Resp
  | .boot, v => .boot (.ok (BootInfo.protobuf v))
  | .bypass, v => .bypass (.ok (Bypass.protobuf v))
  | .temps, v => .temps (.ok (Temps.protobuf v))
  | .fans, v => .fans (.ok (Fans.protobuf v))
  | .profiles, v => .profiles (.ok (FanProfiles.protobuf v))
  | .errors, v => .errors (.ok (Errors.protobuf v))

/-- All bytes a script will ever deliver. -/
def bytesOf : List RdEv → List UInt8
  | [] => []
  | .data bs :: r => bs ++ bytesOf r
  | .fail bs :: r => bs ++ bytesOf r
  | .stall :: r => bytesOf r

end Spec
