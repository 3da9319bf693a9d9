import Verif.Model.Prog
import Verif.Spec.Wire
/-!
# Reading the I/O log, independent of how the server works

`Transaction` says what one query may leave in the log; `lastGood` finds in a log the last
successful refresh of a cache.
-/
namespace Spec
open Comfo

/-- The log entries of one query with request `cmd data` and what it returns: the request, the
reply, the acknowledgement, cut short by the first failure. -/
inductive Transaction (cmd : UInt8) (data : List UInt8) (expect : Bool) :
    List IoEv → Packet × Option Err → Prop
  | writeFailed (n e) :
    Transaction cmd data expect [.wrote (frame cmd data) (n, some e)] ({}, some e)
  | readFailed (n q e) :
    Transaction cmd data expect [.wrote (frame cmd data) (n, none), .got expect (q, some e)] (q, some e)
  | wrongReply (n q) : expect = true → q.command ≠ cmd + 1 →
    Transaction cmd data expect [.wrote (frame cmd data) (n, none), .got expect (q, none)]
      (q, some .invalidResponse)
  | ackFailed (n q m e) : (expect = true → q.command = cmd + 1) →
    Transaction cmd data expect
      [.wrote (frame cmd data) (n, none), .got expect (q, none), .wrote ack (m, some e)] (q, some e)
  | ackShort (n q m) : (expect = true → q.command = cmd + 1) → m ≠ 2 →
    Transaction cmd data expect
      [.wrote (frame cmd data) (n, none), .got expect (q, none), .wrote ack (m, none)] (q, some .ack)
  | complete (n q) : (expect = true → q.command = cmd + 1) →
    Transaction cmd data expect
      [.wrote (frame cmd data) (n, none), .got expect (q, none), .wrote ack (2, none)] (q, none)

/-- The request command for each cache. -/
def requestCode : CacheId → UInt8
  | .boot => 0x67
  | .bypass => 0xDF
  | .temps => 0xD1
  | .fans => 0x0B
  | .profiles => 0xCD
  | .errors => 0xD9

/-- The value of an error-free return. -/
def okVal : Go β → Option β
  | .ret v none => some v
  | _ => none

/-- The value a reply payload stands for (the subject of C18–C26). -/
def decode : (id : CacheId) → List UInt8 → Option (CVal id)
  | .boot, pl => okVal (BootInfo.unmarshalBinary pl)
  | .bypass, pl => okVal (Bypass.unmarshalBinary pl)
  | .temps, pl => okVal (Temps.unmarshalBinary pl)
  | .fans, pl => okVal (Fans.unmarshalBinary pl)
  | .profiles, pl => okVal (FanProfiles.unmarshalBinary pl)
  | .errors, pl => okVal (Errors.unmarshalBinary pl)

/-- The new value a query for cache `id` that returned `(q, e)` gives. -/
def outcome (id : CacheId) (q : Packet) (e : Option Err) : Option (CVal id) :=
  match e with
  | none => decode id q.data
  | some _ => none

/-- Where in a refresh of cache `id` the log reader is. -/
inductive Cur
  | idle
  | begun (t : Int)
  | asked (t : Int)
  | replied (pl : List UInt8) (t : Int)

/-- One log entry. A refresh counts when the request of that cache was written, a packet with the
reply command came, the acknowledgement was written, and the payload decodes. -/
def scanEv (id : CacheId) (s : Option (CVal id × Int) × Cur) (ev : IoEv) :
    Option (CVal id × Int) × Cur :=
  match ev, s.2 with
  | .refresh i t, _ => (s.1, if i = id then .begun t else .idle)
  | .wrote bs (_, none), .begun t =>
    (s.1, if bs = frame (requestCode id) [] then .asked t else .idle)
  | .got true (q, none), .asked t =>
    (s.1, if q.command = requestCode id + 1 then .replied q.data t else .idle)
  | .wrote bs (n, none), .replied pl t =>
    match decode id pl with
    | some v => (if bs = ack ∧ n = 2 then some (v, t) else s.1, .idle)
    | none => (s.1, .idle)
  | _, _ => (s.1, .idle)

/-- The last successful refresh of cache `id` in the log: value and the time it began. -/
def lastGood (id : CacheId) (log : List IoEv) : Option (CVal id × Int) :=
  (log.foldl (scanEv id) (none, .idle)).1

/-- The zero value of a cache. -/
def zeroEntry : (id : CacheId) → Entry (CVal id)
  | .boot => { val := ({} : BootInfo) }
  | .bypass => { val := ({} : Bypass) }
  | .temps => { val := ({} : Temps) }
  | .fans => { val := ({} : Fans) }
  | .profiles => { val := ({} : FanProfiles) }
  | .errors => { val := ({} : Errors) }

end Spec
