import Verif.Spec.Read
import Verif.Spec.EndToEnd
import Verif.Spec.GoClient
/-! # From a call in Go to the unit (C103) -/
namespace Spec
open Comfo Comfo.Twirp Comfo.Pb

/-- The network brings nothing but responses that the server has made of its answer to the same request.
It may also bring none. -/
def Relays (J : JsonLib) (clean : Str → Str) (cd : Codec) (net : Net ω) (v : ω) (s : Sys σ) : Prop :=
  ∀ snt resp, (net.exchange snt v).1 = .ok resp → ∀ m f c, MeantFor clean m f snt.req →
    cd.decode m f snt.req.body = some c →
    ∃ i r W, Answered s i c r ∧ resp = respond J W f m snt.req r.http

/-- The same, and the request has arrived after the first `n`. -/
def RelaysLater (J : JsonLib) (clean : Str → Str) (cd : Codec) (net : Net ω) (v : ω) (s : Sys σ) (n : Nat) : Prop :=
  ∀ snt resp, (net.exchange snt v).1 = .ok resp → ∀ m f c, MeantFor clean m f snt.req →
    cd.decode m f snt.req.body = some c →
    ∃ i r W, n ≤ i ∧ Answered s i c r ∧ resp = respond J W f m snt.req r.http

/-- The value of a `float32`, if it is one, and a whole number. -/
def floatOf : Val → Option Int
  | .f32 bits => f32Value bits
  | _ => none

/-- The struct that a Go client returns for a cache stands for the payload of a reply: which byte is
which field (by its number in `comfo.proto`), and in which unit. -/
def GoStands : CacheId → List UInt8 → Struct → Prop
  | .boot, major :: minor :: beta :: name, o =>
    ∃ t, o = [(1, .u32 (.ofNat major.toNat)), (2, .u32 (.ofNat minor.toNat)), (3, .u32 (.ofNat beta.toNat)),
      (4, .str t)] ∧
    name.length = 10 ∧ Trimmed t ∧ ∃ pre post, name = pre ++ t ++ post ∧ AllSpace pre ∧ AllSpace post
  | .bypass, [_, _, factor, level, correction, _, summer], o =>
    o = [(1, .u32 (.ofNat factor.toNat)), (2, .u32 (.ofNat level.toNat)), (3, .u32 (.ofNat correction.toNat)),
      (4, .bool (summer = 1))]
  | .temps, [comfort, outside, supply, inside, exhaust, _, geo, reheat, hood], o =>
    o.map (fun x => (x.1, floatOf x.2)) = [(1, some (degrees comfort)), (2, some (degrees outside)),
      (3, some (degrees supply)), (4, some (degrees inside)), (5, some (degrees exhaust)),
      (6, some (degrees geo)), (7, some (degrees reheat)), (8, some (degrees hood))]
  | .fans, [inp, out, i1, i0, o1, o0], o =>
    bigEndian [i1, i0] ≠ 0 ∧ bigEndian [o1, o0] ≠ 0 ∧
    o = [(1, .u32 (.ofNat inp.toNat)), (2, .u32 (.ofNat out.toNat)),
      (3, .u32 (.ofNat (1875000 / bigEndian [i1, i0] % 65536))),
      (4, .u32 (.ofNat (1875000 / bigEndian [o1, o0] % 65536)))]
  | .profiles, [oa, ol, om, ia, il, im, co, ci, mode, active, oh, ih, _, _], o =>
    o = [(1, .u32 (.ofNat oa.toNat)), (2, .u32 (.ofNat ol.toNat)), (3, .u32 (.ofNat om.toNat)),
      (4, .u32 (.ofNat oh.toNat)), (5, .bool (active = 1)), (6, .u32 (.ofNat ia.toNat)),
      (7, .u32 (.ofNat il.toNat)), (8, .u32 (.ofNat im.toNat)), (9, .u32 (.ofNat ih.toNat)),
      (10, .u32 (.ofNat co.toNat)), (11, .u32 (.ofNat ci.toNat)), (12, .u32 (.ofNat mode.toNat))]
  | .errors, pl, o => pl.length = 17 ∧ o = [(1, .bool (pl[8]? = some 1))]
  | _, _, _ => False

/-- The struct for a cache that has never been filled: all fields are zero, `false` or empty. -/
def goZero : CacheId → Struct
  | .boot => [(1, .u32 0), (2, .u32 0), (3, .u32 0), (4, .str [])]
  | .bypass => [(1, .u32 0), (2, .u32 0), (3, .u32 0), (4, .bool false)]
  | .temps => (List.range 8).map fun k => (k + 1, .f32 0)
  | .fans => (List.range 4).map fun k => (k + 1, .u32 0)
  | .profiles => (List.range 12).map fun k => (k + 1, if k = 4 then .bool false else .u32 0)
  | .errors => [(1, .bool false)]

/-- The method of the API that reads a cache. -/
def readMethod : CacheId → Method
  | .boot => .getBootInfo
  | .bypass => .getBypass
  | .temps => .getTemps
  | .fans => .getFans
  | .profiles => .getFanProfiles
  | .errors => .getErrors

end Spec
