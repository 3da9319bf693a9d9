import Verif.Spec.Async
import Verif.Spec.Unit
/-! # From a call in Python to the unit (C91) -/
namespace Spec
open Comfo

/-- The network brings nothing but answers that the server has given to the same request. It may
also bring none. -/
def Brings (net : Call → ω → Option Resp × ω) (v : ω) (s : Sys σ) : Prop :=
  ∀ c r, (net c v).1 = some r → ∃ i, Answered s i c r

/-- Request `i` has written the command `cmd` with the data `d`, the unit has confirmed it, and that is
what the unit is set to, unless somebody has written this command since. -/
def Effected {L : Line σ} {env : σ → σ → Prop} (U : SettingUnit cmd L env) (s : Sys σ) (i : Nat)
    (d : List UInt8) : Prop :=
  ∃ pre rest, Confirmed s.sh.trace (.client i) (frame cmd d) pre rest ∧
    (NoCommand cmd rest → U.value s.sh.world.line = d)

/-- Request `i` has written nothing to the unit. -/
def Silent (s : Sys σ) (i : Nat) : Prop := ∀ bs r, (Tid.client i, Act.wrote bs r) ∉ s.sh.trace

/-- Request `i` has looked at the entry `c` of a cache. -/
def Saw (s : Sys σ) (i : Nat) (id : CacheId) (c : Entry (CVal id)) : Prop :=
  (Tid.client i, Act.load id c) ∈ s.sh.trace

end Spec
