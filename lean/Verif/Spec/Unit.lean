import Verif.Spec.Sync
import Verif.Spec.Profiles
/-!
# What is assumed of the ventilation unit in C28, C29, C42, C59, C65 and C66

The code of the unit is not part of the repository. `ProfileUnit` and `SettingUnit` say what a unit
that works does with fan percentages and with a setting such as the fan speed; nothing is assumed
about timing, about commands that get lost, or about any other command.
-/
namespace Spec
open Comfo

/-- A unit that works, as far as fan percentages go. `pct` is what it has stored, `last` the last
command that was written, `took` whether it has carried that command out. -/
structure ProfileUnit (L : Line σ) (env : σ → σ → Prop) where
  pct : σ → List UInt8
  last : σ → List UInt8
  took : σ → Bool
  /-- The last command is remembered. -/
  write_last : ∀ {bs s r s'}, L.write bs s = (r, s') → bs ≠ ack → last s' = bs
  /-- A set command is carried out or gets lost. -/
  write_set : ∀ {d s r s'}, L.write (frame 0xCF d) s = (r, s') →
    (pct s' = d ∧ took s' = true) ∨ (pct s' = pct s ∧ took s' = false)
  /-- Nothing else that is written changes the percentages. -/
  write_other : ∀ {bs s r s'}, L.write bs s = (r, s') → (∀ d, bs ≠ frame 0xCF d) → pct s' = pct s
  /-- Reading changes nothing. -/
  read_pct : ∀ {e s r s'}, L.read e s = (r, s') → pct s' = pct s
  /-- The unit only confirms what it has carried out. -/
  read_ack : ∀ {e s q s' d}, L.read e s = (.ret q none, s') → last s = frame 0xCF d → took s = true
  /-- The unit reports what it has stored. -/
  read_reply : ∀ {s q s' fp}, L.read true s = (.ret q none, s') → last s = frame 0xCD [] →
    q.command = 0xCE → decode .profiles q.data = some fp → percentages fp = pct s
  /-- The unit does not change its percentages on its own. -/
  env_same : ∀ {s s'}, env s s' → pct s' = pct s ∧ last s' = last s ∧ took s' = took s

/-- A unit that works, as far as the setting goes that is made by the command `cmd`. `value` is the
data of the setting in effect, `last` the last command that was written, `took` whether the unit has
carried that command out. -/
structure SettingUnit (cmd : UInt8) (L : Line σ) (env : σ → σ → Prop) where
  value : σ → List UInt8
  last : σ → List UInt8
  took : σ → Bool
  /-- The last command is remembered. -/
  write_last : ∀ {bs s r s'}, L.write bs s = (r, s') → bs ≠ ack → last s' = bs
  /-- A set command is carried out or gets lost. -/
  write_set : ∀ {d s r s'}, L.write (frame cmd d) s = (r, s') →
    (value s' = d ∧ took s' = true) ∨ (value s' = value s ∧ took s' = false)
  /-- Nothing else that is written changes the setting. -/
  write_other : ∀ {bs s r s'}, L.write bs s = (r, s') → (∀ d, bs ≠ frame cmd d) → value s' = value s
  /-- Reading changes nothing. -/
  read_same : ∀ {e s r s'}, L.read e s = (r, s') → value s' = value s
  /-- The unit only confirms what it has carried out. -/
  read_ack : ∀ {e s q s' d}, L.read e s = (.ret q none, s') → last s = frame cmd d → took s = true
  /-- The unit does not change the setting on its own, and nobody does so on its panel. -/
  env_same : ∀ {s s'}, env s s' → value s' = value s ∧ last s' = last s ∧ took s' = took s

/-- A unit that also reports the setting: in its reply to the request for cache `id`. `shows d v`: the
decoded reply `v` says that the setting is `d`. -/
structure ReportUnit (cmd : UInt8) (id : CacheId) (shows : List UInt8 → CVal id → Prop) (L : Line σ)
    (env : σ → σ → Prop) extends SettingUnit cmd L env where
  read_reply : ∀ {s q s' v}, L.read true s = (.ret q none, s') → last s = frame (requestCode id) [] →
    q.command = requestCode id + 1 → decode id q.data = some v → shows (value s) v

/-- Reported fan percentages, in the order of the set command. -/
def ShowsPct (d : List UInt8) (v : FanProfiles) : Prop := percentages v = d

/-- The reported fan speed. -/
def ShowsSpeed (d : List UInt8) (v : FanProfiles) : Prop := d = [v.currentMode]

/-- The reported comfort temperature: half degrees above −20 °C, rounded down. -/
def ShowsComfort (d : List UInt8) (v : Temps) : Prop :=
  ∃ b : UInt8, d = [b] ∧ v.comfort = (b.toNat / 2 : Nat) - 20

/-- Goroutine `t` has written the command `bs` (after everything in `pre`), its next action was to
receive the answer, and `rest` is what all goroutines did since it wrote the command. -/
def Confirmed (trace : List (Tid × Act)) (t : Tid) (bs : List UInt8) (pre rest : List (Tid × Act)) :
    Prop :=
  ∃ r mid e q post, trace = pre ++ (t, .wrote bs r) :: rest ∧
    rest = mid ++ (t, .got e (q, none)) :: post ∧ ∀ a, (t, a) ∉ mid

/-- Nobody writes the command `cmd`, with any data. -/
def NoCommand (cmd : UInt8) (trace : List (Tid × Act)) : Prop :=
  ∀ t d r, (t, Act.wrote (frame cmd d) r) ∉ trace

/-- The goroutines that wrote fan-profile commands, in the order in which they did. -/
def setWriters (trace : List (Tid × Act)) : List Tid :=
  trace.filterMap fun
    | (t, .wrote bs _) => if bs.take 4 = [0x07, 0xF0, 0x00, 0xCF] then some t else none
    | _ => none

/-- A change of the eight percentages (in the order of the set command). -/
inductive Change
  /-- Both percentages of one mode (0 to 3). -/
  | mode (m : Nat) (percent : UInt8)
  /-- All of them. -/
  | all (d : List UInt8)
  deriving DecidableEq, Repr

def Change.apply : Change → List UInt8 → List UInt8
  | .mode m v, p => replaceMode m v p
  | .all d, _ => d

/-- What is left after a series of changes. -/
def applyAll (cs : List Change) (p : List UInt8) : List UInt8 := cs.foldl (fun p c => c.apply p) p

/-- What a request asks to be changed in the fan profiles. -/
def change : Call → Option Change
  | .libSetProfile m s => some (.mode m.toNat s)
  | .setProfile m t => some (.mode (m.toUInt8 - 1).toNat t.toUInt8)
  | .libSetProfiles q => some (.all (percentages q))
  | .libQuery p => if p.command = 0xCF then some (.all p.data) else none
  | _ => none

/-- The request has reported that it made its change. -/
def Changed : Call → Resp → Prop
  | .libSetProfile _ _, .err none => True
  | .setProfile _ _, .speed (.ok v) => v.modified = true
  | .libSetProfiles _, .err none => True
  | .libQuery p, .packet (_, none) => p.command = 0xCF
  | _, _ => False

/-- Requests that overwrite all fan profiles. -/
def overwrites (c : Call) : Prop := ∃ d, change c = some (.all d)

/-- Who holds the mutex of the API, `am`, after a series of actions. -/
def amHolder (trace : List (Tid × Act)) : Option Tid :=
  trace.foldl (fun h x =>
    match x with
    | (t, .lock .am) => some t
    | (_, .unlock .am) => none
    | _ => h) none

/-- No goroutine writes a fan-profile command while another one holds `am`. -/
def NoOverlap (trace : List (Tid × Act)) : Prop :=
  ∀ pre t bs r post, trace = pre ++ (t, .wrote bs r) :: post →
    bs.take 4 = [0x07, 0xF0, 0x00, 0xCF] → ∀ u, amHolder pre = some u → u = t

end Spec
