import Verif.Spec.Client
import Verif.Spec.Profiles
/-!
# Which commands a request may send to the unit (C70, C71)
-/
namespace Spec
open Comfo

/-- The low byte of an argument. -/
def low (v : UInt32) : Nat := v.toNat % 256

/-- The commands that a request may send: speed (`0x99`, 1–4), comfort temperature (`0xD3`, twice the
degrees above −20), the percentages of the fans (`0xCF`). Of the arguments of the fan requests only
the low byte counts (see C40 and C43). -/
def MayCommand : Call → List UInt8 → Prop
  | .setSpeed abs rel, bs => ∃ m : UInt8, 1 ≤ m.toNat ∧ m.toNat ≤ 4 ∧ bs = frame 0x99 [m] ∧
      (abs ≠ 0 → rel = false ∧ m.toNat = low abs)
  | .setComfort t, bs => ∃ b : UInt8, b.toNat = (t.toNat + 20) * 2 ∧ bs = frame 0xD3 [b]
  | .setProfile mode pct, bs => 1 ≤ low mode ∧ low mode ≤ 4 ∧ 15 ≤ low pct ∧ low pct ≤ 100 ∧
      ∃ (old : FanProfiles) (p : UInt8), p.toNat = low pct ∧
        bs = frame 0xCF (replaceMode (low mode - 1) p (percentages old))
  | .libQuery p, bs => bs = frame p.command p.data
  | .libSetComfort t, bs => ∃ b : UInt8, b.toNat = (t.toNat + 20) * 2 ∧ bs = frame 0xD3 [b]
  | .libSetSpeed m, bs => m.toNat ≤ 4 ∧ bs = frame 0x99 [m]
  | .libSetProfile mode pct, bs => mode.toNat ≤ 3 ∧ pct.toNat ≤ 100 ∧
      ∃ old : FanProfiles, bs = frame 0xCF (replaceMode mode.toNat pct (percentages old))
  | .libSetProfiles q, bs => bs = frame 0xCF (percentages q)
  | _, _ => False

end Spec
