import Verif.Model.Sys
/-!
# Vocabulary for connections that are closed
-/
namespace Spec
open Comfo

/-- In the states `D` the connection is closed: it stays so, and a read finds the end of the stream,
or an error, at once. Nothing is said of writes: a TCP connection closed by the other end accepts
the first ones. -/
structure Closed (S : Setup σ) (D : σ → Prop) : Prop where
  env : ∀ a b, S.env a b → D a → D b
  write : ∀ bs l, D l → D (S.line.write bs l).2
  read : ∀ e l, D l → D (S.line.read e l).2 ∧
    ∃ late, (S.line.read e l).1 = (readPacket { rd := [.fail []], late := late } e).1

/-- Writes fail as well. -/
def Dead (S : Setup σ) (D : σ → Prop) : Prop :=
  ∀ bs l, D l → (S.line.write bs l).1.2 ≠ none

/-- All writes are accepted, and no read takes a second. -/
structure Accepting (S : Setup σ) (D : σ → Prop) : Prop where
  write : ∀ bs l, D l → (S.line.write bs l).1 = (bs.length, none)
  read : ∀ e l, D l → (S.line.read e l).1 ≠ .ret {} (some .timeout)

end Spec
