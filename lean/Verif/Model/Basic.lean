/-!
# Basic vocabulary of the model: errors, Go return values, slices

Everything here is shared by the models of `libcomfo` and `comfoserver`.
-/
namespace Comfo

/-- The sentinel errors of `libcomfo/errors.go:5-23`, one constructor per variable, plus `io`
for an error value returned by the connection's own `Write`
(`libcomfo/conn.go:143-146`, `:154-157`), which the code passes through unchanged. -/
inductive Err
  | pktLen | payloadSize | verifyChecksum | tooShort | tooLong | timeout | scanInput | ack
  | invalidResponse | tooHigh | tooLow | requestType | responseType | decodeNil | zeroValue
  | notExist | unknownMode
  | io
  deriving DecidableEq, Repr

/-- Outcome of a Go function `func(...) (val T, err error)` whose body contains an index
expression, a slice expression or a type assertion: it either returns both results or panics.
`err = none` is Go's `nil`. -/
inductive Go (α : Type) where
  | ret (val : α) (err : Option Err)
  | panic
  deriving DecidableEq, Repr

/-- Go's slice expression `l[lo:hi]` (for a slice with `cap = len`): `none` is a run-time
panic. -/
def slice (l : List α) (lo hi : Nat) : Option (List α) :=
  if lo ≤ hi ∧ hi ≤ l.length then some ((l.take hi).drop lo) else none

end Comfo
