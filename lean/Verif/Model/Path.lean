import Verif.Model.GoClient
/-!
# Canonical paths

What gorilla/mux (v1.8.1, `go.mod:6`) does with the path of a request before it looks for a route
(`routes.go:22`). It is not part of the repository; `path.Clean` is from the standard library of Go.
-/
namespace Comfo.Twirp

/-- `path.Clean` of a path that begins with a slash. -/
def pathClean (p : Str) : Str := '/' :: joinWith '/' (cleanParts [] (splitOn '/' p))

/-- `cleanPath` of gorilla/mux. -/
def cleanPath (p : Str) : Str :=
  if p = [] then ['/']
  else
    let p := if p.head? = some '/' then p else '/' :: p
    let np := pathClean p
    if p.getLast? = some '/' ∧ np ≠ ['/'] then np ++ ['/'] else np

end Comfo.Twirp
