import Verif.Model.Http
/-! # Which HTTP requests are meant for the service (C53) -/
namespace Spec
open Comfo

/-- The names of the methods, as documented in `rpc/comfo/comfo.proto:9-22`. -/
def methodName : Method → Str
  | .getBootInfo => "GetBootInfo".toList
  | .getTemps => "GetTemps".toList
  | .getBypass => "GetBypass".toList
  | .getFans => "GetFans".toList
  | .getFanProfiles => "GetFanProfiles".toList
  | .getErrors => "GetErrors".toList
  | .setFanSpeed => "SetFanSpeed".toList
  | .setComfortTemp => "SetComfortTemp".toList
  | .setFanProfile => "SetFanProfile".toList
  | .flushCache => "FlushCache".toList

/-- The media types. -/
def mediaName : Fmt → Str
  | .json => "application/json".toList
  | .protobuf => "application/protobuf".toList

/-- A content type names a media type: in any case, with white space around it, and possibly
followed by parameters. -/
def MediaType (f : Fmt) (header : Str) : Prop :=
  ∃ a t b params, header = a ++ t ++ b ++ params ∧ (∀ c ∈ a, isSpace c = true) ∧
    (∀ c ∈ b, isSpace c = true) ∧ t.map toLower = mediaName f ∧ (params = [] ∨ ∃ p, params = ';' :: p)

/-- The route of a method. -/
def routeOf (m : Method) : Str := "/twirp/comfo.api.Comfo/".toList ++ methodName m

/-- A request meant for a method: POST, to the path of the method (in the router's canonical form),
with a body of a known media type. -/
def MeantFor (clean : Str → Str) (m : Method) (f : Fmt) (r : HttpReq) : Prop :=
  r.method = "POST".toList ∧ r.path = routeOf m ∧ clean r.path = r.path ∧ MediaType f r.contentType

end Spec
