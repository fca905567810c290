import Verif.Spec.OpenApi
import Verif.Spec.OpenApiTypes
/-
C111: the head of an exported OpenAPI document, and what a reader requires of a document.
-/
namespace Sadl.Spec
open Sadl

/-- The text of an annotation of the schema; empty if it has none. -/
def annotation (s : Schema) (k : String) : String := (mget s.annotations k).getD ""

/-- The document says of itself what the schema says. -/
structure HeadOf (s : Schema) (d : ODoc) : Prop where
  standard : d.openapi = "3.0.0"
  title : d.title = s.name
  description : d.description = s.comment
  version : (s.version ≠ "" ∧ d.version = s.version) ∨ (s.version = "" ∧ d.version = "dev")
  server : ∀ url, mget s.annotations "x_server" = some url → d.servers = ["http://localhost:8000", url]
  noServer : mget s.annotations "x_server" = none → d.servers = ["http://localhost:8000"]
  license : annotation s "x_license_name" ≠ "" ∨ annotation s "x_license_url" ≠ "" →
    d.license = some (annotation s "x_license_name", annotation s "x_license_url")
  noLicense : annotation s "x_license_name" = "" → annotation s "x_license_url" = "" → d.license = none

/-- The schema has all that a document must have: a name, paths that begin with a slash, and
a name for its license if there is a place for it. -/
structure OasComplete (s : Schema) : Prop where
  name : s.name ≠ ""
  license : annotation s "x_license_url" ≠ "" → annotation s "x_license_name" ≠ ""
  paths : ∀ h ∈ s.http, ∀ path, LivesAt s.base h path → path.toList.head? = some '/'

/-- The schema `t`, read back from a document, says of itself what `s` says, but for the version `dev` and the server
`http://localhost:8000` of a schema that has none. -/
structure HeadKept (s t : Schema) : Prop where
  name : t.name = s.name
  comment : t.comment = s.comment
  version : t.version = if s.version = "" then "dev" else s.version
  server : mget t.annotations "x_server" = some ((mget s.annotations "x_server").getD "http://localhost:8000")
  licenseName : annotation t "x_license_name" = annotation s "x_license_name"
  licenseUrl : annotation t "x_license_url" = annotation s "x_license_url"

end Sadl.Spec
