import Verif.Spec.OpenApi
/-
Rules that the OpenAPI specification (version 3.0) has for the operations of a document, and
the actions of a schema whose operations obey them.
-/
namespace Sadl.Spec
open Sadl

/-- "The Responses Object MUST contain at least one response code"; the description of a response
is required; a parameter has a name, one of the places, and a schema; one in the path is required. -/
structure OperationRules (op : OOperation) : Prop where
  responds : op.responses ≠ []
  described : ∀ k r, (k, r) ∈ op.responses → r.description ≠ ""
  named : ∀ p ∈ op.parameters, p.name ≠ ""
  placed : ∀ p ∈ op.parameters, p.in = "path" ∨ p.in = "query" ∨ p.in = "header"
  typed : ∀ p ∈ op.parameters, p.schema ≠ none
  required : ∀ p ∈ op.parameters, p.in = "path" → p.required = true

/-- The text in braces is a variable of the path. -/
def PathVariable (path w : String) : Prop := '{' ∉ w.toList ∧ '}' ∉ w.toList ∧ Occurs (braced w) path.toList

/-- The key of a response is `default`, or a status of HTTP. -/
def StatusKey (k : String) : Prop := k = "default" ∨ ∃ n : Int, 100 ≤ n ∧ n < 600 ∧ k = String.ofList (showInt n)

/-- Further rules: the parameters of an operation are different, every variable of the path has a
parameter, and responses are listed under statuses. -/
structure FurtherRules (path : String) (op : OOperation) : Prop where
  distinct : (op.parameters.map fun p => (p.in, p.name)).Nodup
  covered : ∀ w, PathVariable path w → ∃ p ∈ op.parameters, p.in = "path" ∧ p.name = w
  statuses : ∀ k r, (k, r) ∈ op.responses → StatusKey k

/-- Where an input that is not the body is taken from, and under which name. -/
def inputPlace (p : HttpParamSpec) : String × String :=
  if p.path then ("path", p.field.name) else if p.query ≠ "" then ("query", p.query) else ("header", p.header)

/-- The action at the path has different inputs, one for every variable of the path, and statuses
of HTTP; an exception may have none. -/
structure Orderly (path : String) (h : HttpDef) : Prop where
  distinct : ((h.inputs.filter fun p => !BodyInput p).map inputPlace).Nodup
  covered : ∀ w, PathVariable path w → ∃ p ∈ h.inputs, p.path = true ∧ p.field.name = w
  expected : ∀ e, h.expected = some e → 100 ≤ e.status ∧ e.status < 600
  exceptions : ∀ x ∈ h.exceptions, x.status = 0 ∨ (100 ≤ x.status ∧ x.status < 600)

end Sadl.Spec
