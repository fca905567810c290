import Verif.Spec.OpenApiJson
/-
Specification vocabulary for a schema exported to an OpenAPI file.
-/
namespace Sadl.Spec
open Sadl

/-- The Go library prints the bounds of a type so that they can be read. -/
def BoundsPrint (L : JLib) (ts : TypeSpec) : Prop := (∀ f ∈ ts.min, PrintsBack L f) ∧ ∀ f ∈ ts.max, PrintsBack L f

/-- All bounds of types, fields and outputs. -/
structure SchemaBoundsPrint (L : JLib) (s : Schema) : Prop where
  types : ∀ td ∈ s.types, BoundsPrint L td.ts ∧ ∀ f ∈ td.ts.fields, BoundsPrint L f.ts
  outputs : ∀ h ∈ s.http, ∀ e ∈ h.expected, ∀ o ∈ e.outputs, BoundsPrint L o.field.ts

/-- The float64 of every bound in the type, and in the fields of a type that is a structure on the spot, is printed so
that it can be read. -/
inductive LimitsPrint (L : JLib) (lib : OLib) : TypeSpec → Prop
  | mk {ts : TypeSpec} : (∀ f ∈ ts.min, PrintsBack L (lib.asFloat64 f)) → (∀ f ∈ ts.max, PrintsBack L (lib.asFloat64 f)) →
    (∀ fd ∈ ts.fields, LimitsPrint L lib fd.ts) → LimitsPrint L lib ts

/-- All bounds of types, inputs and outputs. -/
structure SchemaLimitsPrint (L : JLib) (lib : OLib) (s : Schema) : Prop where
  types : ∀ td ∈ s.types, LimitsPrint L lib td.ts
  inputs : ∀ h ∈ s.http, ∀ p ∈ h.inputs, LimitsPrint L lib p.field.ts
  outputs : ∀ h ∈ s.http, ∀ e ∈ h.expected, ∀ o ∈ e.outputs, LimitsPrint L lib o.field.ts

end Sadl.Spec
