import Verif.Spec.Conforms
import Verif.Spec.Paths
import Verif.Model.Misc
/-
What it means for a schema to be valid: an independent statement of the rules that the
parser enforces after parsing.  The conformance of a value to a type is a parameter `C`;
the theorems put `Conforms lib (Defines s)` for it.
-/
namespace Sadl.Spec
open Sadl

/-- The name is defined by the schema, or built in. -/
def Known (s : Schema) (n : String) : Prop := ∃ ts, Defines s n ts

section
variable (C : TypeSpec → Value → Prop) (s : Schema)

/-- A valid field of a struct type. -/
structure FieldOk (f : StructFieldDef) : Prop where
  known : Known s f.ts.type
  arrayItems : f.ts.type = "Array" → f.ts.items ≠ "" → Known s f.ts.items
  mapKeys : f.ts.type = "Map" → f.ts.keys ≠ "" → Known s f.ts.keys
  mapItems : f.ts.type = "Map" → f.ts.items ≠ "" → Known s f.ts.items
  defaultOptional : f.default ≠ .null → f.required = false
  defaultConforms : f.default ≠ .null → C f.ts f.default
  patternOrValues : f.ts.values = none ∨ f.ts.pattern = ""

/-- A valid type definition. -/
structure TypeOk (td : TypeDef) : Prop where
  struct : td.ts.type = "Struct" → ∀ f ∈ td.ts.fields, FieldOk C s f
  array : td.ts.type = "Array" → Known s td.ts.items
  map : td.ts.type = "Map" → td.ts.items = "Any" ∨ (Known s td.ts.items ∧ Known s td.ts.keys)
  unitValue : td.ts.type = "UnitValue" → ∃ tv tu, Defines s td.ts.value tv ∧ tv.type ∈ NumericNames ∧
    Defines s td.ts.unit tu ∧ (tu.type = "String" ∨ tu.type = "Enum")
  patternOrValues : td.ts.type = "String" → td.ts.values = none ∨ td.ts.pattern = ""
  reference : td.ts.type = "String" ∨ td.ts.type = "UUID" → td.ts.reference ≠ "" → Known s td.ts.reference

/-- What the target of an example means: a type, or a field `Type.field` of a struct type
(the last one of that name). -/
inductive Target (target : String) : TypeSpec → Prop
  | type {ts} : Defines s target ts → Target target ts
  | field {tname mname t f before after} : ¬ Known s target → target = tname ++ "." ++ mname → '.' ∉ tname.toList →
      tname ≠ "" → Defines s tname t → t.type = "Struct" → t.fields = before ++ f :: after → f.name = mname →
      (∀ g ∈ after, g.name ≠ mname) → Target target f.ts

/-- A valid example for the parameters `ps` of an HTTP action. -/
def ParamsOk (ps : List HttpParamSpec) (v : Value) : Prop :=
  ∃ kvs, v = .obj kvs ∧
    (∀ k x, (k, x) ∈ kvs → ∀ p ∈ ps, p.field.name = k → ∃ ts, Defines s p.field.ts.type ts ∧ C ts x) ∧
    (∀ p ∈ ps, p.field.required = true → ∃ x, (p.field.name, x) ∈ kvs)

/-- A valid example. -/
inductive ExampleOk (ex : ExampleDef) : Prop
  | type {ts} : Target s ex.target ts → C ts ex.example → ExampleOk ex
  | request {h base} : (∀ ts, ¬ Target s ex.target ts) → ex.target = base ++ "Request" → h ∈ s.http →
      h.name = uncapitalize base → ParamsOk C s h.inputs ex.example → ExampleOk ex
  | response {h e base} : (∀ ts, ¬ Target s ex.target ts) → ex.target = base ++ "Response" → h ∈ s.http →
      h.name = uncapitalize base → h.expected = some e → ParamsOk C s e.outputs ex.example → ExampleOk ex

/-- An input that is the body of the request. -/
def BodyInput (p : HttpParamSpec) : Bool := decide (p.path = false ∧ p.query = "" ∧ p.header = "")
/-- An output that is the body of the response. -/
def BodyOutput (p : HttpParamSpec) : Bool := decide (p.header = "")

/-- The part of a path before its query part is a well-formed template. -/
def PathOk (path : String) : Prop := ∀ p q, PathAndQuery path.toList p q → Template p

/-- A valid HTTP action. -/
structure HttpOk (h : HttpDef) : Prop where
  path : PathOk h.path
  inputTypes : ∀ p ∈ h.inputs, Known s p.field.ts.type
  bodyAllowed : ∀ p ∈ h.inputs, BodyInput p → h.method ∈ ["POST", "PUT", "PATCH"]
  oneBody : (h.inputs.filter BodyInput).length ≤ 1
  outputTypes : ∀ e, h.expected = some e → ∀ p ∈ e.outputs, Known s p.field.ts.type
  outputBodyAllowed : ∀ e, h.expected = some e → ∀ p ∈ e.outputs, BodyOutput p → e.status ≠ 204 ∧ e.status ≠ 304
  oneOutputBody : ∀ e, h.expected = some e → (e.outputs.filter BodyOutput).length ≤ 1
  exceptionTypes : ∀ e, h.expected = some e → ∀ x ∈ h.exceptions, Known s x.type

/-- A valid schema. -/
structure Valid : Prop where
  types : ∀ td ∈ s.types, TypeOk C s td
  examples : ∀ ex ∈ s.examples, ExampleOk C s ex
  http : ∀ h ∈ s.http, HttpOk s h
end

/-- The values written in the schema (examples, and defaults of the fields of its types)
are real: objects have distinct keys. -/
structure RealValues (s : Schema) : Prop where
  defaults : ∀ td ∈ s.types, ∀ f ∈ td.ts.fields, Real f.default
  examples : ∀ ex ∈ s.examples, Real ex.example

/-- The parameters of the actions have names. -/
def NamedParams (s : Schema) : Prop :=
  ∀ h ∈ s.http, (∀ p ∈ h.inputs, p.field.name ≠ "") ∧ ∀ e, h.expected = some e → ∀ p ∈ e.outputs, p.field.name ≠ ""

end Sadl.Spec
