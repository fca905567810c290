import Verif.Spec.OpenApiTypes
import Verif.Spec.SmithyKept
/-
The HTTP actions that survive the export to OpenAPI and the import from it.
-/
namespace Sadl.Spec
open Sadl

/-- The letters and underscores of a name. -/
def Letters (s : String) : String :=
  String.ofList (s.toList.filter fun c => decide (('a' ≤ c ∧ c ≤ 'z') ∨ ('A' ≤ c ∧ c ≤ 'Z') ∨ c = '_'))

/-- The name of a header without the `X-` of a private one. -/
def PublicPart (header : String) : String :=
  match header.toList with
  | 'x' :: '-' :: r => String.ofList r
  | 'X' :: '-' :: r => String.ofList r
  | _ => header

/-- The types of parameters that are kept. -/
inductive OasParamKept (s : Schema) : TypeSpec → Prop
  | named {td} : td ∈ s.types → td.name ≠ "" → OasParamKept s { type := td.name }
  | base {t} : t ∈ ["Bool", "String", "Int32", "Decimal"] → OasParamKept s { type := t }
  | strings : OasParamKept s { type := "Array", items := "String" }

/-- Neither an annotation nor a default. -/
def BareField (f : StructFieldDef) : Prop := f.annotations = [] ∧ f.default = .null

/-- The inputs that are kept: in the path, in the query or in a header under a name that a parameter can have, or as body. -/
structure OasInputKept (s : Schema) (method uri : String) (p : HttpParamSpec) : Prop where
  bare : BareField p.field
  path : p.path = true → p.query = "" ∧ p.header = "" ∧ Letters p.field.name = p.field.name ∧
    Occurs ("{" ++ p.field.name ++ "}").toList uri.toList
  query : p.query ≠ "" → p.header = "" ∧ p.field.name = p.query ∧ Letters p.query = p.query
  header : p.header ≠ "" → p.field.name = Letters p.header
  type : BodyInput p = false → OasParamKept s p.field.ts
  body : BodyInput p = true → method ∈ ["PUT", "POST"] ∧ p.field.name = "body" ∧
    ∃ td ∈ s.types, td.name ≠ "" ∧ p.field.ts = { type := td.name }

/-- The outputs that are kept. -/
structure OasOutputKept (lib : OLib) (s : Schema) (p : HttpParamSpec) : Prop where
  bare : BareField p.field
  place : p.path = false ∧ p.query = ""
  header : p.header ≠ "" → p.field.name = Letters (PublicPart p.header)
  body : p.header = "" → p.field.name = "body" ∧ p.field.comment = ""
  type : FieldKept lib s p.field.ts

/-- The actions that are kept. -/
structure OasActionKept (lib : OLib) (s : Schema) (h : HttpDef) : Prop where
  method : h.method ∈ ExportedMethods
  tags : h.annotations = [] ∨
    (h.resource ≠ "" ∧ ∃ c r, h.annotations = [("x_tags", String.ofList (c :: r))] ∧ c ≠ ',')
  uri : ∃ uri, '?' ∉ (s.base ++ uri).toList ∧ ¬ "x-".toList <+: (s.base ++ uri).toList ∧ h.path = uri ++ QueryText h.inputs ∧
    ∀ p ∈ h.inputs, OasInputKept s h.method uri p
  oneBody : (h.inputs.filter BodyInput).length ≤ 1
  expected : ∃ e, h.expected = some e ∧ 200 ≤ e.status ∧ e.status < 400 ∧ (∀ p ∈ e.outputs, OasOutputKept lib s p) ∧
    (e.outputs.map (·.header)).Nodup
  exceptions : (∀ x ∈ h.exceptions, x.type ≠ "" ∧ (x.status = 0 ∨ (400 ≤ x.status ∧ x.status < 600))) ∧
    (h.exceptions.map (·.status)).Nodup

/-- An input after the round trip: path parameters and bodies are required. -/
def OasSameInput (p p' : HttpParamSpec) : Prop :=
  p' = { p with field := { p.field with required := p.field.required || p.path || BodyInput p } }

/-- An output after the round trip: it is not required. -/
def OasSameOutput (p p' : HttpParamSpec) : Prop :=
  p' = { p with field := { p.field with required := false } }

/-- An action after the round trip: the base has become part of the path, the body is the last input, outputs and exceptions
are in any order, and responses without comment have got one. -/
structure OasSameAction (base : String) (h h' : HttpDef) : Prop where
  name : h'.name = h.name
  method : h'.method = h.method
  path : h'.path = base ++ h.path
  comment : h'.comment = h.comment
  resource : h'.resource = h.resource
  annotations : h'.annotations = h.annotations
  inputs : List.Forall₂ OasSameInput (h.inputs.filter (fun p => !BodyInput p) ++ h.inputs.filter BodyInput) h'.inputs
  expected : ∃ e e' outs, h.expected = some e ∧ h'.expected = some e' ∧ e'.status = e.status ∧
    (e.comment ≠ "" → e'.comment = e.comment) ∧ outs.Perm e.outputs ∧ List.Forall₂ OasSameOutput outs e'.outputs
  exceptions : ∃ xs, xs.Perm h.exceptions ∧
    List.Forall₂ (fun x x' => x'.type = x.type ∧ x'.status = x.status ∧ (x.comment ≠ "" → x'.comment = x.comment)) xs h'.exceptions

/-! ### Documents that say the same

The maps of a document have no order, and examples do not matter. -/

/-- The maps have the same keys, and related values. -/
def SameMap {α : Type} (R : α → α → Prop) (m m' : GoMap α) : Prop :=
  m'.Distinct ∧ ∀ k, Option.Rel R (mget m k) (mget m' k)

/-- The same schema for each media type. -/
def SameContent : GoMap OMedia → GoMap OMedia → Prop := SameMap fun a b => b.schema = a.schema

structure SameResponse (r r' : OResponse) : Prop where
  description : r'.description = r.description
  headers : SameMap Eq r.headers r'.headers
  content : SameContent r.content r'.content

structure SameBody (b b' : OBody) : Prop where
  description : b'.description = b.description
  required : b'.required = b.required
  content : SameContent b.content b'.content

structure SameOperation (op op' : OOperation) : Prop where
  tags : op'.tags = op.tags
  summary : op'.summary = op.summary
  operationId : op'.operationId = op.operationId
  parameters : List.Forall₂ (fun p p' => p' = { p with «example» := p'.example, examples := p'.examples }) op.parameters op'.parameters
  requestBody : Option.Rel SameBody op.requestBody op'.requestBody
  responses : SameMap SameResponse op.responses op'.responses

/-- The same paths with the same operations. -/
def SamePaths : GoMap OPathItem → GoMap OPathItem → Prop :=
  SameMap fun pi pi' => ∀ k, Option.Rel SameOperation (pi.op k) (pi'.op k)

end Sadl.Spec
