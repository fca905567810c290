import Verif.Model.OpenApi
import Verif.Spec.Conforms
import Verif.Spec.Paths
import Verif.Spec.Valid
import Mathlib.Logic.Relation
/-
What a user expects of an OpenAPI document that describes a schema, stated on the document and
the schema only.
-/
namespace Sadl.Spec
open Sadl

/-! ### Operations -/

/-- The HTTP methods that a path of an exported document can hold. -/
def methodName : OMethod → String
  | .get => "GET"
  | .put => "PUT"
  | .post => "POST"
  | .delete => "DELETE"
  | .head => "HEAD"
  | .patch => "PATCH"

/-- The methods whose actions are exported. -/
def ExportedMethods : List String := ["GET", "PUT", "POST", "DELETE"]

/-- The action `h` of a schema with the given base path lives at `path`: base and path without
the query part. -/
def LivesAt (base : String) (h : HttpDef) (path : String) : Prop :=
  ∃ q, PathAndQuery (base ++ h.path).toList path.toList q

/-- The input `p` of an action is the parameter `op` of its operation. -/
structure ParamMatches (p : HttpParamSpec) (op : OParam) : Prop where
  comment : op.description = p.field.comment
  schema : op.schema ≠ none
  place : (p.path = true ∧ op.in = "path" ∧ op.name = p.field.name ∧ op.required = true) ∨
    (p.path = false ∧ p.query ≠ "" ∧ op.in = "query" ∧ op.name = p.query ∧ op.required = p.field.required) ∨
    (p.path = false ∧ p.query = "" ∧ p.header ≠ "" ∧ op.in = "header" ∧ op.name = p.header ∧ op.required = p.field.required)

/-- The response stands for the exception `x`. -/
def ExceptionMatches (x : HttpExceptionSpec) (r : OResponse) : Prop :=
  (x.comment ≠ "" → r.description = x.comment) ∧
  ∃ mt s, mget r.content "application/json" = some mt ∧ mt.schema = some s ∧ s.ref = "#/components/schemas/" ++ x.type

/-- The key under which a response with a status is listed; an exception without status is the default. -/
def statusKey (n : Int) : String := if n = 0 then "default" else String.ofList (showInt n)

/-- The operation describes the action. -/
structure Describes (h : HttpDef) (op : OOperation) : Prop where
  name : op.operationId = h.name
  comment : op.summary = h.comment
  resource : h.resource ≠ "" → op.tags.head? = some h.resource
  params : List.Forall₂ ParamMatches (h.inputs.filter (fun p => !BodyInput p)) op.parameters
  body : op.requestBody.isSome = h.inputs.any BodyInput
  expected : ∃ e, h.expected = some e ∧
    ((∀ x ∈ h.exceptions, statusKey x.status ≠ String.ofList (showInt e.status)) →
      ∃ r, mget op.responses (String.ofList (showInt e.status)) = some r ∧
        (e.comment ≠ "" → r.description = e.comment) ∧
        ((mget r.content "application/json").isSome = e.outputs.any BodyOutput) ∧
        ∀ k, (mget r.headers k).isSome ↔ ∃ p ∈ e.outputs, p.header = k ∧ k ≠ "")
  exceptions : (h.exceptions.map (fun x => statusKey x.status)).Nodup →
    ∀ x ∈ h.exceptions, ∃ r, mget op.responses (statusKey x.status) = some r ∧ ExceptionMatches x r

/-! ### References -/

/-- The reference occurs in the schema. -/
inductive HasRef : OSchema → String → Prop
  | here {s} : s.ref ≠ "" → HasRef s s.ref
  | items {s i r} : s.items = some i → HasRef i r → HasRef s r
  | additional {s i r} : s.additionalProperties = some i → HasRef i r → HasRef s r
  | property {s ps k i r} : s.properties = some ps → (k, i) ∈ ps → HasRef i r → HasRef s r
  | oneOf {s i r} : i ∈ s.oneOf → HasRef i r → HasRef s r

/-- The schema occurs in the operation: as type of a parameter, of the body, or of a response. -/
inductive OpSchema (op : OOperation) : OSchema → Prop
  | param {p s} : p ∈ op.parameters → p.schema = some s → OpSchema op s
  | body {b k mt s} : op.requestBody = some b → (k, mt) ∈ b.content → mt.schema = some s → OpSchema op s
  | header {st r k hd s} : (st, r) ∈ op.responses → (k, hd) ∈ r.headers → hd.schema = some s → OpSchema op s
  | response {st r k mt s} : (st, r) ∈ op.responses → (k, mt) ∈ r.content → mt.schema = some s → OpSchema op s

/-- The schema occurs in the document. -/
inductive DocSchema (d : ODoc) : OSchema → Prop
  | component {k s} : (k, s) ∈ d.schemas → DocSchema d s
  | operation {p pi k op s} : (p, pi) ∈ d.paths → pi.op k = some op → OpSchema op s → DocSchema d s

/-- All references of the document resolve within it. -/
def RefsResolve (d : ODoc) : Prop :=
  ∀ s r, DocSchema d s → HasRef s r → ∃ name target, r = "#/components/schemas/" ++ name ∧ (name, target) ∈ d.schemas

/-! ### Types written in a schema -/

/-- The type is written in place, without a name: as type of a field or of a parameter. -/
inductive Inline (s : Schema) : TypeSpec → Prop
  | field {td f} : td ∈ s.types → td.ts.type = "Struct" → f ∈ td.ts.fields → Inline s f.ts
  | input {h p} : h ∈ s.http → p ∈ h.inputs → Inline s p.field.ts
  | output {h e p} : h ∈ s.http → h.expected = some e → p ∈ e.outputs → Inline s p.field.ts
  | nested {t f} : Inline s t → t.type = "Struct" → f ∈ t.fields → Inline s f.ts

/-- The type is written in the schema, with or without a name. -/
def Written (s : Schema) (t : TypeSpec) : Prop := (∃ td ∈ s.types, td.ts = t) ∨ Inline s t

/-- The name is that of a type defined in the schema. -/
def Named (s : Schema) (n : String) : Prop := ∃ td ∈ s.types, td.name = n

/-- The base types that are written as schemas of their own. -/
def PlainTypes : List String :=
  ["Bool", "Int8", "Int16", "Int32", "Int64", "Float32", "Float64", "Decimal", "Bytes", "String", "Timestamp", "UnitValue", "UUID"]

/-- The schema avoids the references that the export gets wrong: enumerations, unions and `Any`
written in place, arrays of unions or `Any`, maps of enumerations, unions or `Any`, and union
variants and exceptions that are no types of the schema. -/
structure RefSafe (s : Schema) : Prop where
  inline : ∀ t, Inline s t → t.type ∈ PlainTypes ∨ t.type ∈ ["Array", "Map", "Struct"] ∨ Named s t.type
  arrays : ∀ t, Written s t → t.type = "Array" → ∀ u, Defines s t.items u →
    u.type ∈ PlainTypes ∨ u.type ∈ ["Array", "Map", "Struct", "Enum"]
  maps : ∀ t, Written s t → t.type = "Map" → ∀ u, Defines s t.items u →
    u.type ∈ PlainTypes ∨ u.type ∈ ["Array", "Map", "Struct"]
  collections : ∀ t, Written s t → t.type ∈ ["Array", "Map"] → t.items ∉ ["Enum", "Struct", "Array", "Map"]
  variants : ∀ td ∈ s.types, td.ts.type = "Union" → ∀ v ∈ td.ts.variants, Named s v.ts.type
  exceptions : ∀ h ∈ s.http, ∀ x ∈ h.exceptions, Named s x.type

/-! ### Examples of requests and responses -/

/-- The action is the one that the export finds on its path: no other action with the same path
has a method that comes before its own in the order `GET`, `PUT`, `DELETE`, `POST`. -/
def Foremost (s : Schema) (h : HttpDef) : Prop :=
  ∃ before after, ["GET", "PUT", "DELETE", "POST"] = before ++ h.method :: after ∧
    ∀ g ∈ s.http, g.method ∈ before → ∀ path, LivesAt s.base h path → ¬ LivesAt s.base g path

/-- Every path has an action with one of the methods that are exported. -/
def PathsInUse (s : Schema) : Prop :=
  ∀ h ∈ s.http, ∃ g ∈ s.http, g.method ∈ ExportedMethods ∧ ∃ path, LivesAt s.base h path ∧ LivesAt s.base g path

/-- The value is an object, and it has a member `body` only if `allowed`. -/
def BodyOnlyIf (v : Value) (allowed : Prop) : Prop :=
  ∃ kvs, v = .obj kvs ∧ ((∃ b, ("body", b) ∈ kvs) → allowed)

/-- The example can be written to the document: it is the example of a type, or of nothing that
has a place in the document, or of the request or the response of an action that has what the example shows. -/
inductive ExampleFits (s : Schema) (ex : ExampleDef) : Prop
  | type : Named s ex.target → ExampleFits s ex
  | other : (∀ base, ex.target ≠ base ++ "Request" ∧ ex.target ≠ base ++ "Response") → ExampleFits s ex
  | request {base} : ex.target = base ++ "Request" → PathsInUse s →
      (∀ h ∈ s.http, h.name = uncapitalize base → Foremost s h →
        BodyOnlyIf ex.example (∃ p ∈ h.inputs, BodyInput p = true)) → ExampleFits s ex
  | response {base h e} : ex.target = base ++ "Response" → PathsInUse s → h ∈ s.http → h.name = uncapitalize base →
      Foremost s h → h.expected = some e →
      BodyOnlyIf ex.example ((∃ p ∈ e.outputs, BodyOutput p = true) ∨
        ∃ x ∈ h.exceptions, statusKey x.status = String.ofList (showInt e.status)) → ExampleFits s ex

/-! ### Recursion -/

/-- `u` is `t` or written within the struct type `t`. -/
inductive WrittenIn : TypeSpec → TypeSpec → Prop
  | refl {t} : WrittenIn t t
  | field {t f u} : t.type = "Struct" → f ∈ t.fields → WrittenIn f.ts u → WrittenIn t u

/-- Writing out the type `a` in full needs the type `b` in full: as items of a map, or as
items of an array unless `b` is a struct (to which the array can refer by name). -/
def Expands (s : Schema) (a b : String) : Prop :=
  ∃ ta t tb, Defines s a ta ∧ WrittenIn ta t ∧ t.items = b ∧ Defines s b tb ∧
    (t.type = "Map" ∨ (t.type = "Array" ∧ tb.type ≠ "Struct"))

/-- The schema avoids what the export cannot do: collections of unknown types, arrays of
`Float64` types, types that contain themselves by way of maps and arrays, actions without an
expected response, and examples that do not fit. -/
structure OasSafe (s : Schema) : Prop where
  arrays : ∀ t, Written s t → t.type = "Array" →
    t.items ∉ ["", "Array", "Map"] ∧ ∃ u, Defines s t.items u ∧ u.type ≠ "Float64"
  maps : ∀ t, Written s t → t.type = "Map" → t.items ∉ ["Array", "Map"] ∧ ∃ u, Defines s t.items u
  acyclic : ∀ a, ¬ Relation.TransGen (Expands s) a a
  expected : ∀ h ∈ s.http, h.expected ≠ none
  examples : ∀ ex ∈ s.examples, ExampleFits s ex

/-- The base types whose definitions can be exported. -/
def ExportedBases : List String :=
  ["Struct", "Array", "Map", "String", "Bool", "Enum", "Int8", "Int16", "Int32", "Int64", "Float32", "Float64", "Decimal",
   "UUID", "Union", "Timestamp"]

/-- What a schema must satisfy to be exported. -/
structure OasReady (s : Schema) : Prop where
  safe : OasSafe s
  bases : ∀ td ∈ s.types, td.ts.type ∈ ExportedBases
  actions : s.http.Pairwise fun a b => a.method ∈ ExportedMethods → a.method = b.method →
    ∀ path, LivesAt s.base a path → ¬ LivesAt s.base b path

end Sadl.Spec
