import Verif.Model.Json
/-
What a JSON document must look like to be an OpenAPI document: the objects of the OpenAPI
specification (version 3.0), with the members that it allows and those that it requires.  Only
members that an exported document can have are listed.
-/
namespace Sadl.Spec
open Sadl

/-- The document is a text. -/
def IsJText (d : JDoc) : Prop := ∃ s, d = .str s
/-- The document is a text that is not empty. -/
def IsJFullText (d : JDoc) : Prop := ∃ s, d = .str s ∧ s ≠ ""
def IsJBool (d : JDoc) : Prop := ∃ b, d = .bool b

/-- The document is an object with different members, all of which are allowed, and with the required ones. -/
def ObjectOf (allowed : List (String × (JDoc → Prop))) (required : List String) (d : JDoc) : Prop :=
  ∃ ms, d = .obj ms ∧ (ms.map Prod.fst).Nodup ∧ (∀ p ∈ ms, ∃ a ∈ allowed, a.1 = p.1 ∧ a.2 p.2) ∧ ∀ k ∈ required, k ∈ ms.map Prod.fst

/-- The document is an object whose members, under whatever different names with `K`, are all `P`. -/
def MapOf (K : String → Prop) (P : JDoc → Prop) (d : JDoc) : Prop :=
  ∃ ms, d = .obj ms ∧ (ms.map Prod.fst).Nodup ∧ ∀ p ∈ ms, K p.1 ∧ P p.2

/-- The document is a list whose elements are all `P`. -/
def ListOf (P : JDoc → Prop) (d : JDoc) : Prop := ∃ ds, d = .arr ds ∧ ∀ x ∈ ds, P x

/-- The members of a schema that an exported document can have. -/
def schemaNames : List String :=
  ["$ref", "oneOf", "type", "format", "description", "enum", "example", "minimum", "maximum", "minLength", "maxLength", "pattern", "items",
   "required", "properties", "additionalProperties"]

/-- A Schema Object, or a reference to one. -/
inductive SchemaObject : JDoc → Prop
  | obj {ms : List (String × JDoc)} : (ms.map Prod.fst).Nodup →
    (∀ p ∈ ms, p.1 ∈ schemaNames) →
    (∀ p ∈ ms, p.1 ∈ ["$ref", "type", "format", "description", "pattern"] → IsJText p.2) →
    (∀ p ∈ ms, p.1 ∈ ["minimum", "maximum", "minLength", "maxLength"] → ∃ t, p.2 = .num t) →
    (∀ p ∈ ms, p.1 ∈ ["oneOf", "enum", "required"] → ∃ ds, p.2 = .arr ds ∧ ds ≠ []) →
    (∀ p ∈ ms, p.1 = "required" → ListOf IsJText p.2) →
    (∀ p ∈ ms, p.1 = "properties" → ∃ ps, p.2 = .obj ps ∧ (ps.map Prod.fst).Nodup) →
    (∀ p ∈ ms, p.1 = "items" → SchemaObject p.2) →
    (∀ p ∈ ms, p.1 = "additionalProperties" → SchemaObject p.2) →
    (∀ ds, ("oneOf", .arr ds) ∈ ms → ∀ d ∈ ds, SchemaObject d) →
    (∀ ps, ("properties", .obj ps) ∈ ms → ∀ p ∈ ps, SchemaObject p.2) → SchemaObject (.obj ms)

/-- Any name. -/
def anyName : String → Prop := fun _ => True

/-- An Example Object. -/
def ExampleObject : JDoc → Prop := ObjectOf [("value", fun _ => True)] []

/-- A Media Type Object. -/
def MediaObject : JDoc → Prop :=
  ObjectOf [("schema", SchemaObject), ("example", fun _ => True), ("examples", MapOf anyName ExampleObject)] []

/-- A Parameter Object. -/
def ParameterObject : JDoc → Prop :=
  ObjectOf [("name", IsJFullText), ("in", fun d => d = .str "path" ∨ d = .str "query" ∨ d = .str "header"), ("description", IsJText), ("required", IsJBool),
    ("schema", SchemaObject), ("example", fun _ => True), ("examples", MapOf anyName ExampleObject)] ["name", "in", "schema"]

/-- A Header Object. -/
def HeaderObject : JDoc → Prop := ObjectOf [("description", IsJText), ("schema", SchemaObject)] []

/-- A Response Object. -/
def ResponseObject : JDoc → Prop :=
  ObjectOf [("description", IsJFullText), ("headers", MapOf anyName HeaderObject), ("content", MapOf anyName MediaObject)] ["description"]

/-- A Request Body Object. -/
def BodyObject : JDoc → Prop :=
  ObjectOf [("description", IsJText), ("required", IsJBool), ("content", MapOf anyName MediaObject)] ["content"]

/-- An Operation Object. -/
def OperationObject : JDoc → Prop :=
  ObjectOf [("tags", ListOf IsJText), ("summary", IsJText), ("operationId", IsJText), ("parameters", ListOf ParameterObject),
    ("requestBody", BodyObject), ("responses", fun d => MapOf anyName ResponseObject d ∧ d ≠ .obj [])] ["responses"]

/-- A Path Item Object. -/
def PathObject : JDoc → Prop :=
  ObjectOf [("delete", OperationObject), ("get", OperationObject), ("head", OperationObject), ("patch", OperationObject),
    ("post", OperationObject), ("put", OperationObject)] []

/-- A License Object. -/
def LicenseObject : JDoc → Prop := ObjectOf [("name", IsJFullText), ("url", IsJText)] ["name"]

/-- An Info Object. -/
def InfoObject : JDoc → Prop :=
  ObjectOf [("title", IsJFullText), ("description", IsJText), ("license", LicenseObject), ("version", IsJFullText)] ["title", "version"]

/-- A Server Object. -/
def ServerObject : JDoc → Prop := ObjectOf [("url", IsJFullText)] ["url"]

/-- A Components Object. -/
def ComponentsObject : JDoc → Prop := ObjectOf [("schemas", MapOf anyName SchemaObject)] []

/-- A document of OpenAPI 3.0.0. -/
def OpenApiObject : JDoc → Prop :=
  ObjectOf [("components", ComponentsObject), ("info", InfoObject), ("openapi", fun d => d = .str "3.0.0"),
    ("paths", MapOf (fun k => k.toList.head? = some '/') PathObject), ("servers", ListOf ServerObject)] ["openapi", "info", "paths"]

end Sadl.Spec
