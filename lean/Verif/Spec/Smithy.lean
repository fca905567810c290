import Verif.Model.SmithyImport
import Verif.Spec.OpenApi
/-
Vocabulary for the properties of the Smithy export and import.
-/
namespace Sadl.Spec
open Sadl Sadl.Smithy

/-- The base types that a type with a Smithy shape can have. -/
def SmithyBases : List String :=
  ["Int8", "Int16", "Int32", "Int64", "Float32", "Float64", "Decimal", "String", "Enum", "Struct", "Array", "Union",
   "Map", "UUID"]

/-- The name of the operation for an action. -/
def OpName (h : HttpDef) : String :=
  if h.name = "" then capitalize (lowerAscii h.method) ++ "Something" else capitalize h.name

/-- The outputs of an action. -/
def ActionOutputs (h : HttpDef) : List HttpParamSpec :=
  match h.expected with
  | some e => e.outputs
  | none => []

/-- The names of the structures for the inputs and the outputs of an action. -/
def IoNames (suf : Suffixes) (h : HttpDef) : List String :=
  (if h.inputs = [] then [] else [OpName h ++ suf.input]) ++
  (if ActionOutputs h = [] then [] else [OpName h ++ suf.output])

/-- The value is an object. -/
def IsObject (v : Value) : Prop := ∃ kvs, v = .obj kvs

/-- What a schema must satisfy to be exported to Smithy. -/
structure SmithyReady (suf : Suffixes) (s : Schema) : Prop where
  /-- Every type is based on a type that has a shape. -/
  types : ∀ td ∈ s.types, td.ts.type ∈ SmithyBases
  /-- Every action has an expected response. -/
  expected : ∀ h ∈ s.http, h.expected ≠ none
  /-- The annotation `x_paginated` is a list of items `key=value`, separated by commas. -/
  paginated : ∀ h ∈ s.http, ∀ v, mget h.annotations "x_paginated" = some v → ∀ item ∈ splitAll ',' v.toList, '=' ∈ item
  /-- Exceptions are types of the schema (or shapes made so far). -/
  exceptions : ∀ pre h post, s.http = pre ++ h :: post → ∀ x ∈ h.exceptions,
    Named s x.type ∨ x.type ∈ IoNames suf h ∨ ∃ h' ∈ pre, x.type = OpName h' ∨ x.type ∈ IoNames suf h'
  /-- Examples of requests are objects. -/
  requests : ∀ h ∈ s.http, ∀ ex ∈ s.examples, ex.target = capitalize h.name ++ "Request" → IsObject ex.example
  /-- Examples of responses and exceptions are objects if there is a request of the same name. -/
  responses : ∀ h ∈ s.http, ∀ ex ∈ s.examples,
    (ex.target = capitalize h.name ++ "Response" ∨ ∃ x ∈ h.exceptions, x.type = ex.target) →
    (∃ rq ∈ s.examples, rq.target = capitalize h.name ++ "Request" ∧ rq.name = ex.name) → IsObject ex.example

/-! ### Shape names -/

/-- The names of the structures for the inputs and the outputs of an operation without HTTP
binding. -/
def PlainIoNames (suf : Suffixes) (od : OperationDef) : List String :=
  (if od.inputs = [] then [] else [capitalize od.name ++ suf.input]) ++
  (if od.outputs = [] then [] else [capitalize od.name ++ suf.output])

/-- The names of all shapes that the schema needs: its types, for every action and operation the
structures of its inputs and outputs and the operation itself, and the service. -/
def ShapeNames (suf : Suffixes) (s : Schema) : List String :=
  s.types.map (·.name) ++ s.http.flatMap (fun h => IoNames suf h ++ [OpName h]) ++
  s.operations.flatMap (fun od => PlainIoNames suf od ++ [capitalize od.name]) ++
  (if s.http = [] ∧ s.operations = [] then [] else [capitalize s.name])

/-- No two shapes have the same name. -/
def NoClash (suf : Suffixes) (s : Schema) : Prop := (ShapeNames suf s).Nodup

/-! ### References between shapes -/

/-- The shape refers to another one. -/
inductive Refers (sh : Shape) : String → Prop
  | member {mem : Member} : sh.member = some mem → Refers sh mem.target
  | key {mem : Member} : sh.key = some mem → Refers sh mem.target
  | value {mem : Member} : sh.value = some mem → Refers sh mem.target
  | members {k : String} {mem : Member} : (k, mem) ∈ sh.members → Refers sh mem.target
  | input {r : String} : sh.input = some r → Refers sh r
  | output {r : String} : sh.output = some r → Refers sh r
  | error {r : String} : r ∈ sh.errors → Refers sh r
  | operation {r : String} : r ∈ sh.operations → Refers sh r

/-- The shapes that Smithy defines and that the export uses. -/
def PreludeShapes : List String :=
  ["smithy.api#Boolean", "smithy.api#Byte", "smithy.api#Short", "smithy.api#Integer", "smithy.api#Long", "smithy.api#Float",
   "smithy.api#Double", "smithy.api#BigInteger", "smithy.api#BigDecimal", "smithy.api#Timestamp", "smithy.api#Blob",
   "smithy.api#String", "smithy.api#Document", "smithy.api#Unit"]

/-- Every reference of the AST leads to a shape. -/
def ShapesResolve (ast : Ast) : Prop :=
  ∀ k sh r, (k, sh) ∈ ast.shapes → Refers sh r → r ∈ PreludeShapes ∨ ∃ sh', (r, sh') ∈ ast.shapes

/-- The built-in types that stand for a shape of Smithy. -/
def ScalarTypes : List String :=
  ["Bool", "Int8", "Int16", "Int32", "Int64", "Float32", "Float64", "Decimal", "Timestamp", "UUID", "Bytes", "String", "Struct"]

/-- The type references of the schema that the export can express. -/
structure SmithyRefsOk (s : Schema) : Prop where
  fields : ∀ td ∈ s.types, td.ts.type = "Struct" → ∀ f ∈ td.ts.fields, f.ts.type ∈ ScalarTypes ∨ Named s f.ts.type
  arrays : ∀ td ∈ s.types, td.ts.type = "Array" → td.ts.items ∈ ScalarTypes ∨ Named s td.ts.items
  maps : ∀ td ∈ s.types, td.ts.type = "Map" →
    (td.ts.keys ∈ ScalarTypes ∨ Named s td.ts.keys) ∧ (td.ts.items ∈ ScalarTypes ∨ Named s td.ts.items)
  /-- The variants of unions are types of the schema, without the names that stand for Smithy's own shapes. -/
  unions : ∀ td ∈ s.types, td.ts.type = "Union" → ∀ v ∈ td.ts.variants, Named s v.ts.type
  names : ∀ td ∈ s.types, '#' ∉ td.name.toList ∧ td.name ∉ BaseTypes ∧ td.name ∉ ["Boolean", "Byte", "Short", "Integer",
    "Long", "Float", "Double", "BigInteger", "BigDecimal", "Blob", "List", "Set", "Document", "Structure"]
  inputs : ∀ h ∈ s.http, ∀ p ∈ h.inputs, p.field.ts.type ∈ ScalarTypes ∨ Named s p.field.ts.type
  outputs : ∀ h ∈ s.http, ∀ p ∈ ActionOutputs h, p.field.ts.type ∈ ScalarTypes ∨ Named s p.field.ts.type
  operationInputs : ∀ od ∈ s.operations, ∀ p ∈ od.inputs, p.ts.type ∈ ScalarTypes ∨ Named s p.ts.type
  operationOutputs : ∀ od ∈ s.operations, ∀ p ∈ od.outputs, p.ts.type ∈ ScalarTypes ∨ Named s p.ts.type

end Sadl.Spec
