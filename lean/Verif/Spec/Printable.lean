import Verif.Model.Unparser
/-
The models whose decompiled source says everything about them.

The conditions name what `DecompileSadl` writes in a form that the parser reads back: for
each construct, which of its attributes are set and what the texts look like.
-/
namespace Sadl.Spec

/-- A name: a letter followed by letters, digits and underscores. -/
def IsName (s : String) : Prop := isSymbolText s = true

/-- A text that is the same with and without the quoting of `%q`: no quotes, no backslashes, no
control characters. -/
def IsPlain (s : String) : Prop := ∀ c ∈ s.toList, c ≠ '"' ∧ c ≠ '\\' ∧ 32 ≤ c.toNat ∧ c.toNat ≠ 127

/-- A comment of words separated by single blanks. -/
def IsWords (c : String) : Prop :=
  c = "" ∨ ∀ w ∈ splitAll ' ' c.toList, w ≠ [] ∧ ∀ ch ∈ w, isSpaceCh ch = false

/-- A comment of one line, with no blanks at either end. -/
def IsLine (c : String) : Prop := trimSpace c = c ∧ '\n' ∉ c.toList

/-- Annotations: names beginning with `x_`, plain values. -/
structure AnnosOk (m : GoMap String) : Prop where
  distinct : m.Distinct
  item : ∀ kv ∈ m, IsName kv.1 ∧ hasPrefix (lowerS kv.1) "x_" = true ∧ IsPlain kv.2

/-- A size. -/
def SizeOk (n : Option Int) : Prop := ∀ k ∈ n, 0 ≤ k ∧ k < 2 ^ 63

/-- A finite number whose text reads back as the same number. -/
def NumberOk (lib : PLib) (pl : PrintLib) (d : BigFloat) : Prop :=
  (∃ m e, d = .fin m e) ∧ lib.parseDecimal (pl.decText d) = some d

/-- The type names that `sadlTypeSpec` or the parser treat specially. -/
def specialTypes : List String :=
  ["Enum", "String", "Int8", "Int16", "Int32", "Int64", "Float32", "Float64", "Decimal", "Array", "List", "Map",
   "Struct", "Union", "UnitValue"]

/-- A value of the kinds the parser produces, with texts that read back as the same value. -/
inductive ValueOk (lib : PLib) (pl : PrintLib) : Value → Prop
  | null : ValueOk lib pl .null
  | bool {b} : ValueOk lib pl (.bool b)
  | str {s} : lib.unquote (pl.jsonText s) = some s → ValueOk lib pl (.strPtr s)
  | dec {d} : NumberOk lib pl d → ValueOk lib pl (.dec d)
  | arr {xs} : (∀ x ∈ xs, ValueOk lib pl x) → ValueOk lib pl (.arr xs)
  | obj {kvs : GoMap Value} : kvs.Distinct → (∀ kv ∈ kvs, lib.unquote (pl.jsonText kv.1) = some kv.1) →
      (∀ kv ∈ kvs, ValueOk lib pl kv.2) → ValueOk lib pl (.obj kvs)

/-- An element of an enumeration. -/
structure ElementOk (el : EnumElementDef) : Prop where
  name : IsName el.symbol
  comment : IsLine el.comment
  annotations : AnnosOk el.annotations

/-- A field, apart from its type: no default value, a short comment, and no options on a
structure or enumeration defined in place. -/
structure FieldDefOk (f : StructFieldDef) : Prop where
  name : IsName f.name
  comment : IsLine f.comment
  short : byteLen f.comment.toList ≤ 60
  annotations : AnnosOk f.annotations
  default : f.default = .null
  inline : f.ts.type = "Enum" ∨ f.ts.type = "Struct" → f.required = false ∧ f.annotations = []
  empty : f.ts.type = "Struct" → f.ts.fields = [] → f.comment = ""

/-- A type without constraints other than those shown. -/
inductive SpecOk (lib : PLib) (pl : PrintLib) : TypeSpec → Prop
  | named {t} : IsName t → t ∉ specialTypes → SpecOk lib pl { type := t }
  | unitValue : SpecOk lib pl { type := "UnitValue", value := "Decimal", unit := "String" }
  | string {pattern minSize maxSize values} : IsPlain pattern → SizeOk minSize → SizeOk maxSize →
      (∀ vs ∈ values, vs ≠ [] ∧ ∀ v ∈ vs, IsPlain v) →
      SpecOk lib pl { type := "String", pattern := pattern, minSize := minSize, maxSize := maxSize, values := values }
  | number {t min max} : t ∈ ["Int8", "Int16", "Int32", "Int64", "Float32", "Float64", "Decimal"] →
      (∀ d ∈ min, NumberOk lib pl d) → (∀ d ∈ max, NumberOk lib pl d) →
      SpecOk lib pl { type := t, min := min, max := max }
  | array {items minSize maxSize} : IsName items → SizeOk minSize → SizeOk maxSize →
      SpecOk lib pl { type := "Array", items := items, minSize := minSize, maxSize := maxSize }
  | map {keys items minSize maxSize} : IsName keys → IsName items → SizeOk minSize → SizeOk maxSize →
      SpecOk lib pl { type := "Map", keys := keys, items := items, minSize := minSize, maxSize := maxSize }
  | enum {elements} : (∀ el ∈ elements, ElementOk el) → SpecOk lib pl { type := "Enum", elements := elements }
  | struct {fields} : (∀ f ∈ fields, FieldDefOk f) → (∀ f ∈ fields, SpecOk lib pl f.ts) →
      SpecOk lib pl { type := "Struct", fields := fields }

/-- A variant of a union: a name and a type without parameters. -/
def VariantOk (v : UnionVariantDef) : Prop :=
  ∃ name type, IsName name ∧ IsName type ∧ (type ∉ specialTypes ∨ type = "UnitValue") ∧ v = { name := name, ts := { type := type } }

/-- A type definition: no annotations, and the type is a base type. -/
structure TypeDefOk (lib : PLib) (pl : PrintLib) (td : TypeDef) : Prop where
  name : IsName td.name
  comment : IsWords td.comment
  annotations : td.annotations = []
  type : (SpecOk lib pl td.ts ∧ td.ts.pattern ≠ regExUUID ∧
      (td.ts.type ∈ specialTypes ∨ td.ts.type ∈ ["Any", "Bool", "Timestamp", "Bytes", "UUID"])) ∨
    (∃ vs, vs ≠ [] ∧ (∀ v ∈ vs, VariantOk v) ∧ td.ts = { type := "Union", variants := vs })

/-- An operation: inputs and outputs without comments and constraints, where neither the last
input nor, without inputs, the operation itself has options if there are outputs. -/
structure OperationOk (op : OperationDef) : Prop where
  name : IsName op.name
  comment : IsWords op.comment
  annotations : AnnosOk op.annotations
  inputs : ∀ f ∈ op.inputs, ∃ n r t, IsName n ∧ IsName t ∧ f = { name := n, required := r, ts := { type := t } }
  outputs : ∀ o ∈ op.outputs, ∃ n t, IsName n ∧ IsName t ∧ o = { name := n, ts := { type := t } }
  exceptions : ∀ e ∈ op.exceptions, IsName e
  leftover : op.outputs ≠ [] → (∀ f ∈ op.inputs.getLast?, f.required = false) ∧ (op.inputs = [] → op.annotations = [])

/-- A type of an HTTP parameter, without constraints. -/
inductive ParamTypeOk : TypeSpec → Prop
  | named {t} : IsName t → t ∉ ["Enum", "Array", "List", "Map", "Struct", "Union", "UnitValue"] → ParamTypeOk { type := t }
  | unitValue : ParamTypeOk { type := "UnitValue", value := "Decimal", unit := "String" }
  | array {items} : IsName items → ParamTypeOk { type := "Array", items := items }
  | map {keys items} : IsName keys → IsName items → ParamTypeOk { type := "Map", keys := keys, items := items }

/-- An HTTP parameter: its source is the one the path and its header imply, and it is required
exactly if the parser makes it so. -/
structure ParamOk (lib : PLib) (pl : PrintLib) (path : String) (required : HttpParamSpec → Bool) (p : HttpParamSpec) : Prop where
  name : IsName p.field.name
  keyword : p.field.name ≠ "expect" ∧ p.field.name ≠ "except"
  comment : IsWords p.field.comment
  annotations : p.field.annotations = []
  type : ParamTypeOk p.field.ts
  default : ValueOk lib pl p.field.default
  header : IsPlain p.header
  source : match parameterSource path p.field.name p.header with
    | .header h => p.header = h ∧ p.query = "" ∧ p.path = false
    | .path => p.header = "" ∧ p.query = "" ∧ p.path = true
    | .query q => p.header = "" ∧ p.query = q ∧ p.path = false
    | .body => p.header = "" ∧ p.query = "" ∧ p.path = false
  required : p.field.required = required p

/-- A status code. -/
def StatusOk (n : Int) : Prop := 0 ≤ n ∧ n < 2 ^ 31

/-- An HTTP action: there is an `expect` clause, and either the action has a name of its own
and no resource, or both are those implied by method and path. -/
structure HttpDefOk (lib : PLib) (pl : PrintLib) (h : HttpDef) : Prop where
  method : h.method ∈ ["POST", "GET", "PUT", "DELETE", "PATCH", "HEAD", "OPTIONS"]
  path : IsPlain h.path
  comment : IsWords h.comment
  annotations : AnnosOk h.annotations
  name : (IsName h.name ∧ h.resource = "" ∧ h.name ≠ actionName h) ∨
    (h.resource = resourceName h.path ∧ h.resource ≠ "" ∧ h.name = actionName h) ∨
    (h.name = "" ∧ h.resource = "" ∧ resourceName h.path = "")
  inputs : ∀ p ∈ h.inputs, ParamOk lib pl h.path (fun p => decide (p.header ≠ "")) p
  expected : ∃ e, h.expected = some e ∧ StatusOk e.status ∧ IsWords e.comment ∧ e.annotations = [] ∧
    ∀ p ∈ e.outputs, ParamOk lib pl h.path (fun p => decide (p.header = "" ∧ e.status ≠ 204 ∧ e.status ≠ 304)) p
  exceptions : ∀ x ∈ h.exceptions, IsName x.type ∧ StatusOk x.status ∧ IsWords x.comment ∧ x.annotations = []
  distinct : (h.exceptions.map HttpExceptionSpec.type).Nodup

/-- A dotted name. -/
def IsDotted (s : String) : Prop := ∀ p ∈ splitAll '.' s.toList, IsName (String.ofList p)

/-- An example. -/
structure ExampleDefOk (lib : PLib) (pl : PrintLib) (ed : ExampleDef) : Prop where
  target : IsDotted ed.target
  name : IsName ed.name
  comment : IsWords ed.comment
  annotations : ed.annotations = []
  value : ValueOk lib pl ed.example

/-- A model that can be printed.  A comment on the whole needs a header line to follow it. -/
structure Printable (lib : PLib) (pl : PrintLib) (s : Schema) : Prop where
  comment : IsWords s.comment
  header : s.comment ≠ "" → s.namespace ≠ "" ∨ s.name ≠ "" ∨ s.base ≠ "" ∨ s.version ≠ "" ∨ s.annotations ≠ []
  «namespace» : s.namespace = "" ∨ IsDotted s.namespace
  name : s.name = "" ∨ IsName s.name
  base : IsPlain s.base ∧ (s.base ≠ "" → hasPrefix s.base "/" = true)
  version : ∀ c ∈ s.version.toList, c ≠ '"' ∧ c ≠ '\\' ∧ c ≠ '\n'
  annotations : s.annotations.Distinct ∧
    ∀ kv ∈ s.annotations, IsName kv.1 ∧ hasPrefix kv.1 "x_" = true ∧ IsPlain kv.2
  types : ∀ td ∈ s.types, TypeDefOk lib pl td
  operations : ∀ op ∈ s.operations, OperationOk op
  http : ∀ h ∈ s.http, HttpDefOk lib pl h
  examples : ∀ ed ∈ s.examples, ExampleDefOk lib pl ed

end Sadl.Spec
