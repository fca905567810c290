import Verif.Spec.OpenApi
/-
Which values a schema of an OpenAPI document admits, stated on the document only.
-/
namespace Sadl.Spec
open Sadl

/-- The number is an integer. -/
def Whole : BigFloat → Prop
  | .fin m e => ∃ n : ℤ, (m : ℚ) * (2 : ℚ) ^ e = n
  | .inf _ => False

/-- The value is of a JSON type.  A UUID and a timestamp are strings in JSON. -/
def HasKind (kind : String) (v : Value) : Prop :=
  (kind = "boolean" → ∃ b, v = .bool b ∨ v = .boolPtr b) ∧
  (kind = "string" → (∃ t, IsText v t) ∨ (∃ t, v = .uuid t) ∨ v = .tsPtr) ∧
  (kind = "number" → ∃ d, v = .dec d) ∧
  (kind = "integer" → ∃ d, v = .dec d ∧ Whole d) ∧
  (kind = "array" → ∃ xs, v = .arr xs) ∧
  (kind = "object" → ∃ kvs, v = .obj kvs)

/-- The value has a format; the other formats (`int32`, `byte`, ...) are taken as remarks. -/
def HasFormat (lib : Lib) (format : String) (v : Value) : Prop :=
  (format = "date-time" → v = .tsPtr ∨ ∃ t, IsText v t ∧ lib.timestampOk t = true) ∧
  (format = "uuid" → (∃ t, v = .uuid t) ∨ ∃ t, IsText v t ∧ UuidShaped t)

/-- The schema admits the value, where references are looked up in `schemas`.  Lengths of strings
count characters.  If `strict`, an object has no properties but those of its schema. -/
inductive Fits (lib : Lib) (strict : Bool) (schemas : GoMap OSchema) : OSchema → Value → Prop
  | ref {s n t v} : s.ref = "#/components/schemas/" ++ n → (n, t) ∈ schemas → Fits lib strict schemas t v →
      Fits lib strict schemas s v
  | oneOf {s i v} : s.ref = "" → i ∈ s.oneOf → Fits lib strict schemas i v → Fits lib strict schemas s v
  | plain {s v} : s.ref = "" → s.oneOf = [] → HasKind s.type v → HasFormat lib s.format v →
      (∀ vals, s.enum = some vals → ∃ t, IsText v t ∧ Value.str t ∈ vals) →
      (∀ d, v = .dec d → NumWithin s.min s.max d) →
      (∀ t, IsText v t → s.minLength ≤ t.length ∧ (∀ n, s.maxLength = some n → t.length ≤ n) ∧
        (s.pattern ≠ "" → lib.regexMatch s.pattern t = some true)) →
      (∀ i xs x, s.items = some i → v = .arr xs → x ∈ xs → Fits lib strict schemas i x) →
      (∀ kvs k, v = .obj kvs → k ∈ s.required → ∃ x, (k, x) ∈ kvs) →
      (∀ ps kvs k i x, s.properties = some ps → v = .obj kvs → (k, i) ∈ ps → (k, x) ∈ kvs → Fits lib strict schemas i x) →
      (∀ ps kvs k x, strict = true → s.properties = some ps → s.additionalProperties = none → v = .obj kvs → (k, x) ∈ kvs →
        ∃ i, (k, i) ∈ ps) →
      (∀ a kvs k x, s.additionalProperties = some a → v = .obj kvs → (k, x) ∈ kvs →
        (∀ ps i, s.properties = some ps → (k, i) ∉ ps) → Fits lib strict schemas a x) →
      Fits lib strict schemas s v

/-- `x` is `v` or occurs in it. -/
inductive Part : Value → Value → Prop
  | refl {v} : Part v v
  | item {xs x y} : x ∈ xs → Part x y → Part (.arr xs) y
  | member {kvs k x y} : (k, x) ∈ kvs → Part x y → Part (.obj kvs) y

/-- The strings in the value are ASCII. -/
def AsciiOnly (v : Value) : Prop := ∀ x s, Part v x → IsText x s → ∀ c ∈ s.toList, c.toNat < 128

/-- The numbers in the value are integers. -/
def WholeOnly (v : Value) : Prop := ∀ d, Part v (.dec d) → Whole d

/-- The strings in the value are plain strings, as they come out of a JSON document. -/
def PlainOnly (v : Value) : Prop := ∀ t, ¬ Part v (.uuid t) ∧ ¬ Part v .tsPtr

/-- The type is written out where it is used: in place, or as items of an array or map. -/
inductive InPlace (s : Schema) : TypeSpec → Prop
  | inline {t} : Inline s t → InPlace s t
  | item {t u} : Written s t → t.type = "Array" → Defines s t.items u → u.type ∉ ["Struct", "Enum"] → InPlace s u
  | mapItem {t u} : Written s t → t.type = "Map" → Defines s t.items u → InPlace s u

/-- The type is written in the schema or written out somewhere in the document. -/
def Used (s : Schema) (t : TypeSpec) : Prop := Written s t ∨ InPlace s t

/-- If the schema has integer types, the numbers in the value are integers. -/
def Integral (s : Schema) (v : Value) : Prop :=
  (∃ t, Used s t ∧ t.type ∈ ["Int8", "Int16", "Int32", "Int64"]) → WholeOnly v

/-- Limits that OpenAPI can express: numbers that are float64 values, sizes that are not negative,
no pattern beside a list of values, and such lists for strings only. -/
structure Expressible (lib : OLib) (s : Schema) : Prop where
  bounds : ∀ t, Written s t → t.type ∈ NumericNames →
    (∀ b, t.min = some b → lib.asFloat64 b = b) ∧ ∀ b, t.max = some b → lib.asFloat64 b = b
  sizes : ∀ t, Written s t → t.type = "String" →
    (∀ n, t.minSize = some n → 0 ≤ n ∧ n < 2 ^ 63) ∧ ∀ n, t.maxSize = some n → 0 ≤ n ∧ n < 2 ^ 63
  values : ∀ t, Written s t → t.type = "String" → t.values = none ∨ t.pattern = ""
  strings : ∀ t, Written s t → t.type ∈ ["UUID", "Timestamp"] → t.values = none

/-- The schema avoids what the export weakens: sizes of collections; unit values, timestamps and unions; UUIDs,
lists of string values and required fields of types that are written out where they are used;
empty lists of values; and types without name and fields of the same name. -/
structure Exact (s : Schema) : Prop where
  names : ∀ td ∈ s.types, td.name ≠ ""
  types : ∀ t, Written s t → t.type ∉ ["UnitValue", "Timestamp", "Union"]
  items : ∀ t, InPlace s t → t.type ∉ ["UnitValue", "Timestamp", "UUID"]
  sizes : ∀ t, Written s t → t.type ∈ ["Array", "Map"] → t.minSize = none ∧ t.maxSize = none
  values : ∀ t, Written s t → t.values ≠ some []
  inPlaceValues : ∀ t, InPlace s t → t.type = "String" → t.values = none
  inPlaceRequired : ∀ t, InPlace s t → t.type = "Struct" → ∀ f ∈ t.fields, f.required = false
  symbols : ∀ t, Written s t → t.type = "Enum" → ∀ el ∈ t.elements, el.symbol ≠ ""
  fields : ∀ t, Written s t → t.type = "Struct" → (t.fields.map (·.name)).Nodup

/-! ### Operations -/

/-- The content has a JSON body whose schema is related to the type. -/
def JsonBody (R : TypeSpec → OSchema → Prop) (t : TypeSpec) (content : GoMap OMedia) : Prop :=
  ∃ mt s, mget content "application/json" = some mt ∧ mt.schema = some s ∧ R t s

/-- The schemas of the parameters, of the body and of the expected response of an operation are
related to the types of the inputs and outputs of the action. -/
structure Carries (R : TypeSpec → OSchema → Prop) (h : HttpDef) (op : OOperation) : Prop where
  params : List.Forall₂ (fun p q => ∃ s, q.schema = some s ∧ R p.field.ts s) (h.inputs.filter (fun p => !BodyInput p)) op.parameters
  body : ∀ p, h.inputs.filter BodyInput = [p] → ∃ b, op.requestBody = some b ∧ JsonBody R p.field.ts b.content
  expected : ∃ e, h.expected = some e ∧
    ((∀ x ∈ h.exceptions, statusKey x.status ≠ String.ofList (showInt e.status)) →
      ∃ r, mget op.responses (String.ofList (showInt e.status)) = some r ∧
        (∀ p, e.outputs.filter BodyOutput = [p] → JsonBody R p.field.ts r.content) ∧
        ∀ k p, k ≠ "" → e.outputs.filter (fun p => p.header == k) = [p] →
          ∃ hd s, mget r.headers k = some hd ∧ hd.schema = some s ∧ R p.field.ts s)

end Sadl.Spec
