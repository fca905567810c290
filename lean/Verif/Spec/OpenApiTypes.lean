import Verif.Model.OpenApiImport
import Verif.Spec.OpenApi
/-
The types that survive the export to OpenAPI and the import from it.
-/
namespace Sadl.Spec
open Sadl

/-- A letter followed by letters, digits and underscores. -/
def Identifier (s : String) : Prop :=
  ∃ c r, s.toList = c :: r ∧ (('a' ≤ c ∧ c ≤ 'z') ∨ ('A' ≤ c ∧ c ≤ 'Z')) ∧
    ∀ x ∈ r, ('a' ≤ x ∧ x ≤ 'z') ∨ ('A' ≤ x ∧ x ≤ 'Z') ∨ ('0' ≤ x ∧ x ≤ '9') ∨ x = '_'

/-- A number of type `int64`. -/
def Int64Range (n : Int) : Prop := -2 ^ 63 ≤ n ∧ n < 2 ^ 63

/-- Limits on the size of a string that OpenAPI can express: a minimum of 0 cannot be told from none. -/
def SizesKept (minSize maxSize : Option Int) : Prop :=
  (∀ n, minSize = some n → Int64Range n ∧ n ≠ 0) ∧ ∀ n, maxSize = some n → Int64Range n

/-- Limits on a number that are float64 values. -/
def BoundsKept (lib : OLib) (min max : Option BigFloat) : Prop :=
  (∀ b, min = some b → lib.asFloat64 b = b) ∧ ∀ b, max = some b → lib.asFloat64 b = b

/-- The types whose arrays are kept. -/
inductive ItemKept (s : Schema) : String → Prop
  | base {n} : n ∈ ["Bool", "Int32", "Int64", "Decimal", "String", "Timestamp"] → ItemKept s n
  | named {td} : td ∈ s.types → td.ts.type ∈ ["Struct", "Enum"] → td.name ≠ "" → ItemKept s td.name

/-- The types of fields that are kept. -/
inductive FieldKept (lib : OLib) (s : Schema) : TypeSpec → Prop
  | bool : FieldKept lib s { type := "Bool" }
  | timestamp : FieldKept lib s { type := "Timestamp" }
  | string {pattern minSize maxSize} : SizesKept minSize maxSize →
      FieldKept lib s { type := "String", pattern := pattern, minSize := minSize, maxSize := maxSize }
  | integer {t min max} : t ∈ ["Int32", "Int64"] → BoundsKept lib min max → FieldKept lib s { type := t, min := min, max := max }
  | named {td} : td ∈ s.types → td.name ≠ "" → FieldKept lib s { type := td.name }
  | array {items} : ItemKept s items → FieldKept lib s { type := "Array", items := items }

/-- The types that are kept under a name. -/
inductive TypeKept (lib : OLib) (s : Schema) : TypeSpec → Prop
  | bool : TypeKept lib s { type := "Bool" }
  | timestamp : TypeKept lib s { type := "Timestamp" }
  | uuid : TypeKept lib s { type := "UUID" }
  | string {pattern minSize maxSize} : SizesKept minSize maxSize →
      TypeKept lib s { type := "String", pattern := pattern, minSize := minSize, maxSize := maxSize }
  | values {pattern minSize maxSize vs} : SizesKept minSize maxSize → (∃ v ∈ vs, ¬ Identifier v) →
      TypeKept lib s { type := "String", pattern := pattern, minSize := minSize, maxSize := maxSize, values := some vs }
  | enum {symbols : List String} : (∀ v ∈ symbols, Identifier v) →
      TypeKept lib s { type := "Enum", elements := symbols.map fun v => { symbol := v } }
  | number {t min max} : t ∈ ["Int32", "Int64", "Decimal"] → BoundsKept lib min max →
      TypeKept lib s { type := t, min := min, max := max }
  | array {items} : ItemKept s items → TypeKept lib s { type := "Array", items := items }
  | struct {fields : List StructFieldDef} : (fields.map (·.name)).Nodup →
      (∀ f ∈ fields, f.comment = "" ∧ f.annotations = [] ∧ f.default = .null ∧ FieldKept lib s f.ts) →
      TypeKept lib s { type := "Struct", fields := fields }

/-- Two types are the same up to the order of the fields. -/
def SameType (a b : TypeSpec) : Prop := b.fields.Perm a.fields ∧ b = { a with fields := b.fields }

/-- Two definitions of a type are the same up to the order of the fields; annotations and, for
numbers, the comment do not count. -/
structure SameDef (a b : TypeDef) : Prop where
  name : b.name = a.name
  comment : a.ts.type ∉ ["Int32", "Int64", "Decimal"] → b.comment = a.comment
  type : SameType a.ts b.ts

/-- The same component schema: a map of properties has no order and may be missing if it is empty, and examples do not matter. -/
structure SameSchema (s s' : OSchema) : Prop where
  rest : s' = { s with «example» := s'.example, properties := s'.properties }
  properties : (s'.properties.getD []).Perm (s.properties.getD [])

/-- The same component schemas, in any order. -/
def SameSchemas (l l' : GoMap OSchema) : Prop :=
  ∃ l1 : GoMap OSchema, l1.Perm l ∧ List.Forall₂ (fun e e' => e'.1 = e.1 ∧ SameSchema e.2 e'.2) l1 l'

end Sadl.Spec
