import Verif.Spec.Conforms
import Mathlib.Logic.Relation
/-
C103: the built-in types that the types of a model lead to.
-/
namespace Sadl.Spec

/-- The names a type refers to: the items of an array, the items and the keys of a map, the unit and the value
of a quantity, the variants of a union. -/
def TypeRefersTo (ts : TypeSpec) (n : String) : Prop :=
  ts.type = "Array" ∧ n = ts.items ∨
  ts.type = "Map" ∧ (n = ts.items ∨ n = ts.keys) ∨
  ts.type = "UnitValue" ∧ (n = ts.unit ∨ n = ts.value) ∨
  ts.type = "Union" ∧ ∃ v ∈ ts.variants, v.ts.type = n

/-- One step from a type to a type it is made of. -/
inductive TypeLeadsTo (s : Schema) : TypeSpec → TypeSpec → Prop
  | ref {ts t : TypeSpec} (n : String) : TypeRefersTo ts n → Defines s n t → TypeLeadsTo s ts t
  | field {ts : TypeSpec} (f : StructFieldDef) : ts.type = "Struct" → f ∈ ts.fields → TypeLeadsTo s ts f.ts

/-- The type is, itself, the built-in type of that name, possibly restricted.  Structures count if they have no fields. -/
def IsBuiltIn (ts : TypeSpec) (k : String) : Prop :=
  ts.type = k ∧ k ∈ ["Bool", "Int8", "Int16", "Int32", "Int64", "Float32", "Float64", "Decimal", "Bytes", "String", "Timestamp", "UUID"] ∨
  ts.type = "Struct" ∧ ts.fields = [] ∧ k = "Struct"

/-- The built-in type is found in some steps from some type of the schema. -/
def BuiltInUsed (s : Schema) (k : String) : Prop :=
  ∃ td ∈ s.types, ∃ t, Relation.ReflTransGen (TypeLeadsTo s) td.ts t ∧ IsBuiltIn t k

/-- Nothing the type leads to refers to an unknown name, and there is no infinite path of steps. -/
inductive Grounded (s : Schema) : TypeSpec → Prop
  | mk {ts : TypeSpec} : (∀ n, TypeRefersTo ts n → ∃ t, Defines s n t) → (∀ t, TypeLeadsTo s ts t → Grounded s t) → Grounded s ts

end Sadl.Spec
