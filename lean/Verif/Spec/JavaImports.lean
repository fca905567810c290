import Verif.Spec.Java
import Verif.Model.JavaExport
/-
Specification: the classes from elsewhere that a generated Java class refers to.
-/
namespace Sadl.Spec
open Sadl

/-- The classes from other packages that stand for types. -/
def JavaElsewhere : List (String × String) :=
  [("BigDecimal", "java.math.BigDecimal"), ("UUID", "java.util.UUID"), ("Instant", "java.time.Instant")]

/-- The schema has a type of the name that has a class of its own. -/
def HasOwnClass (s : Schema) (n : String) : Prop :=
  ∃ td ∈ s.types, td.name = n ∧ td.ts.type ∉ JavaTransparent ∧ td.ts.type ≠ "Array" ∧ td.ts.type ≠ "Map"

/-- The classes from other packages that a type refers to. -/
inductive TypeNeeds (s : Schema) : JTy → String → Prop
  | named {n p} : (n, p) ∈ JavaElsewhere → ¬ HasOwnClass s n → TypeNeeds s (.name n) p
  | list {t} : TypeNeeds s (.list t) "java.util.List"
  | item {t p} : TypeNeeds s t p → TypeNeeds s (.list t) p
  | map {k t} : TypeNeeds s (.map k t) "java.util.Map"
  | key {k t p} : TypeNeeds s k p → TypeNeeds s (.map k t) p
  | value {k t p} : TypeNeeds s t p → TypeNeeds s (.map k t) p

/-- The name occurs in the type. -/
inductive TypeHas (n : String) : JTy → Prop
  | here : TypeHas n (.name n)
  | item {t} : TypeHas n t → TypeHas n (.list t)
  | key {k t} : TypeHas n k → TypeHas n (.map k t)
  | value {k t} : TypeHas n t → TypeHas n (.map k t)

/-- The class of an annotation. -/
def AnnoClass : JAnno → String
  | .notNull => "javax.validation.constraints.NotNull"
  | .pattern _ => "javax.validation.constraints.Pattern"
  | .size _ _ => "javax.validation.constraints.Size"
  | .min _ => "javax.validation.constraints.Min"
  | .max _ => "javax.validation.constraints.Max"
  | .decimalMin _ => "javax.validation.constraints.DecimalMin"
  | .decimalMax _ => "javax.validation.constraints.DecimalMax"
  | .serialize => "com.fasterxml.jackson.databind.annotation.JsonSerialize"
  | .deserialize => "com.fasterxml.jackson.databind.annotation.JsonDeserialize"

/-- The classes from other packages that a member refers to. -/
inductive MemberNeeds (s : Schema) (f : JField) : String → Prop
  | type {p} : TypeNeeds s f.used p → MemberNeeds s f p
  | anno {a} : a ∈ f.annos → MemberNeeds s f (AnnoClass a)

/-- The classes from other packages that a class for a struct refers to; `top` says that it is not inside another class. -/
inductive ClassNeeds (s : Schema) (conf : JavaConf) : Bool → JavaClass → String → Prop
  | member {top c f p} : f ∈ c.fields → MemberNeeds s f p → ClassNeeds s conf top c p
  | optional {top c f} : f ∈ c.fields → f.required = false → ClassNeeds s conf top c "com.fasterxml.jackson.annotation.JsonInclude"
  | deserialize {top c} : conf.immutable = true → ClassNeeds s conf top c "com.fasterxml.jackson.databind.annotation.JsonDeserialize"
  | builder {top c} : conf.immutable = true → c.lombok = false →
      ClassNeeds s conf top c "com.fasterxml.jackson.databind.annotation.JsonPOJOBuilder"
  | ignored {top c} : c.throwable = true → ClassNeeds s conf top c "com.fasterxml.jackson.annotation.JsonIgnoreProperties"
  | lombok {c p} : c.lombok = true → p ∈ ["lombok.Data", "lombok.Builder", "lombok.NoArgsConstructor"] → ClassNeeds s conf true c p
  | allArgs {c} : c.lombok = true → c.fields ≠ [] → ClassNeeds s conf true c "lombok.AllArgsConstructor"
  | nested {top c d p} : d ∈ c.nested → ClassNeeds s conf false d p → ClassNeeds s conf top c p

/-- The classes from other packages that a file refers to. -/
inductive BodyNeeds (s : Schema) (conf : JavaConf) : JavaBody → String → Prop
  | struct {c p} : ClassNeeds s conf true c p → BodyNeeds s conf (.struct c) p
  | enum {n cs p} : p ∈ ["com.fasterxml.jackson.annotation.JsonValue", "com.fasterxml.jackson.annotation.JsonCreator"] →
      BodyNeeds s conf (.enum n cs) p
  | union {n vs ns p} : p ∈ ["com.fasterxml.jackson.annotation.JsonIgnore", "com.fasterxml.jackson.annotation.JsonCreator"] →
      BodyNeeds s conf (.union n vs ns) p
  | variants {n vs ns p} : vs ≠ [] → p ∈ ["com.fasterxml.jackson.annotation.JsonInclude", "com.fasterxml.jackson.annotation.JsonProperty"] →
      BodyNeeds s conf (.union n vs ns) p
  | variant {n vs ns v p} : v ∈ vs → MemberNeeds s v p → BodyNeeds s conf (.union n vs ns) p
  | lombok {n vs ns p} : conf.lombok = true → p ∈ ["lombok.Data", "lombok.AllArgsConstructor", "lombok.Builder", "lombok.NoArgsConstructor"] →
      BodyNeeds s conf (.union n vs ns) p
  | nested {n vs ns d p} : d ∈ ns → ClassNeeds s conf false d p → BodyNeeds s conf (.union n vs ns) p
  | unit {n u p} : p ∈ ["javax.validation.constraints.NotNull", "com.fasterxml.jackson.annotation.JsonValue",
      "com.fasterxml.jackson.annotation.JsonCreator"] → BodyNeeds s conf (.unit n u) p
  | unitValue {n u p} : TypeNeeds s u.value p → BodyNeeds s conf (.unit n u) p
  | unitUnit {n u p} : TypeNeeds s u.unit p → BodyNeeds s conf (.unit n u) p

/-- The classes of annotations that are used but never imported. -/
def JavaNeverImported : List String :=
  ["javax.validation.constraints.Min", "javax.validation.constraints.Max", "javax.validation.constraints.DecimalMin",
   "javax.validation.constraints.DecimalMax"]

/-- The classes that are imported anywhere. -/
def JavaImportable : List String :=
  ["com.fasterxml.jackson.annotation.JsonCreator", "com.fasterxml.jackson.annotation.JsonIgnore",
   "com.fasterxml.jackson.annotation.JsonIgnoreProperties", "com.fasterxml.jackson.annotation.JsonInclude",
   "com.fasterxml.jackson.annotation.JsonProperty", "com.fasterxml.jackson.annotation.JsonValue",
   "com.fasterxml.jackson.databind.annotation.JsonDeserialize", "com.fasterxml.jackson.databind.annotation.JsonPOJOBuilder",
   "com.fasterxml.jackson.databind.annotation.JsonSerialize", "java.math.BigDecimal", "java.time.Instant", "java.util.List", "java.util.Map",
   "java.util.UUID", "javax.validation.constraints.NotNull", "javax.validation.constraints.Pattern", "javax.validation.constraints.Size",
   "lombok.AllArgsConstructor", "lombok.Builder", "lombok.Data", "lombok.NoArgsConstructor"]

/-- A class for a struct refers to the class `Util`. -/
inductive ClassUtil (conf : JavaConf) : JavaClass → Prop
  | anno {c f a} : f ∈ c.fields → a ∈ f.annos → a = .serialize ∨ a = .deserialize → ClassUtil conf c
  | stamp {c f} : conf.immutable = true → c.lombok = false → conf.instants = true → f ∈ c.fields → f.stamp = true → ClassUtil conf c
  | pretty {c} : conf.pretty = true → c.lombok = false → ClassUtil conf c
  | nested {c d} : d ∈ c.nested → ClassUtil conf d → ClassUtil conf c

/-- A file refers to the class `Util`. -/
inductive BodyUtil (conf : JavaConf) : JavaBody → Prop
  | struct {c} : ClassUtil conf c → BodyUtil conf (.struct c)
  | variant {n vs ns v a} : v ∈ vs → a ∈ v.annos → a = .serialize ∨ a = .deserialize → BodyUtil conf (.union n vs ns)
  | pretty {n vs ns} : conf.pretty = true → BodyUtil conf (.union n vs ns)
  | nested {n vs ns d} : d ∈ ns → ClassUtil conf d → BodyUtil conf (.union n vs ns)

/-- A class for a struct refers to the class for timestamps. -/
inductive ClassStamps : JavaClass → Prop
  | member {c f} : f ∈ c.fields → TypeHas "Timestamp" f.used → ClassStamps c
  | nested {c d} : d ∈ c.nested → ClassStamps d → ClassStamps c

/-- A file refers to the class for timestamps. -/
inductive BodyStamps : JavaBody → Prop
  | struct {c} : ClassStamps c → BodyStamps (.struct c)
  | variant {n vs ns v} : v ∈ vs → TypeHas "Timestamp" v.used → BodyStamps (.union n vs ns)
  | nested {n vs ns d} : d ∈ ns → ClassStamps d → BodyStamps (.union n vs ns)
  | unitValue {n u} : TypeHas "Timestamp" u.value → BodyStamps (.unit n u)
  | unitUnit {n u} : TypeHas "Timestamp" u.unit → BodyStamps (.unit n u)

/-- The names of types that a type mentions. -/
inductive MentionsType (n : String) : TypeSpec → Prop
  | here {ts} : ts.type = n → MentionsType n ts
  | value {ts} : ts.value = n → MentionsType n ts
  | unit {ts} : ts.unit = n → MentionsType n ts
  | field {ts f} : f ∈ ts.fields → MentionsType n f.ts → MentionsType n ts
  | variant {ts v} : v ∈ ts.variants → MentionsType n v.ts → MentionsType n ts

/-- A type specification mentions the names of Java's classes only if the schema defines them. -/
def NoStray (s : Schema) (ts : TypeSpec) : Prop := ∀ n ∈ ["BigDecimal", "Instant"], MentionsType n ts → Known s n

/-- The names of Java's classes are mentioned only if the schema defines them. -/
structure NoStrays (s : Schema) : Prop where
  types : ∀ td ∈ s.types, NoStray s td.ts
  inputs : ∀ h ∈ s.http, ∀ p ∈ h.inputs, NoStray s p.field.ts
  outputs : ∀ h ∈ s.http, ∀ e, h.expected = some e → ∀ p ∈ e.outputs, NoStray s p.field.ts
  exceptions : ∀ h ∈ s.http, ∀ x ∈ h.exceptions, x.type ∈ ["BigDecimal", "Instant"] → Known s x.type

end Sadl.Spec
