import Verif.Spec.SmithyAnnos
import Mathlib.Data.List.Forall2
/-
What a type says of the Smithy shape that it was imported from.
-/
namespace Sadl.Spec
open Sadl Sadl.Smithy

/-- The entry of a trait that is an object. -/
def traitMember (s : Shape) (trait key : String) : Option Value :=
  match mget s.traits trait with
  | some (.obj ms) => mget ms key
  | _ => none

/-- The number is the limit of the range of the shape. -/
structure RangeIs (s : Shape) (key : String) (o : Option BigFloat) : Prop where
  set : ∀ d, traitMember s "smithy.api#range" key = some (.dec d) → o = some d
  unset : traitMember s "smithy.api#range" key = none → o = none

/-- The number is the limit of the length of the shape, which is a positive 32 bit number. -/
structure LengthIs (s : Shape) (key : String) (o : Option Int) : Prop where
  set : ∀ n : Int, 0 < n → n < 2 ^ 31 → traitMember s "smithy.api#length" key = some (.float64 (.fin n 0)) → o = some n
  unset : traitMember s "smithy.api#length" key = none → o = none

/-- The text is the documentation in the traits, which is a single line or missing. -/
structure DocIs (t : Traits) (comment : String) : Prop where
  set : ∀ d : String, mget t "smithy.api#documentation" = some (.str d) → '\n' ∉ d.toList → comment = d
  unset : mget t "smithy.api#documentation" = none → comment = ""

/-- The types for the shapes of the Smithy prelude. -/
def preludeTypes : List (String × String) :=
  [("smithy.api#Blob", "Bytes"), ("smithy.api#Boolean", "Bool"), ("smithy.api#String", "String"), ("smithy.api#Byte", "Int8"), ("smithy.api#Short", "Int16"),
   ("smithy.api#Integer", "Int32"), ("smithy.api#Long", "Int64"), ("smithy.api#Float", "Float32"), ("smithy.api#Double", "Float64"),
   ("smithy.api#BigInteger", "Decimal"), ("smithy.api#BigDecimal", "Decimal"), ("smithy.api#Timestamp", "Timestamp"), ("smithy.api#Document", "Struct")]

/-- The type is the one that the target of a member names. -/
structure TargetIs (target type : String) : Prop where
  prelude : ∀ t, (target, t) ∈ preludeTypes → type = t
  own : ∀ ns loc : String, target = ns ++ "#" ++ loc → '#' ∉ ns.toList → ns ≠ "smithy.api" → type = loc

/-- The types of number shapes. -/
def numberKinds : List (String × String) :=
  [("byte", "Int8"), ("short", "Int16"), ("integer", "Int32"), ("long", "Int64"), ("float", "Float32"), ("double", "Float64"),
   ("bigInteger", "Decimal"), ("bigDecimal", "Decimal")]

/-- The field is the member of the structure. -/
structure FieldIs (km : String × Member) (f : StructFieldDef) : Prop where
  name : f.name = km.1
  type : TargetIs km.2.target f.ts.type
  doc : DocIs km.2.traits f.comment
  annos : GoMap.Distinct km.2.traits → AnnosAre km.2.traits f.annotations
  required : mget km.2.traits "smithy.api#required" = some (.bool true) → f.required = true
  optional : mget km.2.traits "smithy.api#required" = none → f.required = false

/-- The variant is the member of the union. -/
structure VariantIs (km : String × Member) (v : UnionVariantDef) : Prop where
  name : v.name = km.1
  type : TargetIs km.2.target v.ts.type
  doc : DocIs km.2.traits v.comment
  annos : GoMap.Distinct km.2.traits → AnnosAre km.2.traits v.annotations

/-- The element is the member of the enumeration. -/
structure ElementIs (km : String × Member) (e : EnumElementDef) : Prop where
  name : e.symbol = km.1
  doc : DocIs km.2.traits e.comment
  annos : GoMap.Distinct km.2.traits → AnnosAre km.2.traits e.annotations

/-- The type says what the shape says. -/
structure ShapeKept (name : String) (s : Shape) (td : TypeDef) : Prop where
  name : ∀ ns loc : String, name = ns ++ "#" ++ loc → '#' ∉ ns.toList → td.name = loc
  doc : DocIs s.traits td.comment
  annos : s.type ∉ ["string", "blob", "list", "set", "map"] → GoMap.Distinct s.traits → AnnosAre s.traits td.annotations
  number : ∀ t, (s.type, t) ∈ numberKinds → td.ts.type = t ∧ RangeIs s "min" td.ts.min ∧ RangeIs s "max" td.ts.max
  text : s.type = "string" → ∀ p : String, mget s.traits "smithy.api#pattern" = some (.str p) ∨ (mget s.traits "smithy.api#pattern" = none ∧ p = "") →
    p ≠ uuidPattern → td.ts.type = "String" ∧ td.ts.pattern = p ∧ LengthIs s "min" td.ts.minSize ∧ LengthIs s "max" td.ts.maxSize
  blob : s.type = "blob" → td.ts.type = "Bytes" ∧ LengthIs s "min" td.ts.minSize ∧ LengthIs s "max" td.ts.maxSize
  timestamp : s.type = "timestamp" → td.ts.type = "Timestamp"
  list : s.type = "list" → ∀ mem, s.member = some mem → td.ts.type = "Array" ∧ TargetIs mem.target td.ts.items
  set : s.type = "set" → ∀ mem, s.member = some mem → td.ts.type = "Array" ∧ TargetIs mem.target td.ts.items ∧ mget td.annotations "x_unique" = some "true"
  map : s.type = "map" → ∀ k v, s.key = some k → s.value = some v → td.ts.type = "Map" ∧ TargetIs k.target td.ts.keys ∧ TargetIs v.target td.ts.items
  structure_ : s.type = "structure" → td.ts.type = "Struct" ∧ List.Forall₂ FieldIs s.members td.ts.fields
  union : s.type = "union" → td.ts.type = "Union" ∧ List.Forall₂ VariantIs s.members td.ts.variants
  enum : s.type = "enum" → td.ts.type = "Enum" ∧ List.Forall₂ ElementIs s.members td.ts.elements

/-- The shapes that become types, but for booleans. -/
def shapeKinds : List String :=
  ["byte", "short", "integer", "long", "float", "double", "bigInteger", "bigDecimal", "string", "timestamp", "blob", "list", "set", "map",
   "structure", "union", "enum"]

/-- No operation has the shape as its input or output. -/
def NotBound (ast : Ast) (name : String) : Prop :=
  ∀ k op, (k, op) ∈ ast.shapes → op.type = "operation" → op.input ≠ some name ∧ op.output ≠ some name

/-- The name, version, base, namespace and metadata of the model are kept. -/
structure SmithyHeadKept (ast : Ast) (conf : SConf) (sch : Schema) : Prop where
  name : conf.name ≠ "" → sch.name = conf.name
  service : ∀ ns loc s, conf.name = "" → (ns ++ "#" ++ loc, s) ∈ ast.shapes → s.type = "service" → '#' ∉ ns.toList →
    conf.service = "" ∨ conf.service = ns ++ "#" ++ loc → sch.name = loc
  version : ∀ k s, (k, s) ∈ ast.shapes → s.type = "service" → k ≠ "" → conf.service = "" ∨ conf.service = k → sch.version = s.version
  namespace_ : conf.namespace ≠ "example" → sch.namespace = conf.namespace
  base : sch.base = conf.base
  metadata : ∀ k (t : String), (k, .str t) ∈ ast.metadata → k ≠ "name" → k ≠ "base" → mget sch.annotations ("x_" ++ k) = some t

end Sadl.Spec
