import Verif.Model.Validate
import Mathlib.Algebra.Order.Field.Rat
import Mathlib.Algebra.Order.Field.Power
import Mathlib.Tactic.NormNum
/-
Independent specification of "value conforms to type".  It uses only the data types of
the model, membership, arithmetic and quantifiers, none of the validation functions.
-/
namespace Sadl.Spec
open Sadl

/-- Order of numbers, as rational numbers extended with the two infinities. -/
def NumLe : BigFloat → BigFloat → Prop
  | .inf true, _ => True
  | _, .inf false => True
  | .fin m e, .fin m' e' => (m : ℚ) * (2 : ℚ) ^ e ≤ (m' : ℚ) * (2 : ℚ) ^ e'
  | _, _ => False

/-- `n` respects the optional inclusive bounds. -/
def Within (lo hi : Option Int) (n : Int) : Prop :=
  (∀ k, lo = some k → k ≤ n) ∧ (∀ k, hi = some k → n ≤ k)

/-- `d` respects the optional inclusive numeric bounds. -/
def NumWithin (lo hi : Option BigFloat) (d : BigFloat) : Prop :=
  (∀ k, lo = some k → NumLe k d) ∧ (∀ k, hi = some k → NumLe d k)

/-- `v` is a Go `string` or `*string` holding `s`. -/
def IsText (v : Value) (s : String) : Prop := v = .str s ∨ v = .strPtr s

/-- Length of a string in bytes of its UTF-8 encoding. -/
def Bytes (s : String) : Int := (s.utf8ByteSize : Nat)

/-- The numeric type names. -/
def NumericNames : List String :=
  ["Int8", "Int16", "Int32", "Int64", "Float32", "Float64", "Decimal"]

/-- The type names with a meaning of their own; any other name refers to a definition. -/
def MeaningfulNames : List String :=
  NumericNames ++ ["Timestamp", "String", "Struct", "Array", "Map", "Bool", "Enum", "UnitValue",
    "UUID", "Bytes", "Any"]

/-- The string constraints of a String type.  A list of allowed values takes precedence
over a pattern. -/
def StringOk (lib : Lib) (ts : TypeSpec) (s : String) : Prop :=
  Within ts.minSize ts.maxSize (Bytes s) ∧
  (∀ vals, ts.values = some vals → s ∈ vals) ∧
  (ts.values = none → ts.pattern ≠ "" → lib.regexMatch ts.pattern s = some true)

/-- The shape ParseUUID asks for: 36 bytes, dashes at byte positions 8, 13, 18, 23. -/
def UuidShaped (s : String) : Prop :=
  ∃ a b c d e : List UInt8, a.length = 8 ∧ b.length = 4 ∧ c.length = 4 ∧ d.length = 4 ∧ e.length = 12 ∧
    s.toList.flatMap String.utf8EncodeChar = a ++ 45 :: b ++ 45 :: c ++ 45 :: d ++ 45 :: e

/-- `Conforms lib D ts v`: value `v` conforms to type specification `ts`, where
`D n t` says that the name `n` is defined to mean `t`. -/
inductive Conforms (lib : Lib) (D : String → TypeSpec → Prop) : TypeSpec → Value → Prop
  | bool {ts v} (b : Bool) : ts.type = "Bool" → (v = .bool b ∨ v = .boolPtr b) → Conforms lib D ts v
  | string {ts v} (s : String) : ts.type = "String" → IsText v s → StringOk lib ts s →
      Conforms lib D ts v
  | enum {ts v} (s : String) : ts.type = "Enum" → IsText v s → s ≠ "" →
      (∃ el ∈ ts.elements, el.symbol = s) → Conforms lib D ts v
  | number {ts v} (d : BigFloat) : ts.type ∈ NumericNames → v = .dec d →
      NumWithin ts.min ts.max d → Conforms lib D ts v
  | timestampPtr {ts v} : ts.type = "Timestamp" → v = .tsPtr → Conforms lib D ts v
  | timestampText {ts v} (s : String) : ts.type = "Timestamp" → v = .strPtr s →
      lib.timestampOk s = true → Conforms lib D ts v
  | uuid {ts v} (s : String) : ts.type = "UUID" → v = .uuid s → Conforms lib D ts v
  | uuidText {ts v} (s : String) : ts.type = "UUID" → IsText v s → UuidShaped s → Conforms lib D ts v
  | unitValue {ts v} (val unit : String) (d : BigFloat) (tv tu : TypeSpec) :
      ts.type = "UnitValue" → v = .strPtr (val ++ " " ++ unit) → ' ' ∉ val.toList → 3 ≤ Bytes val →
      lib.parseDecimal val = some d →
      D ts.value tv → Conforms lib D tv (.dec d) →
      D ts.unit tu → Conforms lib D tu (.str unit) → Conforms lib D ts v
  | struct {ts v} (kvs : List (String × Value)) : ts.type = "Struct" → v = .obj kvs →
      (∀ k x, (k, x) ∈ kvs → ∃ f ∈ ts.fields, f.name = k) →
      (∀ f ∈ ts.fields, f.required = true → ∃ x, (f.name, x) ∈ kvs) →
      (∀ f ∈ ts.fields, ∀ x, (f.name, x) ∈ kvs → Conforms lib D f.ts x) →
      Conforms lib D ts v
  | arrayAny {ts v} (xs : List Value) : ts.type = "Array" → v = .arr xs → ts.items = "Any" →
      Within ts.minSize ts.maxSize xs.length → Conforms lib D ts v
  | arrayOf {ts v} (xs : List Value) (ti : TypeSpec) : ts.type = "Array" → v = .arr xs →
      ts.items ≠ "Any" → D ts.items ti → (∀ x ∈ xs, Conforms lib D ti x) →
      Within ts.minSize ts.maxSize xs.length → Conforms lib D ts v
  | mapAny {ts v} (kvs : List (String × Value)) : ts.type = "Map" → v = .obj kvs → ts.items = "Any" →
      Within ts.minSize ts.maxSize kvs.length → Conforms lib D ts v
  | mapOf {ts v} (kvs : List (String × Value)) (ti : TypeSpec) : ts.type = "Map" → v = .obj kvs →
      ts.items ≠ "Any" → D ts.items ti → (∀ k x, (k, x) ∈ kvs → Conforms lib D ti x) →
      Within ts.minSize ts.maxSize kvs.length → Conforms lib D ts v
  | bytes {ts v} : ts.type = "Bytes" → Conforms lib D ts v
  | any {ts v} : ts.type = "Any" → Conforms lib D ts v
  | named {ts v} (t : TypeSpec) : ts.type ∉ MeaningfulNames → D ts.type t → Conforms lib D t v →
      Conforms lib D ts v

/-- What a type name means in a schema: its definition, or the built-in type itself. -/
def Defines (s : Schema) (n : String) (ts : TypeSpec) : Prop :=
  (∃ td ∈ s.types, td.name = n ∧ td.ts = ts) ∨ (n ∈ BaseTypes ∧ ts = { type := n })

/-- A value as it can exist in a running program: object keys are distinct at every level. -/
inductive Real : Value → Prop
  | arr {xs} : (∀ x ∈ xs, Real x) → Real (.arr xs)
  | obj {kvs} : (kvs.map Prod.fst).Nodup → (∀ k x, (k, x) ∈ kvs → Real x) → Real (.obj kvs)
  | atom {v} : (∀ xs, v ≠ .arr xs) → (∀ kvs, v ≠ .obj kvs) → Real v

/-- Two values that differ only in the order in which objects, at any depth, enumerate
their keys. -/
inductive Reordered : Value → Value → Prop
  | same (v) : Reordered v v
  | arr {xs ys} : xs.length = ys.length →
      (∀ (i : Nat) x y, xs[i]? = some x → ys[i]? = some y → Reordered x y) → Reordered (.arr xs) (.arr ys)
  | obj {kvs kws : List (String × Value)} : (kvs.map Prod.fst).Perm (kws.map Prod.fst) →
      (∀ k x y, (k, x) ∈ kvs → (k, y) ∈ kws → Reordered x y) → Reordered (.obj kvs) (.obj kws)

/-- Checking `v` against `ts` part by part gets to a part whose type is defined as itself, as the built-in type `Union` is, all parts
before it being fine. -/
inductive Stuck (lib : Lib) (D : String → TypeSpec → Prop) : TypeSpec → Value → Prop
  | self {ts v} (t : TypeSpec) : ts.type ∉ MeaningfulNames → D ts.type t → t.type = ts.type → Stuck lib D ts v
  | named {ts v} (t : TypeSpec) : ts.type ∉ MeaningfulNames → D ts.type t → Stuck lib D t v → Stuck lib D ts v
  | item {ts} (pre : List Value) (x : Value) (post : List Value) (ti : TypeSpec) : ts.type = "Array" → ts.items ≠ "Any" → D ts.items ti →
      (∀ y ∈ pre, Conforms lib D ti y) → Stuck lib D ti x → Stuck lib D ts (.arr (pre ++ x :: post))
  | entry {ts} (pre : List (String × Value)) (k : String) (x : Value) (post : List (String × Value)) (ti : TypeSpec) : ts.type = "Map" →
      ts.items ≠ "Any" → D ts.items ti → (∀ kv ∈ pre, Conforms lib D ti kv.2) → Stuck lib D ti x →
      Stuck lib D ts (.obj (pre ++ (k, x) :: post))
  | field {ts} (kvs : List (String × Value)) (pre : List StructFieldDef) (f : StructFieldDef) (post : List StructFieldDef) (x : Value) :
      ts.type = "Struct" → (∀ k x, (k, x) ∈ kvs → ∃ f ∈ ts.fields, f.name = k) → ts.fields = pre ++ f :: post →
      (∀ g ∈ pre, g.required = true → ∃ x, (g.name, x) ∈ kvs) →
      (∀ g ∈ pre, ∀ x, (g.name, x) ∈ kvs → Conforms lib D g.ts x) →
      (f.name, x) ∈ kvs → Stuck lib D f.ts x → Stuck lib D ts (.obj kvs)
  | amount {ts} (val unit : String) (d : BigFloat) (tv : TypeSpec) : ts.type = "UnitValue" → ' ' ∉ val.toList → 3 ≤ Bytes val →
      lib.parseDecimal val = some d → D ts.value tv → Stuck lib D tv (.dec d) → Stuck lib D ts (.strPtr (val ++ " " ++ unit))
  | unit {ts} (val unit : String) (d : BigFloat) (tv tu : TypeSpec) : ts.type = "UnitValue" → ' ' ∉ val.toList → 3 ≤ Bytes val →
      lib.parseDecimal val = some d → D ts.value tv → Conforms lib D tv (.dec d) → D ts.unit tu → Stuck lib D tu (.str unit) →
      Stuck lib D ts (.strPtr (val ++ " " ++ unit))

/-- Definitions are of built-in types or of a type called `List` (as those of accepted sources are). -/
def SimpleKinds (s : Schema) : Prop := ∀ td ∈ s.types, td.ts.type ∈ BaseTypes ∨ td.ts.type = "List"

/-- No part of the specification names the type `Union`. -/
inductive NoUnion : TypeSpec → Prop
  | mk {ts} : ts.type ≠ "Union" → ts.items ≠ "Union" → ts.value ≠ "Union" → ts.unit ≠ "Union" →
      (∀ f ∈ ts.fields, NoUnion f.ts) → NoUnion ts

/-- What is assumed of a schema so that validation terminates: every definition has a
built-in supertype (the parser guarantees that) and none mentions `Union`. -/
def Terminating (s : Schema) : Prop := ∀ td ∈ s.types, td.ts.type ∈ BaseTypes ∧ NoUnion td.ts

end Sadl.Spec
