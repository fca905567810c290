import Verif.Spec.Json
import Verif.Model.Model
/-
Specification vocabulary for a model printed as JSON and loaded again.
-/
namespace Sadl.Spec

mutual
/-- What JSON makes of a literal of a schema: pointers to texts and booleans and UUIDs become
plain texts and booleans, decimals become float64. -/
def asRead (L : JLib) : Value → Value
  | .boolPtr b => .bool b
  | .strPtr s | .uuid s => .str s
  | .dec d => .float64 ((L.parseFloat (L.showDecimal d).toList).getD (.inf false))
  | .arr xs => .arr (asReadItems L xs)
  | .obj kvs => .obj (asReadMembers L kvs)
  | v => v
def asReadItems (L : JLib) : List Value → List Value
  | [] => []
  | x :: r => asRead L x :: asReadItems L r
def asReadMembers (L : JLib) : List (String × Value) → List (String × Value)
  | [] => []
  | (k, x) :: r => (k, asRead L x) :: asReadMembers L r
end

/-- A number of the schema that is printed as a JSON number, which a float64 can hold. -/
def FitsFloat (L : JLib) (d : BigFloat) : Prop :=
  JsonNumber (L.showDecimal d).toList ∧ ∃ f, L.parseFloat (L.showDecimal d).toList = some f

/-- The literals of a schema: null, booleans, texts, numbers, and arrays and objects of them,
where no object has a key twice. -/
inductive LiteralShaped (L : JLib) : Value → Prop
  | null : LiteralShaped L .null
  | bool (b) : LiteralShaped L (.bool b)
  | boolPtr (b) : LiteralShaped L (.boolPtr b)
  | str (s) : LiteralShaped L (.str s)
  | strPtr (s) : LiteralShaped L (.strPtr s)
  | uuid (s) : LiteralShaped L (.uuid s)
  | dec {d} : FitsFloat L d → LiteralShaped L (.dec d)
  | num {f} : PrintsBack L f → LiteralShaped L (.float64 f)
  | arr {xs} : (∀ x ∈ xs, LiteralShaped L x) → LiteralShaped L (.arr xs)
  | obj {kvs : List (String × Value)} : (kvs.map Prod.fst).Nodup → (∀ kv ∈ kvs, LiteralShaped L kv.2) → LiteralShaped L (.obj kvs)

/-- A bound of a type that is printed as a JSON number and parsed back by math/big. -/
def JBoundOk (lib : Lib) (L : JLib) (d : BigFloat) : Prop :=
  JsonNumber (L.showDecimal d).toList ∧ lib.parseDecimal (L.showDecimal d) = some d

/-- An integer of so many bits. -/
def IntRange (bits : Nat) (n : Int) : Prop := -(2 ^ (bits - 1) : Int) ≤ n ∧ n < 2 ^ (bits - 1)

/-- A default value or example nested at most `n` deep. -/
def JLiteralOk (L : JLib) (n : Nat) (v : Value) : Prop := LiteralShaped L v ∧ NestedAtMost n v

/-- A type specification of at most `n` levels: the Go values it is made of are what Go values
can be (no map has a key twice, sizes are 64 bit integers), and the Go library prints its
numbers so that they can be read. -/
inductive JSpecOk (lib : Lib) (L : JLib) : Nat → TypeSpec → Prop
  | mk {n ts} :
    (∀ d ∈ ts.min, JBoundOk lib L d) → (∀ d ∈ ts.max, JBoundOk lib L d) →
    (∀ k ∈ ts.minSize, IntRange 64 k) → (∀ k ∈ ts.maxSize, IntRange 64 k) →
    (∀ e ∈ ts.elements, e.annotations.Distinct) →
    (∀ f ∈ ts.fields, f.annotations.Distinct ∧ JLiteralOk L n f.default) →
    (∀ f ∈ ts.fields, JSpecOk lib L n f.ts) →
    (∀ v ∈ ts.variants, v.annotations.Distinct) →
    (∀ v ∈ ts.variants, JSpecOk lib L n v.ts) → JSpecOk lib L (n + 1) ts

/-- A field, an input or an output. -/
def JFieldOk (lib : Lib) (L : JLib) (n : Nat) (f : StructFieldDef) : Prop :=
  f.annotations.Distinct ∧ JLiteralOk L n f.default ∧ JSpecOk lib L n f.ts

/-- The schema as a whole, `n` levels deep. -/
structure JSchemaOk (lib : Lib) (L : JLib) (n : Nat) (s : Schema) : Prop where
  annotations : s.annotations.Distinct
  types : ∀ t ∈ s.types, t.annotations.Distinct ∧ JSpecOk lib L n t.ts
  examples : ∀ e ∈ s.examples, e.annotations.Distinct ∧ JLiteralOk L n e.example
  operations : ∀ o ∈ s.operations, o.annotations.Distinct ∧ (∀ i ∈ o.inputs, JFieldOk lib L n i) ∧
    ∀ r ∈ o.outputs, r.annotations.Distinct ∧ JSpecOk lib L n r.ts
  http : ∀ h ∈ s.http, h.annotations.Distinct ∧ (∀ i ∈ h.inputs, JFieldOk lib L n i.field) ∧
    (∀ e ∈ h.expected, e.annotations.Distinct ∧ IntRange 32 e.status ∧ ∀ o ∈ e.outputs, JFieldOk lib L n o.field) ∧
    ∀ e ∈ h.exceptions, e.annotations.Distinct ∧ IntRange 32 e.status

/-- The same literal, up to what JSON makes of it and the order of the keys of objects. -/
def LoadedLiteral (L : JLib) (v w : Value) : Prop := Reordered (asRead L v) w

/-- The same enum element: annotations may be in another order, which a Go map does not have. -/
def LoadedElement (a b : EnumElementDef) : Prop :=
  b.symbol = a.symbol ∧ b.comment = a.comment ∧ b.annotations.Perm a.annotations

/-- The same type specification, up to what JSON makes of the defaults of its fields and except
that an empty list of values becomes no list. -/
inductive LoadedSpec (L : JLib) : TypeSpec → TypeSpec → Prop
  | mk {a b : TypeSpec} : b.type = a.type → b.pattern = a.pattern →
    b.values = (if a.values = some [] then none else a.values) →
    b.minSize = a.minSize → b.maxSize = a.maxSize → b.min = a.min → b.max = a.max →
    b.items = a.items → b.keys = a.keys → b.unit = a.unit → b.value = a.value → b.reference = a.reference →
    List.Forall₂ LoadedElement a.elements b.elements →
    List.Forall₂ (fun f g : StructFieldDef => g.name = f.name ∧ g.comment = f.comment ∧ g.annotations.Perm f.annotations ∧
      g.required = f.required ∧ LoadedLiteral L f.default g.default) a.fields b.fields →
    (∀ (i : Nat) f g, a.fields[i]? = some f → b.fields[i]? = some g → LoadedSpec L f.ts g.ts) →
    List.Forall₂ (fun f g : UnionVariantDef => g.name = f.name ∧ g.comment = f.comment ∧ g.annotations.Perm f.annotations)
      a.variants b.variants →
    (∀ (i : Nat) f g, a.variants[i]? = some f → b.variants[i]? = some g → LoadedSpec L f.ts g.ts) → LoadedSpec L a b

/-- The same field, input or output. -/
def LoadedField (L : JLib) (f g : StructFieldDef) : Prop :=
  g.name = f.name ∧ g.comment = f.comment ∧ g.annotations.Perm f.annotations ∧ g.required = f.required ∧
    LoadedLiteral L f.default g.default ∧ LoadedSpec L f.ts g.ts

/-- The same parameter of an action. -/
def LoadedParam (L : JLib) (p q : HttpParamSpec) : Prop :=
  q.header = p.header ∧ q.query = p.query ∧ q.path = p.path ∧ LoadedField L p.field q.field

/-- The same schema. -/
structure LoadedSchema (L : JLib) (s s' : Schema) : Prop where
  sadl : s'.sadl = s.sadl
  name : s'.name = s.name
  «namespace» : s'.namespace = s.namespace
  version : s'.version = s.version
  comment : s'.comment = s.comment
  base : s'.base = s.base
  annotations : s'.annotations.Perm s.annotations
  types : List.Forall₂ (fun t u : TypeDef => u.name = t.name ∧ u.comment = t.comment ∧ u.annotations.Perm t.annotations ∧
    LoadedSpec L t.ts u.ts) s.types s'.types
  examples : List.Forall₂ (fun e f : ExampleDef => f.target = e.target ∧ f.name = e.name ∧ f.comment = e.comment ∧
    f.annotations.Perm e.annotations ∧ LoadedLiteral L e.example f.example) s.examples s'.examples
  operations : List.Forall₂ (fun o p : OperationDef => p.name = o.name ∧ p.comment = o.comment ∧
    p.annotations.Perm o.annotations ∧ List.Forall₂ (LoadedField L) o.inputs p.inputs ∧
    List.Forall₂ (fun t u : OperationOutput => u.name = t.name ∧ u.comment = t.comment ∧ u.annotations.Perm t.annotations ∧
      LoadedSpec L t.ts u.ts) o.outputs p.outputs ∧ p.exceptions = o.exceptions) s.operations s'.operations
  http : List.Forall₂ (fun h g : HttpDef => g.name = h.name ∧ g.resource = h.resource ∧ g.comment = h.comment ∧
    g.annotations.Perm h.annotations ∧ g.method = h.method ∧ g.path = h.path ∧
    List.Forall₂ (LoadedParam L) h.inputs g.inputs ∧
    Option.Rel (fun e f : HttpExpectedSpec => List.Forall₂ (LoadedParam L) e.outputs f.outputs ∧ f.status = e.status ∧
      f.comment = e.comment ∧ f.annotations.Perm e.annotations) h.expected g.expected ∧
    List.Forall₂ (fun e f : HttpExceptionSpec => f.type = e.type ∧ f.status = e.status ∧ f.comment = e.comment ∧
      f.annotations.Perm e.annotations) h.exceptions g.exceptions) s.http s'.http

end Sadl.Spec
