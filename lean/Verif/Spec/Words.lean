import Verif.Spec.Grammar
/-
Where the names and texts of a parsed source come from.

`Origins` says which names, texts, comments and default values may occur.  `FromSchema` goes
through all parts of a schema.  `sourceOrigins` are the words, strings and comments of a source.
-/
namespace Sadl.Spec

/-- Which names, texts, comments and strings as default values may occur. -/
structure Origins where
  word : String → Prop
  text : String → Prop
  comment : String → Prop
  value : String → Prop

/-- The keys of annotations are words, the values are texts. -/
def FromAnnotations (o : Origins) (a : GoMap String) : Prop := ∀ kv ∈ a, o.word kv.1 ∧ o.text kv.2

/-- If the value is a string it is one that may occur. -/
def FromDefault (o : Origins) (v : Value) : Prop := ∀ q, v = .strPtr q → o.value q

/-- A type, without the types of its fields and variants. -/
structure FromPart (o : Origins) (ts : TypeSpec) : Prop where
  type : o.word ts.type
  items : o.word ts.items
  keys : o.word ts.keys
  value : o.word ts.value
  unit : o.word ts.unit
  reference : o.word ts.reference
  pattern : o.text ts.pattern
  values : ∀ vs, ts.values = some vs → ∀ v ∈ vs, o.text v
  elements : ∀ el ∈ ts.elements, o.word el.symbol ∧ o.comment el.comment ∧ FromAnnotations o el.annotations

/-- A type at any depth. -/
inductive FromSpec (o : Origins) : TypeSpec → Prop
  | mk {ts} : FromPart o ts →
      (∀ f ∈ ts.fields, o.word f.name ∧ o.comment f.comment ∧ FromAnnotations o f.annotations ∧ FromDefault o f.default) →
      (∀ f ∈ ts.fields, FromSpec o f.ts) →
      (∀ v ∈ ts.variants, o.word v.name ∧ o.comment v.comment ∧ FromAnnotations o v.annotations) →
      (∀ v ∈ ts.variants, FromSpec o v.ts) → FromSpec o ts

/-- A field, input or parameter. -/
structure FromField (o : Origins) (f : StructFieldDef) : Prop where
  name : o.word f.name
  comment : o.comment f.comment
  annotations : FromAnnotations o f.annotations
  default : FromDefault o f.default
  type : FromSpec o f.ts

/-- The definition of a type. -/
structure FromTypeDef (o : Origins) (td : TypeDef) : Prop where
  name : o.word td.name
  comment : o.comment td.comment
  annotations : FromAnnotations o td.annotations
  type : FromSpec o td.ts

/-- An input or output of an action with the given path; the name in the query is a piece of the path. -/
structure FromParam (o : Origins) (path : String) (p : HttpParamSpec) : Prop where
  field : FromField o p.field
  header : o.text p.header
  query : Occurs p.query.toList path.toList

/-- A piece of a path between slashes, without variables. -/
def Segment (path seg : String) : Prop := ∃ ws, Pieces '/' path.toList ws ∧ seg.toList ∈ ws ∧ '{' ∉ seg.toList

/-- An action.  If it has no name its name is made of the method and the resource; if it has no resource that is a segment of its path. -/
structure FromAction (o : Origins) (h : HttpDef) : Prop where
  resource : o.word h.resource ∨ Segment h.path h.resource
  name : o.word h.name ∨ h.name = lowerS h.method ++ capitalize h.resource
  comment : o.comment h.comment
  annotations : FromAnnotations o h.annotations
  method : h.method ∈ ["GET", "PUT", "POST", "DELETE", "PATCH", "HEAD", "OPTIONS"]
  path : o.text h.path
  inputs : ∀ p ∈ h.inputs, FromParam o h.path p
  expected : ∀ e, h.expected = some e → o.comment e.comment ∧ FromAnnotations o e.annotations ∧ ∀ p ∈ e.outputs, FromParam o h.path p
  exceptions : ∀ x ∈ h.exceptions, o.word x.type ∧ o.comment x.comment ∧ FromAnnotations o x.annotations

/-- An operation. -/
structure FromOperation (o : Origins) (op : OperationDef) : Prop where
  name : o.word op.name
  comment : o.comment op.comment
  annotations : FromAnnotations o op.annotations
  inputs : ∀ f ∈ op.inputs, FromField o f
  outputs : ∀ f ∈ op.outputs, o.word f.name ∧ o.comment f.comment ∧ FromAnnotations o f.annotations ∧ FromSpec o f.ts
  exceptions : ∀ x ∈ op.exceptions, o.word x

/-- An example; its target is words joined by dots. -/
structure FromExample (o : Origins) (e : ExampleDef) : Prop where
  name : o.word e.name
  comment : o.comment e.comment
  target : ∃ ws : List String, ws ≠ [] ∧ (∀ w ∈ ws, o.word w) ∧ e.target.toList = List.intercalate ['.'] (ws.map String.toList)

/-- The definitions of a schema. -/
structure FromSchema (o : Origins) (s : Schema) : Prop where
  types : ∀ td ∈ s.types, FromTypeDef o td
  actions : ∀ h ∈ s.http, FromAction o h
  operations : ∀ op ∈ s.operations, FromOperation o op
  examples : ∀ e ∈ s.examples, FromExample o e

/-- The words that need not be written: the defaults of type parameters, the types that replace a list and a string, the name of the
only output, and the mark of included definitions. -/
def impliedWords : List String := ["", "Any", "String", "Decimal", "Array", "UUID", "entity", "x_include"]

/-- The tokens of a source and of all files it might include. -/
def TokenOf (files : String → Option (List Token)) (toks : List Token) (t : Token) : Prop :=
  t ∈ toks ∨ ∃ f ts, files f = some ts ∧ t ∈ ts

/-- Names are symbols of the source, texts are strings of the source, comments consist of characters of comments and spaces, and string
defaults are what strings of the source denote. -/
def sourceOrigins (lib : PLib) (files : String → Option (List Token)) (toks : List Token) : Origins where
  word n := n ∈ impliedWords ∨ TokenOf files toks ⟨.symbol, n⟩
  text s := s = "" ∨ TokenOf files toks ⟨.string, s⟩
  comment c := ∀ ch ∈ c.toList, ch = ' ' ∨ ∃ x, TokenOf files toks ⟨.lineComment, x⟩ ∧ ch ∈ x.toList
  value q := ∃ s, TokenOf files toks ⟨.string, s⟩ ∧ lib.unquote s = some q

end Sadl.Spec
