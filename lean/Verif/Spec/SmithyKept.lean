import Verif.Spec.Smithy
import Mathlib.Data.List.Forall2
/-
Vocabulary for what survives an export to Smithy followed by an import.
-/
namespace Sadl.Spec
open Sadl Sadl.Smithy

/-! ### From the export to the import -/

/-- What happens to the values of the AST between the export and the import: nothing if it stays in
memory; if it is written to a file and read again, numbers and lists change their Go types.
Strings, booleans, arrays and objects stay what they are. -/
structure Transport where
  carry : Value → Value
  str : ∀ s, carry (.str s) = .str s
  bool : ∀ b, carry (.bool b) = .bool b
  arr : ∀ xs, carry (.arr xs) = .arr (xs.map carry)
  obj : ∀ kvs, carry (.obj kvs) = .obj (kvs.map fun kv => (kv.1, carry kv.2))

/-- The traits that arrive. -/
def Transport.traits (T : Transport) (t : Traits) : Traits := List.map (fun kv => (kv.1, T.carry kv.2)) t

/-- The member that arrives. -/
def Transport.member (T : Transport) (mem : Member) : Member := { mem with traits := T.traits mem.traits }

/-- The shape that arrives. -/
def Transport.shape (T : Transport) (s : Shape) : Shape :=
  { s with
    member := s.member.map T.member, key := s.key.map T.member, value := s.value.map T.member,
    members := s.members.map fun kv => (kv.1, T.member kv.2), traits := T.traits s.traits }

/-- The AST that arrives. -/
def Transport.ast (T : Transport) (a : Ast) : Ast :=
  { metadata := a.metadata.map fun kv => (kv.1, T.carry kv.2), shapes := a.shapes.map fun kv => (kv.1, T.shape kv.2) }

/-- The AST stays in memory. -/
def inMemory : Transport where
  carry := id
  str _ := rfl
  bool _ := rfl
  arr _ := by simp
  obj _ := by simp

/-- The namespace of the exported shapes. -/
def TargetNs (confNs : String) (s : Schema) : String :=
  if confNs ≠ "" then confNs else if s.namespace ≠ "" then s.namespace else "example"

/-! ### Types -/

/-- A comment of one line, or whose lines do not begin or end with blanks. -/
def TidyComment (c : String) : Prop :=
  '\n' ∉ c.toList ∨ ∀ line ∈ splitAll '\n' c.toList, line.head? ≠ some ' ' ∧ line.getLast? ≠ some ' '

/-- A type reference that is neither `UUID` nor `Array`. -/
def RefKept (t : String) : Prop := t ≠ "UUID" ∧ t ≠ "Array"

/-- A type reference in a union that is not the name of one of Smithy's own shapes (those that are called
differently here). -/
def VariantKept (t : String) : Prop :=
  '#' ∉ t.toList ∧ t ∉ ["Blob", "Boolean", "Byte", "Short", "Integer", "Long", "Float", "Double", "BigInteger", "BigDecimal",
    "Document"]

/-- A size limit that can be read after the transport. -/
def SizeKept (lib : SLib) (T : Transport) (n : Int) : Prop := n ≠ 0 ∧ asInt64 lib.wild (T.carry (.int64 n)) = n

/-- A numeric limit that can be read after the transport. -/
def LimitKept (T : Transport) (d : BigFloat) : Prop := asDecimal (T.carry (.dec d)) = some d

/-- No annotations, or a list of tags that can be read after the transport. -/
def TagsKept (T : Transport) (annos : GoMap String) : Prop :=
  annos = [] ∨ ∃ t, annos = [("x_tags", t)] ∧ t ≠ "" ∧
    ∀ l, T.carry (.strArr l) = .arr (l.map .str)

/-- The types that survive. -/
inductive SmithyKept (lib : SLib) (T : Transport) (td : TypeDef) : Prop
  | number (base : String) (lo hi : Option BigFloat) (tidy : TidyComment td.comment) (tags : TagsKept T td.annotations)
      (hb : base ∈ numberTypes) (hl : ∀ d, lo = some d ∨ hi = some d → LimitKept T d)
      (ts : td.ts = { type := base, min := lo, max := hi })
  | string (pattern : String) (lo hi : Option Int) (values : Option (List String)) (tidy : TidyComment td.comment)
      (annos : td.annotations = []) (hp : pattern ≠ uuidPattern) (hl : ∀ n, lo = some n ∨ hi = some n → SizeKept lib T n)
      (hv : values ≠ some [])
      (ts : td.ts = { type := "String", pattern := pattern, minSize := lo, maxSize := hi, values := values })
  | uuid (tidy : TidyComment td.comment) (annos : td.annotations = []) (ts : td.ts = { type := "UUID" })
  | enum (elements : List EnumElementDef) (tidy : TidyComment td.comment) (tags : TagsKept T td.annotations)
      (distinct : (elements.map (·.symbol)).Nodup)
      (he : ∀ e ∈ elements, e.comment = "" ∧ (e.annotations = [] ∨ ∃ v, v ≠ "" ∧ e.annotations = [("x_enumValue", v)]))
      (ts : td.ts = { type := "Enum", elements := elements })
  | struct (fields : List StructFieldDef) (tidy : TidyComment td.comment) (tags : TagsKept T td.annotations)
      (distinct : (fields.map (·.name)).Nodup)
      (hf : ∀ f ∈ fields, ∃ t, RefKept t ∧ f = { name := f.name, required := f.required, ts := { type := t } })
      (ts : td.ts = { type := "Struct", fields := fields })
  | array (items : String) (tidy : TidyComment td.comment) (annos : td.annotations = [] ∨ td.annotations = [("x_unique", "true")])
      (hi : RefKept items) (ts : td.ts = { type := "Array", items := items })
  | map (keys items : String) (tidy : TidyComment td.comment) (annos : td.annotations = [])
      (hk : RefKept keys) (hi : RefKept items) (ts : td.ts = { type := "Map", keys := keys, items := items })
  | union (variants : List UnionVariantDef) (tidy : TidyComment td.comment) (tags : TagsKept T td.annotations)
      (distinct : (variants.map (·.name)).Nodup)
      (hv : ∀ v ∈ variants, TidyComment v.comment ∧
        ∃ t, VariantKept t ∧ v = { name := v.name, comment := v.comment, ts := { type := t } })
      (ts : td.ts = { type := "Union", variants := variants })

/-- The type is the type of an exception of some action. -/
def IsException (s : Schema) (n : String) : Prop := ∃ h ∈ s.http, ∃ x ∈ h.exceptions, x.type = n

/-- A type after the round trip: the same definition.  The types of exceptions have
further annotations. -/
structure SameSmithyType (s : Schema) (td td' : TypeDef) : Prop where
  name : td'.name = td.name
  comment : td'.comment = td.comment
  ts : td'.ts = td.ts
  annotations : ¬ IsException s td.name → td'.annotations = td.annotations

/-! ### Actions and operations -/

/-- The name does not begin with an uppercase letter. -/
def LowerName (n : String) : Prop := ∀ c r, n.toList = c :: r → ¬ ('A' ≤ c ∧ c ≤ 'Z')

/-- The query string made of the names of the parameters in the query. -/
def QueryText (ps : List HttpParamSpec) : String :=
  match ps.filter (·.query ≠ "") with
  | [] => ""
  | p :: r => r.foldl (fun q p => q ++ "&" ++ p.field.name ++ "={" ++ p.field.name ++ "}")
      ("?" ++ p.field.name ++ "={" ++ p.field.name ++ "}")

/-- A status that can be read after the transport. -/
def StatusKept (lib : SLib) (T : Transport) (n : Int) : Prop :=
  n ≠ 0 ∧ -2 ^ 31 ≤ n ∧ n < 2 ^ 31 ∧ lib.int (T.carry (.int n)) = n

/-- Parameters of a type that can be referred to. -/
def ParamTypeKept (p : HttpParamSpec) : Prop := ∃ t, RefKept t ∧ p.field.ts = { type := t }

/-- The actions that survive. -/
structure ActionKept (lib : SLib) (T : Transport) (s : Schema) (h : HttpDef) : Prop where
  name : LowerName h.name ∧ h.name ≠ ""
  comment : TidyComment h.comment
  annotations : TagsKept T h.annotations
  resource : h.resource = ""
  path : ∃ uri, '?' ∉ (s.base ++ uri).toList ∧ h.path = uri ++ QueryText h.inputs
  inputNames : (h.inputs.map (·.field.name)).Nodup
  inputs : ∀ p ∈ h.inputs, ParamTypeKept p ∧ (p.path = true → p.query = "" ∧ p.header = "") ∧ (p.query ≠ "" → p.header = "")
  /-- Some input is in the path or in the body, or in the query under a name that counts as true. -/
  bound : h.inputs = [] ∨ ∃ p ∈ h.inputs, p.path = true ∨ (p.query = "" ∧ p.header = "") ∨
    (p.query ≠ "" ∧ lib.truth (.str p.query) = true)
  expected : ∃ e, h.expected = some e ∧ StatusKept lib T e.status ∧ (e.outputs.map (·.field.name)).Nodup ∧
    (∀ p ∈ e.outputs, ParamTypeKept p ∧ p.path = false ∧ p.query = "") ∧
    (e.outputs = [] ∨ ∃ p ∈ e.outputs, p.header = "")
  exceptions : ∀ x ∈ h.exceptions, StatusKept lib T x.status ∧
    ∀ h' ∈ s.http, ∀ x' ∈ h'.exceptions, x'.type = x.type → x'.status = x.status

/-- A parameter after the round trip: its comment, annotations and default are gone, and it is
required if and only if it is in the path. -/
def SameParam (p p' : HttpParamSpec) : Prop :=
  p' = { header := p.header, query := p.query, path := p.path,
         field := { name := p.field.name, required := p.path, ts := p.field.ts } }

/-- An action after the round trip; the base of the schema has become part of the path, and the comments and
annotations of responses are gone. -/
structure SameAction (base : String) (h h' : HttpDef) : Prop where
  name : h'.name = h.name
  method : h'.method = h.method
  path : h'.path = base ++ h.path
  comment : h'.comment = h.comment
  annotations : h'.annotations = h.annotations
  resource : h'.resource = h.resource
  inputs : List.Forall₂ SameParam h.inputs h'.inputs
  expected : ∃ e e', h.expected = some e ∧ h'.expected = some e' ∧ e'.status = e.status ∧
    List.Forall₂ SameParam e.outputs e'.outputs
  exceptions : List.Forall₂ (fun x x' => x'.type = x.type ∧ x'.status = x.status) h.exceptions h'.exceptions

/-- The operations that survive. -/
structure OperationKept (od : OperationDef) : Prop where
  name : LowerName od.name
  comment : TidyComment od.comment
  annotations : od.annotations = []
  inputNames : (od.inputs.map (·.name)).Nodup
  inputs : ∀ p ∈ od.inputs, ∃ t, RefKept t ∧ p = { name := p.name, ts := { type := t } }
  outputNames : (od.outputs.map (·.name)).Nodup
  outputs : ∀ p ∈ od.outputs, ∃ t, RefKept t ∧ p = { name := p.name, ts := { type := t } }
  exceptions : od.exceptions = []

/-! ### Schemas -/

/-- What is asked of a schema so that the exported AST can be imported again: a namespace of its own, no two
shapes with the same name, named actions, and exceptions of defined types. -/
structure TripReady (suf : Suffixes) (confNs : String) (s : Schema) : Prop where
  hash : '#' ∉ (TargetNs confNs s).toList
  own : TargetNs confNs s ≠ "smithy.api"
  clash : NoClash suf s
  names : ∀ h ∈ s.http, h.name ≠ "" ∧ h.method ≠ ""
  exceptions : ∀ h ∈ s.http, ∀ x ∈ h.exceptions, ∃ td ∈ s.types, td.name = x.type

end Sadl.Spec
