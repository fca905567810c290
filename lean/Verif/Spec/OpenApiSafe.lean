import Verif.Model.OpenApiFile
/-
C107: documents that are imported without a crash.
-/
namespace Sadl.Spec

/-- The schema is a reference: it has one that is not empty, and not just the place where schemas are. -/
def IsRef (s : OSchema) : Prop := s.ref ≠ "" ∧ s.ref ≠ "#/components/schemas/"

/-- The names of types that schemas may have. -/
def SchemaTypes : List String := ["", "object", "boolean", "string", "array", "number", "integer"]

/-- The schema, the items of an array and the properties of an object, at any depth, have types with these names, unless they are references. -/
inductive SchemaSafe : OSchema → Prop
  | mk {s : OSchema} : s.type ∈ SchemaTypes →
      (∀ i, s.type = "array" → s.items = some i → i.ref = "" → SchemaSafe i) →
      (∀ ps n p, s.type = "" ∨ s.type = "object" → s.properties = some ps → (n, p) ∈ ps → ¬ IsRef p → SchemaSafe p) → SchemaSafe s

/-- A schema of the components: if it is a reference, it refers to another schema of the components. -/
def ComponentSafe (d : ODoc) (s : OSchema) : Prop :=
  (¬ IsRef s ∧ SchemaSafe s) ∨
  (IsRef s ∧ ∃ t, mget d.schemas t ≠ none ∧ (s.ref = "#/components/schemas/" ++ t ∨ s.ref = t ∧ ¬ hasPrefix s.ref "#/components/schemas/" = true) ∧
    ∀ s', mget d.schemas t = some s' → SchemaSafe s')

/-- A parameter: if it is in the path, the template has its name, reduced to an identifier; if its schema is not a reference, its type is
one of those of simple values or `array`. -/
def ParamSafe (path : String) (p : OParam) : Prop :=
  (p.in = "path" → containsSub ("{" ++ makeIdentifier p.name ++ "}").toList path.toList = true) ∧
  ∀ s, p.schema = some s → IsRef s ∨ s.type ∈ ["boolean", "string", "array", "number", "integer"]

/-- The schema of JSON contents. -/
def JsonSchema (content : GoMap OMedia) (s : OSchema) : Prop := ∃ mt, mget content "application/json" = some mt ∧ mt.schema = some s

/-- The response that is the expected one: headers and contents have schemas that are references or safe. -/
def ExpectedSafe (r : OResponse) : Prop :=
  (∀ n h s, (n, h) ∈ r.headers → h.schema = some s → s.ref ≠ "" ∨ SchemaSafe s) ∧
  ∀ s, JsonSchema r.content s → s.ref ≠ "" ∨ SchemaSafe s

/-- Any other response: the status has no wildcard, and the contents are a reference. -/
def ErrorSafe (status : String) (r : OResponse) : Prop :=
  'X' ∉ status.toList ∧ ∀ s, JsonSchema r.content s → s.ref ≠ ""

/-- The first response with a status that begins with 2 or 3 is the expected one, or else the one for `default`. -/
def OperationSafe (path : String) (op : OOperation) : Prop :=
  (∀ p ∈ op.parameters, ParamSafe path p) ∧
  (∀ r, mget op.responses (expectedStatus op.responses) = some r → ExpectedSafe r) ∧
  ∀ st r, (st, r) ∈ op.responses → st ≠ expectedStatus op.responses → ErrorSafe st r

/-- Documents that are safe to import.  Schemas without a name, those for `Decimal` and for `Timestamp` as a string, and paths that begin with
`x-` are not looked at. -/
def DocSafe (d : ODoc) : Prop :=
  (∀ n s, (n, s) ∈ d.schemas → n ≠ "" → n ≠ "Decimal" → (n = "Timestamp" → s.type ≠ "string") → ComponentSafe d s) ∧
  ∀ path pi op, (path, pi) ∈ d.paths → ¬ "x-".toList <+: path.toList → op ∈ [pi.get, pi.put, pi.post, pi.delete, pi.head].filterMap id → OperationSafe path op

/-- Files that are safe to import: there are components, no path item is `null`, and the document is safe. -/
def FileSafe (f : OFile) : Prop := f.components = true ∧ f.nullPaths = [] ∧ DocSafe f.doc

end Sadl.Spec
