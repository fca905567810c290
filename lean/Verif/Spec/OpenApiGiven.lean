import Verif.Spec.OpenApiSafe
/-
C121: the examples that the schemas of an OpenAPI document give.
-/
namespace Sadl.Spec

/-- The schema called `name` gives the example: its own, or that of the items of an array or of a property of an object that are written in
place, at any depth. -/
inductive Gives : String → OSchema → ExampleDef → Prop
  | own {name : String} {s : OSchema} : s.example ≠ .null → Gives name s { target := name, «example» := s.example }
  | items {name : String} {s i : OSchema} {ex : ExampleDef} : s.type = "array" → s.items = some i → i.ref = "" →
      Gives (name ++ ".Items") i ex → Gives name s ex
  | property {name f : String} {s p : OSchema} {ps : List (String × OSchema)} {ex : ExampleDef} : s.type = "" ∨ s.type = "object" →
      s.properties = some ps → (f, p) ∈ ps → ¬ IsRef p → Gives (name ++ "." ++ f) p ex → Gives name s ex

/-- A schema of the components gives the example.  If it is a reference, the schema it refers to does.  Schemas without a name, those for
`Decimal` and for `Timestamp` as a string are not looked at. -/
def ComponentGives (d : ODoc) (ex : ExampleDef) : Prop :=
  ∃ n s, (n, s) ∈ d.schemas ∧ n ≠ "" ∧ n ≠ "Decimal" ∧ (n = "Timestamp" → s.type ≠ "string") ∧
    ((¬ IsRef s ∧ Gives n s ex) ∨
     (IsRef s ∧ ∃ t s', (s.ref = "#/components/schemas/" ++ t ∨ s.ref = t ∧ ¬ hasPrefix s.ref "#/components/schemas/" = true) ∧
        mget d.schemas t = some s' ∧ Gives t s' ex))

/-- The response is that to the first status that begins with 2 or 3, or else the one for `default`. -/
def AnswerOf (rs : GoMap OResponse) (r : OResponse) : Prop :=
  (∃ pre st r0 post, rs = pre ++ (st, r0) :: post ∧ (hasPrefix st "2" ∨ hasPrefix st "3") ∧
     (∀ x ∈ pre, ¬ (hasPrefix x.1 "2" ∨ hasPrefix x.1 "3")) ∧ mget rs st = some r) ∨
  ((∀ x ∈ rs, ¬ (hasPrefix x.1 "2" ∨ hasPrefix x.1 "3")) ∧ mget rs "default" = some r)

/-- A header or the JSON contents of the expected response of the operation give the example. -/
def OperationGives (op : OOperation) (ex : ExampleDef) : Prop :=
  ∃ r, AnswerOf op.responses r ∧
    ((∃ n h s, (n, h) ∈ r.headers ∧ h.schema = some s ∧ s.ref = "" ∧ Gives (op.operationId ++ ".Expected." ++ headerName n) s ex) ∨
     (∃ s, JsonSchema r.content s ∧ s.ref = "" ∧ Gives (op.operationId ++ ".Expected.payload") s ex))

/-- An operation of the document gives the example.  Paths that begin with `x-` are not looked at. -/
def PathGives (d : ODoc) (ex : ExampleDef) : Prop :=
  ∃ path pi op, (path, pi) ∈ d.paths ∧ ¬ "x-".toList <+: path.toList ∧ op ∈ [pi.get, pi.put, pi.post, pi.delete, pi.head].filterMap id ∧ OperationGives op ex

end Sadl.Spec
