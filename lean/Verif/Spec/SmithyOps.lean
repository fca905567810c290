import Verif.Spec.SmithyShapes
/-
What an action or operation says of the Smithy operation that it was imported from.
-/
namespace Sadl.Spec
open Sadl Sadl.Smithy

/-- The text is the one of a trait, or empty without it. -/
structure TextIs (t : Traits) (key text : String) : Prop where
  set : ∀ v : String, mget t key = some (.str v) → text = v
  unset : mget t key = none → text = ""

/-- The flag is the one of a trait, or false without it. -/
structure FlagIs (t : Traits) (key : String) (flag : Bool) : Prop where
  set : ∀ v : Bool, mget t key = some (.bool v) → flag = v
  unset : mget t key = none → flag = false

/-- The parameter is the member of the structure, bound in the same way. -/
structure BoundAs (km : String × Member) (p : HttpParamSpec) : Prop where
  name : p.field.name = km.1
  type : TargetIs km.2.target p.field.ts.type
  required : FlagIs km.2.traits "smithy.api#required" p.field.required
  path : FlagIs km.2.traits "smithy.api#httpLabel" p.path
  query : TextIs km.2.traits "smithy.api#httpQuery" p.query
  header : TextIs km.2.traits "smithy.api#httpHeader" p.header

/-- The parameters are the members of the structure, some of which goes to the path or the body, or else the structure as a whole. -/
structure ParamsAre (ast : Ast) (ref : Option String) (ps : List HttpParamSpec) : Prop where
  nothing : ref = none ∨ ref = some "smithy.api#Unit" → ps = []
  bound : ∀ t st, ref = some t → t ≠ "smithy.api#Unit" → mget ast.shapes t = some st →
    (∃ km ∈ st.members, mget km.2.traits "smithy.api#httpPayload" = some (.bool true) ∨ mget km.2.traits "smithy.api#httpLabel" = some (.bool true)) →
    List.Forall₂ BoundAs st.members ps
  whole : ∀ t st, ref = some t → t ≠ "smithy.api#Unit" → mget ast.shapes t = some st →
    (∀ km ∈ st.members, ∀ k ∈ ["smithy.api#httpPayload", "smithy.api#httpLabel", "smithy.api#httpQuery"], mget km.2.traits k = none) →
    ∃ p, ps = [p] ∧ p.field.name = "body" ∧ p.path = false ∧ p.query = "" ∧ p.header = "" ∧
      ∀ ns loc : String, t = ns ++ "#" ++ loc → '#' ∉ ns.toList → ns ≠ "smithy.api" → '#' ∉ loc.toList →
        loc ∉ ["Blob", "Boolean", "String", "Byte", "Short", "Integer", "Long", "Float", "Double", "BigInteger", "BigDecimal", "Timestamp", "Document"] → p.field.ts.type = loc

/-- The traits bind a member to the query. -/
def boundToQuery (t : Traits) : Bool :=
  match mget t "smithy.api#httpQuery" with
  | some (.str q) => decide (q ≠ "")
  | some (.strPtr q) => decide (q ≠ "")
  | _ => false

/-- The members of a structure that are bound to the query. -/
def queryNames (ms : GoMap Member) : List String := (ms.filter fun km => boundToQuery km.2.traits).map Prod.fst

/-- `?a={a}&b={b}` -/
def queryText : List String → String
  | [] => ""
  | k :: ks => "?" ++ k ++ "={" ++ k ++ "}" ++ String.join (ks.map fun k => "&" ++ k ++ "={" ++ k ++ "}")

/-- The exception is the error of the operation. -/
structure ErrorIs (lib : SLib) (ast : Ast) (target : String) (x : HttpExceptionSpec) : Prop where
  type : TargetIs target x.type
  shape : ∃ st, mget ast.shapes target = some st ∧ DocIs st.traits x.comment ∧
    ∀ v, mget st.traits "smithy.api#httpError" = some v → -2 ^ 31 ≤ lib.int v → lib.int v < 2 ^ 31 → x.status = lib.int v

/-- The name is the local name with a small first letter. -/
def SmallName (name small : String) : Prop :=
  ∀ (ns : String) (c : Char) (r : List Char), name = ns ++ "#" ++ String.ofList (c :: r) → '#' ∉ ns.toList → c.toNat < 128 → small = String.ofList (c.toLower :: r)

/-- The action says what the operation says. -/
structure OpActionKept (lib : SLib) (ast : Ast) (name : String) (s : Shape) (h : HttpDef) : Prop where
  name : SmallName name h.name
  doc : DocIs s.traits h.comment
  annos : GoMap.Distinct s.traits → AnnosAre s.traits h.annotations
  method : traitMember s "smithy.api#http" "method" = some (.str h.method)
  path : ∀ u : String, traitMember s "smithy.api#http" "uri" = some (.str u) →
    (s.input = none ∨ s.input = some "smithy.api#Unit" → h.path = u) ∧
    ∀ t st, s.input = some t → t ≠ "smithy.api#Unit" → mget ast.shapes t = some st →
      (queryNames st.members = [] → h.path = u) ∧
      ((∃ km ∈ st.members, mget km.2.traits "smithy.api#httpPayload" = some (.bool true) ∨ mget km.2.traits "smithy.api#httpLabel" = some (.bool true)) →
        h.path = u ++ queryText (queryNames st.members))
  inputs : ParamsAre ast s.input h.inputs
  outputs : ∃ e, h.expected = some e ∧ ParamsAre ast s.output e.outputs ∧
    (traitMember s "smithy.api#http" "code" = none → e.status = 200) ∧
    ∀ v, traitMember s "smithy.api#http" "code" = some v → lib.int v ≠ 0 → -2 ^ 31 ≤ lib.int v → lib.int v < 2 ^ 31 → e.status = lib.int v
  errors : List.Forall₂ (ErrorIs lib ast) s.errors h.exceptions

/-- The operation says what the Smithy operation says. -/
structure PlainOpKept (ast : Ast) (name : String) (s : Shape) (o : OperationDef) : Prop where
  name : SmallName name o.name
  doc : DocIs s.traits o.comment
  annos : GoMap.Distinct s.traits → AnnosAre s.traits o.annotations
  noInputs : s.input = none → o.inputs = []
  inputs : ∀ t st, s.input = some t → mget ast.shapes t = some st →
    List.Forall₂ (fun km f => f.name = km.1 ∧ TargetIs km.2.target f.ts.type ∧ FlagIs km.2.traits "smithy.api#required" f.required) st.members o.inputs
  noOutputs : s.output = none → o.outputs = []
  outputs : ∀ t st, s.output = some t → mget ast.shapes t = some st →
    List.Forall₂ (fun km f => f.name = km.1 ∧ TargetIs km.2.target f.ts.type) st.members o.outputs
  errors : List.Forall₂ TargetIs s.errors o.exceptions

end Sadl.Spec
