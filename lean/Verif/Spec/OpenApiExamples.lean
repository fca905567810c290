import Verif.Spec.OpenApi
/-! What the OpenAPI document should show of the examples of the schema (C110). -/

namespace Sadl.Spec

/-- The example is about the request (`what` is `"Request"`) or the response (`"Response"`) of
the action: its target is the name of the action followed by that word, and not a type. -/
def About (s : Schema) (h : HttpDef) (what : String) (ex : ExampleDef) : Prop :=
  ¬ Named s ex.target ∧ ∃ base, ex.target = base ++ what ∧ uncapitalize base = h.name

/-- What an example gives for a member, with the name of the example. -/
def givenBy (key : String) (ex : ExampleDef) : List (String × Value) :=
  match ex.example with
  | .obj kvs => (kvs.filter (fun kv => kv.1 == key)).map fun kv => (ex.name, kv.2)
  | _ => []

open Classical in
/-- What the examples give for a member of the request or the response of the action, in
order. -/
noncomputable def given (s : Schema) (h : HttpDef) (whats : List String) (key : String) : List ExampleDef → List (String × Value)
  | [] => []
  | ex :: rest => (if ∃ w ∈ whats, About s h w ex then givenBy key ex else []) ++ given s h whats key rest

/-- The last of the values that have a name. -/
def lastNamed (l : List (String × Value)) (name : String) : Option Value :=
  ((l.filter (fun e => e.1 == name)).getLast?).map Prod.snd

/-- A place in the document with one unnamed example and several named ones shows, for each
name, the last of the values that are given for it, and nothing else. -/
structure Shows («example» : Value) (examples : GoMap Value) (l : List (String × Value)) : Prop where
  unnamed : «example» = (lastNamed l "").getD .null
  named : ∀ n, mget examples n = if n = "" then none else lastNamed l n

/-- The operation shows what the examples give for its parameters, for the body of the request
and for the body of the response with the status `st`; the parameter lists give what is given
for each name. -/
structure OpShows (op : OOperation) (st : String) (params : String → List (String × Value)) (request response : List (String × Value)) : Prop where
  params : ∀ p ∈ op.parameters, Shows p.example p.examples (if p.name = "body" then [] else params p.name)
  request : ∀ b mt, op.requestBody = some b → mget b.content "application/json" = some mt → Shows mt.example mt.examples request
  response : ∀ r mt, mget op.responses st = some r → mget r.content "application/json" = some mt → Shows mt.example mt.examples response

/-- The last example of a type. -/
def lastOfType (T : String) (l : List ExampleDef) : Option Value :=
  ((l.filter (fun ex => ex.target == T)).getLast?).map ExampleDef.example

end Sadl.Spec
