import Verif.Model.SmithyExport
/-
C124: the examples of the operations of an exported Smithy model.
-/
namespace Sadl.Spec
open Sadl Sadl.Smithy

/-- The last of the examples with the target and the name. -/
def lastExample (target name : String) (l : List ExampleDef) : Option ExampleDef :=
  (l.filter (fun ex => ex.target == target && ex.name == name)).getLast?

/-- The object shows, under the title, the last example with that name of the request of the operation as input, with its comment, and that of
its response, if there is one, as output. -/
structure PairShown (s : Schema) (op : String) (o : GoMap Value) (t : String) : Prop where
  title : mget o "title" = some (.str t)
  input : ∃ ex, lastExample (op ++ "Request") t s.examples = some ex ∧ mget o "input" = some ex.example ∧
    mget o "documentation" = if ex.comment = "" then none else some (.str ex.comment)
  output : mget o "output" = (lastExample (op ++ "Response") t s.examples).map (·.example)

end Sadl.Spec
