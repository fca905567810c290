import Verif.Spec.SmithyShapes
/-
The examples of Smithy operations.
-/
namespace Sadl.Spec
open Sadl Sadl.Smithy

/-- The text of an entry, or nothing. -/
def entryText (o : GoMap Value) (key : String) : String :=
  match mget o key with
  | some (.str t) => t
  | some (.strPtr t) => t
  | _ => ""

/-- The example is the input or output of an example of the operation with the name. -/
def IsOpExample (suf : Suffixes) (name : String) (o : GoMap Value) (ex : ExampleDef) : Prop :=
  (∃ v, mget o "input" = some v ∧ ex = { target := capitalize name ++ suf.input, name := entryText o "title", comment := entryText o "documentation", «example» := v }) ∨
  (∃ v, mget o "output" = some v ∧ ex = { target := capitalize name ++ suf.output, name := entryText o "title", «example» := v })

end Sadl.Spec
