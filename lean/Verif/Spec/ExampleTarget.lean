import Verif.Spec.Valid
/-
What the target of an example refers to, for `FindExampleType`.
-/
namespace Sadl.Spec

/-- The first entry of a list with the given name. -/
def FirstNamed {α : Type} (name : α → String) (l : List α) (x : String) (a : α) : Prop :=
  ∃ before after, l = before ++ a :: after ∧ name a = x ∧ ∀ b ∈ before, name b ≠ x

/-- From a type specification along the names of fields of structs that are written in place. -/
inductive Along : TypeSpec → List String → TypeSpec → Prop
  | here {ts} : Along ts [] ts
  | field {ts x rest f t} : ts.type = "Struct" → FirstNamed (·.name) ts.fields x f → Along f.ts rest t → Along ts (x :: rest) t

/-- What a path of names refers to in a schema: `none` for the request or the response of an action as a whole. -/
inductive ExampleType (s : Schema) : List String → Option TypeSpec → Prop
  | type {n rest ts t} : Defines s n ts → Along ts rest t → ExampleType s (n :: rest) (some t)
  | request {base h} : ¬ Known s (base ++ "Request") → h ∈ s.http → h.name = uncapitalize base → ExampleType s [base ++ "Request"] none
  | input {base h x p rest t} : ¬ Known s (base ++ "Request") → h ∈ s.http → h.name = uncapitalize base →
      FirstNamed (·.field.name) h.inputs x p → Along p.field.ts rest t → ExampleType s ((base ++ "Request") :: x :: rest) (some t)
  | response {base h} : ¬ Known s (base ++ "Response") → h ∈ s.http → h.name = uncapitalize base → ExampleType s [base ++ "Response"] none
  | output {base h e x p rest t} : ¬ Known s (base ++ "Response") → h ∈ s.http → h.name = uncapitalize base → h.expected = some e →
      FirstNamed (·.field.name) e.outputs x p → Along p.field.ts rest t → ExampleType s ((base ++ "Response") :: x :: rest) (some t)

end Sadl.Spec
