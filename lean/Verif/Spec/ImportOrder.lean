import Verif.Spec.Swagger
/-
What it means that two OpenAPI documents are the same up to the order in which the runtime
enumerates their maps, and that two actions are.
-/
namespace Sadl.Spec
open Sadl

/-- The same operation, with the responses in another order. -/
def ReorderedOp (op op' : OOperation) : Prop :=
  op.responses.Distinct ∧ ∃ rs : GoMap OResponse, rs.Perm op.responses ∧ op' = { op with responses := rs }

/-- The same document, with the schemas, the paths, and the responses of each operation in another order. -/
structure ReorderedDoc (d d' : ODoc) : Prop where
  schemas : d.schemas.Distinct ∧ d'.schemas.Perm d.schemas
  paths : ∃ l : GoMap OPathItem, l.Perm d.paths ∧
    List.Forall₂ (fun a b => b.1 = a.1 ∧ ∀ k, Option.Rel ReorderedOp (a.2.op k) (b.2.op k)) l d'.paths
  rest : d' = { d with schemas := d'.schemas, paths := d'.paths }

/-- At most one of the responses of the operation tells of success. -/
def OneSuccess (op : OOperation) : Prop :=
  ∀ a ∈ op.responses, ∀ b ∈ op.responses, Success a.1 → Success b.1 → a.1 = b.1

/-- The same action, with the exceptions in another order. -/
def ReorderedAction (h h' : HttpDef) : Prop :=
  ∃ xs, xs.Perm h.exceptions ∧ h' = { h with exceptions := xs }

end Sadl.Spec
