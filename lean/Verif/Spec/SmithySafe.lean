import Verif.Spec.SmithyShapes
/-
The Smithy models that can be imported without a panic.
-/
namespace Sadl.Spec
open Sadl Sadl.Smithy

/-- The traits that the importer knows. -/
def knownTraits : List String :=
  ["smithy.api#error", "smithy.api#httpError", "smithy.api#httpPayload", "smithy.api#httpLabel", "smithy.api#httpQuery", "smithy.api#httpHeader",
   "smithy.api#required", "smithy.api#documentation", "smithy.api#range", "smithy.api#length", "smithy.api#readonly", "smithy.api#idempotent",
   "smithy.api#sensitive", "smithy.api#box", "smithy.api#http", "aws.protocols#restJson1", "smithy.api#examples", "smithy.api#tags",
   "smithy.api#timestampFormat", "smithy.api#enumValue", "smithy.api#deprecated", "smithy.api#paginated"]

/-- Every trait that is the name of a shape is defined as a trait, or known. -/
def TraitsSafe (ast : Ast) (t : Traits) : Prop :=
  ∀ kv ∈ t, kv.1 ∉ knownTraits → ∀ s, mget ast.shapes kv.1 = some s → s.traits.map "smithy.api#trait" ≠ none

/-- The operation has an HTTP method. -/
def HasMethod (s : Shape) : Prop :=
  ∃ m : String, m ≠ "" ∧ (traitMember s "smithy.api#http" "method" = some (.str m) ∨ traitMember s "smithy.api#http" "method" = some (.strPtr m))

/-- The references of an operation exist. -/
structure OpSafe (ast : Ast) (s : Shape) : Prop where
  plainInput : ¬HasMethod s → ∀ t, s.input = some t → mget ast.shapes t ≠ none
  plainOutput : ¬HasMethod s → ∀ t, s.output = some t → mget ast.shapes t ≠ none
  output : HasMethod s → ∀ t, s.output = some t → t ≠ "smithy.api#Unit" → mget ast.shapes t ≠ none
  errors : HasMethod s → ∀ e ∈ s.errors, mget ast.shapes e ≠ none

/-- The shape can be imported. -/
structure ShapeSafe (ast : Ast) (s : Shape) : Prop where
  kind : s.type ∈ shapeKinds ++ ["boolean", "service", "operation", "resource"]
  traits : s.type ∉ ["string", "blob", "list", "set", "map", "service", "resource"] → TraitsSafe ast s.traits
  members : s.type ∈ ["structure", "union", "enum"] → ∀ km ∈ s.members, TraitsSafe ast km.2.traits
  list : s.type ∈ ["list", "set"] → s.member ≠ none
  map : s.type = "map" → s.key ≠ none ∧ s.value ≠ none
  operation : s.type = "operation" → OpSafe ast s

/-- The service to import is given, or there is at most one. -/
def OneService (ast : Ast) (conf : SConf) : Prop :=
  conf.service ≠ "" ∨ (ast.shapes.filter fun p => p.2.type = "service").length ≤ 1

end Sadl.Spec
