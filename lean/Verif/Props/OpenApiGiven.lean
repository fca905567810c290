import Verif.Lemmas.OpenApiGiven
import Verif.Lemmas.OpenApiShared
/-
C121: the examples of an OpenAPI document that are imported.
-/
namespace Sadl.Props
open Sadl Sadl.Spec

/-- C121 (part): the examples of the model are exactly those that the schemas of the components and of the expected responses give, with the
names of the schemas as their targets.  Missing: the examples elsewhere in the document, which are dropped, see below. -/
theorem C121_examples_partial (d : ODoc) (name : String) (m : Model) (h : toSadl d name = .ok m) (ex : ExampleDef) :
    ex ∈ m.schema.examples ↔ ComponentGives d ex ∨ PathGives d ex := by
  unfold toSadl at h
  simp only at h
  obtain ⟨⟨tds, e1⟩, h1, h⟩ := bind_ok_iff.1 h
  obtain ⟨⟨hs, e2⟩, h2, h⟩ := bind_ok_iff.1 h
  rw [((newModel_ok_iff _ m).1 h).2.2.2]
  dsimp only
  rw [List.mem_append, importTypes_given h1, importPaths_given h2]
  rfl

/-- A document with examples of a type, of one of its properties, of the items of an array, of a header and of contents. -/
def givenDoc : ODoc where
  openapi := "3.0.0"
  title := "a"
  version := "1"
  schemas := [("A", { type := "object", «example» := .obj [("x", .str "1")], properties := some [("x", { type := "string", «example» := .str "2" })] }),
    ("B", { type := "array", items := some { type := "string", «example» := .str "3" } })]
  paths := [("/a", { get := some { operationId := "getA", responses := [("404", {}), ("200", {
    headers := [("X-Tag", { schema := some { type := "string", «example» := .str "4" } })]
    content := [("application/json", { schema := some { type := "string", «example» := .str "5" } })] })] } })]

/-- It is imported, and the examples are those. -/
example : ∃ m, toSadl givenDoc "x" = .ok m ∧ { target := "A.x", «example» := .str "2" } ∈ m.schema.examples ∧
    { target := "B.Items", «example» := .str "3" } ∈ m.schema.examples ∧
    { target := "getA.Expected.payload", «example» := .str "5" } ∈ m.schema.examples := by
  have h : (match toSadl givenDoc "x" with | .ok _ => true | _ => false) = true := by decide +kernel
  cases hm : toSadl givenDoc "x" with
  | ok m =>
    have noref : ∀ s : OSchema, s.ref = "" → ¬ IsRef s := fun s h hr => hr.1 h
    refine ⟨m, rfl, (C121_examples_partial _ _ _ hm _).2 (.inl ⟨"A", _, .head _, by decide, by decide, by decide, .inl ⟨noref _ rfl, ?_⟩⟩),
      (C121_examples_partial _ _ _ hm _).2 (.inl ⟨"B", _, .tail _ (.head _), by decide, by decide, by decide, .inl ⟨noref _ rfl, ?_⟩⟩),
      (C121_examples_partial _ _ _ hm _).2 (.inr ⟨"/a", _, _, .head _, by decide, .head _, _, .inl ⟨[_], "200", _, [], rfl, by decide, ?_, rfl⟩, .inr ⟨_, ⟨_, rfl, rfl⟩, rfl, ?_⟩⟩)⟩
    · exact .property (.inr rfl) rfl (.head _) (noref _ rfl) (Gives.own (name := "A.x") (by simp))
    · exact .items rfl rfl rfl (Gives.own (name := "B.Items") (by simp))
    · intro x hx; rw [List.mem_singleton] at hx; subst hx; decide
    · exact Gives.own (name := "getA.Expected.payload") (by simp)
  | _ => rw [hm] at h; cases h

/-- A document whose examples are in a parameter, in the contents of a request and of a response. -/
def droppedDoc : ODoc where
  openapi := "3.0.0"
  title := "a"
  version := "1"
  schemas := [("A", { type := "string" })]
  paths := [("/a", { post := some { operationId := "postA", parameters := [{ name := "q", «in» := "query", schema := some { type := "string" }, «example» := .str "1" }], requestBody := some { content := [("application/json", { schema := some { ref := "#/components/schemas/A" }, «example» := .str "2" })] }, responses := [("200", { content := [("application/json", { schema := some { ref := "#/components/schemas/A" }, «example» := .str "3" })] })] } })]

/-- The property is false: it is imported, and none of its examples is kept. -/
theorem C121_refuted_dropped : ∃ m, toSadl droppedDoc "x" = .ok m ∧ m.schema.examples = [] := by
  have h : (match toSadl droppedDoc "x" with | .ok m => m.schema.examples.length == 0 | _ => false) = true := by decide +kernel
  cases hm : toSadl droppedDoc "x" with
  | ok m =>
    rw [hm] at h
    exact ⟨m, rfl, List.length_eq_zero_iff.1 (by simpa using h)⟩
  | _ => rw [hm] at h; cases h

end Sadl.Props
