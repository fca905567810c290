import Verif.Lemmas.OpenApiSafe
import Verif.Lemmas.Path
/-
C107: which OpenAPI documents the import crashes on.
-/
namespace Sadl.Props
open Sadl Sadl.Spec

/-- Importing a file that is safe never crashes, whatever the paths: there is a model or an error. -/
theorem C107_safe_partial (load : String → Out OFile) (paths : List String) (hl : ∀ p e, load p ≠ .panic e)
    (hs : ∀ p ∈ paths, ∀ f, load p = .ok f → FileSafe f) (e : String) : importOpenApi load paths ≠ .panic e := by
  unfold importOpenApi
  split
  · next path =>
    split
    · next e' h => exact absurd h (hl _ _)
    · simp
    · next f hf =>
      split
      · next e' h =>
        exfalso
        unfold validateFile at h
        split_ifs at h
      · simp
      · obtain ⟨h1, h2, h3⟩ := hs path (by simp) f hf
        have : ∀ e, toSadlFile f (String.ofList (importName path.toList)) ≠ .panic e := by
          intro e
          unfold toSadlFile
          simp only [h1, h2, Bool.true_eq_false, if_false, ne_eq, not_true]
          exact (toSadl_safe f.doc _).1 h3 e
        split
        · simp
        · exact this e
  · simp

/-- What is imported was safe: a document that is not ends in an error or in a crash. -/
theorem C107_only (load : String → Out OFile) (paths : List String) (m : Model) (h : importOpenApi load paths = .ok m) :
    ∃ path f, paths = [path] ∧ load path = .ok f ∧ FileSafe f := by
  unfold importOpenApi at h
  split at h
  · next path =>
    split at h
    · cases h
    · cases h
    · next f hf =>
      refine ⟨path, f, rfl, hf, ?_⟩
      split at h
      · cases h
      · cases h
      · split at h
        · cases h
        · unfold toSadlFile at h
          split_ifs at h with h1 h2
          · rcases bind_ok_iff.1 h with ⟨a, _, h⟩
            cases h
          · simp only [Bool.not_eq_false] at h1
            simp only [ne_eq, not_not] at h2
            exact ⟨h1, h2, (toSadl_safe f.doc _).2 m h⟩
  · cases h

/-- The conversion of the schema of a component either succeeds or crashes, according to whether the schema is safe. -/
theorem C107_schema (name : String) (s : OSchema) :
    ((∃ c, convertOas name s = .ok c) ↔ SchemaSafe s) ∧ ((∃ e, convertOas name s = .panic e) ↔ ¬ SchemaSafe s) := by
  refine ⟨convert_safe name, ?_⟩
  rw [← convert_safe name]
  cases h : convertOas name s with
  | ok c => simp
  | err e => exact (convert_no_err _ _ h).elim
  | panic e => simp

/-- The name of the model of a document without a title: the name of the file, without its directory and its last extension. -/
theorem C107_name (dir base ext : List Char) (h1 : '/' ∉ base) (h2 : '/' ∉ ext) (h3 : '.' ∉ base) (h4 : '.' ∉ ext) :
    importName (dir ++ '/' :: base ++ '.' :: ext) = base ∧ importName (base ++ '.' :: ext) = base ∧ importName (dir ++ '/' :: base) = base := by
  have a : '/' ∉ base ++ '.' :: ext := by simp [h1, h2]
  have b : splitAll '.' (base ++ '.' :: ext) = [base, ext] := by
    rw [splitAll_sep, splitAll_not_mem h3, splitAll_not_mem h4]; rfl
  refine ⟨?_, ?_, ?_⟩
  · unfold importName
    rw [List.append_assoc, List.cons_append, splitAll_sep, splitAll_not_mem a]
    simp [b, joinWith]
  · unfold importName
    rw [splitAll_not_mem a]
    simp [b, joinWith]
  · unfold importName
    rw [splitAll_sep, splitAll_not_mem h1]
    simp [splitAll_not_mem h3]

/-- Other dots become underscores. -/
theorem C107_name_dots : importName "a/b.v1.2.json".toList = "b_v1_2".toList := by decide

/-- A document with the schemas and the operation. -/
def oneOp (schemas : GoMap OSchema) (path : String) (op : OOperation) : OFile :=
  { doc := { openapi := "3.0.0", title := "t", version := "1", schemas := schemas, paths := [(path, { get := some op })] } }

/-- A safe document, and its import. -/
def safeFile : OFile :=
  oneOp [("Pet", { type := "object", properties := some [("name", { type := "string" }), ("tags", { type := "array", items := some { type := "string" } })] }),
         ("Animal", { ref := "#/components/schemas/Pet" }), ("Problem", { type := "object" })]
    "/pets/{id}" { operationId := "getPet", parameters := [{ name := "id", «in» := "path", required := true, schema := some { type := "string" } }]
                   responses := [("200", { content := [("application/json", { schema := some { ref := "#/components/schemas/Pet" } })] }),
                                 ("404", { content := [("application/json", { schema := some { ref := "#/components/schemas/Problem" } })] })] }

/-- How the import of the file `pets.json` ends. -/
def imports (f : OFile) : Bool := match importOpenApi (fun _ => .ok f) ["pets.json"] with | .ok _ => true | _ => false
def crashes (f : OFile) : Bool := match importOpenApi (fun _ => .ok f) ["pets.json"] with | .panic _ => true | _ => false

theorem C107_example : imports safeFile = true ∧ FileSafe safeFile := by
  have h : imports safeFile = true := by decide +kernel
  refine ⟨h, ?_⟩
  unfold imports at h
  split at h
  · next m hm =>
    obtain ⟨path, f, _, h2, h3⟩ := C107_only _ _ m hm
    cases h2
    exact h3
  · cases h

/-- Responses of operations that are imported. -/
def ok200 : GoMap OResponse := [("200", {})]

/-- Documents that are valid as OpenAPI, that `Validate` accepts, and on which the import crashes: without components; -/
theorem C107_refuted_components : crashes { safeFile with components := false } = true := by decide +kernel
/-- with a path item that is `null`; -/
theorem C107_refuted_null : crashes { safeFile with nullPaths := ["/a"] } = true := by decide +kernel
/-- with a type of JSON Schema that is not known; -/
theorem C107_refuted_type : crashes (oneOp [("N", { type := "null" })] "/a" { operationId := "o", responses := ok200 }) = true := by decide +kernel
/-- with a schema that refers to one that is not there; -/
theorem C107_refuted_dangling :
    crashes (oneOp [("N", { ref := "#/components/schemas/M" })] "/a" { operationId := "o", responses := ok200 }) = true := by decide +kernel
/-- with a range of status codes; -/
theorem C107_refuted_wildcard :
    crashes (oneOp [] "/a" { operationId := "o", responses := ok200 ++ [("4XX", {})] }) = true := by decide +kernel
/-- with an error whose contents are described in place; -/
theorem C107_refuted_inline :
    crashes (oneOp [] "/a" { operationId := "o", responses := ok200 ++ [("404", { content := [("application/json", { schema := some { type := "string" } })] })] }) = true := by
  decide +kernel
/-- with a parameter that is an object, or that has any type; -/
theorem C107_refuted_parameter (t : String) (h : t = "object" ∨ t = "") :
    crashes (oneOp [] "/a" { operationId := "o", responses := ok200, parameters := [{ name := "q", «in» := "query", schema := some { type := t } }] }) = true := by
  rcases h with rfl | rfl <;> decide +kernel
/-- with a parameter of the path whose name has a hyphen. -/
theorem C107_refuted_hyphen :
    crashes (oneOp [] "/a/{user-id}" { operationId := "o", responses := ok200
                                       parameters := [{ name := "user-id", «in» := "path", required := true, schema := some { type := "string" } }] }) = true := by
  decide +kernel

end Sadl.Props
