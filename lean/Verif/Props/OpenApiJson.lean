import Verif.Lemmas.OpenApiBack
import Verif.Props.OpenApiActions
import Verif.Props.SchemaJson
/-
C113: an OpenAPI document printed as JSON and read again.
-/
namespace Sadl.Props
open Sadl Sadl.Spec

/-- C113 (part): a document printed as JSON is read as the same document: every path, operation, parameter, body, response and
schema with all they say, where maps come in the order of their keys, empty lists of values and empty maps of properties count
as missing, and examples are what JSON makes of them.  Missing: numbers that are not printed so that they can be read, and values
whose Go type changes, for which it is false; `additionalProperties`, which is read as untyped data that nothing looks at;
documents nested more than 4990 deep. -/
theorem C113_document_partial (L : JLib) (n : Nat) (hn : n ≤ 4990) (d : ODoc) (h : ODocOk L n d) :
    ∃ text, docText L d = some text ∧ loadOas L text = .ok { doc := odocBack L d } := by
  obtain ⟨ms, h1, h2, h3⟩ := odoc_trip hn h
  obtain ⟨f1, f2⟩ := fine_obj h2
  refine ⟨String.ofList (jPretty true 0 (.obj ms) ++ ['\n']), by rw [docText, h1]; rfl, ?_⟩
  unfold loadOas
  rw [String.toList_ofList, jRead_pretty _ f1, if_pos (show _ ≤ jMaxDepth by unfold jMaxDepth; omega)]
  dsimp only
  rw [readObj, h3]

/-- C113 (part): every operation of the document is found again under its path and method. -/
theorem C113_operations (L : JLib) (n : Nat) (hn : n ≤ 4990) (d : ODoc) (h : ODocOk L n d) :
    ∃ text f, docText L d = some text ∧ loadOas L text = .ok f ∧
      ∀ path method, ((mget f.doc.paths path).bind (·.op method)).map (fun o => (o.operationId, o.summary, o.tags, o.parameters.map (·.name))) =
        ((mget d.paths path).bind (·.op method)).map (fun o => (o.operationId, o.summary, o.tags, o.parameters.map (·.name))) := by
  obtain ⟨text, h1, h2⟩ := C113_document_partial L n hn d h
  refine ⟨text, _, h1, h2, fun path method => ?_⟩
  show ((mget (entriesBack (opathBack L) d.paths) path).bind _).map _ = _
  rw [entriesBack_mget _ h.pathKeys]
  cases hp : mget d.paths path with
  | none => rfl
  | some i =>
    cases method <;> simp only [Option.map_some, Option.bind_some, opathBack, OPathItem.op, Option.map_map] <;>
      congr 1 <;> funext o <;> simp [ooperationBack, oparamBack, Function.comp_def]

/-! ### A document that meets the hypotheses -/

/-- A schema of the example document. -/
def partSchema : OSchema := { type := "object", description := "a part", required := ["n"], properties := some [("n", { type := "integer", min := some (.fin 5 0) }), ("e", { type := "string", enum := some [.str "A", .str "B"] })] }

/-- An operation with a parameter, a body, and a response with a header. -/
def partOperation : OOperation := { operationId := "putPart", tags := ["parts"], parameters := [{ name := "id", «in» := "path", required := true, schema := some { type := "string", maxLength := some 9 }, «example» := .strPtr "a" }], requestBody := some { required := true, content := [("application/json", { schema := some { ref := "#/components/schemas/Part" }, examples := [("x", .obj [("n", .dec (.fin 5 0))])] })] }, responses := [("200", { description := "done", headers := [("X-Etag", { schema := some { type := "string" } })] }), ("404", { description := "not there" })] }

/-- The example document. -/
def partDocument : ODoc := { openapi := "3.0.0", title := "parts", version := "1", license := some ("MIT", ""), servers := ["/v1"], paths := [("/parts/{id}", { put := some partOperation }), ("/a", {})], schemas := [("Part", partSchema), ("List", { type := "array", items := some { ref := "#/components/schemas/Part" } })] }

theorem null_literal (L : JLib) (n : Nat) : JLiteralOk L n .null := ⟨.null, .leaf (by simp) (by simp)⟩

/-- A schema without nested schemas and values. -/
theorem simple_oschema (n : Nat) (s : OSchema) (h1 : s.enum = none) (h2 : s.example = .null) (h3 : s.min = none ∨ s.min = some (.fin 5 0))
    (h4 : s.max = none) (h5 : s.minLength = 0) (h6 : ∀ k ∈ s.maxLength, k < 2 ^ 64) (h7 : s.properties = none) (h8 : s.oneOf = [])
    (h9 : s.items = none) (h10 : s.additionalProperties = none) : OSchemaOk fiveJ (n + 1) s := by
  refine .mk (by rw [h1]; simp) (by rw [h2]; exact null_literal _ _) ?_ (by rw [h4]; simp) (by rw [h5]; decide) h6 (by rw [h7]; simp) (by rw [h8]; simp)
    (by rw [h9]; simp) (by rw [h7]; simp) (by rw [h10]; simp)
  rcases h3 with h3 | h3
  · rw [h3]; simp
  · rw [h3]
    intro f hf
    cases hf
    exact ⟨by simp, five_number, by decide⟩

theorem partSchema_ok : OSchemaOk fiveJ 3 partSchema := by
  refine .mk (by simp [partSchema]) (null_literal _ _) (by simp [partSchema]) (by simp [partSchema]) (by decide) (by simp [partSchema]) (by decide)
    (by simp [partSchema]) (by simp [partSchema]) ?_ (by simp [partSchema])
  intro p hp
  simp only [partSchema, Option.getD_some, List.mem_cons, List.not_mem_nil, or_false] at hp
  rcases hp with rfl | rfl
  · exact simple_oschema 1 _ rfl rfl (Or.inr rfl) rfl rfl (by simp) rfl rfl rfl rfl
  · refine .mk ?_ (null_literal _ _) (by simp) (by simp) (by decide) (by simp) (by decide) (by simp) (by simp) (by simp) (by simp)
    intro v hv
    simp only [Option.getD_some, List.mem_cons, List.not_mem_nil, or_false] at hv
    rcases hv with rfl | rfl <;> exact ⟨.str _, .leaf (by simp) (by simp)⟩

theorem partOperation_ok : OOperationOk fiveJ 3 partOperation where
  parameters := by
    intro p hp
    simp only [partOperation, List.mem_cons, List.not_mem_nil, or_false] at hp
    subst hp
    refine ⟨?_, ⟨.strPtr _, .leaf (by simp) (by simp)⟩, by decide, by simp⟩
    intro s hs
    cases hs
    exact simple_oschema 2 _ rfl rfl (Or.inl rfl) rfl rfl (by simp) rfl rfl rfl rfl
  body := by
    intro b hb
    cases hb
    refine ⟨by decide, fun p hp => ?_⟩
    simp only [List.mem_cons, List.not_mem_nil, or_false] at hp
    subst hp
    refine ⟨?_, null_literal _ _, by decide, fun p hp => ?_⟩
    · intro s hs
      cases hs
      exact simple_oschema 2 _ rfl rfl (Or.inl rfl) rfl rfl (by simp) rfl rfl rfl rfl
    · simp only [List.mem_cons, List.not_mem_nil, or_false] at hp
      subst hp
      refine ⟨.obj (by decide) fun kv hkv => ?_, .obj fun kv hkv => ?_⟩ <;>
        simp only [List.mem_cons, List.not_mem_nil, or_false] at hkv <;> subst hkv
      · exact (five_literal 0).1
      · exact (five_literal _).2
  keys := by decide
  responses := by
    intro p hp
    simp only [partOperation, List.mem_cons, List.not_mem_nil, or_false] at hp
    rcases hp with rfl | rfl
    · refine ⟨by decide, fun p hp => ?_, by decide, by simp⟩
      simp only [List.mem_cons, List.not_mem_nil, or_false] at hp
      subst hp
      intro s hs
      cases hs
      exact simple_oschema 2 _ rfl rfl (Or.inl rfl) rfl rfl (by simp) rfl rfl rfl rfl
    · exact ⟨by decide, by simp, by decide, by simp⟩

theorem partDocument_ok : ODocOk fiveJ 3 partDocument where
  schemaKeys := by decide
  schemas := by
    intro p hp
    simp only [partDocument, List.mem_cons, List.not_mem_nil, or_false] at hp
    rcases hp with rfl | rfl
    · exact partSchema_ok
    · refine .mk (by simp) (null_literal _ _) (by simp) (by simp) (by decide) (by simp) (by decide) (by simp) ?_ (by simp) (by simp)
      intro s hs
      cases hs
      exact simple_oschema 1 _ rfl rfl (Or.inl rfl) rfl rfl (by simp) rfl rfl rfl rfl
  pathKeys := by decide
  paths := by
    intro p hp k o ho
    simp only [partDocument, List.mem_cons, List.not_mem_nil, or_false] at hp
    rcases hp with rfl | rfl <;> cases k <;> cases ho
    exact partOperation_ok

/-- The example document is printed and read. -/
example : ∃ text, docText fiveJ partDocument = some text ∧ loadOas fiveJ text = .ok { doc := odocBack fiveJ partDocument } :=
  C113_document_partial fiveJ 3 (by decide) partDocument partDocument_ok

/-! ### What is false -/

/-- C113 refuted for files that hold `null`: importing one gives neither a model nor an error, it panics. -/
theorem C113_refuted_null (L : JLib) : ∃ e, importOpenApi (fun _ => loadOas L "null") ["api.json"] = .panic e := by
  have h : (match jRead "null".toList with | some .null => true | _ => false) = true := by decide +kernel
  have hl : loadOas L "null" = .panic "nil Model" := by
    unfold loadOas
    split at h
    · next hr => rw [hr]
    · cases h
  exact ⟨_, by unfold importOpenApi; rw [hl]⟩

/-- Exports, prints, reads, and looks at both documents. -/
def rereadB (q : ODoc → ODoc → Bool) (m : Model) : Bool :=
  match exportOasN 9 plainO m with
  | .ok d => match docText fiveJ d with
    | some text => match loadOas fiveJ text with
      | .ok f => q d f.doc
      | _ => false
    | none => false
  | _ => false

theorem reread_of (toks : List Token) (q : ODoc → ODoc → Bool) (h1 : toks.all (fun t => decide (t.type = .symbol → t.text ≠ "")) = true)
    (h : accepts noLib toks (rereadB q) = true) :
    ∃ m d text f, Accepted noLib m ∧ Exports plainO m (.ok d) ∧ docText fiveJ d = some text ∧ loadOas fiveJ text = .ok f ∧ q d f.doc = true := by
  obtain ⟨m, hm, h⟩ := accepted_of noLib toks _ h1 h
  unfold rereadB at h
  split at h
  · next d hd =>
    split at h
    · next text ht =>
      split at h
      · next f hf => exact ⟨m, d, text, f, hm, ⟨by simp, 9, hd⟩, ht, hf, h⟩
      · cases h
    · cases h
  · cases h

/-- Imports the type `Foo` of the document. -/
def importedFoo (d : ODoc) : String := match toSadl d "foo" with | .ok m => ((m.schema.types.map (·.ts.type)).head?).getD "" | _ => "?"

/-- C113 refuted for enumerations without values: the type imported from what is written is an enumeration, the one imported from what is read a
string. -/
theorem C113_refuted_empty_enum : ∃ m d text f, Accepted noLib m ∧ Exports plainO m (.ok d) ∧ docText fiveJ d = some text ∧
    loadOas fiveJ text = .ok f ∧ importedFoo d = "Enum" ∧ importedFoo f.doc = "String" := by
  obtain ⟨m, d, text, f, h1, h2, h3, h4, h5⟩ := reread_of (typeFoo [sym "Enum", punct .openBrace, nl, punct .closeBrace])
    (fun d d' => importedFoo d == "Enum" && importedFoo d' == "String") (by decide +kernel) (by decide +kernel)
  rw [Bool.and_eq_true] at h5
  exact ⟨m, d, text, f, h1, h2, h3, h4, eq_of_beq h5.1, eq_of_beq h5.2⟩

/-- A conversion to float64 for which the number 9000 is too large. -/
def overflowO : OLib := { plainO with asFloat64 := fun f => if f = .fin 9000 0 then .inf false else f }

def unprintableB (m : Model) : Bool :=
  match exportOasN 9 overflowO m with
  | .ok d => (docText fiveJ d).isNone
  | _ => false

/-- C113 refuted for bounds that are too large for a float64: the document is made, but it cannot be printed. -/
theorem C113_refuted_overflow : ∃ m d, Accepted fiveP m ∧ Exports overflowO m (.ok d) ∧ docText fiveJ d = none := by
  obtain ⟨m, h1, h2⟩ := accepted_of fiveP (typeFoo [sym "Decimal", punct .openParen, sym "max", punct .equals, num "9000", punct .closeParen]) unprintableB
    (by decide +kernel) (by decide +kernel)
  unfold unprintableB at h2
  split at h2
  · next d hd => exact ⟨m, d, h1, ⟨by simp, 9, hd⟩, Option.isNone_iff_eq_none.1 h2⟩
  · cases h2

end Sadl.Props
