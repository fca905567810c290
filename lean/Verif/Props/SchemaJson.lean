import Verif.Lemmas.SchemaJson
import Verif.Lemmas.NewModel
import Verif.Lemmas.SwaggerActions
import Verif.Props.Accepted
import Verif.Props.GraphQLDoc
import Verif.Model.GoServer
import Verif.Model.OpenApiFile
/-
C112: a model printed as JSON and loaded again.
-/
namespace Sadl.Props
open Sadl Sadl.Spec

/-- The text printed for a model is read as the document that was printed. -/
theorem model_text {lib : Lib} {L : JLib} {n : Nat} {m : Model} (hn : n ≤ 4996) (h : JSchemaOk lib L n m.schema) :
    ∃ text s', modelText L m = some text ∧ (jRead text.toList).bind (readObj (readSchema lib L)) = some s' ∧
      LoadedSchema L m.schema s' := by
  obtain ⟨d, d1, d2, s', d3, d4⟩ := schema_ok hn h
  obtain ⟨f1, f2⟩ := fine_obj d2
  refine ⟨String.ofList (jPretty false 0 (.obj d) ++ ['\n']), s', by rw [modelText, d1]; rfl, ?_, d4⟩
  rw [String.toList_ofList, jRead_pretty _ f1, if_pos (show _ ≤ jMaxDepth by unfold jMaxDepth; omega), Option.bind_some, readObj, d3]

theorem loaded_types {L : JLib} {xs ys : List TypeDef}
    (h : List.Forall₂ (fun t u : TypeDef => u.name = t.name ∧ u.comment = t.comment ∧ u.annotations.Perm t.annotations ∧
      LoadedSpec L t.ts u.ts) xs ys) : ys.map TypeDef.name = xs.map TypeDef.name := by
  induction h with
  | nil => rfl
  | cons hab _ ih => rw [List.map_cons, List.map_cons, ih, hab.1]

theorem loaded_names {α β : Type} {R : α → β → Prop} {f : α → String} {g : β → String} (hR : ∀ a b, R a b → g b = f a)
    {xs : List α} {ys : List β} (h : List.Forall₂ R xs ys) : ys.map g = xs.map f := by
  induction h with
  | nil => rfl
  | cons hab _ ih => rw [List.map_cons, List.map_cons, ih, hR _ _ hab]

theorem loaded_mget {α : Type} {R : α → α → Prop} {f : α → String} (hR : ∀ a b, R a b → f b = f a) {xs ys : List α}
    (h : List.Forall₂ R xs ys) (base : GoMap α) (k : String) :
    mget (base ++ xs.map fun x => (f x, x)) k = mget (base ++ ys.map fun x => (f x, x)) k ∨
      ∃ x y, mget (base ++ xs.map fun x => (f x, x)) k = some x ∧ mget (base ++ ys.map fun x => (f x, x)) k = some y ∧ R x y := by
  induction base with
  | nil =>
    induction h with
    | nil => exact Or.inl rfl
    | @cons a b xs ys hab _ ih =>
      simp only [List.nil_append, List.map_cons, mget] at ih ⊢
      rw [hR a b hab]
      by_cases hk : f a = k
      · right; exact ⟨a, b, by simp [hk], by simp [hk], hab⟩
      · simp only [hk, if_false]; exact ih
  | cons p r ih =>
    obtain ⟨k', x⟩ := p
    simp only [List.cons_append, mget]
    by_cases hk : k' = k
    · left; simp [hk]
    · simp only [hk, if_false]; exact ih

/-- C112 (part): a model printed as JSON can be loaded, and what is loaded is the same schema: every type, example,
operation and action with all they say, where only the default values and examples are what JSON makes of them, the
entries of a map may come in another order and an empty list of allowed values counts as none; and looking up a name
finds the same type or action.  Missing: models without SADL version and numbers that no float64 can hold, for which it
is false; the Go types of default values and examples, which change; models nested more than 4996 deep, of which
encoding/json reads some and refuses others; extensions. -/
theorem C112_load_partial (lib : Lib) (L : JLib) (n : Nat) (hn : n ≤ 4996) (m : Model) (hm : newModel m.schema = .ok m)
    (h : JSchemaOk lib L n m.schema) (hv : m.schema.sadl ≠ "") :
    ∃ text m', modelText L m = some text ∧ loadModel lib L text = .ok m' ∧ LoadedSchema L m.schema m'.schema ∧
      (∀ name, m'.findType name = m.findType name ∨ ∃ t u, m.findType name = some t ∧ m'.findType name = some u ∧
        u.name = t.name ∧ u.comment = t.comment ∧ u.annotations.Perm t.annotations ∧ LoadedSpec L t.ts u.ts) ∧
      (∀ name, (m'.findHttp name).isSome = (m.findHttp name).isSome) := by
  obtain ⟨text, s', h1, h2, h3⟩ := model_text hn h
  obtain ⟨n1, n2, n3, n4⟩ := (newModel_ok_iff _ _).1 hm
  have ht := loaded_types h3.types
  have hh := loaded_names (f := HttpDef.name) (g := HttpDef.name) (fun _ _ hab => hab.1) h3.http
  have hnew : newModel s' = .ok { schema := s', typeIndex := baseIndex ++ s'.types.map (fun td => (td.name, td)), httpIndex := s'.http.map (fun hd => (hd.name, hd)) } := by
    rw [newModel_ok_iff]
    refine ⟨by rw [ht]; exact n1, ?_, by rw [hh]; exact n3, rfl⟩
    intro td htd
    have : td.name ∈ s'.types.map TypeDef.name := List.mem_map_of_mem htd
    rw [ht] at this
    obtain ⟨td', h5, h6⟩ := List.mem_map.1 this
    rw [← h6]
    exact n2 td' h5
  refine ⟨text, { schema := s', typeIndex := baseIndex ++ s'.types.map (fun td => (td.name, td)), httpIndex := s'.http.map (fun hd => (hd.name, hd)) }, h1, ?_, h3, ?_, ?_⟩
  · unfold loadModel
    rw [h2]
    dsimp only
    rw [if_neg (by rw [h3.sadl]; exact hv), hnew]
  · intro name
    rw [n4]
    unfold Model.findType
    rcases loaded_mget (fun _ _ hab => hab.1) h3.types baseIndex name with he | ⟨t, u, e1, e2, e3⟩
    · exact Or.inl he.symm
    · exact Or.inr ⟨t, u, e1, e2, e3⟩
  · intro name
    rw [n4]
    unfold Model.findHttp
    have key : ∀ (xs ys : List HttpDef), ys.map HttpDef.name = xs.map HttpDef.name →
        (mget (ys.map fun hd => (hd.name, hd)) name).isSome = (mget (xs.map fun hd => (hd.name, hd)) name).isSome := by
      intro xs
      induction xs with
      | nil => intro ys e; rw [List.map_nil, List.map_eq_nil_iff] at e; subst e; rfl
      | cons x r ih =>
        intro ys e
        cases ys with
        | nil => simp at e
        | cons y t =>
          rw [List.map_cons, List.map_cons, List.cons.injEq] at e
          simp only [List.map_cons, mget, e.1]
          split
          · rfl
          · exact ih t e.2
    exact key _ _ hh

/-- C112: a model without SADL version is printed, but never loaded. -/
theorem C112_unversioned (lib : Lib) (L : JLib) (n : Nat) (hn : n ≤ 4996) (m : Model)
    (h : JSchemaOk lib L n m.schema) (hv : m.schema.sadl = "") :
    ∃ text, modelText L m = some text ∧ loadModel lib L text = .err "Cannot load file" := by
  obtain ⟨text, s', h1, h2, h3⟩ := model_text hn h
  refine ⟨text, h1, ?_⟩
  unfold loadModel
  rw [h2]
  dsimp only
  rw [if_pos (by rw [h3.sadl]; exact hv)]

/-- Models imported from GraphQL and OpenAPI have no SADL version. -/
theorem imported_graphql {readFile : String → Option String} {parse : String → Option (List GraphQL.GDef)} {paths : List String}
    {conf : Value} {m : Model} (h : GraphQL.gqlImport readFile parse paths conf = .ok m) : m.schema.sadl = "" := by
  unfold GraphQL.gqlImport at h
  split at h
  · split at h
    · cases h
    · split at h
      · cases h
      · obtain ⟨s, h1, h2⟩ := Out.bind_eq_ok.1 h
        obtain ⟨-, -, -, rfl⟩ := (newModel_ok_iff _ _).1 h2
        unfold GraphQL.gqlSchema at h1
        obtain ⟨tds, _, h3⟩ := Out.bind_eq_ok.1 h1
        cases h3
        rfl
  · cases h

theorem imported_toSadl {d : ODoc} {name : String} {m : Model} (h : toSadl d name = .ok m) : m.schema.sadl = "" := by
  unfold toSadl at h
  dsimp only at h
  obtain ⟨⟨tds, e1⟩, h1, h⟩ := Out.bind_eq_ok.1 h
  obtain ⟨⟨hs, e2⟩, h2, h⟩ := Out.bind_eq_ok.1 h
  obtain ⟨-, -, -, rfl⟩ := (newModel_ok_iff _ _).1 h
  rfl

theorem imported_openapi {load : String → Out OFile} {paths : List String} {m : Model} (h : importOpenApi load paths = .ok m) :
    m.schema.sadl = "" := by
  unfold importOpenApi at h
  split at h
  · split at h
    · cases h
    · cases h
    · split at h
      · cases h
      · cases h
      · split at h
        · cases h
        · unfold toSadlFile at h
          split at h
          · cases h
          · split at h
            · obtain ⟨_, _, h⟩ := Out.bind_eq_ok.1 h
              cases h
            · exact imported_toSadl h
  · cases h

/-! ### A schema that meets the hypotheses -/

/-- A library that knows the number 5, and a number too large for a float64. -/
def fiveJ : JLib :=
  { showFloat := fun _ => ['5'], parseFloat := fun t => if t = ['5'] then some (.fin 5 0) else none
    showDecimal := fun f => if f = .fin 5 0 then "5" else "9000", encodeOther := fun _ => none, sprint := fun _ => "" }

/-- The same for the parser. -/
def fiveP : PLib :=
  { noLib with parseDecimal := fun s => if s = "5" then some (.fin 5 0) else if s = "9000" then some (.fin 9000 0) else none }

theorem five_number : JsonNumber ['5'] :=
  ⟨[], ['5'], [], [], rfl, Or.inl rfl, Or.inr ⟨'5', [], rfl, by decide, by intro c hc; simp at hc; subst hc; decide⟩, Or.inl rfl, Or.inl rfl⟩

/-- A field of the example schema. -/
def jsonField : StructFieldDef :=
  { name := "n", comment := "how many", annotations := [("x_b", "1"), ("x_a", "2")], required := true, default := .dec (.fin 5 0), ts := { type := "Int32", min := some (.fin 5 0) } }

/-- A schema with a structure, an enum, an example, an operation and an action. -/
def jsonSchema : Schema :=
  { sadl := "1.0", name := "shop", annotations := [("b", "1"), ("a", "2")]
    types := [{ name := "S", ts := { type := "Struct", fields := [jsonField, { name := "t", ts := { type := "Struct", fields := [jsonField] } }] } },
      { name := "E", ts := { type := "Enum", elements := [{ symbol := "A", annotations := [("k", "v")] }, { symbol := "B" }] } },
      { name := "C", ts := { type := "String", values := some ["x", "y"], minSize := some 0, maxSize := some (-3) } }]
    examples := [{ target := "S", «example» := .obj [("t", .obj [("n", .dec (.fin 5 0))]), ("n", .strPtr "five")] }]
    operations := [{ name := "op", inputs := [jsonField], outputs := [{ name := "o", ts := { type := "S" } }], exceptions := ["E"] }]
    http := [{ name := "get", method := "GET", path := "/s", inputs := [{ query := "n", field := jsonField }]
               expected := some { status := 200, outputs := [{ field := jsonField }] }, exceptions := [{ type := "E", status := 404 }] }] }

theorem five_literal (n : Nat) : JLiteralOk fiveJ n (.dec (.fin 5 0)) :=
  ⟨.dec ⟨five_number, _, rfl⟩, .leaf (by simp) (by simp)⟩

theorem plain_spec {n : Nat} {ts : TypeSpec} (h1 : ts.min = none ∨ ts.min = some (.fin 5 0)) (h2 : ts.max = none) (h3 : ∀ k ∈ ts.minSize, IntRange 64 k)
    (h4 : ∀ k ∈ ts.maxSize, IntRange 64 k) (h5 : ∀ e ∈ ts.elements, e.annotations.Distinct)
    (h6 : ∀ f ∈ ts.fields, f.annotations.Distinct ∧ JLiteralOk fiveJ n f.default)
    (h7 : ∀ f ∈ ts.fields, JSpecOk fiveP.toLib fiveJ n f.ts) (h8 : ts.variants = []) : JSpecOk fiveP.toLib fiveJ (n + 1) ts := by
  refine .mk ?_ (by rw [h2]; simp) h3 h4 h5 h6 h7 (by rw [h8]; simp) (by rw [h8]; simp)
  rcases h1 with h1 | h1
  · rw [h1]; simp
  · rw [h1]
    intro d hd
    cases hd
    exact ⟨five_number, rfl⟩

theorem leaf_spec (n : Nat) (type : String) (min : Option BigFloat) (h : min = none ∨ min = some (.fin 5 0)) :
    JSpecOk fiveP.toLib fiveJ (n + 1) { type := type, min := min } :=
  plain_spec h rfl (by simp) (by simp) (by simp) (by simp) (by simp) rfl

theorem jsonField_ok (n : Nat) : JFieldOk fiveP.toLib fiveJ (n + 1) jsonField :=
  ⟨by unfold GoMap.Distinct jsonField; decide, five_literal _, leaf_spec n "Int32" _ (Or.inr rfl)⟩

theorem nil_distinct : GoMap.Distinct ([] : GoMap String) := by unfold GoMap.Distinct; decide

theorem jsonSchema_ok : JSchemaOk fiveP.toLib fiveJ 3 jsonSchema where
  annotations := by unfold GoMap.Distinct jsonSchema; decide
  types := by
    intro t ht
    simp only [jsonSchema, List.mem_cons, List.not_mem_nil, or_false] at ht
    rcases ht with rfl | rfl | rfl
    · refine ⟨nil_distinct, plain_spec (Or.inl rfl) rfl (by simp) (by simp) (by simp) ?_ ?_ rfl⟩
      · intro f hf
        simp only [List.mem_cons, List.not_mem_nil, or_false] at hf
        rcases hf with rfl | rfl
        · exact ⟨(jsonField_ok 0).1, (jsonField_ok 1).2.1⟩
        · exact ⟨nil_distinct, .null, .leaf (by simp) (by simp)⟩
      · intro f hf
        simp only [List.mem_cons, List.not_mem_nil, or_false] at hf
        rcases hf with rfl | rfl
        · exact (jsonField_ok 1).2.2
        · refine plain_spec (Or.inl rfl) rfl (by simp) (by simp) (by simp) ?_ ?_ rfl
          · intro f hf
            simp only [List.mem_cons, List.not_mem_nil, or_false] at hf
            subst hf
            exact ⟨(jsonField_ok 0).1, (jsonField_ok 0).2.1⟩
          · intro f hf
            simp only [List.mem_cons, List.not_mem_nil, or_false] at hf
            subst hf
            exact (jsonField_ok 0).2.2
    · refine ⟨nil_distinct, plain_spec (Or.inl rfl) rfl (by simp) (by simp) ?_ (by simp) (by simp) rfl⟩
      intro e he
      simp only [List.mem_cons, List.not_mem_nil, or_false] at he
      rcases he with rfl | rfl <;> (unfold GoMap.Distinct; decide)
    · refine ⟨nil_distinct, plain_spec (Or.inl rfl) rfl ?_ ?_ (by simp) (by simp) (by simp) rfl⟩ <;>
        (intro k hk; cases hk; unfold IntRange; decide)
  examples := by
    intro e he
    simp only [jsonSchema, List.mem_cons, List.not_mem_nil, or_false] at he
    subst he
    refine ⟨nil_distinct, .obj (by decide) ?_, .obj ?_⟩
    · intro kv hkv
      simp only [List.mem_cons, List.not_mem_nil, or_false] at hkv
      rcases hkv with rfl | rfl
      · refine .obj (by decide) ?_
        intro kv hkv
        simp only [List.mem_cons, List.not_mem_nil, or_false] at hkv
        subst hkv
        exact (five_literal 0).1
      · exact .strPtr _
    · intro kv hkv
      simp only [List.mem_cons, List.not_mem_nil, or_false] at hkv
      rcases hkv with rfl | rfl
      · refine .obj ?_
        intro kv hkv
        simp only [List.mem_cons, List.not_mem_nil, or_false] at hkv
        subst hkv
        exact (five_literal 1).2
      · exact .leaf (by simp) (by simp)
  operations := by
    intro o ho
    simp only [jsonSchema, List.mem_cons, List.not_mem_nil, or_false] at ho
    subst ho
    refine ⟨nil_distinct, ?_, ?_⟩
    · intro i hi
      simp only [List.mem_cons, List.not_mem_nil, or_false] at hi
      subst hi
      exact jsonField_ok 2
    · intro i hi
      simp only [List.mem_cons, List.not_mem_nil, or_false] at hi
      subst hi
      exact ⟨nil_distinct, leaf_spec 2 "S" _ (Or.inl rfl)⟩
  http := by
    intro h hh
    simp only [jsonSchema, List.mem_cons, List.not_mem_nil, or_false] at hh
    subst hh
    refine ⟨nil_distinct, ?_, ?_, ?_⟩
    · intro i hi
      simp only [List.mem_cons, List.not_mem_nil, or_false] at hi
      subst hi
      exact jsonField_ok 2
    · intro e he
      cases he
      refine ⟨nil_distinct, by unfold IntRange; decide, ?_⟩
      intro i hi
      simp only [List.mem_cons, List.not_mem_nil, or_false] at hi
      subst hi
      exact jsonField_ok 2
    · intro e he
      simp only [List.mem_cons, List.not_mem_nil, or_false] at he
      subst he
      exact ⟨nil_distinct, by unfold IntRange; decide⟩

/-- The example schema is printed and loaded. -/
example : ∃ m text m', m.schema = jsonSchema ∧ modelText fiveJ m = some text ∧ loadModel fiveP.toLib fiveJ text = .ok m' ∧
    LoadedSchema fiveJ jsonSchema m'.schema := by
  have h : (match newModel jsonSchema with | .ok _ => true | _ => false) = true := by decide +kernel
  split at h
  · next m hm =>
    have hs : m.schema = jsonSchema := by obtain ⟨_, _, _, rfl⟩ := (newModel_ok_iff _ _).1 hm; rfl
    obtain ⟨text, m', h1, h2, h3, _⟩ := C112_load_partial fiveP.toLib fiveJ 3 (by decide) m (by rw [hs]; exact hm)
      (by rw [hs]; exact jsonSchema_ok) (by rw [hs]; decide)
    exact ⟨m, text, m', hs, h1, h2, hs ▸ h3⟩
  · cases h

/-! ### What is false -/

/-- Prints the model and looks at what is loaded. -/
def loadsB (p : Model → Bool) (m : Model) : Bool :=
  match modelText fiveJ m with
  | some text => match loadModel fiveP.toLib fiveJ text with
    | .ok m' => p m'
    | _ => false
  | none => false

/-- The model is printed, and what is printed is refused. -/
def unloadableB (m : Model) : Bool :=
  match modelText fiveJ m with
  | some text => match loadModel fiveP.toLib fiveJ text with
    | .err _ => true
    | _ => false
  | none => false

/-- `http GET "/s?n={n}" { n Int32 (default=5) expect 200 }` -/
def jsonDefaultSource : List Token :=
  [sym "http", sym "GET", str "/s?n={n}", punct .openBrace, nl,
   sym "n", sym "Int32", punct .openParen, sym "default", punct .equals, num "5", punct .closeParen, nl,
   sym "expect", num "200", nl, punct .closeBrace, nl]

/-- The defaults that a Go server has for the inputs of its actions. -/
def serverDefaults (m : Model) : List Int := m.schema.http.flatMap fun h => h.inputs.map fun i => goIntDefault i.field.default

/-- C112 refuted for numbers as defaults: the Go server of the model loaded again has another default, zero. -/
theorem C112_refuted_default : ∃ m text m', Accepted fiveP m ∧ modelText fiveJ m = some text ∧
    loadModel fiveP.toLib fiveJ text = .ok m' ∧ serverDefaults m = [5] ∧ serverDefaults m' = [0] := by
  obtain ⟨m, h1, h2⟩ := accepted_of fiveP jsonDefaultSource (fun m => serverDefaults m == [5] && loadsB (fun m' => serverDefaults m' == [0]) m)
    (by decide +kernel) (by decide +kernel)
  rw [Bool.and_eq_true] at h2
  obtain ⟨h2, h3⟩ := h2
  unfold loadsB at h3
  split at h3
  · next text ht =>
    split at h3
    · next m' hm' => exact ⟨m, text, m', h1, ht, hm', eq_of_beq h2, eq_of_beq h3⟩
    · cases h3
  · cases h3

/-- `type S Struct { n Decimal (default=9000) }`, where the number stands for one that no float64 can hold. -/
def hugeSource : List Token :=
  [sym "type", sym "S", sym "Struct", punct .openBrace, nl,
   sym "n", sym "Decimal", punct .openParen, sym "default", punct .equals, num "9000", punct .closeParen, nl, punct .closeBrace, nl]

/-- C112 refuted for numbers that a float64 cannot hold: the model is printed, but refused when loaded. -/
theorem C112_refuted_huge : ∃ m text e, Accepted fiveP m ∧ modelText fiveJ m = some text ∧
    loadModel fiveP.toLib fiveJ text = .err e := by
  obtain ⟨m, h1, h2⟩ := accepted_of fiveP hugeSource unloadableB (by decide +kernel) (by decide +kernel)
  unfold unloadableB at h2
  split at h2
  · next text ht =>
    split at h2
    · next e he => exact ⟨m, text, e, h1, ht, he⟩
    · cases h2
  · cases h2

/-- C112 refuted for imported models: what is imported from an empty GraphQL document is printed, but refused when loaded. -/
theorem C112_refuted_imported (lib : Lib) (L : JLib) : ∃ m text e,
    GraphQL.gqlImport (fun _ => some "") (fun _ => some []) ["a.graphql"] (.obj []) = .ok m ∧
    modelText L m = some text ∧ loadModel lib L text = .err e := by
  have h : (match GraphQL.gqlImport (fun _ => some "") (fun _ => some []) ["a.graphql"] (.obj []) with
      | .ok _ => true | _ => false) = true := by decide +kernel
  split at h
  · next m hm =>
    have hs : JSchemaOk lib L 1 m.schema := by
      have hm2 := hm
      unfold GraphQL.gqlImport at hm2
      obtain ⟨s, h1, h2⟩ := Out.bind_eq_ok.1 hm2
      obtain ⟨-, -, -, rfl⟩ := (newModel_ok_iff _ _).1 h2
      cases h1
      refine ⟨nil_distinct, ?_, by simp, by simp, by simp⟩
      intro t ht
      simp only [List.mem_cons, List.not_mem_nil, or_false] at ht
      subst ht
      exact ⟨nil_distinct, .mk (by simp [GraphQL.idTypeDef]) (by simp [GraphQL.idTypeDef]) (by simp [GraphQL.idTypeDef])
        (by simp [GraphQL.idTypeDef]) (by simp [GraphQL.idTypeDef]) (by simp [GraphQL.idTypeDef]) (by simp [GraphQL.idTypeDef])
        (by simp [GraphQL.idTypeDef]) (by simp [GraphQL.idTypeDef])⟩
    obtain ⟨text, h1, h2⟩ := C112_unversioned lib L 1 (by decide) m hs (imported_graphql hm)
    exact ⟨m, text, _, hm, h1, h2⟩
  · cases h

end Sadl.Props
