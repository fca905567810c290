import Verif.Lemmas.GraphQLImport
import Verif.Props.Golang
/-
C71, C72, C73, C74: whole GraphQL documents, exported and imported.
-/
namespace Sadl.Props
open Sadl.Spec GraphQL

/-- A source `type Foo …`. -/
def gqlTypeFoo (rest : List Token) : List Token := [sym "type", sym "Foo"] ++ rest ++ [nl]

/-- No settings. -/
def noConf : Value := .obj []

/-! ### C71 -/

/-- The kinds of types that the exporter can write or leave out. -/
def gqlKinds : List String :=
  ["Enum", "Struct", "Union", "String", "Bool", "Int8", "Int16", "Int32", "Int64", "Float32", "Float64", "Decimal", "Array"]

/-- C71: a model is exported to GraphQL exactly when each of its types is a struct, an
enumeration, a union, an array, a string, a boolean or a number. -/
theorem C71_exports_iff (order : List String → List String) (m : Model) (conf : Value) :
    (∃ t, exportText order m conf = .ok t) ↔ ∀ td ∈ m.schema.types, td.ts.type ∈ gqlKinds := by
  have h1 : ∀ td, (∃ t, emitTypeDef m (customOf conf) td = .ok t) ↔ td.ts.type ∈ gqlKinds := by
    intro td
    have hsub : ∀ x ∈ ["String", "Bool", "Int8", "Int16", "Int32", "Int64", "Float32", "Float64", "Decimal"], x ∈ gqlKinds := by
      decide
    unfold emitTypeDef
    split
    · rename_i e; rw [e]; simp [gqlKinds]
    · split
      · rename_i e; rw [e]; simp [gqlKinds]
      · split
        · rename_i e; rw [e]; simp [gqlKinds]
        · split
          · rename_i e; simp [hsub _ e]
          · split
            · rename_i e; rw [e]; simp [gqlKinds]
            · simp_all [gqlKinds]
  have h2 : (∃ t, exportText order m conf = .ok t) ↔ ∃ t, emitTypeDefs m (customOf conf) m.schema.types = .ok t := by
    unfold exportText fromSadl
    simp only
    cases emitTypeDefs m (customOf conf) m.schema.types <;> simp [Out.bind]
  rw [h2, emitTypeDefs_ok]
  exact forall_congr' fun td => imp_congr_right fun _ => h1 td

/-- C71: and otherwise it panics; there are no errors. -/
theorem C71_no_errors (order : List String → List String) (m : Model) (conf : Value) (e : String) :
    exportText order m conf ≠ .err e := by
  unfold exportText
  split <;> simp_all

/-- C71 is false: `type Foo Timestamp` is accepted, and cannot be exported. -/
theorem C71_refuted : ∃ m, Accepted noLib m ∧ ∀ order conf, ∃ e, exportText order m conf = .panic e := by
  obtain ⟨m, h1, h2⟩ := accepted_of noLib (gqlTypeFoo [sym "Timestamp"])
    (fun m => m.schema.types.any fun td => td.ts.type == "Timestamp") (by decide +kernel) (by decide +kernel)
  refine ⟨m, h1, fun order conf => ?_⟩
  obtain ⟨td, htd, ht⟩ := List.any_eq_true.1 h2
  cases he : exportText order m conf with
  | ok t =>
    have := (C71_exports_iff order m conf).1 ⟨t, he⟩ td htd
    rw [beq_iff_eq.1 ht] at this
    exact absurd this (by decide)
  | err e => exact absurd he (C71_no_errors order m conf e)
  | panic e => exact ⟨e, rfl⟩

/-! ### C72 -/

/-- C72 (part): if nothing in the schema breaks the text, what is exported is a GraphQL document,
and this document is valid exactly when the schema can be said in GraphQL.  The order in which
scalars are declared does not matter. -/
theorem C72_valid_partial (s : Schema) (m : Model) (h : newModel s = .ok m) (conf : Value)
    (hw : GqlWritable s (customOf conf)) (order : List String → List String) (ho : ∀ l, (order l).Perm l)
    (t : String) (ht : exportText order m conf = .ok t) :
    ∃ doc, gqlRead t = some doc ∧ (GqlValid doc ↔ GqlSayable s (customOf conf)) := by
  have hm : m.schema = s := by
    obtain ⟨_, _, _, hm⟩ := (newModel_ok_iff s m).1 h
    rw [hm]
  have ht' : fromSadl order m conf = .ok t := by
    unfold exportText at ht
    split at ht
    · cases ht
    · exact ht
  refine ⟨_, gqlRead_fromSadl order m conf (fun td htd => typeFit_of h _ hw td (hm ▸ htd)) (scalars_fit h _ hw order ho) t ht',
    valid_iff h _ order ho ?_ ?_ ?_⟩
  · exact fun td htd ht => (hw.fields td htd ht).1
  · exact fun td htd ht => (hw.elements td htd ht).1
  · exact fun td htd ht => (hw.variants td htd ht).1

/-- The text exported from an accepted source, without settings, is the given one. -/
theorem gqlExports_of (toks : List Token) (t : String)
    (h1 : toks.all (fun t => decide (t.type = .symbol → t.text ≠ "")) = true)
    (h2 : accepts noLib toks (fun m => exportText id m noConf == .ok t) = true) :
    ∃ m, Accepted noLib m ∧ exportText id m noConf = .ok t := by
  obtain ⟨m, h3, h4⟩ := accepted_of noLib toks _ h1 h2
  exact ⟨m, h3, by simpa using h4⟩

/-- C72 is false: the items of an array are written as they are, `[Int32!]`. -/
theorem C72_refuted_array : ∃ m, Accepted noLib m ∧ ∃ t, exportText id m noConf = .ok t ∧
    ∀ doc, gqlRead t = some doc → ¬ GqlValid doc := by
  obtain ⟨m, h1, h2⟩ := gqlExports_of
    (gqlTypeFoo [sym "Struct", punct .openBrace, nl, sym "xs", sym "Array", punct .openAngle, sym "Int32", punct .closeAngle, nl,
      punct .closeBrace])
    "type Foo {\n  xs: [Int32!]\n}\n\n" (by decide +kernel) (by decide +kernel)
  refine ⟨m, h1, _, h2, fun doc hd hv => ?_⟩
  have : gqlRead "type Foo {\n  xs: [Int32!]\n}\n\n" =
      some [.object "Foo" none [{ name := "xs", type := .list (.nonNull (.named "Int32")) }]] := by decide +kernel
  rw [this] at hd
  cases hd
  have := (hv.fields _ _ _ (List.mem_cons_self ..)).2.2 _ (List.mem_cons_self ..)
  exact absurd this (by decide)

/-- C72 is false: a union of strings is written as one, though only object types may be members. -/
theorem C72_refuted_union : ∃ m, Accepted noLib m ∧ ∃ t, exportText id m noConf = .ok t ∧
    ∀ doc, gqlRead t = some doc → ¬ GqlValid doc := by
  obtain ⟨m, h1, h2⟩ := gqlExports_of
    (gqlTypeFoo [sym "Union", punct .openAngle, sym "String", punct .closeAngle])
    "union Foo =\n    String\n\n" (by decide +kernel) (by decide +kernel)
  refine ⟨m, h1, _, h2, fun doc hd hv => ?_⟩
  have : gqlRead "union Foo =\n    String\n\n" = some [.union "Foo" none ["String"]] := by decide +kernel
  rw [this] at hd
  cases hd
  obtain ⟨d, fs, hm⟩ := (hv.members _ _ _ (List.mem_cons_self ..)).2.2 _ (List.mem_cons_self ..)
  simp at hm

/-- C72 is false: an empty struct is written with empty braces, which is not GraphQL. -/
theorem C72_refuted_empty : ∃ m, Accepted noLib m ∧ ∃ t, exportText id m noConf = .ok t ∧ gqlRead t = none := by
  obtain ⟨m, h1, h2⟩ := gqlExports_of
    (gqlTypeFoo [sym "Struct", punct .openBrace, nl, punct .closeBrace])
    "type Foo {\n}\n\n" (by decide +kernel) (by decide +kernel)
  exact ⟨m, h1, _, h2, by decide +kernel⟩

/-- C72 is false: a type called `ID` redefines a scalar of GraphQL. -/
theorem C72_refuted_name : ∃ m, Accepted noLib m ∧ ∃ t, exportText id m noConf = .ok t ∧
    ∀ doc, gqlRead t = some doc → ¬ GqlValid doc := by
  obtain ⟨m, h1, h2⟩ := gqlExports_of
    [sym "type", sym "ID", sym "Enum", punct .openBrace, nl, sym "A", nl, punct .closeBrace, nl]
    "enum ID {\n  A\n}\n\n" (by decide +kernel) (by decide +kernel)
  refine ⟨m, h1, _, h2, fun doc hd hv => ?_⟩
  have : gqlRead "enum ID {\n  A\n}\n\n" = some [.enum "ID" none [{ name := "A" }]] := by decide +kernel
  rw [this] at hd
  cases hd
  exact absurd hv.distinct (by decide)

/-! ### C73 -/

/-- C73: an import succeeds exactly when there is one file, it can be read and is a GraphQL
document, whose definitions are known to the importer and have new names, and whose object types
(apart from the roots) have no nested lists. -/
theorem C73_imports_iff (readFile : String → Option String) (parse : String → Option (List GDef))
    (paths : List String) (conf : Value) :
    (∃ m, gqlImport readFile parse paths conf = .ok m) ↔
      ∃ path src doc, paths = [path] ∧ readFile path = some src ∧ parse src = some doc ∧ GqlImportable doc ∧
        ∀ n d fs, GDef.object n d fs ∈ gqlKept [] doc → ∀ f ∈ fs, Showable f.type := by
  have hnew : ∀ doc tds, gqlDefs [] doc = .ok tds → ∀ name ns,
      ((∃ m, newModel { name := name, «namespace» := ns, types := idTypeDef :: tds } = .ok m) ↔
        ((gqlKept [] doc).filterMap GDefName).Nodup ∧
          ∀ n ∈ (gqlKept [] doc).filterMap GDefName, n ≠ "ID" ∧ n ∉ BaseTypes) := by
    intro doc tds h name ns
    have hsn := shows_names (gqlDefs_shows doc [] tds h)
    rw [← hsn]
    constructor
    · rintro ⟨m, hm⟩
      obtain ⟨h1, h2, _, _⟩ := (newModel_ok_iff _ _).1 hm
      simp only [List.map_cons, List.nodup_cons] at h1
      refine ⟨h1.2, fun n hn => ⟨fun e => h1.1 (by rw [e] at hn; exact hn), ?_⟩⟩
      obtain ⟨td, htd, rfl⟩ := List.mem_map.1 hn
      exact h2 td (by simp [htd])
    · rintro ⟨h1, h2⟩
      refine ⟨_, (newModel_ok_iff _ _).2 ⟨?_, ?_, by simp, rfl⟩⟩
      · simp only [List.map_cons, List.nodup_cons]
        exact ⟨fun hm => (h2 _ hm).1 rfl, h1⟩
      · intro td htd
        rcases List.mem_cons.1 htd with e | e
        · subst e; decide
        · exact (h2 _ (List.mem_map_of_mem e)).2
  constructor
  · rintro ⟨m, hm⟩
    unfold gqlImport at hm
    split at hm
    · rename_i path
      split at hm
      · cases hm
      · rename_i src hsrc
        split at hm
        · cases hm
        · rename_i doc hdoc
          unfold gqlSchema at hm
          simp only at hm
          cases hd : gqlDefs [] doc with
          | err e => rw [hd] at hm; cases hm
          | panic e => rw [hd] at hm; cases hm
          | ok tds =>
            rw [hd] at hm
            obtain ⟨h1, h2⟩ := (hnew doc tds hd _ _).1 ⟨m, hm⟩
            obtain ⟨h3, h4⟩ := gqlDefs_known doc [] tds hd
            exact ⟨path, src, doc, rfl, hsrc, hdoc, ⟨h3, h4, h1, h2⟩,
              fun n d fs hm f hf => (passes_iff _).1 (gqlDefs_passes doc [] tds hd n d fs hm f hf)⟩
    · cases hm
  · rintro ⟨path, src, doc, rfl, h1, h2, h3, h4⟩
    obtain ⟨tds, hd⟩ := gqlDefs_ok doc h3.known h3.scalars []
      (fun n d fs hm f hf => (passes_iff _).2 (h4 n d fs hm f hf))
    obtain ⟨m, hm⟩ := (hnew doc tds hd
      (if dataGetString conf ["name"] = "" then "generatedFromGraphQL" else dataGetString conf ["name"])
      (dataGetString conf ["namespace"])).2 ⟨h3.names, h3.fresh⟩
    refine ⟨m, ?_⟩
    unfold gqlImport
    simp only [h1, h2, gqlSchema, hd, Out.bind]
    exact hm

/-- C73: what is imported is the type `ID` and, in the same order, one type for each enumeration,
union and object type of the document: with the same name and the same fields, elements and
variants, fields being required where they may not be null, and with the descriptions as comments; the name and the namespace are those of
the configuration, or `generatedFromGraphQL`. -/
theorem C73_shows (readFile : String → Option String) (parse : String → Option (List GDef)) (path src : String)
    (doc : List GDef) (conf : Value) (h1 : readFile path = some src) (h2 : parse src = some doc) (m : Model)
    (h : gqlImport readFile parse [path] conf = .ok m) :
    ∃ tds, m.schema.types = idTypeDef :: tds ∧ List.Forall₂ DefShows (gqlKept [] doc) tds ∧
      m.schema.http = [] ∧ m.schema.operations = [] ∧ m.schema.examples = [] ∧
      (dataGetString conf ["name"] ≠ "" → m.schema.name = dataGetString conf ["name"]) ∧
      (dataGetString conf ["name"] = "" → m.schema.name = "generatedFromGraphQL") ∧
      m.schema.namespace = dataGetString conf ["namespace"] := by
  unfold gqlImport at h
  simp only [h1, h2, gqlSchema] at h
  cases hd : gqlDefs [] doc with
  | err e => rw [hd] at h; cases h
  | panic e => rw [hd] at h; cases h
  | ok tds =>
    rw [hd] at h
    obtain ⟨_, _, _, hm⟩ := (newModel_ok_iff _ _).1 h
    refine ⟨tds, ?_, gqlDefs_shows doc [] tds hd, ?_, ?_, ?_, ?_, ?_, ?_⟩ <;> rw [hm]
    · intro hn; exact if_neg hn
    · intro hn; exact if_pos hn

/-- C73: an import does not panic if no list is nested. -/
theorem C73_no_panic (readFile : String → Option String) (parse : String → Option (List GDef)) (paths : List String)
    (conf : Value)
    (h : ∀ path src doc, paths = [path] → readFile path = some src → parse src = some doc →
      ∀ n d fs, GDef.object n d fs ∈ doc → ∀ f ∈ fs, OneLevel f.type) (e : String) :
    gqlImport readFile parse paths conf ≠ .panic e := by
  have hsub : ∀ (doc : List GDef) roots d, d ∈ gqlKept roots doc → d ∈ doc := by
    intro doc
    induction doc with
    | nil => intro roots d h; cases h
    | cons x doc ih =>
      intro roots d hd
      cases x <;> simp only [gqlKept] at hd
      case object n d' fs =>
        split at hd
        · exact List.mem_cons_of_mem _ (ih _ _ hd)
        · rcases List.mem_cons.1 hd with e | e
          · exact e ▸ List.mem_cons_self ..
          · exact List.mem_cons_of_mem _ (ih _ _ e)
      case enum n d' fs =>
        rcases List.mem_cons.1 hd with e | e
        · exact e ▸ List.mem_cons_self ..
        · exact List.mem_cons_of_mem _ (ih _ _ e)
      case union n d' fs =>
        rcases List.mem_cons.1 hd with e | e
        · exact e ▸ List.mem_cons_self ..
        · exact List.mem_cons_of_mem _ (ih _ _ e)
      all_goals exact List.mem_cons_of_mem _ (ih _ _ hd)
  intro hp
  unfold gqlImport at hp
  split at hp
  · rename_i path
    split at hp
    · cases hp
    · rename_i src hsrc
      split at hp
      · cases hp
      · rename_i doc hdoc
        unfold gqlSchema at hp
        simp only at hp
        cases hd : gqlDefs [] doc with
        | err e => rw [hd] at hp; cases hp
        | panic e =>
          exact gqlDefs_no_panic doc [] (fun n d fs hm f hf =>
            (passes_iff _).2 (.inl (h path src doc rfl hsrc hdoc n d fs (hsub _ _ _ hm) f hf))) e hd
        | ok tds =>
          rw [hd] at hp
          exact newModel_no_panic _ _ hp
  · cases hp

/-- A document, and what is imported from it. -/
example : gqlRead "type Pet {\n  # the name\n  name: String!\n  tags: [Tag!]\n}\nenum Tag { a, b }\nunion Any = Pet | Cat scalar UUID" =
    some [.object "Pet" none [{ name := "name", type := .nonNull (.named "String") },
        { name := "tags", type := .list (.nonNull (.named "Tag")) }],
      .enum "Tag" none [{ name := "a" }, { name := "b" }], .union "Any" none ["Pet", "Cat"], .scalar "UUID"] := by
  decide +kernel

example : ∃ m, gqlImport (fun _ => some "type Pet { name: String! tags: [Tag!] } enum Tag { a, b } scalar UUID") gqlRead ["pet.graphql"]
    noConf = .ok m :=
  (C73_imports_iff _ _ _ _).2 ⟨_, _,
    [.object "Pet" none [{ name := "name", type := .nonNull (.named "String") },
        { name := "tags", type := .list (.nonNull (.named "Tag")) }],
      .enum "Tag" none [{ name := "a" }, { name := "b" }], .scalar "UUID"], rfl, rfl, by decide +kernel,
    ⟨by simp, by simp, by decide, by decide⟩, by
      intro n d fs hm f hf
      simp only [gqlKept, List.not_mem_nil, if_false, List.mem_cons, GDef.object.injEq, or_false, reduceCtorEq] at hm
      obtain ⟨_, _, rfl⟩ := hm
      simp only [List.mem_cons, List.not_mem_nil, or_false] at hf
      rcases hf with rfl | rfl
      · exact .inl .nonNull
      · exact .inl .listNonNull⟩

/-- A list of lists is too much. -/
theorem C73_nested_list : gqlImport (fun _ => some "type T { x: [[Int]] }") gqlRead ["t.graphql"] noConf =
    .panic "list type not supported" := by
  have : gqlRead "type T { x: [[Int]] }" = some [.object "T" none [{ name := "x", type := .list (.list (.named "Int")) }]] := by
    decide +kernel
  unfold gqlImport
  simp only [this]
  rfl

/-! ### C74 -/

/-- C74 (part): exported and imported again, a schema comes back as it was, but for comments,
annotations and the additional type `ID`, exactly when its types are plain structs, enumerations
and unions whose fields have types that survive. -/
theorem C74_comes_back_partial (s : Schema) (m : Model) (h : newModel s = .ok m) (conf conf' : Value)
    (hw : GqlWritable s (customOf conf)) (order : List String → List String) (ho : ∀ l, (order l).Perm l)
    (t : String) (ht : exportText order m conf = .ok t) (path : String) :
    (∃ m', gqlImport (fun _ => some t) gqlRead [path] conf' = .ok m' ∧
        m'.schema.types = idTypeDef :: s.types.map plainType) ↔ GqlKeeps s (customOf conf) := by
  obtain ⟨hnd, hb, _, hm⟩ := (newModel_ok_iff s m).1 h
  have hs : m.schema = s := by rw [hm]
  have ht' : fromSadl order m conf = .ok t := by
    unfold exportText at ht
    split at ht
    · cases ht
    · exact ht
  have hread := gqlRead_fromSadl order m conf (fun td htd => typeFit_of h _ hw td (hs ▸ htd)) (scalars_fit h _ hw order ho) t ht'
  have hsc : (∀ n ∈ order (usedScalars m (customOf conf)), n = "Timestamp" ∨ n = "UUID") ↔
      ∀ n, CustomScalar s (customOf conf) n → n = "Timestamp" ∨ n = "UUID" :=
    forall_congr' fun n => by rw [(ho _).mem_iff, usedScalars_iff h]
  have hplain : (s.types.map plainType).map TypeDef.name = s.types.map TypeDef.name := by
    rw [List.map_map]; rfl
  constructor
  · rintro ⟨m', h1, h2⟩
    unfold gqlImport at h1
    simp only [hread, gqlSchema] at h1
    cases hd : gqlDefs [] (docOf m (customOf conf) (order (usedScalars m (customOf conf)))) with
    | err e => rw [hd] at h1; cases h1
    | panic e => rw [hd] at h1; cases h1
    | ok tds =>
      have hk := (gqlDefs_known _ _ _ hd).2
      have hacc : ∀ n ∈ order (usedScalars m (customOf conf)), n = "Timestamp" ∨ n = "UUID" := by
        intro n hn
        refine hk n ?_
        unfold docOf
        exact List.mem_append_right _ (List.mem_map_of_mem hn)
      have hback := gqlDefs_back m (customOf conf) _ hacc m.schema.types
      unfold docOf at hd
      rw [hd] at hback
      cases hback
      unfold docOf at h1
      rw [hd] at h1
      simp only [Out.bind] at h1
      obtain ⟨h3, _, _, hm'⟩ := (newModel_ok_iff _ _).1 h1
      rw [hm'] at h2
      simp only [List.cons.injEq, true_and] at h2
      rw [hs] at h2
      have hall := (filterMap_eq_map _ _ _).1 h2
      refine ⟨?_, hsc.1 hacc, (backDef_iff h _ (hsc.1 hacc)).1 hall⟩
      intro td htd e
      rw [hs, h2] at h3
      simp only [List.map_cons, hplain, List.nodup_cons] at h3
      have := List.mem_map_of_mem (f := TypeDef.name) htd
      rw [e] at this
      exact h3.1 this
  · intro hk
    have hacc := hsc.2 hk.scalars
    have hback := gqlDefs_back m (customOf conf) _ hacc m.schema.types
    have hall := (filterMap_eq_map _ _ _).2 ((backDef_iff h _ hk.scalars).2 hk.types)
    rw [hs, hall] at hback
    obtain ⟨m', hm'⟩ : ∃ m', newModel
        { name := if dataGetString conf' ["name"] = "" then "generatedFromGraphQL" else dataGetString conf' ["name"]
          «namespace» := dataGetString conf' ["namespace"], types := idTypeDef :: s.types.map plainType } = .ok m' := by
      refine ⟨_, (newModel_ok_iff _ _).2 ⟨?_, ?_, by simp, rfl⟩⟩
      · simp only [List.map_cons, hplain, List.nodup_cons]
        refine ⟨fun hm => ?_, hnd⟩
        obtain ⟨td, htd, e⟩ := List.mem_map.1 hm
        exact hk.noId td htd e
      · intro td htd
        rcases List.mem_cons.1 htd with e | e
        · subst e; decide
        · obtain ⟨td', htd', rfl⟩ := List.mem_map.1 e
          exact hb td' htd'
    refine ⟨m', ?_, ?_⟩
    · unfold gqlImport
      simp only [hread, gqlSchema, docOf, hs, hback, Out.bind]
      exact hm'
    · obtain ⟨_, _, _, e⟩ := (newModel_ok_iff _ _).1 hm'
      rw [e]

/-- A schema with a struct, an enumeration, a union and a `UUID`. -/
def petSchema : Schema :=
  { types := [
      { name := "Pet", ts := { type := "Struct", fields := [
          { name := "id", required := true, ts := { type := "UUID" } },
          { name := "name", required := true, comment := "the name", ts := { type := "String" } },
          { name := "age", ts := { type := "Int32" } },
          { name := "tags", ts := { type := "Array", items := "Tag" } }] } },
      { name := "Tag", ts := { type := "Enum", elements := [{ symbol := "small" }, { symbol := "big" }] } },
      { name := "Animal", ts := { type := "Union", variants := [{ name := "Pet", ts := { type := "Pet" } }] } }] }

/-- The settings that keep a `UUID`. -/
def uuidConf : Value := .obj [("custom-scalars", .obj [("UUID", .str "UUID")])]

/-- A name in GraphQL, to be computed. -/
def isGName (n : String) : Bool :=
  match n.toList with
  | [] => false
  | c :: r => gNameStart c && r.all gNameCont

theorem isGName_of {n : String} (h : isGName n = true) : IsGName n := by
  unfold isGName at h
  cases hn : n.toList with
  | nil => rw [hn] at h; cases h
  | cons c r =>
    rw [hn] at h
    simp only [Bool.and_eq_true, List.all_eq_true] at h
    exact ⟨c, r, hn, h.1, h.2⟩

theorem uuidConf_custom : customOf uuidConf "UUID" = "UUID" ∧ customOf uuidConf "Timestamp" = "" ∧
    customOf uuidConf "Int64" = "" ∧ customOf uuidConf "Decimal" = "" := by decide +kernel

theorem petSchema_writable : GqlWritable petSchema (customOf uuidConf) := by
  obtain ⟨h1, h2, h3, h4⟩ := uuidConf_custom
  refine ⟨?_, ?_, ?_, ?_, ?_, ?_⟩
  · simp only [petSchema, List.forall_mem_cons]
    exact ⟨isGName_of (by decide), isGName_of (by decide), isGName_of (by decide), by simp⟩
  · simp only [petSchema, List.forall_mem_cons]
    refine ⟨fun _ => ⟨by simp, ?_, ?_, ?_, ?_, by simp⟩, by simp, by simp, by simp⟩ <;>
      exact ⟨isGName_of (by decide), by decide, isGName_of (by decide), fun h => isGName_of (by first | decide | simp at h)⟩
  · simp [petSchema]
  · simp only [petSchema, List.forall_mem_cons]
    exact ⟨by simp, fun _ => ⟨by simp, isGName_of (by decide), isGName_of (by decide), by simp⟩, by simp, by simp⟩
  · simp only [petSchema, List.forall_mem_cons]
    exact ⟨by simp, by simp, fun _ => ⟨by simp, isGName_of (by decide), by simp⟩, by simp⟩
  · simp only [List.forall_mem_cons, h1, h2, h3, h4]
    exact ⟨.inr (isGName_of (by decide)), by simp, by simp, by simp, by simp⟩

theorem petSchema_keeps : GqlKeeps petSchema (customOf uuidConf) := by
  obtain ⟨h1, h2, h3, h4⟩ := uuidConf_custom
  refine ⟨by simp [petSchema], ?_, ?_⟩
  · rintro n ⟨hne, _, _, _, _, _, b, hb, e, _⟩
    simp only [List.mem_cons, List.not_mem_nil, or_false] at hb
    rcases hb with rfl | rfl | rfl | rfl
    · exact .inr (e ▸ h1)
    · exact absurd (e ▸ h2) hne
    · exact absurd (e ▸ h3) hne
    · exact absurd (e ▸ h4) hne
  · simp only [petSchema, List.forall_mem_cons]
    refine ⟨.inr (.inl ⟨trivial, ?_, ?_, ?_, ?_, by simp⟩), .inl trivial, .inr (.inr ⟨trivial, by simp⟩), by simp⟩
    · exact ⟨rfl, .inl ⟨"UUID", rfl, by decide, fun _ => h1⟩⟩
    · exact ⟨rfl, .inl ⟨"String", rfl, by decide, by simp⟩⟩
    · exact ⟨rfl, .inl ⟨"Int32", rfl, by decide, by simp⟩⟩
    · exact ⟨rfl, .inr ⟨"Tag", rfl, by decide⟩⟩

theorem petSchema_sayable : GqlSayable petSchema (customOf uuidConf) := by
  have hk := petSchema_keeps
  have hem : ∀ n, Emitted petSchema n → n ∈ ["Pet", "Tag", "Animal"] := by
    rintro n ⟨td, htd, rfl, _⟩
    simp only [petSchema, List.mem_cons, List.not_mem_nil, or_false] at htd
    rcases htd with rfl | rfl | rfl <;> simp
  refine ⟨?_, ?_, ?_, ?_, ?_⟩
  · intro n hn
    have : ∀ n ∈ ["Pet", "Tag", "Animal"], n ∉ gqlBuiltin := by decide
    exact this n (hem n hn)
  · intro n hn
    rcases hk.scalars n hn with rfl | rfl
    · exact ⟨by decide, fun he => absurd (hem _ he) (by decide)⟩
    · exact ⟨by decide, fun he => absurd (hem _ he) (by decide)⟩
  · simp only [petSchema, List.forall_mem_cons]
    refine ⟨fun _ => ⟨by simp, .inl (by simp [gqlScalarTypes]), .inl (by simp [gqlScalarTypes]), .inl (by simp [gqlScalarTypes]),
      .inr (.inr (.inl ⟨rfl, .inr (.inl ⟨_, List.mem_cons_of_mem _ (List.mem_cons_self ..), rfl, by simp⟩)⟩)), by simp⟩,
      by simp, by simp, by simp⟩
  · simp [petSchema]
  · simp only [petSchema, List.forall_mem_cons]
    exact ⟨by simp, by simp, fun _ => ⟨by simp, ⟨_, List.mem_cons_self .., rfl, rfl⟩, by simp⟩, by simp⟩

/-- The pet schema is exported as a valid document, and comes back. -/
example : ∃ m t, newModel petSchema = .ok m ∧ exportText id m uuidConf = .ok t ∧
    (∃ doc, gqlRead t = some doc ∧ GqlValid doc) ∧
    ∃ m', gqlImport (fun _ => some t) gqlRead ["pet.graphql"] noConf = .ok m' ∧
      m'.schema.types = idTypeDef :: petSchema.types.map plainType := by
  obtain ⟨m, hm⟩ : ∃ m, newModel petSchema = .ok m :=
    ⟨_, (newModel_ok_iff _ _).2 ⟨by simp [petSchema], by simp [petSchema, BaseTypes], by simp [petSchema], rfl⟩⟩
  have hs : m.schema = petSchema := by
    obtain ⟨_, _, _, e⟩ := (newModel_ok_iff _ _).1 hm
    rw [e]
  obtain ⟨t, ht⟩ := (C71_exports_iff id m uuidConf).2 (by rw [hs]; simp [petSchema, gqlKinds])
  obtain ⟨doc, h1, h2⟩ := C72_valid_partial petSchema m hm uuidConf petSchema_writable id (fun l => .refl l) t ht
  exact ⟨m, t, hm, ht, ⟨doc, h1, h2.2 petSchema_sayable⟩,
    (C74_comes_back_partial petSchema m hm uuidConf noConf petSchema_writable id (fun l => .refl l) t ht _).2 petSchema_keeps⟩

/-- C74 is false: an `Int64` comes back as a `Float64`, so that `Foo`, which is accepted and
exported as a valid document, is not the same afterwards. -/
theorem C74_refuted : ∃ m, Accepted noLib m ∧ ∃ t, exportText id m noConf = .ok t ∧
    ∃ m', gqlImport (fun _ => some t) gqlRead ["foo.graphql"] noConf = .ok m' ∧
      m'.schema.types ≠ idTypeDef :: m.schema.types.map plainType := by
  obtain ⟨m, h1, h2⟩ := accepted_of noLib
    (gqlTypeFoo [sym "Struct", punct .openBrace, nl, sym "x", sym "Int64", nl, punct .closeBrace])
    (fun m => exportText id m noConf == .ok "type Foo {\n  x: Float\n}\n\n" &&
      m.schema.types.any fun td => td.ts.fields.any fun f => f.ts.type == "Int64") (by decide +kernel) (by decide +kernel)
  simp only [Bool.and_eq_true, beq_iff_eq] at h2
  refine ⟨m, h1, _, h2.1, ?_⟩
  have hr : gqlRead "type Foo {\n  x: Float\n}\n\n" = some [.object "Foo" none [{ name := "x", type := .named "Float" }]] := by
    decide +kernel
  obtain ⟨m', hm'⟩ := (C73_imports_iff (fun _ => some "type Foo {\n  x: Float\n}\n\n") gqlRead ["foo.graphql"] noConf).2
    ⟨_, _, _, rfl, rfl, hr, ⟨by simp, by simp, by decide, by decide⟩, by
      intro n d fs hm f hf
      simp only [gqlKept, List.not_mem_nil, if_false, List.mem_cons, GDef.object.injEq, or_false] at hm
      obtain ⟨_, _, rfl⟩ := hm
      simp only [List.mem_cons, List.not_mem_nil, or_false] at hf
      subst hf
      exact .inl .named⟩
  refine ⟨m', hm', fun e => ?_⟩
  obtain ⟨tds, h3, h4, _⟩ := C73_shows _ _ _ _ _ _ rfl hr m' hm'
  rw [e] at h3
  simp only [List.cons.injEq, true_and] at h3
  subst h3
  obtain ⟨td, htd, hf⟩ := List.any_eq_true.1 h2.2
  obtain ⟨f, hf, ht⟩ := List.any_eq_true.1 hf
  simp only [gqlKept, List.not_mem_nil, if_false] at h4
  generalize hl : m.schema.types.map plainType = l at h4
  cases h4 with
  | cons ha hb =>
    rename_i td' l'
    cases hb
    cases ha with
    | object _ _ hfs _ =>
      cases hm : m.schema.types with
      | nil => rw [hm] at htd; cases htd
      | cons x xs =>
        rw [hm] at hl htd
        simp only [List.map_cons, List.cons.injEq, List.map_eq_nil_iff] at hl
        obtain ⟨rfl, rfl⟩ := hl
        simp only [List.mem_cons, List.not_mem_nil, or_false] at htd
        subst htd
        generalize hg : (plainType td).ts.fields = g at hfs
        cases hfs with
        | cons hx hy =>
          cases hy
          have hmem : plainField f ∈ (plainType td).ts.fields := List.mem_map_of_mem hf
          rw [hg] at hmem
          simp only [List.mem_cons, List.not_mem_nil, or_false] at hmem
          have h5 := hx.named "Float" (.inl rfl)
          rw [← hmem] at h5
          have h6 := congrArg TypeSpec.type h5
          rw [show (plainField f).ts.type = f.ts.type from rfl, beq_iff_eq.1 ht] at h6
          exact absurd h6 (by decide)

end Sadl.Props
