import Verif.Lemmas.SwaggerActions
import Verif.Props.OpenApiActions
/-
C79, C80, C81: what the import of a Swagger 2.0 document keeps, and when it crashes.
-/
namespace Sadl.Props
open Sadl Sadl.Spec

/-! ### C79: loading a document -/

/-- C79: A document is rejected with an error exactly when it does not claim version 2.0 of
Swagger. -/
theorem C79_load_error_iff (wild : Int) (v : Value) : (∃ e, toV3 wild v = .err e) ↔ ¬ Text v "swagger" "2.0" := by
  constructor
  · rintro ⟨e, he⟩ hv
    rcases Classical.em (∀ w, Needs v w → Supported w) with h | h
    · obtain ⟨a, ha⟩ := (fine_toV3 wild v hv).1 h
      rw [ha] at he; cases he
    · obtain ⟨a, ha⟩ := (fine_toV3 wild v hv).2 h
      rw [ha] at he; cases he
  · intro hv
    have : getString v "swagger" ≠ "2.0" := fun h => hv (text_of_getString h (by decide))
    exact ⟨"Not valid Swagger file", by simp [toV3, this]⟩

/-- C79: Loading crashes exactly when a document of version 2.0 needs a schema that the import
does not know: one without a type and without a reference, or an array without items. -/
theorem C79_load_crash_iff (wild : Int) (v : Value) :
    (∃ e, toV3 wild v = .panic e) ↔ Text v "swagger" "2.0" ∧ ∃ w, Needs v w ∧ ¬ Supported w := by
  constructor
  · rintro ⟨e, he⟩
    have hv : Text v "swagger" "2.0" := by
      by_contra hv
      obtain ⟨e', he'⟩ := (C79_load_error_iff wild v).2 hv
      rw [he'] at he; cases he
    refine ⟨hv, ?_⟩
    by_contra hn
    push Not at hn
    obtain ⟨a, ha⟩ := (fine_toV3 wild v hv).1 hn
    rw [ha] at he; cases he
  · rintro ⟨hv, w, hw, hs⟩
    exact (fine_toV3 wild v hv).2 fun h => hs (h w hw)

/-- C79: Else it loads. -/
theorem C79_load_ok_iff (wild : Int) (v : Value) :
    (∃ d, toV3 wild v = .ok d) ↔ Text v "swagger" "2.0" ∧ ∀ w, Needs v w → Supported w := by
  constructor
  · rintro ⟨d, hd⟩
    refine ⟨?_, ?_⟩
    · by_contra hv
      obtain ⟨e', he'⟩ := (C79_load_error_iff wild v).2 hv
      rw [he'] at hd; cases hd
    · intro w hw
      by_contra hs
      have hv : Text v "swagger" "2.0" := by
        by_contra hv
        obtain ⟨e', he'⟩ := (C79_load_error_iff wild v).2 hv
        rw [he'] at hd; cases hd
      obtain ⟨e, he⟩ := (fine_toV3 wild v hv).2 fun h => hs (h w hw)
      rw [he] at hd; cases hd
  · rintro ⟨hv, h⟩
    exact (fine_toV3 wild v hv).1 h

/-- An object with the members. -/
private abbrev o (kvs : List (String × Value)) : Value := .obj kvs

/-- A document with one definition. -/
def defDoc (w : Value) : Value := o [("swagger", .str "2.0"), ("definitions", o [("T", w)])]

/-- A document with one operation. -/
def opDoc (method : String) (op : List (String × Value)) : Value :=
  o [("swagger", .str "2.0"), ("paths", o [("/x", o [(method, o op)])])]

/-- The result is a crash. -/
def crashB {α : Type} : Out α → Bool
  | .panic _ => true
  | _ => false

theorem crashes_of {α : Type} {x : Out α} (h : crashB x = true) : ∃ e, x = .panic e := by
  cases x <;> simp [crashB] at h; exact ⟨_, rfl⟩

/-- C79: So "loading never crashes" is false: a composition of schemas (`allOf`) has no type. -/
theorem C79_refuted_all_of : ∃ e, toV3 0 (defDoc (o [("allOf", .arr [o [("$ref", .str "#/definitions/U")]])])) = .panic e :=
  crashes_of (by decide +kernel)

/-- C79: An array without items crashes. -/
theorem C79_refuted_array : ∃ e, toV3 0 (defDoc (o [("type", .str "array")])) = .panic e := crashes_of (by decide +kernel)

/-- C79: A reference to a shared parameter crashes. -/
theorem C79_refuted_shared_parameter : ∃ e, toV3 0 (opDoc "get" [("parameters", .arr [o [("$ref", .str "#/parameters/p")]]),
    ("responses", o [])]) = .panic e := crashes_of (by decide +kernel)

/-! ### C80: types -/

/-- C80 (part): Every definition, other than the ones with names that SADL has itself, becomes a
type with its name, in the same order, and there are no other types.  A definition whose schema
means a type becomes that type, with its description as the comment; one that refers to another
becomes the type of the other.
Missing: the schemas without a meaning in `Means`, for which the property is false, see below. -/
theorem C80_types_partial {wild : Int} {path : String} {v : Value} {m : Model} (h : importSwagger wild path v = .ok m)
    {ds : List (String × Value)} (hd : Listed v "definitions" ds) :
    List.Forall₂ (TypeFor ds) (ds.filter fun kv => KeptDefinition kv) m.schema.types := by
  obtain ⟨d, h1, h2⟩ := Out.bind_eq_ok.1 h
  obtain ⟨h3, -⟩ := toV3_read h1
  obtain ⟨⟨exs, h4⟩, -⟩ := toSadl_read h2
  rw [listed_getMap hd] at h3
  have h5 := toV3Definitions_read h3
  exact types_for h5 (filter_kept h5) (importTypes_read h4)

theorem takeWhile_until (c : Char) (l : List Char) : c ∉ l.takeWhile (· ≠ c) ∧
    ((l.dropWhile (· ≠ c) = [] ∧ l = l.takeWhile (· ≠ c)) ∨ ∃ r, l.dropWhile (· ≠ c) = c :: r ∧ l = l.takeWhile (· ≠ c) ++ c :: r) := by
  induction l with
  | nil => simp
  | cons x l ih =>
    by_cases h : x = c
    · subst h; simp
    · obtain ⟨h1, h2⟩ := ih
      have hb : (fun x : Char => decide (x ≠ c)) x = true := by simpa using h
      rw [List.takeWhile_cons_of_pos (p := fun x : Char => decide (x ≠ c)) hb, List.dropWhile_cons_of_pos (p := fun x : Char => decide (x ≠ c)) hb]
      refine ⟨fun hm => (List.mem_cons.1 hm).elim (fun k => h k.symm) h1, ?_⟩
      rcases h2 with ⟨h3, h4⟩ | ⟨r, h3, h4⟩
      · exact .inl ⟨h3, congrArg (x :: ·) h4⟩
      · exact .inr ⟨r, h3, congrArg (x :: ·) h4⟩

theorem afterLast_last (s : List Char) : LastComponent s (afterLast '/' s) := by
  obtain ⟨h1, h2⟩ := takeWhile_until '/' s.reverse
  refine ⟨fun h => h1 (List.mem_reverse.1 h), ?_⟩
  rcases h2 with ⟨_, h⟩ | ⟨r, _, h⟩
  · exact .inl (by simpa [afterLast] using congrArg List.reverse h)
  · exact .inr ⟨r.reverse, by have := congrArg List.reverse h; simpa only [afterLast, List.reverse_reverse, List.reverse_append, List.reverse_cons, List.append_assoc, List.singleton_append] using this⟩

theorem beforeLast_none {s : List Char} (h : beforeLast '.' s = none) : '.' ∉ s := by
  obtain ⟨h1, h2⟩ := takeWhile_until '.' s.reverse
  unfold beforeLast at h
  rcases h2 with ⟨_, h3⟩ | ⟨r, h3, _⟩
  · rw [← h3] at h1; exact fun hm => h1 (List.mem_reverse.2 hm)
  · rw [h3] at h; cases h

theorem beforeLast_some {s n : List Char} (h : beforeLast '.' s = some n) : ∃ ext, s = n ++ '.' :: ext ∧ '.' ∉ ext := by
  obtain ⟨h1, h2⟩ := takeWhile_until '.' s.reverse
  unfold beforeLast at h
  rcases h2 with ⟨h3, _⟩ | ⟨r, h3, h4⟩
  · rw [h3] at h; cases h
  · rw [h3] at h
    injection h with h
    subst h
    refine ⟨_, ?_, fun hm => h1 (List.mem_reverse.1 hm)⟩
    have := congrArg List.reverse h4
    simpa only [List.reverse_reverse, List.reverse_append, List.reverse_cons, List.append_assoc, List.singleton_append] using this

theorem swaggerName_is (path : String) : NameOfFile path (swaggerName path) := by
  have hl := afterLast_last path.toList
  unfold swaggerName
  cases hb : beforeLast '.' (afterLast '/' path.toList) with
  | none =>
    simp only [hb]
    exact .plain hl (beforeLast_none hb)
  | some n =>
    obtain ⟨ext, h1, h2⟩ := beforeLast_some hb
    simp only [hb, List.map_map]
    rw [h1] at hl
    have : (fun c => if c = '-' then '_' else c) ∘ (fun c => if c = '.' then '_' else c) = fun c : Char => if c = '.' ∨ c = '-' then '_' else c := by
      funext c
      by_cases h1 : c = '.'
      · subst h1; decide
      · by_cases h2 : c = '-' <;> simp [h1, h2]
    rw [this]
    exact .extension hl h2

/-- C80: The version is kept; the title is the name if it can be a name; else the name is that of the file, and the title
becomes part of the comment. -/
theorem C80_info {wild : Int} {path : String} {v info : Value} {m : Model} (h : importSwagger wild path v = .ok m) (hi : Member v "info" info) :
    m.schema.version = textAt info "version" ∧
    ((textAt info "title" = "" ∧ NameOfFile path m.schema.name ∧ m.schema.comment = textAt info "description") ∨
     (Identifier (textAt info "title") ∧ m.schema.name = textAt info "title" ∧ m.schema.comment = textAt info "description") ∨
     (textAt info "title" ≠ "" ∧ ¬ Identifier (textAt info "title") ∧ NameOfFile path m.schema.name ∧
       m.schema.comment = textAt info "title" ++ " - " ++ textAt info "description")) := by
  obtain ⟨d, h1, h2⟩ := Out.bind_eq_ok.1 h
  obtain ⟨-, -, h3, h4, h5, -⟩ := toV3_read h1
  obtain ⟨-, -, h6, h7, h8, -⟩ := toSadl_read h2
  rw [((member_iff _ _ _).mp hi).1] at h3 h4 h5
  rw [textAt_eq, textAt_eq, textAt_eq, h8, h3, h6, h7, h4, h5, identifier_iff]
  refine ⟨rfl, ?_⟩
  unfold importTitle
  split
  · exact .inl ⟨by assumption, swaggerName_is path, rfl⟩
  · split
    · exact .inr (.inl ⟨by assumption, rfl, rfl⟩)
    · exact .inr (.inr ⟨by assumption, by assumption, swaggerName_is path, rfl⟩)

/-- C80: The server, made of the host and the base path, and the name and the place of the license are kept as annotations. -/
theorem C80_annotations {wild : Int} {path : String} {v : Value} {m : Model} (h : importSwagger wild path v = .ok m) :
    (∀ host, Member v "host" host → mget m.schema.annotations "x_server" = some ("https://" ++ textAt v "host" ++ textAt v "basePath")) ∧
    (Lacks v "host" → mget m.schema.annotations "x_server" = none) ∧
    ∀ info license, Member v "info" info → Member info "license" license →
      mget m.schema.annotations "x_license_name" = (if textAt license "name" = "" then none else some (textAt license "name")) ∧
      mget m.schema.annotations "x_license_url" = (if textAt license "url" = "" then none else some (textAt license "url")) := by
  obtain ⟨d, h1, h2⟩ := Out.bind_eq_ok.1 h
  obtain ⟨-, -, -, -, -, h3, h4, h5⟩ := toV3_read h1
  obtain ⟨-, -, -, -, -, h6⟩ := toSadl_read h2
  have hserver : mget m.schema.annotations "x_server" = if dataHas v ["host"] then some ("https://" ++ textAt v "host" ++ textAt v "basePath") else none := by
    rw [h6, importAnnotations, h5, h4, toV3Servers, textAt_eq, textAt_eq]
    dsimp only
    split <;> split <;> split <;> simp [mget_mset, mget]
  refine ⟨fun host hh => ?_, fun hl => ?_, fun info license hi hl => ?_⟩
  · rw [hserver, if_pos ((dataHas_iff v "host").2 ⟨host, hh⟩)]
  · rw [hserver, if_neg fun hc => ?_]
    obtain ⟨w, hw⟩ := (dataHas_iff v "host").1 hc
    exact hl w hw
  · rw [h6, importAnnotations, h5, h4, toV3Servers, ((member_iff _ _ _).mp hi).1, ((member_iff _ _ _).mp hl).1, textAt_eq, textAt_eq]
    dsimp only
    constructor
    · by_cases hn : getString license "name" = "" <;> by_cases hu : getString license "url" = "" <;> cases dataHas v ["host"] <;>
        simp [hn, hu, mget_mset, mget]
    · by_cases hn : getString license "name" = "" <;> by_cases hu : getString license "url" = "" <;> cases dataHas v ["host"] <;>
        simp [hn, hu, mget_mset, mget]

/-- Names of files. -/
example : NameOfFile "docs/my-api.v2.json" "my_api_v2" :=
  .extension (stem := "my-api.v2".toList) (ext := "json".toList) ⟨by decide, .inr ⟨"docs".toList, by decide⟩⟩ (by decide)

/-- The import succeeds, and the result has the property. -/
def swaggerB (v : Value) (p : Schema → Bool) : Bool :=
  match importSwagger 0 "api.json" v with
  | .ok m => p m.schema
  | _ => false

/-- The document is imported, to a schema with the property. -/
def SwaggerGives (v : Value) (p : Schema → Bool) : Prop := ∃ m, importSwagger 0 "api.json" v = .ok m ∧ p m.schema = true

theorem swagger_of {v : Value} {p : Schema → Bool} (h : swaggerB v p = true) : SwaggerGives v p := by
  unfold swaggerB at h
  cases hi : importSwagger 0 "api.json" v <;> simp [hi] at h
  exact ⟨_, hi, h⟩

/-- The hypotheses of C80_info and C80_annotations are met. -/
example : SwaggerGives (o [("swagger", .str "2.0"), ("host", .str "example.org"), ("basePath", .str "/v1"), ("info", o [("title", .str "My service"),
      ("version", .str "1.2"), ("license", o [("name", .str "MIT")])])])
    fun s => s.name == "api" && s.comment == "My service - " && s.version == "1.2" &&
      mget s.annotations "x_server" == some "https://example.org/v1" && mget s.annotations "x_license_name" == some "MIT" :=
  swagger_of (by decide +kernel)

/-- C80 is false: the limits of a number are lost, because they are looked up under other names. -/
theorem C80_refuted_limits : SwaggerGives (defDoc (o [("type", .str "integer"), ("minimum", .float64 (.fin 1 0)),
      ("maximum", .float64 (.fin 9 0))]))
    fun s => s.types.any fun td => td.ts.min.isNone && td.ts.max.isNone := swagger_of (by decide +kernel)

/-- C80 is false: a reference to a reference becomes a struct without fields. -/
theorem C80_refuted_chain : SwaggerGives (o [("swagger", .str "2.0"), ("definitions",
      o [("A", o [("$ref", .str "#/definitions/B")]), ("B", o [("$ref", .str "#/definitions/C")]), ("C", o [("type", .str "string")])])])
    fun s => decide ((s.types.map fun td => (td.name, td.ts.type)) = [("A", "Struct"), ("B", "String"), ("C", "String")]) :=
  swagger_of (by decide +kernel)

/-- C80 is false: a definition named `Decimal` is lost, whatever it is. -/
theorem C80_refuted_decimal : SwaggerGives (o [("swagger", .str "2.0"), ("definitions",
      o [("Decimal", o [("type", .str "object"), ("properties", o [("digits", o [("type", .str "string")])])])])])
    fun s => s.types.isEmpty := swagger_of (by decide +kernel)

/-- C80 is false: the constraints on the items of an array are lost. -/
theorem C80_refuted_items : SwaggerGives (defDoc (o [("type", .str "array"),
      ("items", o [("type", .str "string"), ("pattern", .str "a*")])]))
    fun s => s.types.any fun td => td.ts.pattern == "" && td.ts.items == "String" := swagger_of (by decide +kernel)

/-- C80 is false: a map (`additionalProperties`) becomes a struct without fields. -/
theorem C80_refuted_map : SwaggerGives (defDoc (o [("type", .str "object"),
      ("additionalProperties", o [("type", .str "string")])]))
    fun s => s.types.any fun td => td.ts.type == "Struct" && td.ts.fields.isEmpty := swagger_of (by decide +kernel)

/-! ### C81: actions -/

theorem prefix_x (path : String) : hasPrefix path "x-" = false ↔ ¬ ∃ r, path.toList = 'x' :: '-' :: r := by
  rw [← Bool.not_eq_true, hasPrefix, List.isPrefixOf_iff_prefix]
  constructor
  · rintro h ⟨r, hr⟩
    exact h ⟨r, by rw [hr]; rfl⟩
  · rintro h ⟨r, hr⟩
    exact h ⟨r, by rw [← hr]; rfl⟩

/-- C81 (part): Every action of the model stands for an operation of the document. -/
theorem C81_actions_from {wild : Int} {path : String} {v : Value} {m : Model} (h : importSwagger wild path v = .ok m) :
    ∀ a ∈ m.schema.http, ∃ uri item k verb op, Entry v "paths" uri item ∧ (k, verb) ∈ ImportedMethods ∧ Member item k op ∧
      ActionFor v uri verb op a := by
  obtain ⟨d, h1, h2⟩ := Out.bind_eq_ok.1 h
  obtain ⟨-, h3, -⟩ := toV3_read h1
  obtain ⟨-, ⟨exs, h4⟩, -⟩ := toSadl_read h2
  have h5 := toV3Paths_read h3
  intro a ha
  obtain ⟨uri, pi, mk, op, exs', hm, hmk, hop, -, hc⟩ := (importPaths_read h4 a).1 ha
  obtain ⟨i, hi⟩ := List.mem_iff_get.1 hm
  have hget := (List.forall₂_iff_get.1 h5).2 i.val (by rw [h5.length_eq]; exact i.isLt) i.isLt
  have hi' : d.paths.get ⟨i.val, i.isLt⟩ = (uri, pi) := hi
  rw [hi'] at hget
  obtain ⟨hk, hp⟩ := hget
  have hmem := List.get_mem (getMap v "paths") ⟨i.val, by rw [h5.length_eq]; exact i.isLt⟩
  generalize List.get (getMap v "paths") ⟨i.val, by rw [h5.length_eq]; exact i.isLt⟩ = kv at hk hp hmem
  obtain ⟨uri', item⟩ := kv
  simp only at hk hp
  subst hk
  have hsel : ∃ k, (k, mk.1) ∈ ImportedMethods ∧
      (k, mk.2) ∈ [("get", OMethod.get), ("put", .put), ("post", .post), ("delete", .delete), ("head", .head), ("patch", .patch)] := by
    simp only [importMethods, List.mem_cons, List.not_mem_nil, or_false] at hmk
    rcases hmk with rfl | rfl | rfl | rfl | rfl <;> simp [ImportedMethods]
  obtain ⟨k, hk1, hk2⟩ := hsel
  have ho := toV3Path_op hp (k, mk.2) hk2
  simp only [hop] at ho
  refine ⟨uri, item, k, mk.1, dataGet item [k], (getMap_entry _ _ _ _).1 hmem, hk1, ?_, action_read ho hc⟩
  refine (member_iff _ _ _).mpr ⟨rfl, fun hn => ?_⟩
  rw [hn] at ho
  simp [toV3Operation] at ho

/-- C81 (part): Every GET, PUT, POST, DELETE and HEAD operation of the document becomes an action
of the model, unless its path starts with `x-`. -/
theorem C81_actions_partial {wild : Int} {path : String} {v : Value} {m : Model} (h : importSwagger wild path v = .ok m)
    {uri : String} {item op : Value} {k verb : String} (he : Entry v "paths" uri item) (hk : (k, verb) ∈ ImportedMethods)
    (hop : Member item k op) (hx : ¬ ∃ r, uri.toList = 'x' :: '-' :: r) :
    ∃ a ∈ m.schema.http, ActionFor v uri verb op a := by
  obtain ⟨d, h1, h2⟩ := Out.bind_eq_ok.1 h
  obtain ⟨-, h3, -⟩ := toV3_read h1
  obtain ⟨-, ⟨exs, h4⟩, -⟩ := toSadl_read h2
  have h5 := toV3Paths_read h3
  obtain ⟨i, hi⟩ := List.mem_iff_get.1 ((getMap_entry _ _ _ _).2 he)
  have hget := (List.forall₂_iff_get.1 h5).2 i.val i.isLt (by rw [← h5.length_eq]; exact i.isLt)
  have hi' : (getMap v "paths").get ⟨i.val, i.isLt⟩ = (uri, item) := hi
  rw [hi'] at hget
  obtain ⟨hk', hp⟩ := hget
  have hmem := List.get_mem d.paths ⟨i.val, by rw [← h5.length_eq]; exact i.isLt⟩
  generalize List.get d.paths ⟨i.val, by rw [← h5.length_eq]; exact i.isLt⟩ = kv at hk' hp hmem
  obtain ⟨uri', pi⟩ := kv
  simp only at hk' hp
  subst hk'
  have hsel : ∃ mk, (verb, mk) ∈ importMethods ∧
      (k, mk) ∈ [("get", OMethod.get), ("put", .put), ("post", .post), ("delete", .delete), ("head", .head), ("patch", .patch)] := by
    simp only [ImportedMethods, List.mem_cons, List.not_mem_nil, or_false, Prod.mk.injEq] at hk
    rcases hk with ⟨rfl, rfl⟩ | ⟨rfl, rfl⟩ | ⟨rfl, rfl⟩ | ⟨rfl, rfl⟩ | ⟨rfl, rfl⟩ <;> simp [importMethods]
  obtain ⟨mk, hk1, hk2⟩ := hsel
  have ho := toV3Path_op hp (k, mk) hk2
  obtain ⟨hg, hn⟩ := (member_iff _ _ _).mp hop
  simp only [hg] at ho
  cases hpo : pi.op mk with
  | none =>
    rw [hpo] at ho
    rcases toV3Operation_read ho with ⟨h, -⟩ | ⟨-, _, _, _, _, _, h⟩
    · exact absurd h hn
    · cases h
  | some o =>
    rw [hpo] at ho
    obtain ⟨a, exs', ha⟩ := importPaths_runs h4 hmem hk1 hpo ((prefix_x uri').2 hx)
    exact ⟨a, (importPaths_read h4 a).2 ⟨uri', pi, (verb, mk), o, exs', hmem, hk1, hpo, (prefix_x uri').2 hx, ha⟩, action_read ho ha⟩

/-- A response with a reference. -/
private abbrev okRef : String × Value :=
  ("responses", o [("200", o [("description", .str "ok"), ("schema", o [("$ref", .str "#/definitions/T")])])])

/-- A document with one operation, that speaks JSON. -/
def jsonDoc (method : String) (op : List (String × Value)) : Value :=
  o [("swagger", .str "2.0"), ("consumes", .arr [.str "application/json"]), ("produces", .arr [.str "application/json"]),
     ("paths", o [("/x", o [(method, o op)])]), ("definitions", o [("T", o [("type", .str "object")])])]

/-- C81 is false: a PATCH operation is lost. -/
theorem C81_refuted_patch : SwaggerGives (jsonDoc "patch" [("operationId", .str "f"), okRef]) fun s => s.http.isEmpty :=
  swagger_of (by decide +kernel)

/-- C81 is false: an integer parameter of 64 bits becomes one of 32. -/
theorem C81_refuted_int64 : SwaggerGives (jsonDoc "get" [("operationId", .str "f"), ("parameters",
      .arr [o [("name", .str "n"), ("in", .str "query"), ("type", .str "integer"), ("format", .str "int64")]]), okRef])
    fun s => s.http.any fun h => h.inputs.any fun i => i.field.ts.type == "Int32" := swagger_of (by decide +kernel)

/-- C81 is false: the description of a parameter is lost. -/
theorem C81_refuted_description : SwaggerGives (jsonDoc "get" [("operationId", .str "f"), ("parameters",
      .arr [o [("name", .str "n"), ("in", .str "query"), ("type", .str "string"), ("description", .str "a name")]]), okRef])
    fun s => s.http.any fun h => h.inputs.any fun i => i.field.comment == "" := swagger_of (by decide +kernel)

/-- C81 is false: the type of the items of an array parameter is lost. -/
theorem C81_refuted_array : SwaggerGives (jsonDoc "get" [("operationId", .str "f"), ("parameters",
      .arr [o [("name", .str "n"), ("in", .str "query"), ("type", .str "array"), ("items", o [("type", .str "string")])]]), okRef])
    fun s => s.http.any fun h => h.inputs.any fun i => i.field.ts.type == "Array" && i.field.ts.items == "Any" := swagger_of (by decide +kernel)

/-- C81 is false: the digits of the name of a parameter are lost. -/
theorem C81_refuted_digits : SwaggerGives (jsonDoc "get" [("operationId", .str "f"), ("parameters",
      .arr [o [("name", .str "line1"), ("in", .str "query"), ("type", .str "string")]]), okRef])
    fun s => s.http.any fun h => h.inputs.any fun i => i.field.name == "line" := swagger_of (by decide +kernel)

/-- C81 is false: a body with an inline schema is lost. -/
theorem C81_refuted_inline_body : SwaggerGives (jsonDoc "post" [("operationId", .str "f"), ("parameters",
      .arr [o [("name", .str "b"), ("in", .str "body"), ("schema", o [("type", .str "array"), ("items", o [("$ref", .str "#/definitions/T")])])]]), okRef])
    fun s => s.http.any fun h => h.inputs.isEmpty := swagger_of (by decide +kernel)

/-- C81 is false: an operation in a document that does not list media types loses the types of its bodies. -/
theorem C81_refuted_media : SwaggerGives (o [("swagger", .str "2.0"), ("paths", o [("/x", o [("get", o [("operationId", .str "f"), okRef])])]),
      ("definitions", o [("T", o [("type", .str "object")])])])
    fun s => s.http.any fun h => h.expected.any fun e => e.outputs.isEmpty := swagger_of (by decide +kernel)

/-- C81 is false: the import of an exception with an inline type crashes. -/
theorem C81_refuted_inline_exception : ∃ e, importSwagger 0 "api.json" (jsonDoc "get" [("operationId", .str "f"), ("responses",
    o [("200", o []), ("404", o [("schema", o [("type", .str "string")])])])]) = .panic e := crashes_of (by decide +kernel)

/-! ### An example -/

/-- A document with types of several kinds, and operations. -/
def petDoc : Value :=
  o [("swagger", .str "2.0"), ("info", o [("title", .str "pets"), ("version", .str "1.2")]), ("host", .str "pets.example.com"),
     ("consumes", .arr [.str "application/json"]), ("produces", .arr [.str "application/json"]),
     ("paths", o [("/pets/{id}", o [
       ("get", o [("operationId", .str "getPet"), ("summary", .str "reads a pet"),
         ("parameters", .arr [o [("name", .str "id"), ("in", .str "path"), ("type", .str "string"), ("required", .bool true)],
                              o [("name", .str "depth"), ("in", .str "query"), ("type", .str "integer")],
                              o [("name", .str "X-Trace"), ("in", .str "header"), ("type", .str "boolean")]]),
         ("responses", o [("200", o [("description", .str "found"), ("headers", o [("ETag", o [("type", .str "string")])]),
                                     ("schema", o [("$ref", .str "#/definitions/Pet")])]),
                          ("404", o [("description", .str "missing"), ("schema", o [("$ref", .str "#/definitions/Error")])])])]),
       ("put", o [("operationId", .str "putPet"),
         ("parameters", .arr [o [("name", .str "pet"), ("in", .str "body"), ("required", .bool true), ("schema", o [("$ref", .str "#/definitions/Pet")])]]),
         ("responses", o [("204", o [("description", .str "done")])])])])]),
     ("definitions", o [
       ("Pet", o [("type", .str "object"), ("description", .str "a pet"), ("required", .arr [.str "name"]),
         ("properties", o [("name", o [("type", .str "string"), ("minLength", .float64 (.fin 1 0)), ("maxLength", .float64 (.fin 1 5))]),
                           ("kind", o [("$ref", .str "#/definitions/Kind")]),
                           ("tags", o [("type", .str "array"), ("items", o [("type", .str "string")])])])]),
       ("Kind", o [("type", .str "string"), ("enum", .arr [.str "cat", .str "dog"])]),
       ("Error", o [("type", .str "object"), ("properties", o [("code", o [("type", .str "integer"), ("format", .str "int32")])])])])]

/-- It is imported, and so meets the hypotheses of C80 and C81. -/
example : SwaggerGives petDoc fun s =>
    decide (s.version = "1.2" ∧ s.name = "pets" ∧ s.types.map (·.name) = ["Pet", "Kind", "Error"] ∧
      s.http.map (fun h => (h.name, h.method, h.path)) =
        [("getPet", "GET", "/pets/{id}?depth={depth}"), ("putPet", "PUT", "/pets/{id}")] ∧
      s.http.map (fun h => h.inputs.map fun i => (i.field.name, i.field.ts.type)) =
        [[("id", "String"), ("depth", "Int32"), ("XTrace", "Bool")], [("body", "Pet")]]) := swagger_of (by decide +kernel)

theorem text_obj {kvs : List (String × Value)} {k s : String} (h : mget kvs k = some (.str s)) : Text (.obj kvs) k s :=
  .inl ⟨kvs, rfl, h, by simp⟩

/-- A schema of the example means a struct. -/
example : ∃ ds w, Listed petDoc "definitions" ds ∧ mget ds "Pet" = some w ∧
    Means w { type := "Struct", fields := [
      { name := "name", required := true, ts := { type := "String", minSize := some 1, maxSize := some 32 } },
      { name := "kind", ts := { type := "Kind" } },
      { name := "tags", ts := { type := "Array", items := "String" } }] } := by
  refine ⟨_, _, .inl ⟨_, rfl, rfl, by simp⟩, rfl, .properties (text_obj rfl) ⟨_, rfl, rfl, by simp⟩ ?_⟩
  have hr : ∀ n, RequiredIn (o [("type", .str "object"), ("description", .str "a pet"), ("required", .arr [.str "name"]),
         ("properties", o [("name", o [("type", .str "string"), ("minLength", .float64 (.fin 1 0)), ("maxLength", .float64 (.fin 1 5))]),
                           ("kind", o [("$ref", .str "#/definitions/Kind")]),
                           ("tags", o [("type", .str "array"), ("items", o [("type", .str "string")])])])]) n ↔ n = "name" := by
    intro n
    constructor
    · rintro ⟨w, ⟨ws, ⟨kvs, h1, h2, -⟩, hw⟩, hn⟩
      cases h1
      cases h2
      simp only [List.mem_singleton] at hw
      subst hw
      rcases hn with h | h
      · cases h; rfl
      · cases h
    · rintro rfl
      exact ⟨_, ⟨_, ⟨_, rfl, rfl, by simp⟩, List.mem_singleton.2 rfl⟩, .inl rfl⟩
  refine .cons (by decide) rfl rfl ?_ rfl rfl ?_ (.cons (by decide) rfl rfl ?_ rfl rfl ?_ (.cons (by decide) rfl rfl ?_ rfl rfl ?_ .nil))
  · rw [hr]; simp
  · refine .inline (.string (f := "") (pattern := "") (min := some 1) (max := some 32) (text_obj rfl) rfl (by decide) ?_ rfl ?_ ?_)
    · rintro w ⟨kvs, h1, h2, -⟩; cases h1; cases h2
    · exact ⟨by decide, _, ⟨_, rfl, rfl, by simp⟩, 1, 0, rfl, by decide⟩
    · exact ⟨by decide, _, ⟨_, rfl, rfl, by simp⟩, 1, 5, rfl, by decide⟩
  · rw [hr]; simp
  · refine .ref ⟨?_, text_obj rfl, by decide, by decide⟩
    rintro w ⟨kvs, h1, h2, -⟩; cases h1; cases h2
  · rw [hr]; simp
  · refine .inline (.array (t := "String") (text_obj rfl) ⟨_, rfl, rfl, by simp⟩
      (.string (f := "") (pattern := "") (min := none) (max := none) (text_obj rfl) rfl (by decide) ?_ rfl ?_ ?_)) <;>
    · rintro w ⟨kvs, h1, h2, -⟩; cases h1; cases h2

/-- The example loads: all its schemas are supported. -/
example : ∃ d, toV3 0 petDoc = .ok d := by
  have : (match toV3 0 petDoc with | .ok _ => true | _ => false) = true := by decide +kernel
  split at this
  · exact ⟨_, rfl⟩
  · cases this

end Sadl.Props
