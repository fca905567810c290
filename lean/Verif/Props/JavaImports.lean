import Verif.Lemmas.JavaImports
import Verif.Lemmas.JavaKnown
import Verif.Spec.JavaImports
import Verif.Props.JavaExport
import Verif.Props.GoServer
/-
C99: the imports of generated Java classes.
-/
namespace Sadl.Props
open Sadl Sadl.Spec

/-- The files before and after a file with a class. -/
theorem javaFilesOf_split {m : Model} {conf : JavaConf} {config : Value} :
    ∃ rest, javaFilesOf m conf config = (if configBool config "model" true = true then stepFiles (javaModel m conf).1.flatten else []) ++ rest ∧
      ∀ f ∈ rest, ∀ i c b, f.content ≠ .pojo i c b := by
  refine ⟨stepFiles (if configBool config "server" false then [javaServer m conf (configBool config "example-implementation" false)
      (if configBool config "model" true then javaModel m conf else ([[]], [])).2] else []).flatten ++
    (stepFiles (if configBool config "client" false then [javaClient m conf] else []).flatten ++
    stepFiles (if configBool config "maven" false then
      [[.file (.ok { name := "pom", pkg := "", content := .pom (javaPomText conf.domain conf.name conf.lombok) })]] else []).flatten), ?_, ?_⟩
  · unfold javaFilesOf javaPlan
    simp only [List.flatten_append, stepFiles_append, List.append_assoc]
    congr 1
    split <;> rfl
  · intro f hf i c b hc
    simp only [List.mem_append] at hf
    have step : ∀ {o : Out JavaFile} {l : List JavaStep}, f ∈ stepFiles (.file o :: l) → o = .ok f ∨ f ∈ stepFiles l := by
      intro o l h
      cases o with
      | ok g =>
        rcases List.mem_cons.1 h with h | h
        · exact .inl (by rw [h])
        · exact .inr h
      | err e => exact .inr h
      | panic e => exact .inr h
    have bind : ∀ {α : Type} {o : Out α} {k : α → Out JavaFile}, o.bind k = .ok f → (∀ x g, k x = .ok g → ∀ i c b, g.content ≠ .pojo i c b) → False :=
      fun h hk => by obtain ⟨x, _, h2⟩ := gbind_ok.1 h; exact hk x f h2 i c b hc
    rcases hf with hf | hf | hf
    · split at hf
      · simp only [List.flatten_cons, List.flatten_nil, List.append_nil] at hf
        unfold javaServer at hf
        simp only [stepFiles_check] at hf
        rcases step hf with hf | hf
        · exact bind hf (fun x g h => by cases h; intro _ _ _ h; cases h)
        · split at hf
          · rcases step hf with hf | hf
            · cases hf; cases hc
            · rcases step hf with hf | hf
              · exact bind hf (fun x g h => by cases h; intro _ _ _ h; cases h)
              · cases hf
          · cases hf
      · cases hf
    · split at hf
      · simp only [List.flatten_cons, List.flatten_nil, List.append_nil] at hf
        unfold javaClient at hf
        simp only [stepFiles_check] at hf
        rcases step hf with hf | hf
        · cases hf; cases hc
        · rcases step hf with hf | hf
          · exact bind hf (fun x g h => by cases h; intro _ _ _ h; cases h)
          · cases hf
      · cases hf
    · split at hf
      · rcases step hf with hf | hf
        · cases hf; cases hc
        · cases hf
      · cases hf

/-- C99: only known classes are imported, whatever is generated. -/
theorem C99_known (m : Model) (conf : JavaConf) (config : Value) (f : JavaFile) (hf : f ∈ javaFilesOf m conf config) (imports : List String)
    (comment : String) (body : JavaBody) (hc : f.content = .pojo imports comment body) : ∀ p ∈ imports, p ∈ JavaImportable := by
  obtain ⟨rest, h1, h2⟩ := javaFilesOf_split (m := m) (conf := conf) (config := config)
  rw [h1] at hf
  rcases List.mem_append.1 hf with hf | hf
  · split at hf
    · exact javaModel_known f hf _ _ _ hc
    · cases hf
  · exact absurd hc (h2 f hf _ _ _)

section
variable (lib : PLib) (m : Model) (h : Accepted lib m) (conf : JavaConf) (config : Value) (hs : NoStrays m.schema)
include h hs

theorem javaFilesOf_chain : ∃ notes final fs rest, NotesKnown notes ∧ Chain m.schema conf notes fs final ∧
    javaFilesOf m conf config = fs ++ rest ∧ (∀ f ∈ rest, ∀ i c b, f.content ≠ .pojo i c b) ∧
    (fs ≠ [] → ∀ f ∈ stepFiles (javaSupport conf final), f ∈ rest) := by
  obtain ⟨rest, h1, h2⟩ := javaFilesOf_split (m := m) (conf := conf) (config := config)
  by_cases hc : configBool config "model" true = true
  · rw [if_pos hc] at h1
    rcases javaModel_chain conf (accepted_newModel h) hs with ⟨h3, _⟩ | ⟨notes, fs, h3, h4, h5⟩
    · rw [h3] at h1
      exact ⟨[], [], [], rest, notesKnown_of rfl, .nil, h1, h2, fun h => absurd rfl h⟩
    · rw [h5, List.append_assoc] at h1
      refine ⟨notes, _, fs, _, h3, h4, h1, ?_, fun _ f hf => List.mem_append_left _ hf⟩
      intro f hf
      rcases List.mem_append.1 hf with hf | hf
      · intro i c b hc
        unfold javaSupport at hf
        simp only [stepFiles_append, List.mem_append] at hf
        rcases hf with (hf | hf) | hf <;> split at hf
        all_goals simp only [stepFiles, List.filterMap_cons, JavaStep.file?, List.filterMap_nil, List.mem_singleton, List.not_mem_nil] at hf
        all_goals subst hf; cases hc
      · exact h2 f hf
  · rw [if_neg hc] at h1
    exact ⟨[], [], [], rest, notesKnown_of rfl, .nil, h1, h2, fun h => absurd rfl h⟩

/-- What is known of each file with a class. -/
theorem javaFilesOf_pojo {f : JavaFile} (hf : f ∈ javaFilesOf m conf config) {i : List String} {c : String} {b : JavaBody}
    (hc : f.content = .pojo i c b) : f.pkg = conf.modelPackage ∧ ∃ notes ns final, i = javaImports notes ∧ NotesKnown notes ∧
      BodyFine m.schema conf b ns ∧ (∀ x ∈ ns, x ∈ notes) ∧ (∀ x ∈ notes, x ∈ final) ∧
      ∀ g ∈ stepFiles (javaSupport conf final), g ∈ javaFilesOf m conf config := by
  obtain ⟨notes, final, fs, rest, h1, h2, h3, h4, h5⟩ := javaFilesOf_chain lib m h conf config hs
  rw [h3] at hf
  rcases List.mem_append.1 hf with hf | hf
  · obtain ⟨k1, n, ns, k2, k3, k4, k5, k6⟩ := h2.pojos conf h1 hf hc
    refine ⟨k1, n, ns, final, k2, k3, k4, k5, k6, fun g hg => ?_⟩
    rw [h3]
    exact List.mem_append_right _ (h5 (fun h => by rw [h] at hf; cases hf) g hg)
  · exact absurd hc (h4 f hf i c b)

/-- C99: every class of another package that a generated class refers to is imported, except for the classes of the annotations
for bounds and the annotation for the constructor of a unit value. -/
theorem C99_imported_partial (f : JavaFile) (hf : f ∈ javaFilesOf m conf config) (imports : List String) (comment : String) (body : JavaBody)
    (hc : f.content = .pojo imports comment body) (p : String) (hp : BodyNeeds m.schema conf body p) :
    p ∈ imports ∨ p ∈ JavaNeverImported ∨ (p = "com.fasterxml.jackson.annotation.JsonCreator" ∧ ∃ n u, body = .unit n u) := by
  obtain ⟨_, notes, ns, _, rfl, _, h3, h4, _⟩ := javaFilesOf_pojo lib m h conf config hs hf hc
  exact (h3.needs p hp).imp (fun h => mem_javaImports.2 (h4 _ h)) id

/-- C99: the imports are in alphabetical order, and there is none twice. -/
theorem C99_sorted (f : JavaFile) (hf : f ∈ javaFilesOf m conf config) (imports : List String) (comment : String) (body : JavaBody)
    (hc : f.content = .pojo imports comment body) : imports.Pairwise (· < ·) ∧ imports.Nodup := by
  obtain ⟨_, notes, ns, _, rfl, _⟩ := javaFilesOf_pojo lib m h conf config hs hf hc
  have := javaImports_sorted notes
  exact ⟨this, this.imp fun h he => by subst he; exact absurd h (String.lt_irrefl _)⟩

/-- C99: a class imports all that the classes written before it import, needed or not. -/
theorem C99_grow : (javaFilesOf m conf config).Pairwise fun f g => ∀ i k x i' k' x', f.content = .pojo i k x → g.content = .pojo i' k' x' →
    ∀ p ∈ i, p ∈ i' := by
  obtain ⟨notes, final, fs, rest, _, hch, h4, h5, _⟩ := javaFilesOf_chain lib m h conf config hs
  rw [h4]
  refine List.pairwise_append.2 ⟨hch.keeps conf, ?_, fun f _ g hg _ _ _ _ _ _ _ h2 => absurd h2 (h5 g hg _ _ _)⟩
  exact List.pairwise_iff_forall_sublist.2 fun {f g} hfg _ _ _ _ _ _ h1 =>
    absurd h1 (h5 f (hfg.subset (by simp)) _ _ _)

/-- C99: if a class refers to the class `Util`, it is written, in the package of the class. -/
theorem C99_util (f : JavaFile) (hf : f ∈ javaFilesOf m conf config) (imports : List String) (comment : String) (body : JavaBody)
    (hc : f.content = .pojo imports comment body) (hu : BodyUtil conf body) :
    ∃ g ∈ javaFilesOf m conf config, g.name = "Util" ∧ g.pkg = f.pkg := by
  obtain ⟨h0, notes, ns, final, _, _, h3, h4, h5, h6⟩ := javaFilesOf_pojo lib m h conf config hs hf hc
  have hu := h5 _ (h4 _ (h3.util hu))
  refine ⟨{ name := "Util", pkg := conf.modelPackage, content := .fixed javaUtilText }, h6 _ ?_, rfl, h0.symm⟩
  unfold javaSupport
  rw [if_pos (c := _ ∨ _) (Or.inl hu), stepFiles_append, stepFiles_append]
  exact List.mem_append_left _ (List.mem_append_right _ (List.mem_singleton.2 rfl))

/-- C99: if a class refers to the class for timestamps, it is written, in the package of the project. -/
theorem C99_timestamp_partial (f : JavaFile) (hf : f ∈ javaFilesOf m conf config) (imports : List String) (comment : String) (body : JavaBody)
    (hc : f.content = .pojo imports comment body) (hu : BodyStamps body) :
    ∃ g ∈ javaFilesOf m conf config, g.name = "Timestamp" ∧ g.pkg = conf.pkg := by
  obtain ⟨h0, notes, ns, final, _, _, h3, h4, h5, h6⟩ := javaFilesOf_pojo lib m h conf config hs hf hc
  have hu := h5 _ (h4 _ (h3.stamps hu))
  refine ⟨{ name := "Timestamp", pkg := conf.pkg, content := .fixed javaTimestampText }, h6 _ ?_, rfl, rfl⟩
  unfold javaSupport
  rw [if_pos hu, stepFiles_append, stepFiles_append]
  exact List.mem_append_left _ (List.mem_append_left _ (List.mem_singleton.2 rfl))

end

/-! ### Examples and refutations -/

/-- A type specification of which all parts are plain, and that does not mention the names of Java's classes. -/
def flatSpec (ts : TypeSpec) : Bool :=
  let plain (t : TypeSpec) : Bool := decide ((t.type ∉ ["BigDecimal", "Instant"] ∧ t.value ∉ ["BigDecimal", "Instant"] ∧ t.unit ∉ ["BigDecimal", "Instant"]) ∧
    t.fields.length = 0 ∧ t.variants.length = 0)
  decide (ts.type ∉ ["BigDecimal", "Instant"] ∧ ts.value ∉ ["BigDecimal", "Instant"] ∧ ts.unit ∉ ["BigDecimal", "Instant"]) &&
    ts.fields.all (fun f => plain f.ts) && ts.variants.all (fun v => plain v.ts)

theorem noStray_of_flat {s : Schema} {ts : TypeSpec} (h : flatSpec ts = true) : NoStray s ts := by
  simp only [flatSpec, Bool.and_eq_true, List.all_eq_true, decide_eq_true_eq] at h
  obtain ⟨⟨⟨h1, h2, h3⟩, h4⟩, h5⟩ := h
  have leaf : ∀ t : TypeSpec, ((t.type ∉ ["BigDecimal", "Instant"] ∧ t.value ∉ ["BigDecimal", "Instant"] ∧ t.unit ∉ ["BigDecimal", "Instant"]) ∧
      t.fields.length = 0 ∧ t.variants.length = 0) → ∀ n ∈ ["BigDecimal", "Instant"], ¬ MentionsType n t := by
    rintro t ⟨⟨a, b, c⟩, d, e⟩ n hn hmn
    cases hmn with
    | here h => exact a (h ▸ hn)
    | value h => exact b (h ▸ hn)
    | unit h => exact c (h ▸ hn)
    | field hf _ => rw [List.length_eq_zero_iff.1 d] at hf; cases hf
    | variant hv _ => rw [List.length_eq_zero_iff.1 e] at hv; cases hv
  intro n hn hmn
  cases hmn with
  | here h => exact absurd (h ▸ hn) h1
  | value h => exact absurd (h ▸ hn) h2
  | unit h => exact absurd (h ▸ hn) h3
  | field hf hmn => exact absurd hmn (leaf _ (h4 _ hf) n hn)
  | variant hv hmn => exact absurd hmn (leaf _ (h5 _ hv) n hn)

/-- All parts of the schema are plain. -/
def flatSchema (s : Schema) : Bool :=
  s.types.all (fun td => flatSpec td.ts) && s.http.all (fun h => h.inputs.all (fun p => flatSpec p.field.ts) &&
    (match h.expected with | some e => e.outputs.all (fun p => flatSpec p.field.ts) | none => true) &&
    h.exceptions.all (fun x => decide (x.type ∉ ["BigDecimal", "Instant"])))

theorem noStrays_of_flat {s : Schema} (h : flatSchema s = true) : NoStrays s := by
  simp only [flatSchema, Bool.and_eq_true, List.all_eq_true] at h
  obtain ⟨h1, h2⟩ := h
  refine ⟨fun td htd => noStray_of_flat (h1 td htd), fun a ha p hp => noStray_of_flat ((h2 a ha).1.1 p hp), fun a ha e he p hp => ?_,
    fun a ha x hx hb => absurd hb (of_decide_eq_true ((h2 a ha).2 x hx))⟩
  have := (h2 a ha).1.2
  rw [he] at this
  exact noStray_of_flat (List.all_eq_true.1 this p hp)

/-- The names and the imports of the classes. -/
def javaImportsOf (m : Model) (conf : JavaConf) (config : Value) : List (String × List String) :=
  (javaFilesOf m conf config).filterMap fun f => match f.content with | .pojo i _ _ => some (f.name, i) | _ => none

/-- `type Item Struct { created Timestamp }`, `type Ids Array<UUID>`, `type Small Decimal (min=10)`,
`type Other Struct { ids Ids (required)  small Small (required) }` -/
def importSource : List Token :=
  itemSource ++
  [sym "type", sym "Ids", sym "Array", punct .openAngle, sym "UUID", punct .closeAngle, nl,
   sym "type", sym "Small", sym "Decimal", punct .openParen, sym "min", punct .equals, num "10", punct .closeParen, nl,
   sym "type", sym "Other", sym "Struct", punct .openBrace, nl, sym "ids", sym "Ids", punct .openParen, sym "required", punct .closeParen, nl,
   sym "small", sym "Small", punct .openParen, sym "required", punct .closeParen, nl, punct .closeBrace, nl]

/-- The settings of the examples. -/
def importConfig : Value := .obj [("package", .str "com.example")]
/-- The settings of the examples, with a class for timestamps. -/
def stampConfig : Value := .obj [("package", .str "com.example"), ("instants", .bool false)]

/-- The hypotheses of C99 can be met: the second class imports what it needs, and what the first one needs. -/
theorem C99_example : ∃ m, Accepted tens m ∧ NoStrays m.schema ∧ javaImportsOf m (javaConfOf m {} importConfig) importConfig =
    [("Item", ["com.fasterxml.jackson.annotation.JsonInclude", "com.fasterxml.jackson.databind.annotation.JsonDeserialize",
       "com.fasterxml.jackson.databind.annotation.JsonPOJOBuilder", "com.fasterxml.jackson.databind.annotation.JsonSerialize",
       "java.time.Instant"]),
     ("Other", ["com.fasterxml.jackson.annotation.JsonInclude", "com.fasterxml.jackson.databind.annotation.JsonDeserialize",
       "com.fasterxml.jackson.databind.annotation.JsonPOJOBuilder", "com.fasterxml.jackson.databind.annotation.JsonSerialize",
       "java.math.BigDecimal", "java.time.Instant", "java.util.List", "java.util.UUID", "javax.validation.constraints.NotNull"])] := by
  obtain ⟨m, h1, h2⟩ := accepted_of tens importSource (fun m => flatSchema m.schema && decide (javaImportsOf m (javaConfOf m {} importConfig) importConfig =
    [("Item", ["com.fasterxml.jackson.annotation.JsonInclude", "com.fasterxml.jackson.databind.annotation.JsonDeserialize",
       "com.fasterxml.jackson.databind.annotation.JsonPOJOBuilder", "com.fasterxml.jackson.databind.annotation.JsonSerialize",
       "java.time.Instant"]),
     ("Other", ["com.fasterxml.jackson.annotation.JsonInclude", "com.fasterxml.jackson.databind.annotation.JsonDeserialize",
       "com.fasterxml.jackson.databind.annotation.JsonPOJOBuilder", "com.fasterxml.jackson.databind.annotation.JsonSerialize",
       "java.math.BigDecimal", "java.time.Instant", "java.util.List", "java.util.UUID", "javax.validation.constraints.NotNull"])]))
    (by decide +kernel) (by decide +kernel)
  rw [Bool.and_eq_true, decide_eq_true_eq] at h2
  exact ⟨m, h1, noStrays_of_flat h2.1, h2.2⟩

/-- A file of a class for a struct, with a property of the class. -/
def hasStruct (m : Model) (conf : JavaConf) (config : Value) (p : JavaClass → Bool) : Bool :=
  (javaFilesOf m conf config).any fun f => match f.content with | .pojo _ _ (.struct c) => p c | _ => false

theorem hasStruct_file {m : Model} {conf : JavaConf} {config : Value} {p : JavaClass → Bool} (h : hasStruct m conf config p = true) :
    ∃ f ∈ javaFilesOf m conf config, ∃ i k c, f.content = .pojo i k (.struct c) ∧ p c = true := by
  obtain ⟨f, hf, hp⟩ := List.any_eq_true.1 h
  split at hp
  · next i k c hc => exact ⟨f, hf, i, k, c, hc, hp⟩
  · cases hp

/-- The annotation is a lower bound. -/
def isMin : JAnno → Bool
  | .decimalMin _ => true
  | _ => false

/-- C99: the full statement is false: the annotation `@DecimalMin` of a member is used without an import. -/
theorem C99_refuted_bounds : ∃ m, Accepted tens m ∧ NoStrays m.schema ∧ ∃ f ∈ javaFilesOf m (javaConfOf m {} importConfig) importConfig,
    ∃ imports comment body, f.content = .pojo imports comment body ∧
      BodyNeeds m.schema (javaConfOf m {} importConfig) body "javax.validation.constraints.DecimalMin" ∧
      "javax.validation.constraints.DecimalMin" ∉ imports := by
  obtain ⟨m, h1, h2⟩ := accepted_of tens importSource (fun m => flatSchema m.schema &&
    hasStruct m (javaConfOf m {} importConfig) importConfig fun c => c.fields.any fun f => f.annos.any isMin)
    (by decide +kernel) (by decide +kernel)
  rw [Bool.and_eq_true] at h2
  have hs := noStrays_of_flat h2.1
  obtain ⟨f, hf, i, k, c, hc, hp⟩ := hasStruct_file h2.2
  obtain ⟨x, hx, hp⟩ := List.any_eq_true.1 hp
  obtain ⟨a, ha, hp⟩ := List.any_eq_true.1 hp
  refine ⟨m, h1, hs, f, hf, i, k, _, hc, .struct (.member hx ?_), fun h => ?_⟩
  · have : AnnoClass a = "javax.validation.constraints.DecimalMin" := by cases a <;> first | rfl | cases hp
    exact this ▸ .anno ha
  · exact absurd (C99_known m _ _ f hf i k _ hc _ h) (by decide)

/-- `type Mass UnitValue<Decimal,Unit>` and `type Unit Enum { kg }` -/
def massSource : List Token :=
  [sym "type", sym "Mass", sym "UnitValue", punct .openAngle, sym "Decimal", punct .comma, sym "Unit", punct .closeAngle, nl,
   sym "type", sym "Unit", sym "Enum", punct .openBrace, nl, sym "kg", nl, punct .closeBrace, nl]

/-- C99: the class of a unit value uses the annotation `@JsonCreator` without an import. -/
theorem C99_refuted_creator : ∃ m, Accepted tens m ∧ NoStrays m.schema ∧ ∃ f ∈ javaFilesOf m (javaConfOf m {} importConfig) importConfig,
    ∃ imports comment body, f.content = .pojo imports comment body ∧
      BodyNeeds m.schema (javaConfOf m {} importConfig) body "com.fasterxml.jackson.annotation.JsonCreator" ∧
      "com.fasterxml.jackson.annotation.JsonCreator" ∉ imports := by
  obtain ⟨m, h1, h2⟩ := accepted_of tens massSource (fun m => flatSchema m.schema &&
    (javaFilesOf m (javaConfOf m {} importConfig) importConfig).any fun f => match f.content with
      | .pojo i _ (.unit _ _) => decide ("com.fasterxml.jackson.annotation.JsonCreator" ∉ i)
      | _ => false)
    (by decide +kernel) (by decide +kernel)
  rw [Bool.and_eq_true] at h2
  obtain ⟨f, hf, hp⟩ := List.any_eq_true.1 h2.2
  split at hp
  · next i k n u hc => exact ⟨m, h1, noStrays_of_flat h2.1, f, hf, i, k, _, hc, .unit (by decide), of_decide_eq_true hp⟩
  · cases hp

/-- C99: a class that refers to the class for timestamps cannot find it: it is in another package and is not imported. -/
theorem C99_refuted_timestamp : ∃ m, Accepted tens m ∧ NoStrays m.schema ∧ ∃ f ∈ javaFilesOf m (javaConfOf m {} stampConfig) stampConfig,
    ∃ imports comment body, f.content = .pojo imports comment body ∧ BodyStamps body ∧
      (¬ ∃ g ∈ javaFilesOf m (javaConfOf m {} stampConfig) stampConfig, g.name = "Timestamp" ∧ g.pkg = f.pkg) ∧
      ∀ pkg, pkg ++ ".Timestamp" ∉ imports := by
  obtain ⟨m, h1, h2⟩ := accepted_of tens itemSource (fun m => flatSchema m.schema &&
    hasStruct m (javaConfOf m {} stampConfig) stampConfig (fun c => c.fields.any fun f => decide (f.used = .name "Timestamp")) &&
    (javaFilesOf m (javaConfOf m {} stampConfig) stampConfig).all fun g => decide (¬ (g.name = "Timestamp" ∧ g.pkg = "com.example.model")))
    (by decide +kernel) (by decide +kernel)
  rw [Bool.and_eq_true, Bool.and_eq_true] at h2
  obtain ⟨⟨h2, h3⟩, h4⟩ := h2
  have hs := noStrays_of_flat h2
  obtain ⟨f, hf, i, k, c, hc, hp⟩ := hasStruct_file h3
  obtain ⟨x, hx, hp⟩ := List.any_eq_true.1 hp
  have hpkg : f.pkg = "com.example.model" := (javaFilesOf_pojo tens m h1 _ _ hs hf hc).1
  refine ⟨m, h1, hs, f, hf, i, k, _, hc, .struct (.member hx (by rw [of_decide_eq_true hp]; exact .here)), ?_, fun pkg h => ?_⟩
  · rintro ⟨g, hg, e1, e2⟩
    exact of_decide_eq_true (List.all_eq_true.1 h4 g hg) ⟨e1, e2.trans hpkg⟩
  · have hk := C99_known m _ _ f hf i k _ hc _ h
    have hall : JavaImportable.all (fun p => !(".Timestamp".toList.isSuffixOf p.toList)) = true := by decide +kernel
    have := List.all_eq_true.1 hall _ hk
    rw [Bool.not_eq_true', ← Bool.not_eq_true, List.isSuffixOf_iff_suffix] at this
    exact this ⟨pkg.toList, by rw [String.toList_append]⟩

/-- `type List Struct { items Array<String> }` -/
def listSource : List Token :=
  [sym "type", sym "List", sym "Struct", punct .openBrace, nl, sym "items", sym "Array", punct .openAngle, sym "String", punct .closeAngle, nl,
   punct .closeBrace, nl]

/-- C99: a class can have the name of a class that it imports: that is not Java. -/
theorem C99_refuted_clash : ∃ m, Accepted tens m ∧ NoStrays m.schema ∧ NoBoxes m.schema ∧ ∃ imports,
    ("List", imports) ∈ javaImportsOf m (javaConfOf m {} importConfig) importConfig ∧ "java.util.List" ∈ imports := by
  obtain ⟨m, h1, h2⟩ := accepted_of tens listSource (fun m => flatSchema m.schema && decide (∀ td ∈ m.schema.types, td.name ∉ JavaBoxes) &&
    (javaImportsOf m (javaConfOf m {} importConfig) importConfig).any fun x => decide (x.1 = "List" ∧ "java.util.List" ∈ x.2))
    (by decide +kernel) (by decide +kernel)
  rw [Bool.and_eq_true, Bool.and_eq_true] at h2
  obtain ⟨⟨h2, h3⟩, h4⟩ := h2
  have h3 := of_decide_eq_true h3
  obtain ⟨⟨n, i⟩, hi, hp⟩ := List.any_eq_true.1 h4
  obtain ⟨rfl, h5⟩ := of_decide_eq_true hp
  exact ⟨m, h1, noStrays_of_flat h2, h3, i, hi, h5⟩

end Sadl.Props
