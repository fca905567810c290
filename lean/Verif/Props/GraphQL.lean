import Verif.Model.GraphQL
import Verif.Lemmas.NewModel
/-
C50: type references in GraphQL.
-/
namespace Sadl
open GraphQL

/-- The scalar types of SADL that GraphQL export knows. -/
def gqlScalars : List String :=
  ["Bool", "String", "UUID", "Timestamp", "Int8", "Int16", "Int32", "Int64", "Float32", "Float64", "Decimal"]

/-- A field of the given scalar type comes back with its type and required mark, and the
scalar declarations exported with it are accepted on import. -/
def ScalarRoundTrip (m : Model) (custom : String → String) (name : String) (required : Bool) : Prop :=
  (∀ n, declaredScalar custom name = some n → scalarAccepted n = true) ∧
  ∀ fd : StructFieldDef, fd.ts.type = name → fd.required = required →
    importField (exportField m custom fd) = (name, "", required)

theorem arrays_none {s : Schema} {m : Model} (h : newModel s = .ok m) {n : String} (hb : n ∈ BaseTypes) :
    mget (arrays m) n = none := by
  obtain ⟨_, h2, _, hm⟩ := (newModel_ok_iff s m).1 h
  have hs : m.schema = s := by rw [hm]
  have key : ∀ (l : List TypeDef) (acc : GoMap TypeDef), (∀ td ∈ l, td.name ≠ n) → mget acc n = none →
      mget (l.foldl (fun acc td => mset acc td.name td) acc) n = none := by
    intro l
    induction l with
    | nil => intro acc _ h; exact h
    | cons td r ih =>
      intro acc h1 h2
      refine ih _ (fun td h => h1 td (by simp [h])) ?_
      rw [mget_mset_other _ _ _ _ (fun e => h1 td (by simp) e.symm)]
      exact h2
  unfold arrays
  rw [hs]
  refine key _ _ ?_ rfl
  intro td htd e
  exact h2 td (List.mem_filter.1 htd).1 (e ▸ hb)

theorem typeRef_scalar {s : Schema} {m : Model} (h : newModel s = .ok m) (custom : String → String) (ts : TypeSpec)
    (hs : ts.type ∈ gqlScalars) (hn : scalarType custom ts.type ≠ "") :
    typeRef m custom ts = .named (scalarType custom ts.type) := by
  have hb : ts.type ∈ BaseTypes := by
    have : ∀ x ∈ gqlScalars, x ∈ BaseTypes := by decide
    exact this _ hs
  unfold typeRef
  rw [arrays_none h hb]
  simp [hn]

theorem scalarType_ne (custom : String → String) (n : String) (hs : n ∈ gqlScalars) : scalarType custom n ≠ "" := by
  have : n = "Bool" ∨ n = "String" ∨ n = "UUID" ∨ n = "Timestamp" ∨ n = "Int8" ∨ n = "Int16" ∨ n = "Int32" ∨
      n = "Int64" ∨ n = "Float32" ∨ n = "Float64" ∨ n = "Decimal" := by simpa [gqlScalars] using hs
  rcases this with h | h | h | h | h | h | h | h | h | h | h <;> subst h <;> simp [scalarType, customScalar] <;>
    split <;> simp_all

/-- C50, exactly: in every model, under every configuration of custom scalars, a scalar
type survives if and only if it is `Bool`, `String`, `Int32` or `Float64`, or a `UUID` or
`Timestamp` configured as a custom scalar of its own name. -/
theorem C50_scalars_exact (s : Schema) (m : Model) (h : newModel s = .ok m) (custom : String → String)
    (name : String) (hs : name ∈ gqlScalars) (required : Bool) :
    ScalarRoundTrip m custom name required ↔
      name ∈ ["Bool", "String", "Int32", "Float64"] ∨ (name ∈ ["UUID", "Timestamp"] ∧ custom name = name) := by
  have hne := scalarType_ne custom name hs
  have hrt : ScalarRoundTrip m custom name required ↔
      (∀ n, declaredScalar custom name = some n → scalarAccepted n = true) ∧
        convertTypeName (scalarType custom name) = name := by
    unfold ScalarRoundTrip
    refine and_congr_right fun _ => ⟨fun hq => ?_, fun hq fd h1 h2 => ?_⟩
    · have := hq { name := "f", required := required, ts := { type := name } } rfl rfl
      rw [exportField, typeRef_scalar h custom { type := name } hs hne] at this
      exact congrArg Prod.fst this
    · rw [exportField, typeRef_scalar h custom fd.ts (h1 ▸ hs) (h1 ▸ hne), h1, h2]
      simp [importField, hq]
  rw [hrt]
  have : name = "Bool" ∨ name = "String" ∨ name = "UUID" ∨ name = "Timestamp" ∨ name = "Int8" ∨ name = "Int16" ∨
      name = "Int32" ∨ name = "Int64" ∨ name = "Float32" ∨ name = "Float64" ∨ name = "Decimal" := by
    simpa [gqlScalars] using hs
  have conv : ∀ n : String, convertTypeName n = n ∨ (n = "Int" ∧ convertTypeName n = "Int32") ∨
      (n = "Float" ∧ convertTypeName n = "Float64") ∨ (n = "Boolean" ∧ convertTypeName n = "Bool") := by
    intro n
    unfold convertTypeName
    split <;> simp
  have cust : ∀ t d : String, convertTypeName d ≠ t → convertTypeName t = t → t ≠ "Int32" → t ≠ "Float64" → t ≠ "Bool" → t ≠ "" →
      (convertTypeName (customScalar custom t d) = t ↔ custom t = t) := by
    intro t d hd ht h1 h2 h3 h0
    unfold customScalar
    by_cases hc : custom t = ""
    · simp [hc, hd, Ne.symm h0]
    · rw [if_pos hc]
      constructor
      · intro e
        rcases conv (custom t) with h | h | h | h
        · rw [h] at e; exact e
        · rw [h.2] at e; exact absurd e.symm h1
        · rw [h.2] at e; exact absurd e.symm h2
        · rw [h.2] at e; exact absurd e.symm h3
      · intro e
        rw [e, ht]
  rcases this with h | h | h | h | h | h | h | h | h | h | h <;> subst h
  · exact iff_of_true ⟨by simp [declaredScalar], rfl⟩ (.inl (by decide))
  · exact iff_of_true ⟨by simp [declaredScalar], rfl⟩ (.inl (by decide))
  · have := cust "UUID" "String" (by decide) (by decide) (by decide) (by decide) (by decide) (by decide)
    simp only [scalarType, this]
    constructor
    · rintro ⟨_, h⟩; exact .inr ⟨by decide, h⟩
    · rintro (h | ⟨_, h⟩)
      · exact absurd h (by decide)
      · refine ⟨?_, h⟩
        intro n hn
        simp [declaredScalar, h] at hn
        subst hn; decide
  · have := cust "Timestamp" "String" (by decide) (by decide) (by decide) (by decide) (by decide) (by decide)
    simp only [scalarType, this]
    constructor
    · rintro ⟨_, h⟩; exact .inr ⟨by decide, h⟩
    · rintro (h | ⟨_, h⟩)
      · exact absurd h (by decide)
      · refine ⟨?_, h⟩
        intro n hn
        simp [declaredScalar, h] at hn
        subst hn; decide
  · exact iff_of_false (fun h => absurd h.2 (by simp [scalarType, convertTypeName])) (by simp)
  · exact iff_of_false (fun h => absurd h.2 (by simp [scalarType, convertTypeName])) (by simp)
  · exact iff_of_true ⟨by simp [declaredScalar], rfl⟩ (.inl (by decide))
  · have := cust "Int64" "Float" (by decide) (by decide) (by decide) (by decide) (by decide) (by decide)
    simp only [scalarType, this]
    refine iff_of_false ?_ (by simp)
    rintro ⟨h1, h2⟩
    have := h1 "Int64" (by simp [declaredScalar, h2])
    exact absurd this (by decide)
  · exact iff_of_false (fun h => absurd h.2 (by simp [scalarType, convertTypeName])) (by simp)
  · exact iff_of_true ⟨by simp [declaredScalar], rfl⟩ (.inl (by decide))
  · have := cust "Decimal" "Float" (by decide) (by decide) (by decide) (by decide) (by decide) (by decide)
    simp only [scalarType, this]
    refine iff_of_false ?_ (by simp)
    rintro ⟨h1, h2⟩
    have := h1 "Decimal" (by simp [declaredScalar, h2])
    exact absurd this (by decide)

/-- The empty model of the witnesses. -/
theorem emptyModel_ok : ∃ m, newModel {} = .ok m := by
  refine ⟨_, (newModel_ok_iff {} _).2 ⟨by simp, by simp, by simp, rfl⟩⟩

example : ∃ m, newModel {} = .ok m ∧ ScalarRoundTrip m (fun n => n) "UUID" true := by
  obtain ⟨m, h⟩ := emptyModel_ok
  exact ⟨m, h, (C50_scalars_exact {} m h _ "UUID" (by decide) true).2 (.inr (by decide))⟩

/-- C50 is false: without configuration `Int64` (as also `Int8`, `Int16`, `Float32`,
`Decimal`, `UUID`, `Timestamp`) does not survive; and no configuration makes it survive. -/
theorem C50_refuted (custom : String → String) (required : Bool) :
    ∃ m, newModel {} = .ok m ∧ ¬ ScalarRoundTrip m custom "Int64" required := by
  obtain ⟨m, h⟩ := emptyModel_ok
  refine ⟨m, h, fun hr => ?_⟩
  have := (C50_scalars_exact {} m h custom "Int64" (by decide) required).1 hr
  simp at this

/-- Beyond scalars: a reference to a struct, enum or union type of the model survives,
unless it has one of the three names GraphQL uses for its own scalars. -/
theorem C50_user_types (s : Schema) (m : Model) (h : newModel s = .ok m) (custom : String → String)
    (td : TypeDef) (htd : td ∈ s.types) (ht : td.ts.type ∈ ["Struct", "Enum", "Union"])
    (hn : td.name ∉ ["Int", "Float", "Boolean"]) (fd : StructFieldDef) (hf : fd.ts.type = td.name) :
    importField (exportField m custom fd) = (td.name, "", fd.required) := by
  have hok := (newModel_ok_iff s m).1 h
  have hnb : td.name ∉ BaseTypes := hok.2.1 td htd
  have hfind : m.findType td.name = some td := (newModel_findType_iff h _ _).2 (.inl ⟨htd, rfl⟩)
  have harr : mget (arrays m) td.name = none := by
    obtain ⟨hnd, _, _, hm⟩ := hok
    have hs : m.schema = s := by rw [hm]
    have key : ∀ (l : List TypeDef) (acc : GoMap TypeDef), (∀ x ∈ l, x.name ≠ td.name) → mget acc td.name = none →
        mget (l.foldl (fun acc td => mset acc td.name td) acc) td.name = none := by
      intro l
      induction l with
      | nil => intro acc _ h; exact h
      | cons x r ih =>
        intro acc h1 h2
        refine ih _ (fun x h => h1 x (by simp [h])) ?_
        rw [mget_mset_other _ _ _ _ (fun e => h1 x (by simp) e.symm)]
        exact h2
    unfold arrays
    rw [hs]
    refine key _ _ ?_ rfl
    intro x hx e
    obtain ⟨hx1, hx2⟩ := List.mem_filter.1 hx
    have : x = td := by
      have h1 := (newModel_findType_iff h td.name x).2 (.inl ⟨hx1, e⟩)
      rw [hfind] at h1
      exact (Option.some.inj h1).symm
    subst this
    have h3 : x.ts.type = "Array" := by simpa using hx2
    rw [h3] at ht
    exact absurd ht (by decide)
  have hsc : scalarType custom td.name = "" := by
    unfold scalarType
    split
    case h_12 => rfl
    all_goals (rename_i e; exact absurd (e ▸ by decide) hnb)
  have hsc2 : scalarType custom td.ts.type = "" := by
    have : td.ts.type = "Struct" ∨ td.ts.type = "Enum" ∨ td.ts.type = "Union" := by simpa using ht
    rcases this with e | e | e <;> rw [e] <;> rfl
  have hna : td.name ≠ "Array" := fun e => hnb (e ▸ by decide)
  have hconv : convertTypeName td.name = td.name := by
    unfold convertTypeName
    split
    case h_4 => rfl
    all_goals exact absurd (by simp_all) hn
  unfold exportField typeRef
  rw [hf, harr]
  simp [hf, hsc, hna, hfind, hsc2, importField, hconv]

/-- Beyond scalars: inline arrays keep their item type, whatever it is, unless it is called
as a GraphQL scalar. -/
theorem C50_arrays (s : Schema) (m : Model) (h : newModel s = .ok m) (custom : String → String)
    (fd : StructFieldDef) (hf : fd.ts.type = "Array") (hn : fd.ts.items ∉ ["Int", "Float", "Boolean"]) :
    importField (exportField m custom fd) = ("Array", fd.ts.items, fd.required) := by
  have hconv : convertTypeName fd.ts.items = fd.ts.items := by
    unfold convertTypeName
    split
    case h_4 => rfl
    all_goals exact absurd (by simp_all) hn
  unfold exportField typeRef
  rw [hf, arrays_none h (by decide)]
  simp [hf, scalarType, importField, hconv]

example : ∃ td : TypeDef, td.ts.type ∈ ["Struct", "Enum", "Union"] ∧ td.name ∉ ["Int", "Float", "Boolean"] ∧
    ∃ m, newModel { types := [td] } = .ok m :=
  ⟨{ name := "Pet", ts := { type := "Struct" } }, by decide, by decide, _,
    (newModel_ok_iff _ _).2 ⟨by simp, by simp [BaseTypes], by simp, rfl⟩⟩

end Sadl
