import Verif.Lemmas.OpenApiTypes
import Verif.Props.OpenApi
/-
C47: types survive the export to OpenAPI and the import from it.
-/
namespace Sadl.Props
open Sadl Sadl.Spec

/-- C47 (part): the import of the exported components yields the original types, up to the order
of types and fields, for a schema all of whose types are kept.  Missing: the types that
`TypeKept` excludes, for which the property is false, see below. -/
theorem C47_types_partial (lib : OLib) (hord : ∀ l, (lib.order l).Perm l) (m : Model) (hm : newModel m.schema = .ok m) (d : ODoc)
    (hd : Exports lib m (.ok d)) (hk : ∀ td ∈ m.schema.types, td.name ≠ "" ∧ TypeKept lib m.schema td.ts)
    (components : GoMap OSchema) (hc : SameSchemas d.schemas components) :
    ∃ tds tds' exs, importTypes components components = .ok (tds', exs) ∧ tds.Perm m.schema.types ∧ List.Forall₂ SameDef tds tds' := by
  obtain ⟨n, hn⟩ := exports_run hd
  obtain ⟨tds, h1, h2⟩ := exportOas_schemas hm hord hn hc
  obtain ⟨tds', exs, h3, h4⟩ := importTypes_ok hm hk components (fun td h => h1.mem_iff.1 h) h2
  exact ⟨tds, tds', exs, h3, h1, h4⟩

theorem importPaths_none {paths : GoMap OPathItem} (h : ∀ p pi k, (p, pi) ∈ paths → pi.op k = none) : importPaths paths = .ok ([], []) := by
  induction paths with
  | nil => rfl
  | cons e rest ih =>
    obtain ⟨p, pi⟩ := e
    have hk : ∀ k, pi.op k = none := fun k => h p pi k (by simp)
    have : ∀ ms, importPath p pi ms = .ok ([], []) := by
      intro ms
      induction ms with
      | nil => rfl
      | cons a r ih => obtain ⟨x, k⟩ := a; simp only [importPath, hk, ih]
    unfold importPaths
    rw [this, ih (fun p pi k hm => h p pi k (by simp [hm]))]
    rfl

/-- C47 (part): so a model without actions is the same after export and import. -/
theorem C47_model_partial (lib : OLib) (hord : ∀ l, (lib.order l).Perm l) (m : Model) (hm : newModel m.schema = .ok m) (d d' : ODoc)
    (hd : Exports lib m (.ok d)) (hk : ∀ td ∈ m.schema.types, td.name ≠ "" ∧ TypeKept lib m.schema td.ts)
    (hh : m.schema.http = []) (hp : d'.paths = d.paths) (hc : SameSchemas d.schemas d'.schemas) (name : String) :
    ∃ m' tds, toSadl d' name = .ok m' ∧ tds.Perm m.schema.types ∧ List.Forall₂ SameDef tds m'.schema.types ∧ m'.schema.http = [] := by
  obtain ⟨tds, tds', exs, h1, h2, h3⟩ := C47_types_partial lib hord m hm d hd hk d'.schemas hc
  obtain ⟨h4, h5, _⟩ := (newModel_ok_iff _ _).1 hm
  have hpaths : importPaths d'.paths = .ok ([], []) := by
    rw [hp]
    refine importPaths_none fun p pi k hpi => ?_
    by_contra hne
    obtain ⟨op, hop⟩ := Option.ne_none_iff_exists'.1 hne
    obtain ⟨a, ha, _⟩ := C44_no_other_operations lib hord m d hd p k op ⟨pi, hpi, hop⟩
    rw [hh] at ha
    cases ha
  have hnames : tds'.map (·.name) = tds.map (·.name) := by
    clear h1 h2
    induction h3 with
    | nil => rfl
    | cons a _ ih => simp only [List.map_cons, a.name, ih]
  unfold toSadl
  simp only [h1, hpaths, Out.bind]
  refine ⟨_, tds, (newModel_ok_iff _ _).2 ⟨?_, ?_, ?_, rfl⟩, h2, h3, rfl⟩
  · dsimp only
    rw [hnames]
    exact ((h2.map _).nodup_iff).2 h4
  · intro td' htd'
    have : td'.name ∈ tds'.map (·.name) := List.mem_map_of_mem htd'
    rw [hnames] at this
    obtain ⟨td, k1, k2⟩ := List.mem_map.1 this
    rw [← k2]
    exact h5 td (h2.mem_iff.1 k1)
  · simp

/-! ### An example -/

/-- A schema of kept types. -/
def zoo : Schema :=
  { types :=
      [{ name := "Color", comment := "a color", ts := { type := "Enum", elements := ["RED", "BLUE"].map fun v => { symbol := v } } },
       { name := "Label", ts := { type := "String", pattern := "[a-z]*", maxSize := some 20 } },
       { name := "Grade", ts := { type := "String", values := some ["a", "b+"] } },
       { name := "Id", ts := { type := "UUID" } },
       { name := "Animal", comment := "an animal",
         ts := { type := "Struct",
                 fields := [{ name := "id", required := true, ts := { type := "Id" } }, { name := "name", ts := { type := "String", minSize := some 1 } },
                            { name := "colors", ts := { type := "Array", items := "Color" } }, { name := "born", required := true, ts := { type := "Timestamp" } },
                            { name := "young", ts := { type := "Array", items := "Animal" } }] } },
       { name := "Animals", ts := { type := "Array", items := "Animal" } }] }

theorem zoo_kept : ∀ td ∈ zoo.types, td.name ≠ "" ∧ TypeKept plainO zoo td.ts := by
  have color : zoo.types[0] ∈ zoo.types := by simp [zoo]
  have id : zoo.types[3] ∈ zoo.types := by simp [zoo]
  have animal : zoo.types[4] ∈ zoo.types := by simp [zoo]
  intro td h
  simp only [zoo, List.mem_cons, List.not_mem_nil, or_false] at h
  rcases h with rfl | rfl | rfl | rfl | rfl | rfl
  · refine ⟨by simp, .enum fun v hv => ?_⟩
    rw [identifier_iff]
    simp only [List.mem_cons, List.not_mem_nil, or_false] at hv
    rcases hv with rfl | rfl <;> decide
  · exact ⟨by simp, .string ⟨by simp, by simp [Int64Range]⟩⟩
  · refine ⟨by simp, .values ⟨by simp, by simp⟩ ⟨"b+", by simp, ?_⟩⟩
    rw [identifier_iff]; decide
  · exact ⟨by simp, .uuid⟩
  · refine ⟨by simp, .struct (by decide) fun f hf => ?_⟩
    simp only [List.mem_cons, List.not_mem_nil, or_false] at hf
    rcases hf with rfl | rfl | rfl | rfl | rfl <;> refine ⟨rfl, rfl, rfl, ?_⟩
    · exact .named id (by simp [zoo])
    · exact .string ⟨by simp [Int64Range], by simp⟩
    · exact .array (.named color (by simp [zoo]) (by simp [zoo]))
    · exact .timestamp
    · exact .array (.named animal (by simp [zoo]) (by simp [zoo]))
  · exact ⟨by simp, .array (.named animal (by simp [zoo]) (by simp [zoo]))⟩

/-- The example is exported and imported again. -/
example : ∃ m d m' tds, m.schema = zoo ∧ Exports plainO m (.ok d) ∧ toSadl d "zoo" = .ok m' ∧ tds.Perm zoo.types ∧ List.Forall₂ SameDef tds m'.schema.types := by
  have h : exportsB plainO zoo 5 (fun _ => true) = true := by decide +kernel
  unfold exportsB at h
  split at h
  · next m hm =>
    have hs : m.schema = zoo := by obtain ⟨_, _, _, rfl⟩ := (newModel_ok_iff _ _).1 hm; rfl
    split at h
    · next d hd =>
      have hd' : Exports plainO m (.ok d) := ⟨by simp, 5, hd⟩
      have same : SameSchemas d.schemas d.schemas := by
        refine ⟨d.schemas, .rfl, List.forall₂_same.2 fun e _ => ⟨rfl, ⟨by cases e.2; rfl, .rfl⟩⟩⟩
      obtain ⟨m', tds, h1, h2, h3, _⟩ := C47_model_partial plainO (fun _ => .rfl) m (hs ▸ hm) d d hd' (hs ▸ zoo_kept) (by rw [hs]; rfl) rfl same "zoo"
      exact ⟨m, d, m', tds, hs, hd', h1, hs ▸ h2, h3⟩
    · simp at h
  · simp at h

/-! ### What is false -/

/-- Exports a model and imports it again. -/
def reimported (lib : OLib) (n : Nat) (m : Model) : Option Model :=
  match exportOasN n lib m with
  | .ok d => match toSadl d "" with
    | .ok m' => some m'
    | _ => none
  | _ => none

def changesB (q : TypeDef → Bool) (m : Model) : Bool :=
  m.schema.types.any (fun td => td.name == "Foo" && q td) &&
  match reimported plainO 9 m with
  | some m' => m'.schema.types.all (fun td => td.name != "Foo" || !q td)
  | none => false

/-- Some accepted source defines a type with the property `q` that, after export and import, does not have it any more. -/
def Changes (q : TypeDef → Bool) : Prop :=
  ∃ m d m' td, Accepted noLib m ∧ Exports plainO m (.ok d) ∧ toSadl d "" = .ok m' ∧ td ∈ m.schema.types ∧ q td = true ∧
    ∀ td' ∈ m'.schema.types, td'.name = td.name → q td' = false

theorem changes_of (toks : List Token) (q : TypeDef → Bool) (h1 : toks.all (fun t => decide (t.type = .symbol → t.text ≠ "")) = true)
    (h : accepts noLib toks (changesB q) = true) : Changes q := by
  obtain ⟨m, hm, h⟩ := accepted_of noLib toks _ h1 h
  unfold changesB reimported at h
  rw [Bool.and_eq_true] at h
  obtain ⟨h2, h⟩ := h
  obtain ⟨td, h3, h4⟩ := List.any_eq_true.1 h2
  rw [Bool.and_eq_true, beq_iff_eq] at h4
  cases hd : exportOasN 9 plainO m with
  | ok d =>
    rw [hd] at h
    dsimp only at h
    cases hs : toSadl d "" with
    | ok m' =>
      rw [hs] at h
      refine ⟨m, d, m', td, hm, ⟨by simp, 9, hd⟩, hs, h3, h4.2, fun td' h5 h6 => ?_⟩
      have := List.all_eq_true.1 h td' h5
      rw [h6, h4.1] at this
      simpa using this
    | _ => rw [hs] at h; simp at h
  | _ => rw [hd] at h; simp at h

/-- The source `type Foo T`, for the tokens of `T`. -/
def typeFoo (t : List Token) : List Token := [sym "type", sym "Foo"] ++ t ++ [nl]

/-- C47 is false: small integers and floating point numbers become others. -/
theorem C47_refuted_numbers (t : String) (ht : t ∈ ["Int8", "Int16", "Float32", "Float64"]) : Changes (fun td => td.ts.type == t) := by
  simp only [List.mem_cons, List.not_mem_nil, or_false] at ht
  rcases ht with rfl | rfl | rfl | rfl
  · exact changes_of (typeFoo [sym "Int8"]) _ (by decide +kernel) (by decide +kernel)
  · exact changes_of (typeFoo [sym "Int16"]) _ (by decide +kernel) (by decide +kernel)
  · exact changes_of (typeFoo [sym "Float32"]) _ (by decide +kernel) (by decide +kernel)
  · exact changes_of (typeFoo [sym "Float64"]) _ (by decide +kernel) (by decide +kernel)

/-- C47 is false: a map becomes a struct. -/
theorem C47_refuted_map : Changes (fun td => td.ts.type == "Map") :=
  changes_of (typeFoo [sym "Map", punct .openAngle, sym "String", punct .comma, sym "String", punct .closeAngle]) _ (by decide +kernel) (by decide +kernel)

/-- C47 is false: a string with values that are all symbols becomes an enumeration. -/
theorem C47_refuted_values : Changes (fun td => td.ts.type == "String") :=
  changes_of (typeFoo [sym "String", punct .openParen, sym "values", punct .equals, punct .openBracket, str "a", punct .comma, str "b", punct .closeBracket,
    punct .closeParen]) _ (by decide +kernel) (by decide +kernel)

/-- C47 is false: an array of a named string type becomes an array of strings. -/
theorem C47_refuted_items : Changes (fun td => td.ts.items == "Name") :=
  changes_of ([sym "type", sym "Name", sym "String", nl] ++ typeFoo [sym "Array", punct .openAngle, sym "Name", punct .closeAngle]) _
    (by decide +kernel) (by decide +kernel)

end Sadl.Props
