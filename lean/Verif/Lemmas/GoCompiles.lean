import Verif.Lemmas.Golang
/-
The generated file respects the rules of Go exactly when the schema is sound.
-/
namespace Sadl
open Sadl.Spec

/-- The names written for a type. -/
def partsOf (ts : TypeSpec) (name : String) : List String :=
  if name = "Array" then [ts.items] else if name = "Map" then [ts.keys, ts.items] else [name]

theorem names_tyOf (m : Model) (conf : GoConf) (ts : TypeSpec) (name x : String) :
    x ∈ GoTyNames (tyOf m conf ts name).1 ↔ ∃ n ∈ partsOf ts name, x ∈ GoTyNames (leafTy m conf n).1 := by
  unfold tyOf partsOf
  split
  · simp [GoTyNames]
  split
  · simp [GoTyNames]
  · simp

theorem packs_tyOf (m : Model) (conf : GoConf) (ts : TypeSpec) (name x : String) :
    x ∈ GoTyPackages (tyOf m conf ts name).1 ↔ ∃ n ∈ partsOf ts name, x ∈ GoTyPackages (leafTy m conf n).1 := by
  unfold tyOf partsOf
  split
  · simp [GoTyPackages]
  split
  · simp [GoTyPackages]
  · simp

theorem notes_tyOf (m : Model) (conf : GoConf) (ts : TypeSpec) (name : String) (x : GoNote) :
    x ∈ (tyOf m conf ts name).2 ↔ ∃ n ∈ partsOf ts name, x ∈ (leafTy m conf n).2 := by
  unfold tyOf partsOf
  split
  · simp
  split
  · simp
  · simp

theorem names_leaf (m : Model) (conf : GoConf) (n x : String) :
    x ∈ GoTyNames (leafTy m conf n).1 ↔ (n ∈ goPrimitives ∧ x = uncapitalize n) ∨
      (n ∉ goPrimitives ∧ x = n ∧ (n = "Decimal" ∨ n = "Timestamp" ∨ n = "UnitValue" → conf.runtime = false)) := by
  unfold leafTy goRuntimeType
  by_cases h1 : n ∈ goPrimitives
  · simp [h1, GoTyNames]
  by_cases h2 : n = "Decimal"
  · cases hr : conf.runtime <;> simp [h1, h2, GoTyNames, goPrimitives]
  by_cases h3 : n = "Timestamp"
  · cases hr : conf.runtime <;> simp [h1, h3, GoTyNames, goPrimitives]
  by_cases h4 : n = "UnitValue"
  · cases hr : conf.runtime <;> simp [h1, h4, GoTyNames, goPrimitives]
  simp only [h1, h2, h3, h4, if_false, false_and, false_or, not_false_eq_true, true_and, false_implies, and_true]
  split <;> simp [GoTyNames]

theorem packs_leaf (m : Model) (conf : GoConf) (n x : String) :
    x ∈ GoTyPackages (leafTy m conf n).1 ↔ (n = "Decimal" ∨ n = "Timestamp" ∨ n = "UnitValue") ∧ conf.runtime = true ∧
      x = "github.com/boynton/sadl" := by
  unfold leafTy goRuntimeType
  by_cases h1 : n ∈ goPrimitives
  · have : ¬ (n = "Decimal" ∨ n = "Timestamp" ∨ n = "UnitValue") := by
      rintro (rfl | rfl | rfl) <;> exact absurd h1 (by decide)
    simp [h1, GoTyPackages, this]
  by_cases h2 : n = "Decimal"
  · cases hr : conf.runtime <;> simp [h2, GoTyPackages, goPrimitives]
  by_cases h3 : n = "Timestamp"
  · cases hr : conf.runtime <;> simp [h3, GoTyPackages, goPrimitives]
  by_cases h4 : n = "UnitValue"
  · cases hr : conf.runtime <;> simp [h4, GoTyPackages, goPrimitives]
  simp only [h1, h2, h3, h4, if_false, false_and, false_or]
  split <;> simp [GoTyPackages]

theorem notes_leaf (m : Model) (conf : GoConf) (n : String) (x : GoNote) :
    x ∈ (leafTy m conf n).2 ↔
      ((n = "Decimal" ∨ n = "Timestamp" ∨ n = "UnitValue") ∧ conf.runtime = true ∧ x = .pack "github.com/boynton/sadl") ∨
      (n = "Decimal" ∧ conf.runtime = false ∧ x = .decimal) ∨ (n = "Timestamp" ∧ conf.runtime = false ∧ x = .timestamp) := by
  unfold leafTy goRuntimeType
  by_cases h1 : n ∈ goPrimitives
  · have h2 : n ≠ "Decimal" := by rintro rfl; exact absurd h1 (by decide)
    have h3 : n ≠ "Timestamp" := by rintro rfl; exact absurd h1 (by decide)
    have h4 : n ≠ "UnitValue" := by rintro rfl; exact absurd h1 (by decide)
    simp [h1, h2, h3, h4]
  by_cases h2 : n = "Decimal"
  · cases hr : conf.runtime <;> simp [h2, goPrimitives]
  by_cases h3 : n = "Timestamp"
  · cases hr : conf.runtime <;> simp [h3, goPrimitives]
  by_cases h4 : n = "UnitValue"
  · cases hr : conf.runtime <;> simp [h4, goPrimitives]
  simp [h1, h2, h3, h4]

/-- The names of types that are written somewhere. -/
def Leaf (s : Schema) (n : String) : Prop :=
  (∃ ts, GoTyped s ts ∧ n ∈ partsOf ts ts.type) ∨
  (∃ td ∈ s.types, td.ts.type = "Array" ∧ n ∈ partsOf td.ts td.ts.items) ∨
  (∃ td ∈ s.types, td.ts.type = "Map" ∧ (n ∈ partsOf td.ts td.ts.keys ∨ n ∈ partsOf td.ts td.ts.items))

/-- Everything in the schema can be written. -/
def GoReady (s : Schema) : Prop := (∀ td ∈ s.types, GoTypeReady s td) ∧ ∀ hd ∈ s.http, GoActionReady s hd

theorem GoReady.typed {s : Schema} (h : GoReady s) {ts : TypeSpec} (ht : GoTyped s ts) : GoWritable s ts := by
  cases ht with
  | field h1 h2 h3 h4 => exact h4 ▸ ((h.1 _ h1).struct h2 _ h3).2
  | variant h1 h2 h3 h4 => exact h4 ▸ ((h.1 _ h1).union h2 _ h3).2
  | input h1 h2 h3 => exact h3 ▸ ((h.2 _ h1).inputs _ h2).2
  | output h1 h2 h3 h4 =>
    obtain ⟨e, he, h5⟩ := (h.2 _ h1).expected
    rw [he] at h2
    injection h2 with h2
    subst h2
    exact h4 ▸ (h5 _ h3).2

theorem leaf_known {s : Schema} (h : GoReady s) {n : String} (hl : Leaf s n) :
    Known s n ∧ n ≠ "Array" ∧ n ≠ "Map" ∧ Mentions s n := by
  rcases hl with ⟨ts, h1, h2⟩ | ⟨td, h1, h2, h3⟩ | ⟨td, h1, h2, h3⟩
  · have hw := h.typed h1
    unfold partsOf at h2
    split at h2
    · next ha =>
      rw [List.mem_singleton] at h2; subst h2
      obtain ⟨k1, k2, k3⟩ := hw.array ha
      exact ⟨k1, k2, k3, .item h1 (.inl ha) rfl⟩
    split at h2
    · next hp =>
      simp only [List.mem_cons, List.not_mem_nil, or_false] at h2
      rcases h2 with rfl | rfl
      · obtain ⟨k1, k2, k3⟩ := (hw.map hp).1
        exact ⟨k1, k2, k3, .key h1 hp rfl⟩
      · obtain ⟨k1, k2, k3⟩ := (hw.map hp).2
        exact ⟨k1, k2, k3, .item h1 (.inr hp) rfl⟩
    · next ha hp =>
      rw [List.mem_singleton] at h2; subst h2
      exact ⟨hw.known, ha, hp, .direct h1 rfl⟩
  · obtain ⟨k1, k2, k3⟩ := (h.1 td h1).array h2
    simp only [partsOf, if_neg k2, if_neg k3, List.mem_singleton] at h3
    subst h3
    exact ⟨k1, k2, k3, .itemOf h1 (.inl h2) rfl⟩
  · obtain ⟨⟨k1, k2, k3⟩, k4, k5⟩ := (h.1 td h1).map h2
    have item : n = td.ts.items → Known s n ∧ n ≠ "Array" ∧ n ≠ "Map" ∧ Mentions s n := by
      rintro rfl
      exact ⟨k1, k2, k3, .itemOf h1 (.inr h2) rfl⟩
    rcases h3 with h3 | h3
    · unfold partsOf at h3
      rw [if_neg k5] at h3
      split at h3
      · exact item (List.mem_singleton.1 h3)
      · next ha =>
        rw [List.mem_singleton] at h3; subst h3
        exact ⟨k4, ha, k5, .keyOf h1 h2 rfl⟩
    · simp only [partsOf, if_neg k2, if_neg k3, List.mem_singleton] at h3
      exact item h3

theorem leaf_of_mentions {s : Schema} {n : String} (ha : n ≠ "Array") (hp : n ≠ "Map") (h : Mentions s n) : Leaf s n := by
  cases h with
  | direct h1 h2 => subst h2; exact .inl ⟨_, h1, by simp [partsOf, ha, hp]⟩
  | item h1 h2 h3 =>
    subst h3
    refine .inl ⟨_, h1, ?_⟩
    rcases h2 with h2 | h2 <;> simp [partsOf, h2]
  | key h1 h2 h3 => subst h3; exact .inl ⟨_, h1, by simp [partsOf, h2]⟩
  | itemOf h1 h2 h3 =>
    subst h3
    rcases h2 with h2 | h2
    · exact .inr (.inl ⟨_, h1, h2, by simp [partsOf, ha, hp]⟩)
    · exact .inr (.inr ⟨_, h1, h2, .inr (by simp [partsOf, ha, hp])⟩)
  | keyOf h1 h2 h3 => subst h3; exact .inr (.inr ⟨_, h1, h2, .inl (by simp [partsOf, ha, hp])⟩)

/-! ### The declarations -/

/-- The declarations of a type. -/
inductive DeclOf (m : Model) (conf : GoConf) (errors : List String) (td : TypeDef) : GoDecl → Prop
  | struct : td.ts.type = "Struct" → DeclOf m conf errors td (.struct td.name (td.ts.fields.map (fieldOf m conf)))
  | union : td.ts.type = "Union" → DeclOf m conf errors td
      (.union td.name (td.ts.variants.map fun v => capitalize v.name) (td.ts.variants.map (variantOf m conf)))
  | error : td.ts.type = "Struct" ∨ td.ts.type = "Union" → td.name ∈ errors → DeclOf m conf errors td (.errorMethod td.name)
  | enum : td.ts.type = "Enum" → DeclOf m conf errors td (.enum td.name (td.ts.elements.map fun e => (e.symbol, goEnumValue e)))
  | string : td.ts.type = "String" → DeclOf m conf errors td (.defn td.name (.ident "string") "")
  | uuid : td.ts.type = "UUID" → DeclOf m conf errors td (.defn td.name (.ident "string") " //UUID")
  | decimal : td.ts.type = "Decimal" → DeclOf m conf errors td (.defn td.name (.ident "Decimal") "")
  | array : td.ts.type = "Array" → DeclOf m conf errors td (.defn td.name (.slice (tyOf m conf td.ts td.ts.items).1) "")
  | map : td.ts.type = "Map" →
      DeclOf m conf errors td (.defn td.name (.map (tyOf m conf td.ts td.ts.keys).1 (tyOf m conf td.ts td.ts.items).1) "")
  | number : td.ts.type ∈ goNumbers → DeclOf m conf errors td (.defn td.name (.ident (uncapitalize td.ts.type)) "")
  | fromString : td.ts.type ∈ goNumbers → DeclOf m conf errors td (.fromString td.name)

theorem mem_declsOf {m : Model} {conf : GoConf} {errors : List String} {td : TypeDef} (hk : td.ts.type ∈ GoKinds) (d : GoDecl) :
    d ∈ (declsOf m conf errors td).1 ↔ DeclOf m conf errors td d := by
  have numbers : td.ts.type ∈ goNumbers → td.ts.type ≠ "Struct" ∧ td.ts.type ≠ "Union" ∧ td.ts.type ≠ "Enum" ∧ td.ts.type ≠ "String" ∧
      td.ts.type ≠ "UUID" ∧ td.ts.type ≠ "Decimal" ∧ td.ts.type ≠ "Array" ∧ td.ts.type ≠ "Map" := by
    intro h
    refine ⟨?_, ?_, ?_, ?_, ?_, ?_, ?_, ?_⟩ <;> intro e <;> rw [e] at h <;> exact absurd h (by decide)
  have errs : d ∈ goErrorMethod errors td.name ↔ td.name ∈ errors ∧ d = .errorMethod td.name := by
    unfold goErrorMethod; split <;> simp [*]
  constructor
  · intro h
    unfold declsOf at h
    split at h
    · next ht =>
      rcases List.mem_cons.1 h with rfl | h
      · exact .struct ht
      · obtain ⟨h1, rfl⟩ := errs.1 h
        exact .error (.inl ht) h1
    split at h
    · next ht =>
      rcases List.mem_cons.1 h with rfl | h
      · exact .union ht
      · obtain ⟨h1, rfl⟩ := errs.1 h
        exact .error (.inr ht) h1
    split at h
    · next ht => rw [List.mem_singleton.1 h]; exact .enum ht
    split at h
    · next ht => rw [List.mem_singleton.1 h]; exact .string ht
    split at h
    · next ht => rw [List.mem_singleton.1 h]; exact .uuid ht
    split at h
    · next ht => rw [List.mem_singleton.1 h]; exact .decimal ht
    split at h
    · next ht => rw [List.mem_singleton.1 h]; exact .array ht
    split at h
    · next ht => rw [List.mem_singleton.1 h]; exact .map ht
    · next h1 h2 h3 h4 h5 h6 h7 h8 =>
      have hn : td.ts.type ∈ goNumbers := by
        have := goKinds_split.1 hk
        simp_all
      simp only [List.mem_cons, List.not_mem_nil, or_false] at h
      rcases h with rfl | rfl
      · exact .number hn
      · exact .fromString hn
  · intro h
    cases h with
    | struct ht => simp [declsOf, ht]
    | union ht => simp [declsOf, ht]
    | error ht h1 => rcases ht with ht | ht <;> simp [declsOf, ht, goErrorMethod, h1]
    | enum ht => simp [declsOf, ht]
    | string ht => simp [declsOf, ht]
    | uuid ht => simp [declsOf, ht]
    | decimal ht => simp [declsOf, ht]
    | array ht => simp [declsOf, ht]
    | map ht => simp [declsOf, ht]
    | number ht =>
      obtain ⟨h1, h2, h3, h4, h5, h6, h7, h8⟩ := numbers ht
      simp [declsOf, h1, h2, h3, h4, h5, h6, h7, h8]
    | fromString ht =>
      obtain ⟨h1, h2, h3, h4, h5, h6, h7, h8⟩ := numbers ht
      simp [declsOf, h1, h2, h3, h4, h5, h6, h7, h8]

/-- The declarations of a file. -/
inductive DeclIn (m : Model) (conf : GoConf) : GoDecl → Prop
  | iface : DeclIn m conf (.iface conf.name (m.schema.http.map fun hd => capitalize hd.name))
  | request {hd} : hd ∈ m.schema.http → DeclIn m conf (.struct (capitalize hd.name ++ "Request") (hd.inputs.map fun p => fieldOf m conf p.field))
  | response {hd} : hd ∈ m.schema.http → DeclIn m conf (.struct (capitalize hd.name ++ "Response") ((outputsOf hd).map fun p => fieldOf m conf p.field))
  | heading {td} : td ∈ m.schema.types → DeclIn m conf (.heading td.name)
  | type {td d} : td ∈ m.schema.types → DeclOf m conf (exceptionsOf m.schema) td d → DeclIn m conf d
  | timestamp : .timestamp ∈ notesOf m conf → DeclIn m conf .timestamp
  | decimal : .decimal ∈ notesOf m conf → DeclIn m conf .decimal

theorem mem_decls {m : Model} {conf : GoConf} (hr : GoReady m.schema) (d : GoDecl) : d ∈ (fileOf m conf).decls ↔ DeclIn m conf d := by
  have hc : d ∈ (goClosing (notesOf m conf)).1 ↔ (.timestamp ∈ notesOf m conf ∧ d = .timestamp) ∨ (.decimal ∈ notesOf m conf ∧ d = .decimal) := by
    unfold goClosing
    by_cases h1 : GoNote.timestamp ∈ notesOf m conf <;> by_cases h2 : GoNote.decimal ∈ notesOf m conf <;> simp [h1, h2]
  unfold fileOf
  simp only [List.cons_append, List.mem_cons, List.mem_append, List.mem_flatMap, hc, actionDecls, List.not_mem_nil, or_false]
  constructor
  · rintro (rfl | (⟨hd, h1, rfl | rfl⟩ | ⟨td, h1, rfl | h2⟩) | ⟨h1, rfl⟩ | ⟨h1, rfl⟩)
    · exact .iface
    · exact .request h1
    · exact .response h1
    · exact .heading h1
    · exact .type h1 ((mem_declsOf (hr.1 td h1).kind d).1 h2)
    · exact .timestamp h1
    · exact .decimal h1
  · intro h
    cases h with
    | iface => exact .inl rfl
    | request h => exact .inr (.inl (.inl ⟨_, h, .inl rfl⟩))
    | response h => exact .inr (.inl (.inl ⟨_, h, .inr rfl⟩))
    | heading h => exact .inr (.inl (.inr ⟨_, h, .inl rfl⟩))
    | type h1 h2 => exact .inr (.inl (.inr ⟨_, h1, .inr ((mem_declsOf (hr.1 _ h1).kind d).2 h2)⟩))
    | timestamp h => exact .inr (.inr (.inl ⟨h, rfl⟩))
    | decimal h => exact .inr (.inr (.inr ⟨h, rfl⟩))

/-! ### Which names, packages and notes there are -/

theorem typed_iff {s : Schema} (hr : GoReady s) (P : TypeSpec → Prop) :
    (∃ ts, GoTyped s ts ∧ P ts) ↔ (∃ td ∈ s.types, td.ts.type = "Struct" ∧ ∃ f ∈ td.ts.fields, P f.ts) ∨
      (∃ td ∈ s.types, td.ts.type = "Union" ∧ ∃ v ∈ td.ts.variants, P v.ts) ∨
      (∃ h ∈ s.http, (∃ p ∈ h.inputs, P p.field.ts) ∨ ∃ p ∈ outputsOf h, P p.field.ts) := by
  constructor
  · rintro ⟨ts, h, hP⟩
    cases h with
    | field h1 h2 h3 h4 => exact .inl ⟨_, h1, h2, _, h3, h4 ▸ hP⟩
    | variant h1 h2 h3 h4 => exact .inr (.inl ⟨_, h1, h2, _, h3, h4 ▸ hP⟩)
    | input h1 h2 h3 => exact .inr (.inr ⟨_, h1, .inl ⟨_, h2, h3 ▸ hP⟩⟩)
    | output h1 h2 h3 h4 => exact .inr (.inr ⟨_, h1, .inr ⟨_, by simpa [outputsOf, h2] using h3, h4 ▸ hP⟩⟩)
  · rintro (⟨td, h1, h2, f, h3, hP⟩ | ⟨td, h1, h2, f, h3, hP⟩ | ⟨h, h1, ⟨p, h2, hP⟩ | ⟨p, h2, hP⟩⟩)
    · exact ⟨_, .field h1 h2 h3 rfl, hP⟩
    · exact ⟨_, .variant h1 h2 h3 rfl, hP⟩
    · exact ⟨_, .input h1 h2 rfl, hP⟩
    · obtain ⟨e, he, _⟩ := (hr.2 h h1).expected
      exact ⟨_, .output h1 he (by simpa [outputsOf, he] using h2) rfl, hP⟩

/-- The types written, as a disjunction over the places where they are written. -/
theorem leaf_iff {s : Schema} (hr : GoReady s) (P : String → Prop) :
    (∃ n, Leaf s n ∧ P n) ↔ ((∃ td ∈ s.types, td.ts.type = "Struct" ∧ ∃ f ∈ td.ts.fields, ∃ n ∈ partsOf f.ts f.ts.type, P n) ∨
      (∃ td ∈ s.types, td.ts.type = "Union" ∧ ∃ v ∈ td.ts.variants, ∃ n ∈ partsOf v.ts v.ts.type, P n) ∨
      (∃ h ∈ s.http, (∃ p ∈ h.inputs, ∃ n ∈ partsOf p.field.ts p.field.ts.type, P n) ∨ ∃ p ∈ outputsOf h, ∃ n ∈ partsOf p.field.ts p.field.ts.type, P n)) ∨
      (∃ td ∈ s.types, td.ts.type = "Array" ∧ ∃ n ∈ partsOf td.ts td.ts.items, P n) ∨
      (∃ td ∈ s.types, td.ts.type = "Map" ∧ ((∃ n ∈ partsOf td.ts td.ts.keys, P n) ∨ ∃ n ∈ partsOf td.ts td.ts.items, P n)) := by
  rw [← typed_iff hr fun ts => ∃ n ∈ partsOf ts ts.type, P n]
  unfold Leaf
  constructor
  · rintro ⟨n, ⟨ts, h1, h2⟩ | ⟨td, h1, h2, h3⟩ | ⟨td, h1, h2, h3 | h3⟩, hP⟩
    · exact .inl ⟨ts, h1, n, h2, hP⟩
    · exact .inr (.inl ⟨td, h1, h2, n, h3, hP⟩)
    · exact .inr (.inr ⟨td, h1, h2, .inl ⟨n, h3, hP⟩⟩)
    · exact .inr (.inr ⟨td, h1, h2, .inr ⟨n, h3, hP⟩⟩)
  · rintro (⟨ts, h1, n, h2, hP⟩ | ⟨td, h1, h2, n, h3, hP⟩ | ⟨td, h1, h2, ⟨n, h3, hP⟩ | ⟨n, h3, hP⟩⟩)
    · exact ⟨n, .inl ⟨ts, h1, h2⟩, hP⟩
    · exact ⟨n, .inr (.inl ⟨td, h1, h2, h3⟩), hP⟩
    · exact ⟨n, .inr (.inr ⟨td, h1, h2, .inl h3⟩), hP⟩
    · exact ⟨n, .inr (.inr ⟨td, h1, h2, .inr h3⟩), hP⟩

/-- The type expressions in a declaration, mapped by `F`. -/
def tyUses (F : GoTy → List String) : GoDecl → List String
  | .struct _ fs => fs.flatMap fun f => F f.type
  | .union _ _ fs => fs.flatMap fun f => F f.type
  | .defn _ t _ => F t
  | _ => []

theorem mem_tyUses {m : Model} {conf : GoConf} (hr : GoReady m.schema) (F : GoTy → List String)
    (hF : ∀ ts name x, x ∈ F (tyOf m conf ts name).1 ↔ ∃ n ∈ partsOf ts name, x ∈ F (leafTy m conf n).1)
    (hs : ∀ t, F (.slice t) = F t) (hp : ∀ k t, F (.map k t) = F k ++ F t) (x : String) :
    (∃ d, DeclIn m conf d ∧ x ∈ tyUses F d) ↔ (∃ n, Leaf m.schema n ∧ x ∈ F (leafTy m conf n).1) ∨
      (∃ td ∈ m.schema.types, ((td.ts.type = "String" ∨ td.ts.type = "UUID") ∧ x ∈ F (.ident "string")) ∨
        (td.ts.type = "Decimal" ∧ x ∈ F (.ident "Decimal")) ∨ (td.ts.type ∈ goNumbers ∧ x ∈ F (.ident (uncapitalize td.ts.type)))) := by
  rw [leaf_iff hr]
  constructor
  · rintro ⟨d, hd, hx⟩
    cases hd with
    | iface => cases hx
    | heading _ => cases hx
    | timestamp _ => cases hx
    | decimal _ => cases hx
    | request h =>
      simp only [tyUses, List.flatMap_map, List.mem_flatMap, fieldOf, hF] at hx
      exact .inl (.inl (.inr (.inr ⟨_, h, .inl hx⟩)))
    | response h =>
      simp only [tyUses, List.flatMap_map, List.mem_flatMap, fieldOf, hF] at hx
      exact .inl (.inl (.inr (.inr ⟨_, h, .inr hx⟩)))
    | type h1 h2 =>
      cases h2 with
      | struct h =>
        simp only [tyUses, List.flatMap_map, List.mem_flatMap, fieldOf, hF] at hx
        exact .inl (.inl (.inl ⟨_, h1, h, hx⟩))
      | union h =>
        simp only [tyUses, List.flatMap_map, List.mem_flatMap, variantOf, hF] at hx
        exact .inl (.inl (.inr (.inl ⟨_, h1, h, hx⟩)))
      | error _ _ => cases hx
      | enum _ => cases hx
      | fromString _ => cases hx
      | string h => exact .inr ⟨_, h1, .inl ⟨.inl h, hx⟩⟩
      | uuid h => exact .inr ⟨_, h1, .inl ⟨.inr h, hx⟩⟩
      | decimal h => exact .inr ⟨_, h1, .inr (.inl ⟨h, hx⟩)⟩
      | number h => exact .inr ⟨_, h1, .inr (.inr ⟨h, hx⟩)⟩
      | array h =>
        simp only [tyUses, hs, hF] at hx
        exact .inl (.inr (.inl ⟨_, h1, h, hx⟩))
      | map h =>
        simp only [tyUses, hp, List.mem_append, hF] at hx
        exact .inl (.inr (.inr ⟨_, h1, h, hx⟩))
  · rintro (((⟨td, h1, h, hx⟩ | ⟨td, h1, h, hx⟩ | ⟨hd, h, hx | hx⟩) | ⟨td, h1, h, hx⟩ | ⟨td, h1, h, hx⟩) | ⟨td, h1, ⟨h | h, hx⟩ | ⟨h, hx⟩ | ⟨h, hx⟩⟩)
    · exact ⟨_, .type h1 (.struct h), by simpa only [tyUses, List.flatMap_map, List.mem_flatMap, fieldOf, hF] using hx⟩
    · exact ⟨_, .type h1 (.union h), by simpa only [tyUses, List.flatMap_map, List.mem_flatMap, variantOf, hF] using hx⟩
    · exact ⟨_, .request h, by simpa only [tyUses, List.flatMap_map, List.mem_flatMap, fieldOf, hF] using hx⟩
    · exact ⟨_, .response h, by simpa only [tyUses, List.flatMap_map, List.mem_flatMap, fieldOf, hF] using hx⟩
    · exact ⟨_, .type h1 (.array h), by simpa only [tyUses, hs, hF] using hx⟩
    · exact ⟨_, .type h1 (.map h), by simpa only [tyUses, hp, List.mem_append, hF] using hx⟩
    · exact ⟨_, .type h1 (.string h), hx⟩
    · exact ⟨_, .type h1 (.uuid h), hx⟩
    · exact ⟨_, .type h1 (.decimal h), hx⟩
    · exact ⟨_, .type h1 (.number h), hx⟩

theorem mem_notes_type {m : Model} {conf : GoConf} {errors : List String} {td : TypeDef} (hk : td.ts.type ∈ GoKinds) (x : GoNote) :
    x ∈ (declsOf m conf errors td).2 ↔
      (td.ts.type = "Struct" ∧ ∃ f ∈ td.ts.fields, ∃ n ∈ partsOf f.ts f.ts.type, x ∈ (leafTy m conf n).2) ∨
      (td.ts.type = "Union" ∧ ∃ v ∈ td.ts.variants, ∃ n ∈ partsOf v.ts v.ts.type, x ∈ (leafTy m conf n).2) ∨
      (td.ts.type = "Array" ∧ ∃ n ∈ partsOf td.ts td.ts.items, x ∈ (leafTy m conf n).2) ∨
      (td.ts.type = "Map" ∧ ((∃ n ∈ partsOf td.ts td.ts.keys, x ∈ (leafTy m conf n).2) ∨ ∃ n ∈ partsOf td.ts td.ts.items, x ∈ (leafTy m conf n).2)) ∨
      (td.ts.type = "Decimal" ∧ x = .decimal) ∨ (td.ts.type ∈ goNumbers ∧ x = .pack "strconv") := by
  rcases goKinds_split.1 hk with h | h | h | h | h | h | h | h | h
  · simp [declsOf, h, notes_tyOf, goNumbers]
  · simp [declsOf, h, notes_tyOf, goNumbers]
  · simp [declsOf, h, goNumbers]
  · simp [declsOf, h, goNumbers]
  · simp [declsOf, h, goNumbers]
  · simp [declsOf, h, goNumbers]
  · simp [declsOf, h, notes_tyOf, goNumbers]
  · simp [declsOf, h, notes_tyOf, goNumbers]
  · have hn := h
    simp only [goNumbers, List.mem_cons, List.not_mem_nil, or_false] at h
    rcases h with h | h | h | h | h | h <;> simp [declsOf, h, goNumbers]

theorem mem_notes {m : Model} {conf : GoConf} (hr : GoReady m.schema) (x : GoNote) :
    x ∈ notesOf m conf ↔ (∃ n, Leaf m.schema n ∧ x ∈ (leafTy m conf n).2) ∨
      (x = .decimal ∧ ∃ td ∈ m.schema.types, td.ts.type = "Decimal") ∨ (x = .pack "strconv" ∧ ∃ td ∈ m.schema.types, td.ts.type ∈ goNumbers) := by
  rw [leaf_iff hr]
  unfold notesOf
  simp only [List.mem_append, List.mem_flatMap, actionDecls, notes_tyOf]
  constructor
  · rintro (⟨hd, h, hx | hx⟩ | ⟨td, h, hx⟩)
    · exact .inl (.inl (.inr (.inr ⟨hd, h, .inl hx⟩)))
    · exact .inl (.inl (.inr (.inr ⟨hd, h, .inr hx⟩)))
    · rcases (mem_notes_type (hr.1 td h).kind x).1 hx with hx | hx | hx | hx | hx | hx
      · exact .inl (.inl (.inl ⟨td, h, hx⟩))
      · exact .inl (.inl (.inr (.inl ⟨td, h, hx⟩)))
      · exact .inl (.inr (.inl ⟨td, h, hx⟩))
      · exact .inl (.inr (.inr ⟨td, h, hx⟩))
      · exact .inr (.inl ⟨hx.2, td, h, hx.1⟩)
      · exact .inr (.inr ⟨hx.2, td, h, hx.1⟩)
  · rintro (((⟨td, h, hx⟩ | ⟨td, h, hx⟩ | ⟨hd, h, hx | hx⟩) | ⟨td, h, hx⟩ | ⟨td, h, hx⟩) | ⟨rfl, td, h, hx⟩ | ⟨rfl, td, h, hx⟩)
    · exact .inr ⟨td, h, (mem_notes_type (hr.1 td h).kind x).2 (.inl hx)⟩
    · exact .inr ⟨td, h, (mem_notes_type (hr.1 td h).kind x).2 (.inr (.inl hx))⟩
    · exact .inl ⟨hd, h, .inl hx⟩
    · exact .inl ⟨hd, h, .inr hx⟩
    · exact .inr ⟨td, h, (mem_notes_type (hr.1 td h).kind x).2 (.inr (.inr (.inl hx)))⟩
    · exact .inr ⟨td, h, (mem_notes_type (hr.1 td h).kind x).2 (.inr (.inr (.inr (.inl hx))))⟩
    · exact .inr ⟨td, h, (mem_notes_type (hr.1 td h).kind _).2 (.inr (.inr (.inr (.inr (.inl ⟨hx, rfl⟩)))))⟩
    · exact .inr ⟨td, h, (mem_notes_type (hr.1 td h).kind _).2 (.inr (.inr (.inr (.inr (.inr ⟨hx, rfl⟩)))))⟩

theorem leaf_named {s : Schema} (hr : GoReady s) {n : String} (ha : n ≠ "Array") (hp : n ≠ "Map") : Leaf s n ↔ Mentions s n :=
  ⟨fun h => (leaf_known hr h).2.2.2, leaf_of_mentions ha hp⟩

theorem decimal_noted {m : Model} {conf : GoConf} (hr : GoReady m.schema) : .decimal ∈ notesOf m conf ↔ WritesDecimal conf.runtime m.schema := by
  rw [mem_notes hr]
  unfold WritesDecimal
  simp only [notes_leaf, reduceCtorEq, and_false, false_or, and_true, or_false, true_and, false_and, ← leaf_named hr (show "Decimal" ≠ "Array" by decide) (by decide)]
  constructor
  · rintro (⟨n, h, rfl, h2⟩ | h)
    · exact .inr ⟨h2, h⟩
    · exact .inl h
  · rintro (h | ⟨h2, h⟩)
    · exact .inr h
    · exact .inl ⟨_, h, rfl, h2⟩

theorem timestamp_noted {m : Model} {conf : GoConf} (hr : GoReady m.schema) : .timestamp ∈ notesOf m conf ↔ WritesTimestamp conf.runtime m.schema := by
  rw [mem_notes hr]
  unfold WritesTimestamp
  simp only [notes_leaf, reduceCtorEq, and_false, false_or, and_true, or_false, true_and, false_and, ← leaf_named hr (show "Timestamp" ≠ "Array" by decide) (by decide)]
  constructor
  · rintro ⟨n, h, rfl, h2⟩
    exact ⟨h2, h⟩
  · rintro ⟨h2, h⟩
    exact ⟨_, h, rfl, h2⟩

theorem mem_adjoin (l : List String) (v x : String) : x ∈ adjoin l v ↔ x ∈ l ∨ x = v := by
  unfold adjoin
  split
  · next h => exact ⟨.inl, fun h' => h'.elim id (fun e => e ▸ h)⟩
  · simp

theorem mem_goImports (notes : List GoNote) (p : String) : p ∈ goImports notes ↔ .pack p ∈ notes := by
  have : ∀ l, p ∈ notes.foldl addImport l ↔ p ∈ l ∨ .pack p ∈ notes := by
    induction notes with
    | nil => simp
    | cons n notes ih =>
      intro l
      rw [List.foldl_cons, ih]
      cases n with
      | pack q =>
        simp only [addImport, mem_adjoin, List.mem_cons, GoNote.pack.injEq]
        tauto
      | decimal => simp [addImport]
      | timestamp => simp [addImport]
  simpa [goImports] using this []

theorem goImports_nodup (notes : List GoNote) : (goImports notes).Nodup := by
  have : ∀ l : List String, l.Nodup → (notes.foldl addImport l).Nodup := by
    induction notes with
    | nil => exact fun l h => h
    | cons n notes ih =>
      intro l h
      rw [List.foldl_cons]
      apply ih
      cases n with
      | pack q =>
        show (adjoin l q).Nodup
        unfold adjoin
        split
        · exact h
        · next hq =>
          rw [List.nodup_append]
          exact ⟨h, by simp, fun a ha b hb e => hq (by rw [List.mem_singleton] at hb; exact hb ▸ e ▸ ha)⟩
      | decimal => exact h
      | timestamp => exact h
  exact this [] (by simp)

/-- The imports, as packages used by what is written. -/
theorem mem_imports {m : Model} {conf : GoConf} (hr : GoReady m.schema) (p : String) :
    p ∈ (fileOf m conf).imports ↔ (∃ n, Leaf m.schema n ∧ p ∈ GoTyPackages (leafTy m conf n).1) ∨
      (p = "strconv" ∧ ∃ td ∈ m.schema.types, td.ts.type ∈ goNumbers) ∨
      (.timestamp ∈ notesOf m conf ∧ p ∈ ["encoding/json", "fmt", "strings", "time"]) ∨
      (.decimal ∈ notesOf m conf ∧ p ∈ ["encoding/json", "fmt", "math/big"]) := by
  unfold fileOf
  dsimp only
  rw [mem_goImports, List.mem_append, mem_notes hr]
  have hc : .pack p ∈ (goClosing (notesOf m conf)).2 ↔ (.timestamp ∈ notesOf m conf ∧ p ∈ ["encoding/json", "fmt", "strings", "time"]) ∨
      (.decimal ∈ notesOf m conf ∧ p ∈ ["encoding/json", "fmt", "math/big"]) := by
    unfold goClosing
    by_cases h1 : GoNote.timestamp ∈ notesOf m conf <;> by_cases h2 : GoNote.decimal ∈ notesOf m conf <;>
      simp [h1, h2, goTimestampNotes, goDecimalNotes, or_assoc]
  rw [hc]
  simp only [notes_leaf, packs_leaf, reduceCtorEq, and_false, false_or, or_false, false_and, GoNote.pack.injEq, or_assoc]

theorem mem_usedPackages {m : Model} {conf : GoConf} (hr : GoReady m.schema) (p : String) :
    (∃ d ∈ (fileOf m conf).decls, p ∈ UsedPackages d) ↔ (∃ n, Leaf m.schema n ∧ p ∈ GoTyPackages (leafTy m conf n).1) ∨
      (p = "strconv" ∧ ∃ td ∈ m.schema.types, td.ts.type ∈ goNumbers) ∨
      (.timestamp ∈ notesOf m conf ∧ p ∈ ["encoding/json", "fmt", "strings", "time"]) ∨
      (.decimal ∈ notesOf m conf ∧ p ∈ ["encoding/json", "fmt", "math/big"]) ∨
      (p ∈ ["encoding/json", "fmt"] ∧ ∃ td ∈ m.schema.types, td.ts.type = "Enum") := by
  have hu := mem_tyUses (conf := conf) hr GoTyPackages (packs_tyOf m conf) (fun _ => rfl) (fun _ _ => rfl) p
  have e1 : ∀ n, p ∉ GoTyPackages (.ident n) := fun n h => by cases h
  simp only [e1, and_false, or_false, exists_false] at hu
  constructor
  · rintro ⟨d, hd, hx⟩
    have hd' := (mem_decls hr d).1 hd
    cases d with
    | struct n fs => exact .inl (hu.1 ⟨_, hd', hx⟩)
    | union n t fs => exact .inl (hu.1 ⟨_, hd', hx⟩)
    | defn n t o => exact .inl (hu.1 ⟨_, hd', hx⟩)
    | heading n => cases hx
    | iface n ms => cases hx
    | errorMethod n => cases hx
    | timestamp =>
      cases hd' with
      | timestamp h => exact .inr (.inr (.inl ⟨h, hx⟩))
      | type h1 h2 => cases h2
    | decimal =>
      cases hd' with
      | decimal h => exact .inr (.inr (.inr (.inl ⟨h, hx⟩)))
      | type h1 h2 => cases h2
    | enum n els =>
      cases hd' with
      | type h1 h2 =>
        cases h2 with
        | enum h => exact .inr (.inr (.inr (.inr ⟨hx, _, h1, h⟩)))
    | fromString n =>
      cases hd' with
      | type h1 h2 =>
        cases h2 with
        | fromString h => exact .inr (.inl ⟨List.mem_singleton.1 hx, _, h1, h⟩)
  · rintro (h | ⟨rfl, td, h1, h2⟩ | ⟨h1, h2⟩ | ⟨h1, h2⟩ | ⟨h1, td, h2, h3⟩)
    · obtain ⟨d, h1, h2⟩ := hu.2 h
      refine ⟨d, (mem_decls hr d).2 h1, ?_⟩
      cases d <;> first | exact h2 | cases h2
    · exact ⟨_, (mem_decls hr _).2 (.type h1 (.fromString h2)), by simp [UsedPackages]⟩
    · exact ⟨_, (mem_decls hr _).2 (.timestamp h1), h2⟩
    · exact ⟨_, (mem_decls hr _).2 (.decimal h1), h2⟩
    · exact ⟨_, (mem_decls hr _).2 (.type h2 (.enum h3)), h1⟩

theorem packages_iff {m : Model} {conf : GoConf} (hr : GoReady m.schema) :
    (∀ p, p ∈ (fileOf m conf).imports ↔ ∃ d ∈ (fileOf m conf).decls, p ∈ UsedPackages d) ↔
      ((∃ td ∈ m.schema.types, td.ts.type = "Enum") → WritesDecimal conf.runtime m.schema ∨ WritesTimestamp conf.runtime m.schema) := by
  simp only [mem_imports hr, mem_usedPackages hr, decimal_noted hr, timestamp_noted hr]
  constructor
  · intro h he
    rcases (h "fmt").2 (.inr (.inr (.inr (.inr ⟨by simp, he⟩)))) with ⟨n, _, h2⟩ | ⟨h1, _⟩ | ⟨h1, _⟩ | ⟨h1, _⟩
    · rw [packs_leaf] at h2
      exact absurd h2.2.2 (by decide)
    · exact absurd h1 (by decide)
    · exact .inr h1
    · exact .inl h1
  · intro h p
    constructor
    · rintro (h | h | h | h)
      · exact .inl h
      · exact .inr (.inl h)
      · exact .inr (.inr (.inl h))
      · exact .inr (.inr (.inr (.inl h)))
    · rintro (h1 | h1 | h1 | h1 | ⟨h1, h2⟩)
      · exact .inl h1
      · exact .inr (.inl h1)
      · exact .inr (.inr (.inl h1))
      · exact .inr (.inr (.inr h1))
      · rcases h h2 with h | h
        · refine .inr (.inr (.inr ⟨h, ?_⟩))
          simp only [List.mem_cons, List.not_mem_nil, or_false] at h1 ⊢
          tauto
        · refine .inr (.inr (.inl ⟨h, ?_⟩))
          simp only [List.mem_cons, List.not_mem_nil, or_false] at h1 ⊢
          tauto

/-! ### Resolved types -/

theorem suffix_ne {b : String} (x t : String) (h : (b.toList.reverse.take t.toList.length) ≠ t.toList.reverse) : b ≠ x ++ t := by
  rintro rfl
  apply h
  rw [String.toList_append, List.reverse_append, List.take_append_of_le_length (by simp), List.take_of_length_le (by simp)]

theorem not_base_suffix (x t : String) (ht : ∀ b ∈ BaseTypes, (b.toList.reverse.take t.toList.length) ≠ t.toList.reverse) : x ++ t ∉ BaseTypes :=
  fun h => suffix_ne x t (ht _ h) rfl

theorem request_not_base (x : String) : x ++ "Request" ∉ BaseTypes := not_base_suffix x _ (by decide)
theorem response_not_base (x : String) : x ++ "Response" ∉ BaseTypes := not_base_suffix x _ (by decide)
theorem tag_not_base (x : String) : x ++ "VariantTag" ∉ BaseTypes := not_base_suffix x _ (by decide)

theorem prim_predeclared {n : String} (h : n ∈ goPrimitives) : uncapitalize n ∈ GoPredeclared := by
  simp only [goPrimitives, List.mem_cons, List.not_mem_nil, or_false] at h
  rcases h with rfl | rfl | rfl | rfl | rfl | rfl | rfl | rfl <;> decide +kernel

theorem number_prim {n : String} (h : n ∈ goNumbers) : n ∈ goPrimitives := by
  simp only [goNumbers, List.mem_cons, List.not_mem_nil, or_false] at h
  rcases h with rfl | rfl | rfl | rfl | rfl | rfl <;> decide

/-- A type of the schema is declared by what is written for it. -/
theorem type_declared {m : Model} {conf : GoConf} (hr : GoReady m.schema) {td : TypeDef} (h : td ∈ m.schema.types) :
    ∃ d, DeclOf m conf (exceptionsOf m.schema) td d ∧ td.name ∈ DeclaredTypes d ∧ InnerNames d = GoFieldsOf td := by
  rcases goKinds_split.1 (hr.1 td h).kind with k | k | k | k | k | k | k | k | k
  · exact ⟨_, .struct k, by simp [DeclaredTypes], by simp [InnerNames, GoFieldsOf, k, fieldOf, Function.comp_def]⟩
  · exact ⟨_, .union k, by simp [DeclaredTypes], by simp [InnerNames, GoFieldsOf, k, variantOf, Function.comp_def]⟩
  · exact ⟨_, .enum k, by simp [DeclaredTypes], by simp [InnerNames, GoFieldsOf, k]⟩
  · exact ⟨_, .string k, by simp [DeclaredTypes], by simp [InnerNames, GoFieldsOf, k]⟩
  · exact ⟨_, .uuid k, by simp [DeclaredTypes], by simp [InnerNames, GoFieldsOf, k]⟩
  · exact ⟨_, .decimal k, by simp [DeclaredTypes], by simp [InnerNames, GoFieldsOf, k]⟩
  · exact ⟨_, .array k, by simp [DeclaredTypes], by simp [InnerNames, GoFieldsOf, k]⟩
  · exact ⟨_, .map k, by simp [DeclaredTypes], by simp [InnerNames, GoFieldsOf, k]⟩
  · refine ⟨_, .number k, by simp [DeclaredTypes], ?_⟩
    simp only [goNumbers, List.mem_cons, List.not_mem_nil, or_false] at k
    rcases k with k | k | k | k | k | k <;> simp [InnerNames, GoFieldsOf, k]

section
variable {m : Model} (hm : newModel m.schema = .ok m) {conf : GoConf} (hr : GoReady m.schema)
include hm

/-- The built-in names that a file declares. -/
theorem declared_base {n : String} (hn : n ∈ BaseTypes) (hc : conf.name ∉ BaseTypes) {d : GoDecl} (hd : DeclIn m conf d) (h : n ∈ DeclaredTypes d) :
    n = "Timestamp" ∨ n = "Decimal" := by
  have hnb : ∀ td ∈ m.schema.types, td.name ∉ BaseTypes := fun td htd => ((newModel_ok_iff _ _).1 hm).2.1 td htd
  cases hd with
  | iface => simp only [DeclaredTypes, List.mem_singleton] at h; exact absurd (h ▸ hn) hc
  | request _ => simp only [DeclaredTypes, List.mem_singleton] at h; exact absurd (h ▸ hn) (request_not_base _)
  | response _ => simp only [DeclaredTypes, List.mem_singleton] at h; exact absurd (h ▸ hn) (response_not_base _)
  | heading _ => cases h
  | timestamp _ => simp only [DeclaredTypes, List.mem_singleton] at h; exact .inl h
  | decimal _ => simp only [DeclaredTypes, List.mem_singleton] at h; exact .inr h
  | type h1 h2 =>
    cases h2 <;> simp only [DeclaredTypes, List.mem_cons, List.not_mem_nil, or_false] at h
    case union _ =>
      rcases h with h | h
      · exact absurd (h ▸ hn) (tag_not_base _)
      · exact absurd (h ▸ hn) (hnb _ h1)
    all_goals exact absurd (h ▸ hn) (hnb _ h1)

include hr

theorem resolved_iff (hc : conf.name ∉ BaseTypes) :
    (∀ d ∈ (fileOf m conf).decls, ∀ n ∈ UsedTypes d, n ∈ GoPredeclared ∨ ∃ d' ∈ (fileOf m conf).decls, n ∈ DeclaredTypes d') ↔
      (∀ n ∈ ["UUID", "Bytes", "Any", "Struct", "Enum", "Union"], ¬ Mentions m.schema n) ∧
      (Mentions m.schema "UnitValue" → conf.runtime = true) := by
  have hu := mem_tyUses (conf := conf) hr GoTyNames (names_tyOf m conf) (fun _ => rfl) (fun _ _ => rfl)
  constructor
  · intro h
    have key : ∀ n ∈ BaseTypes, n ∉ goPrimitives → n ∉ GoPredeclared → n ≠ "Array" → n ≠ "Map" → n ≠ "Decimal" → n ≠ "Timestamp" →
        (n = "UnitValue" → conf.runtime = false) → ¬ Mentions m.schema n := by
      intro n hb hp hpd ha hmap hdec htst hrt hmen
      obtain ⟨d, h1, h2⟩ := (hu n).2 (.inl ⟨n, leaf_of_mentions ha hmap hmen, (names_leaf m conf n n).2 (.inr ⟨hp, rfl, by
        rintro (h | h | h)
        · exact absurd h hdec
        · exact absurd h htst
        · exact hrt h⟩)⟩)
      have h2' : n ∈ UsedTypes d := by cases d <;> first | exact h2 | cases h2
      rcases h d ((mem_decls hr d).2 h1) n h2' with h3 | ⟨d', h3, h4⟩
      · exact hpd h3
      · rcases declared_base hm hb hc ((mem_decls hr d').1 h3) h4 with h5 | h5
        · exact htst h5
        · exact hdec h5
    refine ⟨?_, ?_⟩
    · intro n hn
      simp only [List.mem_cons, List.not_mem_nil, or_false] at hn
      rcases hn with rfl | rfl | rfl | rfl | rfl | rfl <;>
        exact key _ (by decide) (by decide) (by decide) (by decide) (by decide) (by decide) (by decide) (fun h => absurd h (by decide))
    · intro hmen
      by_contra hrt
      exact key "UnitValue" (by decide) (by decide) (by decide) (by decide) (by decide) (by decide) (by decide) (fun _ => by simpa using hrt) hmen
  · rintro ⟨h1, h2⟩ d hd n hn
    have hd' := (mem_decls hr d).1 hd
    have hdecl : ∀ td ∈ m.schema.types, ∃ d' ∈ (fileOf m conf).decls, td.name ∈ DeclaredTypes d' := by
      intro td htd
      obtain ⟨d', k1, k2, _⟩ := type_declared (conf := conf) hr htd
      exact ⟨d', (mem_decls hr d').2 (.type htd k1), k2⟩
    have hdec : WritesDecimal conf.runtime m.schema → ∃ d' ∈ (fileOf m conf).decls, "Decimal" ∈ DeclaredTypes d' := fun hw =>
      ⟨.decimal, (mem_decls hr _).2 (.decimal ((decimal_noted hr).2 hw)), by simp [DeclaredTypes]⟩
    have viaTy : (∃ d, DeclIn m conf d ∧ n ∈ tyUses GoTyNames d) → n ∈ GoPredeclared ∨ ∃ d' ∈ (fileOf m conf).decls, n ∈ DeclaredTypes d' := by
      intro hx
      rcases (hu n).1 hx with ⟨x, hl, hx⟩ | ⟨td, htd, ⟨_, hx⟩ | ⟨hk, hx⟩ | ⟨hk, hx⟩⟩
      · obtain ⟨hknown, ha, hmap, hmen⟩ := leaf_known hr hl
        rcases (names_leaf m conf x n).1 hx with ⟨hp, rfl⟩ | ⟨hp, rfl, hrt⟩
        · exact .inl (prim_predeclared hp)
        · right
          obtain ⟨ts, ⟨td, k1, k2, k3⟩ | ⟨k1, k2⟩⟩ := hknown
          · rw [← k2]; exact hdecl td k1
          · simp only [BaseTypes, List.mem_cons, List.not_mem_nil, or_false] at k1
            rcases k1 with rfl | rfl | rfl | rfl | rfl | rfl | rfl | rfl | rfl | rfl | rfl | rfl | rfl | rfl | rfl | rfl | rfl | rfl | rfl
            all_goals first
              | exact absurd (by decide) hp
              | exact absurd rfl ha
              | exact absurd rfl hmap
              | exact absurd hmen (h1 _ (by decide))
              | exact hdec (.inr ⟨hrt (.inl rfl), hmen⟩)
              | exact ⟨.timestamp, (mem_decls hr _).2 (.timestamp ((timestamp_noted hr).2 ⟨hrt (.inr (.inl rfl)), hmen⟩)), by simp [DeclaredTypes]⟩
              | exact absurd (h2 hmen) (by rw [hrt (.inr (.inr rfl))]; decide)
      · left
        rw [show n = "string" from List.mem_singleton.1 hx]
        decide
      · right
        rw [show n = "Decimal" from List.mem_singleton.1 hx]
        exact hdec (.inl ⟨td, htd, hk⟩)
      · left
        rw [show n = _ from List.mem_singleton.1 hx]
        exact prim_predeclared (number_prim hk)
    cases d with
    | struct _ _ => exact viaTy ⟨_, hd', hn⟩
    | union _ _ _ => exact viaTy ⟨_, hd', hn⟩
    | defn _ _ _ => exact viaTy ⟨_, hd', hn⟩
    | heading _ => cases hn
    | enum _ _ => cases hn
    | timestamp => cases hn
    | decimal => cases hn
    | iface _ _ =>
      right
      cases hd' with
      | type _ h => cases h
      | iface =>
        simp only [UsedTypes, List.flatMap_map, List.mem_flatMap, List.mem_cons, List.not_mem_nil, or_false] at hn
        obtain ⟨hd, k1, rfl | rfl⟩ := hn
        · exact ⟨_, (mem_decls hr _).2 (.request k1), by simp [DeclaredTypes]⟩
        · exact ⟨_, (mem_decls hr _).2 (.response k1), by simp [DeclaredTypes]⟩
    | errorMethod _ =>
      right
      cases hd' with
      | type k1 k2 =>
        cases k2 with
        | error _ _ =>
          rw [show n = _ from List.mem_singleton.1 hn]
          exact hdecl _ k1
    | fromString _ =>
      right
      cases hd' with
      | type k1 k2 =>
        cases k2 with
        | fromString _ =>
          rw [show n = _ from List.mem_singleton.1 hn]
          exact hdecl _ k1
end

/-! ### Declared names -/

theorem namesOf_type {m : Model} {conf : GoConf} {errors : List String} {td : TypeDef} (hk : td.ts.type ∈ GoKinds) :
    (declsOf m conf errors td).1.flatMap DeclaredNames = GoNamesOf td := by
  have he : (goErrorMethod errors td.name).flatMap DeclaredNames = [] := by
    unfold goErrorMethod; split <;> simp [DeclaredNames]
  rcases goKinds_split.1 hk with h | h | h | h | h | h | h | h | h
  · simp [declsOf, h, DeclaredNames, GoNamesOf, he]
  · simp [declsOf, h, DeclaredNames, GoNamesOf, he, Function.comp_def]
  · simp [declsOf, h, DeclaredNames, GoNamesOf, Function.comp_def]
  · simp [declsOf, h, DeclaredNames, GoNamesOf]
  · simp [declsOf, h, DeclaredNames, GoNamesOf]
  · simp [declsOf, h, DeclaredNames, GoNamesOf]
  · simp [declsOf, h, DeclaredNames, GoNamesOf]
  · simp [declsOf, h, DeclaredNames, GoNamesOf]
  · simp only [goNumbers, List.mem_cons, List.not_mem_nil, or_false] at h
    rcases h with h | h | h | h | h | h <;> simp [declsOf, h, DeclaredNames, GoNamesOf]

theorem flatMap_same {α β : Type} {l : List α} {f g : α → List β} (h : ∀ a ∈ l, f a = g a) : l.flatMap f = l.flatMap g := by
  induction l with
  | nil => rfl
  | cons a l ih =>
    rw [List.flatMap_cons, List.flatMap_cons, h a (by simp), ih fun b hb => h b (by simp [hb])]

theorem names_file {m : Model} {conf : GoConf} (hr : GoReady m.schema) :
    (fileOf m conf).decls.flatMap DeclaredNames = GoNames conf.name m.schema ++ (goClosing (notesOf m conf)).1.flatMap DeclaredNames := by
  have h1 : (m.schema.http.flatMap fun hd => (actionDecls m conf hd).1).flatMap DeclaredNames =
      m.schema.http.flatMap fun h => [capitalize h.name ++ "Request", capitalize h.name ++ "Response"] := by
    rw [List.flatMap_assoc]
    rfl
  have h2 : (m.schema.types.flatMap fun td => .heading td.name :: (declsOf m conf (exceptionsOf m.schema) td).1).flatMap DeclaredNames =
      m.schema.types.flatMap GoNamesOf := by
    rw [List.flatMap_assoc]
    refine flatMap_same fun td htd => ?_
    rw [List.flatMap_cons, namesOf_type (hr.1 td htd).kind]
    rfl
  unfold fileOf GoNames
  simp only [List.cons_append, List.flatMap_cons, List.flatMap_append, h1, h2]
  rfl

theorem closing_names (m : Model) (conf : GoConf) :
    (goClosing (notesOf m conf)).1.flatMap DeclaredNames =
      (if GoNote.timestamp ∈ notesOf m conf then ["Timestamp", "RFC3339Milli", "TimestampFromString", "ParseTimestamp"] else []) ++
      (if GoNote.decimal ∈ notesOf m conf then ["DecimalPrecision", "Decimal", "DecimalFromString", "ParseDecimal", "NewDecimal"] else []) := by
  unfold goClosing
  by_cases h1 : GoNote.timestamp ∈ notesOf m conf <;> by_cases h2 : GoNote.decimal ∈ notesOf m conf <;>
    simp [h1, h2, DeclaredNames]

theorem once_iff {m : Model} {conf : GoConf} (hr : GoReady m.schema) :
    ((fileOf m conf).decls.flatMap DeclaredNames).Nodup ↔ (GoNames conf.name m.schema).Nodup ∧
      (WritesDecimal conf.runtime m.schema → ∀ n ∈ GoNames conf.name m.schema,
        n ∉ ["DecimalPrecision", "Decimal", "DecimalFromString", "ParseDecimal", "NewDecimal"]) ∧
      (WritesTimestamp conf.runtime m.schema → ∀ n ∈ GoNames conf.name m.schema,
        n ∉ ["Timestamp", "RFC3339Milli", "TimestampFromString", "ParseTimestamp"]) := by
  rw [names_file hr, closing_names, List.nodup_append, ← decimal_noted hr, ← timestamp_noted hr]
  have hn : ((if GoNote.timestamp ∈ notesOf m conf then ["Timestamp", "RFC3339Milli", "TimestampFromString", "ParseTimestamp"] else []) ++
      (if GoNote.decimal ∈ notesOf m conf then ["DecimalPrecision", "Decimal", "DecimalFromString", "ParseDecimal", "NewDecimal"] else [])).Nodup := by
    split <;> split <;> decide
  constructor
  · rintro ⟨h1, _, h2⟩
    refine ⟨h1, fun hd n hn hx => h2 n hn n ?_ rfl, fun hd n hn hx => h2 n hn n ?_ rfl⟩
    · rw [if_pos hd]; exact List.mem_append_right _ hx
    · rw [if_pos hd]; exact List.mem_append_left _ hx
  · rintro ⟨h1, h2, h3⟩
    refine ⟨h1, hn, ?_⟩
    rintro a ha b hb rfl
    rcases List.mem_append.1 hb with hb | hb
    · split at hb
      · next h => exact h3 h a ha hb
      · cases hb
    · split at hb
      · next h => exact h2 h a ha hb
      · cases hb

/-! ### All the rules together -/

/-- A decision procedure for identifiers. -/
def goIdentB (n : String) : Bool :=
  decide (n ∉ GoKeywords) && match n.toList with
    | [] => false
    | c :: r => (c.isAlpha || c == '_') && r.all fun d => d.isAlphanum || d == '_'

theorem goIdentB_iff (n : String) : goIdentB n = true ↔ GoIdent n := by
  unfold goIdentB GoIdent
  rw [Bool.and_eq_true, decide_eq_true_eq]
  refine and_congr_right fun _ => ?_
  cases h : n.toList with
  | nil => simp
  | cons c r => simp [List.all_eq_true]

instance (n : String) : Decidable (GoIdent n) := decidable_of_iff _ (goIdentB_iff n)

theorem closing_idents : ∀ n ∈ ["Timestamp", "RFC3339Milli", "TimestampFromString", "ParseTimestamp"] ++
    ["DecimalPrecision", "Decimal", "DecimalFromString", "ParseDecimal", "NewDecimal"], GoIdent n := by
  decide +kernel

theorem enumText_iff (el : EnumElementDef) (t : String) : EnumText el t ↔ t = goEnumValue el := by
  unfold EnumText goEnumValue getAnnotation
  dsimp only
  cases h : mget el.annotations "x_enumValue" with
  | none => simp
  | some v =>
    by_cases hv : v = ""
    · subst hv; simp
    · simp only [hv, if_false]

/-- What the declarations of a type declare inside. -/
theorem inner_type {m : Model} {conf : GoConf} {errors : List String} {td : TypeDef} {d : GoDecl} (h : DeclOf m conf errors td d) :
    InnerNames d = GoFieldsOf td ∨ InnerNames d = [] := by
  cases h with
  | struct k => exact .inl (by simp [InnerNames, GoFieldsOf, k, fieldOf, Function.comp_def])
  | union k => exact .inl (by simp [InnerNames, GoFieldsOf, k, variantOf, Function.comp_def])
  | _ => exact .inr rfl

theorem types_in_names {d : GoDecl} {n : String} (h : n ∈ DeclaredTypes d) : n ∈ DeclaredNames d := by
  cases d <;> simp_all [DeclaredTypes, DeclaredNames]
  · rcases h with h | h <;> simp [h]

theorem flatMap_nodup_unique {α : Type} {l : List α} {f : α → List String} (h : (l.flatMap f).Nodup) {a b : α} {n : String} (ha : a ∈ l)
    (hb : b ∈ l) (hna : n ∈ f a) (hnb : n ∈ f b) : a = b := by
  induction l with
  | nil => cases ha
  | cons c l ih =>
    rw [List.flatMap_cons, List.nodup_append] at h
    obtain ⟨_, h2, h3⟩ := h
    rcases List.mem_cons.1 ha with rfl | ha' <;> rcases List.mem_cons.1 hb with rfl | hb'
    · rfl
    · exact absurd rfl (h3 n hna n (List.mem_flatMap.2 ⟨b, hb', hnb⟩))
    · exact absurd rfl (h3 n hnb n (List.mem_flatMap.2 ⟨a, ha', hna⟩))
    · exact ih h2 ha' hb'

theorem mem_exceptionsOf (s : Schema) (n : String) : n ∈ exceptionsOf s ↔ ∃ h ∈ s.http, ∃ x ∈ h.exceptions, x.type = n := by
  simp [exceptionsOf]

/-! ### The components of the types -/

section
variable {m : Model} (hm : newModel m.schema = .ok m) {conf : GoConf}
include hm

theorem leafOf_iff {n : String} (hp : GoPlain m.schema n) (t : GoTy) :
    GoLeafOf m.schema conf.runtime n t ↔ t = (leafTy m conf n).1 := by
  obtain ⟨hk, ha, hmp⟩ := hp
  have named : ∀ td ∈ m.schema.types, td.name ∉ BaseTypes ∧ m.findType td.name = some td := fun td htd =>
    ⟨((newModel_ok_iff _ _).1 hm).2.1 td htd, (newModel_findType_iff hm _ _).2 (.inl ⟨htd, rfl⟩)⟩
  have notbase : ∀ td ∈ m.schema.types, ∀ b ∈ BaseTypes, td.name ≠ b := fun td htd b hb e => (named td htd).1 (e ▸ hb)
  have nprim : ∀ td ∈ m.schema.types, td.name ∉ goPrimitives := fun td htd h => (named td htd).1 (prims_base h)
  have leafNamed : ∀ td ∈ m.schema.types, (leafTy m conf td.name).1 = if td.ts.type = "Struct" then .ptr (.ident td.name) else .ident td.name := by
    intro td htd
    unfold leafTy
    rw [if_neg (nprim td htd), if_neg (notbase td htd _ (by decide)), if_neg (notbase td htd _ (by decide)),
      if_neg (notbase td htd _ (by decide)), (named td htd).2]
    simp
  constructor
  · intro h
    cases h with
    | primitive h =>
      simp only [List.mem_cons, Prod.mk.injEq, List.not_mem_nil, or_false] at h
      rcases h with ⟨rfl, rfl⟩ | ⟨rfl, rfl⟩ | ⟨rfl, rfl⟩ | ⟨rfl, rfl⟩ | ⟨rfl, rfl⟩ | ⟨rfl, rfl⟩ | ⟨rfl, rfl⟩ | ⟨rfl, rfl⟩ <;> rfl
    | own h h1 =>
      simp only [List.mem_cons, List.not_mem_nil, or_false] at h
      rcases h with rfl | rfl | rfl <;> simp [leafTy, goPrimitives, goRuntimeType, h1]
    | library h h1 =>
      simp only [List.mem_cons, List.not_mem_nil, or_false] at h
      rcases h with rfl | rfl | rfl <;> simp [leafTy, goPrimitives, goRuntimeType, h1]
    | struct h h1 => rw [leafNamed _ h, if_pos h1]
    | other h h1 => rw [leafNamed _ h, if_neg h1]
    | anonymous => simp [leafTy, goPrimitives, findType_base hm (show "Struct" ∈ BaseTypes by decide), baseTypeDef]
    | builtin h =>
      simp only [List.mem_cons, List.not_mem_nil, or_false] at h
      rcases h with rfl | rfl | rfl | rfl | rfl
      · simp [leafTy, goPrimitives, findType_base hm (show "Bytes" ∈ BaseTypes by decide), baseTypeDef]
      · simp [leafTy, goPrimitives, findType_base hm (show "UUID" ∈ BaseTypes by decide), baseTypeDef]
      · simp [leafTy, goPrimitives, findType_base hm (show "Enum" ∈ BaseTypes by decide), baseTypeDef]
      · simp [leafTy, goPrimitives, findType_base hm (show "Union" ∈ BaseTypes by decide), baseTypeDef]
      · simp [leafTy, goPrimitives, findType_base hm (show "Any" ∈ BaseTypes by decide), baseTypeDef]
  · rintro rfl
    obtain ⟨ts, ⟨td, h1, rfl, h3⟩ | ⟨h1, _⟩⟩ := hk
    · rw [leafNamed td h1]
      split
      · next h => exact .struct h1 h
      · next h => exact .other h1 h
    · have own : n ∈ ["Decimal", "Timestamp", "UnitValue"] → GoLeafOf m.schema conf.runtime n (leafTy m conf n).1 := by
        intro h
        have : (leafTy m conf n).1 = if conf.runtime then .ptr (.qual "sadl" n) else .ptr (.ident n) := by
          simp only [List.mem_cons, List.not_mem_nil, or_false] at h
          rcases h with rfl | rfl | rfl <;> cases hr : conf.runtime <;> simp [leafTy, goPrimitives, goRuntimeType, hr]
        rw [this]
        cases hr : conf.runtime
        · exact .own h rfl
        · exact .library h rfl
      have bi : n ∈ ["Bytes", "UUID", "Enum", "Union", "Any"] → GoLeafOf m.schema conf.runtime n (leafTy m conf n).1 := by
        intro h
        have : (leafTy m conf n).1 = .ident n := by
          have hb := findType_base hm h1
          simp only [List.mem_cons, List.not_mem_nil, or_false] at h
          rcases h with rfl | rfl | rfl | rfl | rfl <;> simp [leafTy, goPrimitives, hb, baseTypeDef]
        rw [this]
        exact .builtin h
      have prim : ∀ t, (n, t) ∈ [("Int8", "int8"), ("Int16", "int16"), ("Int32", "int32"), ("Int64", "int64"), ("Float32", "float32"),
          ("Float64", "float64"), ("Bool", "bool"), ("String", "string")] → GoLeafOf m.schema conf.runtime n (leafTy m conf n).1 := by
        intro t h
        have : (leafTy m conf n).1 = .ident t := by
          simp only [List.mem_cons, Prod.mk.injEq, List.not_mem_nil, or_false] at h
          rcases h with ⟨rfl, rfl⟩ | ⟨rfl, rfl⟩ | ⟨rfl, rfl⟩ | ⟨rfl, rfl⟩ | ⟨rfl, rfl⟩ | ⟨rfl, rfl⟩ | ⟨rfl, rfl⟩ | ⟨rfl, rfl⟩ <;> rfl
        rw [this]
        exact .primitive h
      have st : n = "Struct" → GoLeafOf m.schema conf.runtime n (leafTy m conf n).1 := by
        rintro rfl
        have : (leafTy m conf "Struct").1 = .ptr (.ident "Struct") := by
          simp [leafTy, goPrimitives, findType_base hm h1, baseTypeDef]
        rw [this]
        exact .anonymous
      simp only [BaseTypes, List.mem_cons, List.not_mem_nil, or_false] at h1
      rcases h1 with rfl | rfl | rfl | rfl | rfl | rfl | rfl | rfl | rfl | rfl | rfl | rfl | rfl | rfl | rfl | rfl | rfl | rfl | rfl
      all_goals first
        | exact absurd rfl ha
        | exact absurd rfl hmp
        | exact st rfl
        | exact own (by decide)
        | exact bi (by decide)
        | exact prim "int8" (by decide)
        | exact prim "int16" (by decide)
        | exact prim "int32" (by decide)
        | exact prim "int64" (by decide)
        | exact prim "float32" (by decide)
        | exact prim "float64" (by decide)
        | exact prim "bool" (by decide)
        | exact prim "string" (by decide)

theorem typeOf_iff {ts : TypeSpec} (h : GoWritable m.schema ts) (t : GoTy) :
    GoTypeOf m.schema conf.runtime ts t ↔ t = (tyOf m conf ts ts.type).1 := by
  unfold tyOf
  constructor
  · intro ht
    cases ht with
    | array h1 h2 => rw [if_pos h1, (leafOf_iff hm (h.array h1) _).1 h2]
    | map h1 h2 h3 =>
      rw [if_neg (by rw [h1]; decide), if_pos h1, (leafOf_iff hm (h.map h1).1 _).1 h2, (leafOf_iff hm (h.map h1).2 _).1 h3]
    | leaf h1 h2 h3 => rw [if_neg h1, if_neg h2, (leafOf_iff hm ⟨h.known, h1, h2⟩ _).1 h3]
  · rintro rfl
    split
    · next h1 => exact .array h1 ((leafOf_iff hm (h.array h1) _).2 rfl)
    split
    · next h1 => exact .map h1 ((leafOf_iff hm (h.map h1).1 _).2 rfl) ((leafOf_iff hm (h.map h1).2 _).2 rfl)
    · next h1 h2 => exact .leaf h1 h2 ((leafOf_iff hm ⟨h.known, h1, h2⟩ _).2 rfl)

theorem keysOf_iff {td : TypeDef} (h : GoPlain m.schema td.ts.items ∧ Known m.schema td.ts.keys ∧ td.ts.keys ≠ "Map") (t : GoTy) :
    GoTypeOf m.schema conf.runtime { td.ts with type := td.ts.keys } t ↔ t = (tyOf m conf td.ts td.ts.keys).1 :=
  typeOf_iff (ts := { td.ts with type := td.ts.keys }) hm ⟨h.2.1, fun _ => h.1, fun e => absurd e h.2.2⟩ t

theorem itemsOf_iff {td : TypeDef} (h : GoPlain m.schema td.ts.items) (t : GoTy) :
    GoLeafOf m.schema conf.runtime td.ts.items t ↔ t = (tyOf m conf td.ts td.ts.items).1 := by
  rw [leafOf_iff hm h, tyOf, if_neg h.2.1, if_neg h.2.2]

omit hm in
theorem number_iff {n t : String} : (n, t) ∈ [("Int8", "int8"), ("Int16", "int16"), ("Int32", "int32"), ("Int64", "int64"),
      ("Float32", "float32"), ("Float64", "float64")] ↔ n ∈ goNumbers ∧ t = uncapitalize n := by
  simp only [goNumbers, List.mem_cons, Prod.mk.injEq, List.not_mem_nil, or_false]
  constructor
  · rintro (⟨rfl, rfl⟩ | ⟨rfl, rfl⟩ | ⟨rfl, rfl⟩ | ⟨rfl, rfl⟩ | ⟨rfl, rfl⟩ | ⟨rfl, rfl⟩) <;> exact ⟨by simp, by decide +kernel⟩
  · rintro ⟨rfl | rfl | rfl | rfl | rfl | rfl, rfl⟩ <;> decide +kernel

theorem part_iff (hr : GoReady m.schema) (n : String) (t : GoTy) :
    GoHasPart (fileOf m conf) n t ↔ GoPart m.schema conf.runtime n t := by
  constructor
  · intro h
    cases h with
    | struct h1 h2 =>
      rw [mem_decls hr] at h1
      cases h1 with
      | request h =>
        obtain ⟨p, hp, rfl⟩ := List.mem_map.1 h2
        exact .input h hp ((typeOf_iff hm ((hr.2 _ h).inputs p hp).2 _).2 rfl)
      | response h =>
        obtain ⟨p, hp, rfl⟩ := List.mem_map.1 h2
        obtain ⟨e, he, h5⟩ := (hr.2 _ h).expected
        have hp' : p ∈ e.outputs := by simpa [outputsOf, he] using hp
        exact .output h he hp' ((typeOf_iff hm (h5 p hp').2 _).2 rfl)
      | type h k =>
        cases k with
        | struct k =>
          obtain ⟨p, hp, rfl⟩ := List.mem_map.1 h2
          exact .field h k hp ((typeOf_iff hm ((hr.1 _ h).struct k p hp).2 _).2 rfl)
    | union h1 h2 =>
      rw [mem_decls hr] at h1
      cases h1 with
      | type h k =>
        cases k with
        | union k =>
          obtain ⟨p, hp, rfl⟩ := List.mem_map.1 h2
          exact .variant h k hp ((typeOf_iff hm ((hr.1 _ h).union k p hp).2 _).2 rfl)
    | defn h1 =>
      rw [mem_decls hr] at h1
      cases h1 with
      | type h k =>
        cases k with
        | string k => exact .text h (.inl k)
        | uuid k => exact .text h (.inr k)
        | decimal k => exact .decimal h k
        | array k => exact .array h k ((itemsOf_iff hm ((hr.1 _ h).array k) _).2 rfl)
        | map k => exact .map h k ((keysOf_iff hm ((hr.1 _ h).map k) _).2 rfl) ((itemsOf_iff hm ((hr.1 _ h).map k).1 _).2 rfl)
        | number k => exact .number h (number_iff.2 ⟨k, rfl⟩)
  · intro h
    cases h with
    | field h k hp ht =>
      rw [(typeOf_iff hm ((hr.1 _ h).struct k _ hp).2 _).1 ht]
      exact .struct ((mem_decls hr _).2 (.type h (.struct k))) (List.mem_map_of_mem (f := fieldOf m conf) hp)
    | variant h k hp ht =>
      rw [(typeOf_iff hm ((hr.1 _ h).union k _ hp).2 _).1 ht]
      exact .union ((mem_decls hr _).2 (.type h (.union k))) (List.mem_map_of_mem (f := variantOf m conf) hp)
    | @input hd p _ h hp ht =>
      rw [(typeOf_iff hm ((hr.2 _ h).inputs _ hp).2 _).1 ht]
      have hf : fieldOf m conf p.field ∈ hd.inputs.map fun p => fieldOf m conf p.field := List.mem_map.2 ⟨p, hp, rfl⟩
      have hd' := (mem_decls hr _).2 (DeclIn.request (conf := conf) h)
      exact GoHasPart.struct hd' hf
    | @output hd e p _ h he hp ht =>
      obtain ⟨e', he', h5⟩ := (hr.2 _ h).expected
      rw [he] at he'; injection he' with he'; subst he'
      rw [(typeOf_iff hm (h5 _ hp).2 _).1 ht]
      have hp' : p ∈ outputsOf hd := by simpa [outputsOf, he] using hp
      have hf : fieldOf m conf p.field ∈ (outputsOf hd).map fun p => fieldOf m conf p.field := List.mem_map.2 ⟨p, hp', rfl⟩
      have hd' := (mem_decls hr _).2 (DeclIn.response (conf := conf) h)
      exact GoHasPart.struct hd' hf
    | text h k =>
      rcases k with k | k
      · exact .defn ((mem_decls hr _).2 (.type h (.string k)))
      · exact .defn ((mem_decls hr _).2 (.type h (.uuid k)))
    | decimal h k => exact .defn ((mem_decls hr _).2 (.type h (.decimal k)))
    | number h k =>
      obtain ⟨k', rfl⟩ := number_iff.1 k
      exact .defn ((mem_decls hr _).2 (.type h (.number k')))
    | array h k ht =>
      rw [(itemsOf_iff hm ((hr.1 _ h).array k) _).1 ht]
      exact .defn ((mem_decls hr _).2 (.type h (.array k)))
    | map h k ht ht' =>
      rw [(keysOf_iff hm ((hr.1 _ h).map k) _).1 ht, (itemsOf_iff hm ((hr.1 _ h).map k).1 _).1 ht']
      exact .defn ((mem_decls hr _).2 (.type h (.map k)))

theorem layout_iff (hr : GoReady m.schema) : GoLayout (GoHasPart (fileOf m conf)) ↔ GoLayout (GoPart m.schema conf.runtime) := by
  have : GoHasPart (fileOf m conf) = GoPart m.schema conf.runtime := by
    funext n t
    exact propext (part_iff hm hr n t)
  rw [this]
end

theorem compiles_iff {m : Model} (hm : newModel m.schema = .ok m) {conf : GoConf} (hr : GoReady m.schema) (hc : conf.name ∉ BaseTypes) :
    GoCompiles (fileOf m conf) ↔ GoSound conf.name conf.runtime m.schema := by
  have hnames : ∀ n, n ∈ GoNames conf.name m.schema → ∃ d ∈ (fileOf m conf).decls, n ∈ DeclaredNames d := by
    intro n hn
    have : n ∈ (fileOf m conf).decls.flatMap DeclaredNames := by
      rw [names_file hr]; exact List.mem_append_left _ hn
    exact List.mem_flatMap.1 this
  have hout : ∀ {h e}, h ∈ m.schema.http → h.expected = some e → outputsOf h = e.outputs := by
    intro h e _ he
    simp [outputsOf, he]
  constructor
  · intro h
    have hinner : ∀ td ∈ m.schema.types, ∃ d ∈ (fileOf m conf).decls, td.name ∈ DeclaredTypes d ∧ InnerNames d = GoFieldsOf td := by
      intro td htd
      obtain ⟨d, k1, k2, k3⟩ := type_declared (conf := conf) hr htd
      exact ⟨d, (mem_decls hr d).2 (.type htd k1), k2, k3⟩
    obtain ⟨o1, o2, o3⟩ := (once_iff hr).1 h.once
    obtain ⟨r1, r2⟩ := (resolved_iff hm hr hc).1 h.resolved
    refine ⟨?_, ?_, ?_, ?_, o1, o2, o3, ?_, ?_, ?_, ?_, r1, r2, (packages_iff hr).1 h.packages, ?_, (layout_iff hm hr).1 h.layout⟩
    · intro n hn
      obtain ⟨d, hd, hnd⟩ := hnames n hn
      exact h.idents d hd n (.inl hnd)
    · intro td htd n hn
      obtain ⟨d, hd, _, he⟩ := hinner td htd
      exact h.idents d hd n (.inr (he ▸ hn))
    · intro a ha
      refine ⟨?_, ?_, ?_⟩
      · exact h.idents _ ((mem_decls hr _).2 .iface) _ (.inr (List.mem_map_of_mem ha))
      · intro p hp
        refine h.idents _ ((mem_decls hr _).2 (.request ha)) _ (.inr ?_)
        simp only [InnerNames, List.map_map, List.mem_map]
        exact ⟨p, hp, rfl⟩
      · intro e he p hp
        refine h.idents _ ((mem_decls hr _).2 (.response ha)) _ (.inr ?_)
        simp only [InnerNames, List.map_map, List.mem_map]
        exact ⟨p, (hout ha he) ▸ hp, rfl⟩
    · intro td htd hk el hel t ht
      refine h.quoted _ ((mem_decls hr _).2 (.type htd (.enum hk))) t ?_
      simp only [QuotedTexts, List.map_map, List.mem_map]
      exact ⟨el, hel, ((enumText_iff el t).1 ht).symm⟩
    · intro td htd
      obtain ⟨d, hd, _, he⟩ := hinner td htd
      exact he ▸ h.onceInside d hd
    · intro a ha
      refine ⟨?_, ?_⟩
      · have := h.onceInside _ ((mem_decls hr _).2 (.request ha))
        simpa [InnerNames, fieldOf, Function.comp_def] using this
      · intro e he
        have := h.onceInside _ ((mem_decls hr _).2 (.response ha))
        simpa [InnerNames, fieldOf, Function.comp_def, hout ha he] using this
    · exact h.onceInside _ ((mem_decls hr _).2 .iface)
    · intro a ha x hx td htd hname
      obtain ⟨d, hd, hdt, he⟩ := hinner td htd
      by_cases hk : td.ts.type = "Struct" ∨ td.ts.type = "Union"
      · rw [← he]
        refine h.errorField d hd td.name hdt ((mem_decls hr _).2 (.type htd (.error hk ?_)))
        exact (mem_exceptionsOf _ _).2 ⟨a, ha, x, hx, hname.symm⟩
      · have h1 : td.ts.type ≠ "Struct" := fun h => hk (.inl h)
        have h2 : td.ts.type ≠ "Union" := fun h => hk (.inr h)
        simp [GoFieldsOf, h1, h2]
    · intro td htd hk
      exact h.returns _ ((mem_decls hr _).2 (.type htd (.fromString hk)))
  · intro h
    have honce := (once_iff hr).2 ⟨h.once, h.decimalOnce, h.timestampOnce⟩
    refine ⟨?_, ?_, honce, ?_, ?_, (resolved_iff hm hr hc).2 ⟨h.resolved, h.unitValue⟩, (packages_iff hr).2 h.enums, ?_, (layout_iff hm hr).2 h.layout⟩
    · rintro d hd n (hn | hn)
      · have : n ∈ (fileOf m conf).decls.flatMap DeclaredNames := List.mem_flatMap.2 ⟨d, hd, hn⟩
        rw [names_file hr, closing_names] at this
        rcases List.mem_append.1 this with h1 | h1
        · exact h.idents n h1
        · apply closing_idents
          rcases List.mem_append.1 h1 with h1 | h1
          · split at h1
            · exact List.mem_append_left _ h1
            · cases h1
          · split at h1
            · exact List.mem_append_right _ h1
            · cases h1
      · cases (mem_decls hr d).1 hd with
        | iface =>
          obtain ⟨a, ha, rfl⟩ := List.mem_map.1 hn
          exact (h.actionIdents a ha).1
        | request ha =>
          simp only [InnerNames, List.map_map, List.mem_map] at hn
          obtain ⟨p, hp, rfl⟩ := hn
          exact (h.actionIdents _ ha).2.1 p hp
        | response ha =>
          simp only [InnerNames, List.map_map, List.mem_map] at hn
          obtain ⟨p, hp, rfl⟩ := hn
          obtain ⟨e, he, _⟩ := (hr.2 _ ha).expected
          exact (h.actionIdents _ ha).2.2 e he p ((hout ha he) ▸ hp)
        | type h1 h2 =>
          rcases inner_type h2 with k | k
          · exact h.fieldIdents _ h1 n (k ▸ hn)
          · rw [k] at hn; cases hn
        | _ => cases hn
    · intro d hd t ht
      cases (mem_decls hr d).1 hd with
      | type h1 h2 =>
        cases h2 with
        | enum hk =>
          simp only [QuotedTexts, List.map_map, List.mem_map] at ht
          obtain ⟨el, hel, rfl⟩ := ht
          exact h.quoted _ h1 hk el hel _ ((enumText_iff el _).2 rfl)
        | _ => cases ht
      | _ => cases ht
    · intro d hd
      cases (mem_decls hr d).1 hd with
      | iface => exact h.methodsOnce
      | request ha =>
        have := (h.actionsOnce _ ha).1
        simpa [InnerNames, fieldOf, Function.comp_def] using this
      | response ha =>
        obtain ⟨e, he, _⟩ := (hr.2 _ ha).expected
        have := (h.actionsOnce _ ha).2 e he
        simpa [InnerNames, fieldOf, Function.comp_def, hout ha he] using this
      | type h1 h2 =>
        rcases inner_type h2 with k | k
        · exact k ▸ h.fieldsOnce _ h1
        · rw [k]; exact List.nodup_nil
      | _ => exact List.nodup_nil
    · intro d hd n hn hem
      cases (mem_decls hr _).1 hem with
      | type h1 h2 =>
        cases h2 with
        | error hk hex =>
          obtain ⟨d', k1, k2, k3⟩ := type_declared (conf := conf) hr h1
          have := flatMap_nodup_unique honce hd ((mem_decls hr d').2 (.type h1 k1)) (types_in_names hn) (types_in_names k2)
          rw [this, k3]
          obtain ⟨a, ha, x, hx, hxn⟩ := (mem_exceptionsOf _ _).1 hex
          exact h.errorField a ha x hx _ h1 hxn.symm
    · intro d hd
      cases d with
      | fromString n =>
        cases (mem_decls hr _).1 hd with
        | type h1 h2 =>
          cases h2 with
          | fromString hk => exact absurd hk (h.numbers _ h1)
      | _ => trivial

end Sadl
