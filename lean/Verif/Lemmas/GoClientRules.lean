import Verif.Lemmas.GoClient
/-
When a generated Go client respects the rules of Go.
-/
namespace Sadl
open Sadl.Spec

/-- The types that may come from the run-time library. -/
def runtimeTypes : List String := ["Decimal", "Timestamp", "UnitValue"]

section
variable {m : Model} (hm : newModel m.schema = .ok m) {conf : GoConf} (hr : GoReady m.schema)
include hm

theorem user_unique {a b : TypeDef} (ha : a ∈ m.schema.types) (hb : b ∈ m.schema.types) (h : a.name = b.name) : a = b :=
  List.inj_on_of_nodup_map ((newModel_ok_iff _ _).1 hm).1 ha hb h

theorem base_baseType {b : String} (hb : b ∈ BaseTypes) : goBaseType m b = b := by
  unfold goBaseType
  rw [findType_base hm hb]
  rfl

theorem base_native {b : String} (hb : b ∈ BaseTypes) : nativeOf m conf b = leafTy m conf b := by
  unfold nativeOf
  rw [findType_base hm hb]
  rfl

theorem user_baseType {td : TypeDef} (h : td ∈ m.schema.types) : goBaseType m td.name = td.ts.type := by
  unfold goBaseType
  rw [(newModel_findType_iff hm _ _).2 (.inl ⟨h, rfl⟩)]

theorem user_not_base {td : TypeDef} (h : td ∈ m.schema.types) : td.name ∉ BaseTypes := ((newModel_ok_iff _ _).1 hm).2.1 td h

/-- The types of the built-in types. -/
theorem base_leaf {b : String} (hb : b ∈ BaseTypes) (ha : b ≠ "Array") (hp : b ≠ "Map") :
    (b ∈ goPrimitives ∧ (leafTy m conf b).1 = .ident (uncapitalize b) ∧ (leafTy m conf b).2 = []) ∨
    (b ∈ runtimeTypes ∧ conf.runtime = true ∧ (leafTy m conf b).1 = .ptr (.qual "sadl" b) ∧ (leafTy m conf b).2 = [.pack "github.com/boynton/sadl"]) ∨
    (b ∈ runtimeTypes ∧ conf.runtime = false ∧ (leafTy m conf b).1 = .ptr (.ident b) ∧ ∀ p, .pack p ∉ (leafTy m conf b).2) ∨
    (b = "Struct" ∧ (leafTy m conf b).1 = .ptr (.ident b) ∧ (leafTy m conf b).2 = []) ∨
    (b ∈ ["UUID", "Bytes", "Any", "Enum", "Union"] ∧ (leafTy m conf b).1 = .ident b ∧ (leafTy m conf b).2 = []) := by
  have hf := findType_base hm hb
  simp only [BaseTypes, List.mem_cons, List.not_mem_nil, or_false] at hb
  cases hrt : conf.runtime <;>
  rcases hb with rfl | rfl | rfl | rfl | rfl | rfl | rfl | rfl | rfl | rfl | rfl | rfl | rfl | rfl | rfl | rfl | rfl | rfl | rfl <;>
    first
    | exact absurd rfl ha
    | exact absurd rfl hp
    | simp [leafTy, goPrimitives, goRuntimeType, runtimeTypes, hrt, hf, baseTypeDef]

theorem native_packs {n p : String} (ha : n ≠ "Array") (hp : n ≠ "Map") :
    .pack p ∈ (nativeOf m conf n).2 ↔ p = "github.com/boynton/sadl" ∧ conf.runtime = true ∧ n ∈ runtimeTypes := by
  by_cases hb : n ∈ BaseTypes
  · rw [base_native hm hb]
    rcases base_leaf hm (conf := conf) hb ha hp with ⟨h1, _, h2⟩ | ⟨h1, h2, _, h3⟩ | ⟨h1, h2, _, h3⟩ | ⟨h1, _, h2⟩ | ⟨h1, _, h2⟩
    · rw [h2]
      have : n ∉ runtimeTypes := by
        simp only [goPrimitives, List.mem_cons, List.not_mem_nil, or_false] at h1
        rcases h1 with rfl | rfl | rfl | rfl | rfl | rfl | rfl | rfl <;> decide
      simp [this]
    · rw [h3]; simp [h1, h2]
    · simp [h2, h3 p]
    · rw [h2]; subst h1; simp [runtimeTypes]
    · rw [h2]
      have : n ∉ runtimeTypes := by
        simp only [List.mem_cons, List.not_mem_nil, or_false] at h1
        rcases h1 with rfl | rfl | rfl | rfl | rfl <;> decide
      simp [this]
  · have hn : n ∉ runtimeTypes := fun h => hb (by
      simp only [runtimeTypes, List.mem_cons, List.not_mem_nil, or_false] at h
      rcases h with rfl | rfl | rfl <;> decide)
    have : (nativeOf m conf n).2 = [] := by
      unfold nativeOf leafTy
      split
      · rw [if_neg (fun h => hb (prims_base h)), if_neg, if_neg, if_neg]
        all_goals rintro rfl; exact hb (by decide)
      · rfl
    rw [this]; simp [hn]

theorem native_packages {n p : String} (ha : n ≠ "Array") (hp : n ≠ "Map") :
    p ∈ GoTyPackages (nativeOf m conf n).1 ↔ p = "github.com/boynton/sadl" ∧ conf.runtime = true ∧ n ∈ runtimeTypes := by
  by_cases hb : n ∈ BaseTypes
  · rw [base_native hm hb]
    rcases base_leaf hm (conf := conf) hb ha hp with ⟨h1, h2, _⟩ | ⟨h1, h2, h3, _⟩ | ⟨h1, h2, h3, _⟩ | ⟨h1, h2, _⟩ | ⟨h1, h2, _⟩
    · rw [h2]
      have : n ∉ runtimeTypes := by
        simp only [goPrimitives, List.mem_cons, List.not_mem_nil, or_false] at h1
        rcases h1 with rfl | rfl | rfl | rfl | rfl | rfl | rfl | rfl <;> decide
      simp [this, GoTyPackages]
    · rw [h3]; simp [h1, h2, GoTyPackages]
    · rw [h3]; simp [h2, GoTyPackages]
    · rw [h2]; subst h1; simp [runtimeTypes, GoTyPackages]
    · rw [h2]
      have : n ∉ runtimeTypes := by
        simp only [List.mem_cons, List.not_mem_nil, or_false] at h1
        rcases h1 with rfl | rfl | rfl | rfl | rfl <;> decide
      simp [this, GoTyPackages]
  · have hn : n ∉ runtimeTypes := fun h => hb (by
      simp only [runtimeTypes, List.mem_cons, List.not_mem_nil, or_false] at h
      rcases h with rfl | rfl | rfl <;> decide)
    have : GoTyPackages (nativeOf m conf n).1 = [] := by
      unfold nativeOf leafTy
      split
      · rw [if_neg (fun h => hb (prims_base h)), if_neg, if_neg, if_neg]
        · dsimp only; split <;> rfl
        all_goals rintro rfl; exact hb (by decide)
      · rfl
    rw [this]; simp [hn]

include hr in
/-- What a definition in the file defines. -/
theorem defn_of {n c : String} {t : GoTy} (h : .defn n t c ∈ (fileOf m conf).decls) : ∃ td ∈ m.schema.types, td.name = n ∧
    ((td.ts.type = "String" ∨ td.ts.type = "UUID") ∧ t = .ident "string" ∨ td.ts.type = "Decimal" ∧ t = .ident "Decimal" ∨
     td.ts.type = "Array" ∧ (∃ i, t = .slice i) ∨ td.ts.type = "Map" ∧ (∃ k i, t = .map k i) ∨ td.ts.type ∈ goNumbers) := by
  cases (mem_decls hr _).1 h with
  | type h1 h2 =>
    refine ⟨_, h1, ?_⟩
    cases h2 with
    | string g => exact ⟨rfl, .inl ⟨.inl g, rfl⟩⟩
    | uuid g => exact ⟨rfl, .inl ⟨.inr g, rfl⟩⟩
    | decimal g => exact ⟨rfl, .inr (.inl ⟨g, rfl⟩)⟩
    | array g => exact ⟨rfl, .inr (.inr (.inl ⟨g, _, rfl⟩))⟩
    | map g => exact ⟨rfl, .inr (.inr (.inr (.inl ⟨g, _, _, rfl⟩)))⟩
    | number g => exact ⟨rfl, .inr (.inr (.inr (.inr g)))⟩

include hr in
/-- The comparison of an input with the zero value. -/
theorem zero_fits (hsound : GoSound conf.name conf.runtime m.schema) (hpre : ∀ td ∈ m.schema.types, td.name ∉ GoPredeclared)
    {ts : TypeSpec} (hment : Mentions m.schema ts.type) (hk : Known m.schema ts.type) :
    ZeroFits (fileOf m conf) (goNotSet m ts.type) (tyOf m conf ts ts.type).1 ↔ ¬ OfKind m.schema ts.type ["UUID", "Decimal", "Enum", "Union"] := by
  rw [← goBaseType_iff hm _ _ (by decide)]
  obtain ⟨ts', ⟨td, h1, h2, h3⟩ | ⟨h1, h2⟩⟩ := hk
  · have hb := user_not_base hm h1
    have nb : ∀ b ∈ BaseTypes, ts.type ≠ b := fun b hb' e => hb (h2 ▸ e ▸ hb')
    have hty : (tyOf m conf ts ts.type).1 = if td.ts.type = "Struct" then .ptr (.ident td.name) else .ident td.name := by
      rw [native_tyOf hm hr ⟨_, .inl ⟨td, h1, h2, rfl⟩⟩ (nb _ (by decide)) (nb _ (by decide)), ← h2, user_leaf hm hr h1]
    have hbt : goBaseType m ts.type = td.ts.type := by rw [← h2]; exact user_baseType hm h1
    rw [hty, hbt]
    unfold goNotSet
    rw [hbt]
    have hkind := (hr.1 td h1).kind
    have hnum := hsound.numbers td h1
    have hsame : ∀ td' ∈ m.schema.types, td'.name = td.name → td' = td := fun td' h' e => user_unique hm h' h1 e
    have nonum : ∀ l, ("string" ∉ l ∧ "Decimal" ∉ l) → td.name ∉ l → ¬ GoUnderlying (fileOf m conf) td.name l := by
      rintro l hl hn (h | ⟨t, ht, c, h⟩)
      · exact hn h
      · obtain ⟨td', h4, h5, h6⟩ := defn_of hm hr h
        obtain rfl := hsame _ h4 h5
        rcases h6 with ⟨_, h6⟩ | ⟨_, h6⟩ | ⟨_, _, h6⟩ | ⟨_, _, _, h6⟩ | h6
        · cases h6; exact hl.1 ht
        · cases h6; exact hl.2 ht
        · cases h6
        · cases h6
        · exact hnum h6
    have nonil : td.ts.type ≠ "Array" → td.ts.type ≠ "Map" → ¬ ZeroFits (fileOf m conf) "nil" (.ident td.name) := by
      intro ha hp hz
      have aux : ∀ t c, .defn td.name t c ∈ (fileOf m conf).decls → (∀ n, t ≠ .ident n) → False := by
        intro t c h hn
        obtain ⟨td', h4, h5, h6⟩ := defn_of hm hr h
        obtain rfl := hsame _ h4 h5
        rcases h6 with ⟨_, h6⟩ | ⟨_, h6⟩ | ⟨h6, _⟩ | ⟨h6, _⟩ | h6
        · exact hn _ h6
        · exact hn _ h6
        · exact ha h6
        · exact hp h6
        · exact hnum h6
      generalize hz0 : "nil" = z at hz
      cases hz with
      | namedSlice h => exact aux _ _ h (by simp)
      | namedMap h => exact aux _ _ h (by simp)
      | text _ => exact absurd hz0 (by decide)
      | integer _ => exact absurd hz0 (by decide)
      | float _ => exact absurd hz0 (by decide)
      | bool _ => exact absurd hz0 (by decide)
    have nofloat : ¬ ZeroFits (fileOf m conf) "0.0" (.ident td.name) := by
      intro hz
      generalize hz0 : "0.0" = z at hz
      cases hz with
      | float h =>
        refine nonum _ (by decide) ?_ h
        intro h'
        exact hpre td h1 (by
          simp only [List.mem_cons, List.not_mem_nil, or_false] at h'
          rcases h' with h' | h' | h' | h' | h' | h' <;> rw [h'] <;> decide)
      | namedSlice h => exact absurd hz0 (by decide)
      | namedMap h => exact absurd hz0 (by decide)
      | text _ => exact absurd hz0 (by decide)
      | integer _ => exact absurd hz0 (by decide)
      | bool _ => exact absurd hz0 (by decide)
    simp only [GoKinds, List.mem_cons, List.not_mem_nil, or_false] at hkind
    rcases hkind with h | h | h | h | h | h | h | h | h | h | h | h | h | h
    all_goals rw [h] at nonil hnum ⊢
    · simp only [if_true]
      refine ⟨fun _ => by decide, fun _ => ?_⟩
      rw [if_neg (by decide), if_neg (by decide), if_neg (by decide), if_neg (by decide)]
      exact .pointer
    · refine ⟨fun hz => absurd hz ?_, fun hz => absurd (by decide) hz⟩
      rw [if_neg (by decide), if_neg (by decide), if_neg (by decide), if_neg (by decide), if_neg (by decide)]
      exact nonil (by decide) (by decide)
    · refine ⟨fun hz => absurd hz ?_, fun hz => absurd (by decide) hz⟩
      rw [if_neg (by decide), if_neg (by decide), if_neg (by decide), if_neg (by decide), if_neg (by decide)]
      exact nonil (by decide) (by decide)
    · refine ⟨fun _ => by decide, fun _ => ?_⟩
      rw [if_pos rfl, if_neg (by decide)]
      exact .text (.inr ⟨"string", by decide, "", (mem_decls hr _).2 (.type h1 (.string h))⟩)
    · refine ⟨fun hz => absurd hz ?_, fun hz => absurd (by decide) hz⟩
      rw [if_neg (by decide), if_neg (by decide), if_neg (by decide), if_neg (by decide), if_neg (by decide)]
      exact nonil (by decide) (by decide)
    · refine ⟨fun hz => absurd hz ?_, fun hz => absurd (by decide) hz⟩
      rw [if_neg (by decide), if_neg (by decide), if_pos (by decide), if_neg (by decide)]
      exact nofloat
    · refine ⟨fun _ => by decide, fun _ => ?_⟩
      rw [if_neg (by decide), if_neg (by decide), if_neg (by decide), if_neg (by decide), if_neg (by decide)]
      exact .namedSlice ((mem_decls hr _).2 (.type h1 (.array h)))
    · refine ⟨fun _ => by decide, fun _ => ?_⟩
      rw [if_neg (by decide), if_neg (by decide), if_neg (by decide), if_neg (by decide), if_neg (by decide)]
      exact .namedMap ((mem_decls hr _).2 (.type h1 (.map h)))
    all_goals exact absurd (by decide) hnum
  · have hd : ts.type ∉ ["UUID", "Bytes", "Any", "Struct", "Enum", "Union"] := fun h => hsound.resolved _ h hment
    unfold goNotSet
    rw [base_baseType hm h1]
    by_cases ha : ts.type = "Array"
    · rw [ha]; exact ⟨fun _ => by decide, fun _ => .slice⟩
    by_cases hp : ts.type = "Map"
    · rw [hp]; exact ⟨fun _ => by decide, fun _ => .map⟩
    have hty : (tyOf m conf ts ts.type).1 = (leafTy m conf ts.type).1 := by unfold tyOf; rw [if_neg ha, if_neg hp]
    rw [hty]
    have rt : ∀ t, ts.type ∈ runtimeTypes → (ZeroFits (fileOf m conf) (if ts.type = "String" then "\"\""
        else if ts.type = "Int8" ∨ ts.type = "Int16" ∨ ts.type = "Int32" ∨ ts.type = "Int64" then "0"
        else if ts.type = "Float32" ∨ ts.type = "Float64" ∨ ts.type = "Decimal" then "0.0" else if ts.type = "Bool" then "false" else "nil") (.ptr t) ↔
        ts.type ∉ ["UUID", "Decimal", "Enum", "Union"]) := by
      intro t ht
      simp only [runtimeTypes, List.mem_cons, List.not_mem_nil, or_false] at ht
      rcases ht with ht | ht | ht <;> rw [ht]
      · refine ⟨fun hz => ?_, fun hz => absurd (by decide) hz⟩
        generalize hz0 : (if "Decimal" = "String" then _ else _ : String) = z at hz
        cases hz
        exact absurd hz0 (by decide)
      · exact ⟨fun _ => by decide, fun _ => .pointer⟩
      · exact ⟨fun _ => by decide, fun _ => .pointer⟩
    rcases base_leaf hm (conf := conf) h1 ha hp with ⟨h4, h5, _⟩ | ⟨h4, _, h5, _⟩ | ⟨h4, _, h5, _⟩ | ⟨h4, h5, _⟩ | ⟨h4, h5, _⟩
    · rw [h5]
      simp only [goPrimitives, List.mem_cons, List.not_mem_nil, or_false] at h4
      rcases h4 with h4 | h4 | h4 | h4 | h4 | h4 | h4 | h4 <;> rw [h4] <;> refine ⟨fun _ => by decide, fun _ => ?_⟩
      · exact .integer (.inl (by decide +kernel))
      · exact .integer (.inl (by decide +kernel))
      · exact .integer (.inl (by decide +kernel))
      · exact .integer (.inl (by decide +kernel))
      · exact .float (.inl (by decide +kernel))
      · exact .float (.inl (by decide +kernel))
      · exact .bool (.inl (by decide +kernel))
      · exact .text (.inl (by decide +kernel))
    · rw [h5]; exact rt _ h4
    · rw [h5]; exact rt _ h4
    · rw [h4] at hd; exact absurd (by decide) hd
    · exact absurd (by
        simp only [List.mem_cons, List.not_mem_nil, or_false] at h4 ⊢
        tauto) hd

/-! ### Outputs and exceptions -/

omit hm in
theorem base_locals {b : String} (hb : b ∈ BaseTypes) : b ∉ GoClientLocals ∧ b ≠ "response" := by
  have : ∀ b ∈ BaseTypes, b ∉ GoClientLocals ∧ b ≠ "response" := by decide
  exact this b hb

include hr in
theorem native_hidden {n : String} (hk : Known m.schema n) (ha : n ≠ "Array") (hp : n ≠ "Map") :
    (∀ x ∈ GoTyNames (nativeOf m conf n).1, x ∉ GoClientLocals ∧ x ≠ "response") ↔ n ∉ GoClientLocals ∧ n ≠ "response" := by
  obtain ⟨ts', ⟨td, h1, h2, h3⟩ | ⟨h1, h2⟩⟩ := hk
  · subst h2
    rw [user_leaf hm hr h1]
    split <;> simp [GoTyNames]
  · simp only [base_locals h1, ne_eq, not_false_eq_true, and_self, iff_true]
    rw [base_native hm h1]
    rcases base_leaf hm (conf := conf) h1 ha hp with ⟨h4, h5, _⟩ | ⟨h4, _, h5, _⟩ | ⟨h4, _, h5, _⟩ | ⟨h4, h5, _⟩ | ⟨h4, h5, _⟩ <;> rw [h5]
    · have h6 := prim_predeclared h4
      have : ∀ b ∈ GoPredeclared, b ∉ GoClientLocals ∧ ¬ b = "response" := by decide
      simpa [GoTyNames] using this _ h6
    · simp [GoTyNames]
    · simpa [GoTyNames] using base_locals h1
    · simpa [GoTyNames] using base_locals h1
    · simpa [GoTyNames] using base_locals h1

include hr in
/-- The header outputs that are made into timestamps. -/
theorem native_time (hid : ∀ td ∈ m.schema.types, GoIdent td.name) {n : String} (hk : Known m.schema n) (ha : n ≠ "Array") (hp : n ≠ "Map") :
    (nativeOf m conf n).1.text = "*Timestamp" ↔ n = "Timestamp" ∧ conf.runtime = false := by
  have star : ∀ x : String, "*" ++ x = "*Timestamp" ↔ x = "Timestamp" := by
    intro x
    constructor
    · intro h
      have := congrArg String.toList h
      rw [String.toList_append] at this
      apply String.ext
      simpa using this
    · rintro rfl; rfl
  obtain ⟨ts', ⟨td, h1, h2, h3⟩ | ⟨h1, h2⟩⟩ := hk
  · subst h2
    have hb := user_not_base hm h1
    have hn : td.name ≠ "Timestamp" := fun h => hb (h ▸ by decide)
    rw [user_leaf hm hr h1]
    split
    · simp [GoTy.text, star, hn]
    · obtain ⟨_, c, r, h4, h5, _⟩ := hid td h1
      simp only [GoTy.text, hn, false_and, iff_false]
      intro h
      rw [h] at h4
      injection h4 with h4 _
      subst h4
      rcases h5 with h5 | h5 <;> exact absurd h5 (by decide)
  · rw [base_native hm h1]
    rcases base_leaf hm (conf := conf) h1 ha hp with ⟨h4, h5, _⟩ | ⟨h4, h6, h5, _⟩ | ⟨h4, h6, h5, _⟩ | ⟨h4, h5, _⟩ | ⟨h4, h5, _⟩ <;> rw [h5]
    · have : ∀ b ∈ goPrimitives, (GoTy.ident (uncapitalize b)).text ≠ "*Timestamp" ∧ b ≠ "Timestamp" := by decide +kernel
      simp [this _ h4]
    · simp only [GoTy.text, star, h6, Bool.true_eq_false, and_false, iff_false]
      simp only [runtimeTypes, List.mem_cons, List.not_mem_nil, or_false] at h4
      rcases h4 with rfl | rfl | rfl <;> decide
    · simp [GoTy.text, star, h6]
    · subst h4; simp [GoTy.text, star]
    · have : ∀ b ∈ ["UUID", "Bytes", "Any", "Enum", "Union"], (GoTy.ident b).text ≠ "*Timestamp" ∧ b ≠ "Timestamp" := by decide
      simp [this _ h4]

include hr in
/-- The type of a header output is that of a text. -/
theorem native_string {n : String} (hpre : ∀ td ∈ m.schema.types, td.name ∉ GoPredeclared) (hk : Known m.schema n) (ha : n ≠ "Array") (hp : n ≠ "Map") :
    (nativeOf m conf n).1 = .ident "string" ↔ n = "String" := by
  obtain ⟨ts', ⟨td, h1, h2, h3⟩ | ⟨h1, h2⟩⟩ := hk
  · subst h2
    have hb := user_not_base hm h1
    have hn : td.name ≠ "String" := fun h => hb (h ▸ by decide)
    rw [user_leaf hm hr h1]
    split
    · simp [hn]
    · simp only [GoTy.ident.injEq, hn, iff_false]
      exact fun h => hpre td h1 (h ▸ by decide)
  · rw [base_native hm h1]
    rcases base_leaf hm (conf := conf) h1 ha hp with ⟨h4, h5, _⟩ | ⟨h4, h6, h5, _⟩ | ⟨h4, h6, h5, _⟩ | ⟨h4, h5, _⟩ | ⟨h4, h5, _⟩ <;> rw [h5]
    · have : ∀ b ∈ goPrimitives, GoTy.ident (uncapitalize b) = .ident "string" ↔ b = "String" := by decide +kernel
      exact this _ h4
    · simp only [reduceCtorEq, false_iff]
      rintro rfl; exact absurd h4 (by decide)
    · simp only [reduceCtorEq, false_iff]
      rintro rfl; exact absurd h4 (by decide)
    · subst h4; simp
    · have : ∀ b ∈ ["UUID", "Bytes", "Any", "Enum", "Union"], GoTy.ident b ≠ .ident "string" ∧ b ≠ "String" := by decide
      simp [this _ h4]

include hr in
/-- An output is typed as it has to be. -/
theorem output_typed (hsound : GoSound conf.name conf.runtime m.schema) (hpre : ∀ td ∈ m.schema.types, td.name ∉ GoPredeclared)
    (hid : ∀ td ∈ m.schema.types, GoIdent td.name) {h : HttpDef} (hh : h ∈ m.schema.http) {e : HttpExpectedSpec} (he : h.expected = some e)
    {p : HttpParamSpec} (hp : p ∈ e.outputs) (hk : Known m.schema p.field.ts.type) (ha : p.field.ts.type ≠ "Array") (hmp : p.field.ts.type ≠ "Map") :
    OutputTyped (fileOf m conf) (e.outputs.map fun p => fieldOf m conf p.field) (outputOf m conf p) ↔
      (p.header = "" → p.field.ts.type ∉ GoClientLocals ∧ p.field.ts.type ≠ "response") ∧
      (p.header ≠ "" → p.field.ts.type = "String" ∨ (p.field.ts.type = "Timestamp" ∧ conf.runtime = false)) := by
  have hty : (fieldOf m conf p.field).type = (nativeOf m conf p.field.ts.type).1 := native_tyOf hm hr hk ha hmp
  have hfield : ∀ t, (∃ fd ∈ e.outputs.map fun p => fieldOf m conf p.field, fd.name = capitalize p.field.name ∧ fd.type = t) ↔
      (nativeOf m conf p.field.ts.type).1 = t := by
    intro t
    constructor
    · rintro ⟨fd, h1, h2, h3⟩
      obtain ⟨q, hq, rfl⟩ := List.mem_map.1 h1
      have : q = p := List.inj_on_of_nodup_map ((hsound.actionsOnce h hh).2 e he) hq hp h2
      subst this
      rw [← hty]; exact h3
    · intro h1
      exact ⟨_, List.mem_map_of_mem hp, rfl, hty.trans h1⟩
  unfold outputOf
  by_cases hhd : p.header = ""
  · simp only [hhd, if_true, OutputTyped, hfield, true_and, true_implies, ne_eq, not_true_eq_false, false_implies, and_true]
    exact native_hidden hm hr hk ha hmp
  · simp only [hhd, if_false, false_implies, true_and, ne_eq, not_false_eq_true, true_implies]
    have ht := native_time hm hr (conf := conf) hid hk ha hmp
    by_cases h1 : (nativeOf m conf p.field.ts.type).1.text = "*Timestamp"
    · obtain ⟨h2, h3⟩ := ht.1 h1
      simp only [h1, decide_true, OutputTyped, hfield]
      have hts : .timestamp ∈ (fileOf m conf).decls := by
        refine (mem_decls hr _).2 (.timestamp ((timestamp_noted hr).2 ⟨h3, .direct (.output hh he hp rfl) h2⟩))
      refine ⟨fun _ => .inr ⟨h2, h3⟩, fun _ => ⟨hts, ?_⟩⟩
      rw [h2, base_native hm (by decide)]
      simp [leafTy, goPrimitives, goRuntimeType, h3]
    · simp only [h1, decide_false, OutputTyped, hfield]
      rw [native_string hm hr hpre hk ha hmp]
      constructor
      · exact .inl
      · rintro (h2 | h2)
        · exact h2
        · exact absurd (ht.2 h2) h1

include hr in
theorem error_ty {h : HttpDef} (hh : h ∈ m.schema.http)
    {x : HttpExceptionSpec} (hx : x ∈ h.exceptions) (hk : Known m.schema x.type) (ha : x.type ≠ "Array") (hp : x.type ≠ "Map") :
    GoErrorTy (fileOf m conf) (nativeOf m conf x.type).1 ↔
      (∃ td ∈ m.schema.types, td.name = x.type ∧ td.ts.type = "Struct") ∧ x.type ∉ GoClientLocals := by
  constructor
  · intro hok
    obtain ⟨ts, ⟨td, h1, h2, h3⟩ | ⟨h1, h2⟩⟩ := hk
    · rw [← h2, user_leaf hm hr h1] at hok
      by_cases hs : td.ts.type = "Struct"
      · rw [if_pos hs] at hok
        refine ⟨⟨td, h1, h2, hs⟩, ?_⟩
        rw [← h2]
        cases hok with
        | pointer _ h => exact h
      · rw [if_neg hs] at hok
        cases hok
    · exfalso
      generalize ht : (nativeOf m conf x.type).1 = t at hok
      cases hok with
      | @pointer n h4 _ =>
        cases (mem_decls hr _).1 h4 with
        | @type td _ h5 h6 =>
          have h7 : n = td.name := by cases h6; rfl
          have hb := user_not_base hm h5
          rw [← h7] at hb
          rw [base_native hm h1] at ht
          rcases base_leaf hm (conf := conf) h1 ha hp with ⟨_, g, _⟩ | ⟨_, _, g, _⟩ | ⟨_, _, g, _⟩ | ⟨_, g, _⟩ | ⟨_, g, _⟩ <;> rw [g] at ht
          · cases ht
          · cases ht
          · injection ht with ht; injection ht with ht; exact hb (ht ▸ h1)
          · injection ht with ht; injection ht with ht; exact hb (ht ▸ h1)
          · cases ht
  · rintro ⟨⟨td, h1, h2, h3⟩, h4⟩
    rw [← h2, user_leaf hm hr h1, if_pos h3]
    refine .pointer ((mem_decls hr _).2 (.type h1 (.error (.inl h3) ?_))) (h2 ▸ h4)
    exact (mem_exceptionsOf _ _).2 ⟨h, hh, x, hx, h2.symm⟩
/-! ### Methods -/

omit hm in
theorem user_named {td : TypeDef} (htd : td ∈ m.schema.types) : td.name ∈ GoNames conf.name m.schema := by
  unfold GoNames
  apply List.mem_append_right
  refine List.mem_flatMap.2 ⟨td, htd, ?_⟩
  unfold GoNamesOf
  split <;> try simp
  split <;> try simp
  split <;> simp

omit hm in
theorem quotable_capitalized {n : String} (h : GoIdent (capitalize n)) : GoQuotable n := by
  obtain ⟨_, c, r, h1, h2, h3⟩ := h
  unfold capitalize at h1
  rw [String.toList_ofList] at h1
  unfold GoQuotable
  cases hn : n.toList with
  | nil => intro c hc; cases hc
  | cons d l =>
    rw [hn] at h1
    injection h1 with h4 h5
    intro c' hc'
    rcases List.mem_cons.1 hc' with rfl | hc'
    · have : ∀ x ∈ ['"', '\\', '\n'], c' ≠ x := by
        intro x hx e
        subst e
        have key : ∀ x ∈ ['"', '\\', '\n'], ¬ ((if x.toNat < 128 then x.toUpper else x).isAlpha ∨ (if x.toNat < 128 then x.toUpper else x) = '_') := by decide +kernel
        exact key _ hx (h4 ▸ h2)
      exact ⟨this _ (by simp), this _ (by simp), this _ (by simp)⟩
    · rw [h5] at hc'
      have h6 := h3 c' hc'
      refine ⟨?_, ?_, ?_⟩ <;> rintro rfl <;> rcases h6 with h6 | h6 <;> exact absurd h6 (by decide)

omit hm in
theorem reader_some (hd : HttpDef) : (∃ f, readerOf hd = some f) ↔ SendsBody hd := by
  unfold readerOf SendsBody
  by_cases hv : hd.method ∈ goBodyVerbs
  · have hv' : hd.method ∈ ["PUT", "POST", "PATCH"] := hv
    simp only [hv, hv', if_true, true_and]
    constructor
    · rintro ⟨f, h⟩
      obtain ⟨p, hp, _⟩ := Option.map_eq_some_iff.1 h
      exact ⟨p, List.mem_of_find?_eq_some hp, List.find?_some hp⟩
    · rintro ⟨p, hp, hb⟩
      cases hf : hd.inputs.find? BodyInput with
      | none => rw [List.find?_eq_none] at hf; exact absurd hb (hf p hp)
      | some q => exact ⟨_, rfl⟩
  · have hv' : hd.method ∉ ["PUT", "POST", "PATCH"] := hv
    simp [hv, hv']

include hr in
theorem call_compiles (hsound : GoSound conf.name conf.runtime m.schema) (hpre : ∀ td ∈ m.schema.types, td.name ∉ GoPredeclared)
    {h : HttpDef} (hh : h ∈ m.schema.http) (hcall : GoCallable h) (hv : HttpOk m.schema h) (hmeth : GoQuotable h.method)
    {e : HttpExpectedSpec} (he : h.expected = some e) :
    GoCallCompiles (fileOf m conf) (callOf m conf h) ↔ GoCalled conf.runtime m.schema h e := by
  have honce : ((fileOf m conf).decls.flatMap DeclaredNames).Nodup := (once_iff hr).2 ⟨hsound.once, hsound.decimalOnce, hsound.timestampOnce⟩
  have hid : ∀ td ∈ m.schema.types, GoIdent td.name := fun td htd => hsound.idents _ (user_named htd)
  have hreq := (mem_decls (conf := conf) hr _).2 (.request hh)
  have hres := (mem_decls (conf := conf) hr _).2 (.response hh)
  have hout : outputsOf h = e.outputs := by simp [outputsOf, he]
  rw [hout] at hres
  have outs : ∀ p ∈ e.outputs, p.field.ts.type ≠ "Array" ∧ p.field.ts.type ≠ "Map" := by
    obtain ⟨e', h1, h2⟩ := hcall.expected
    rw [he] at h1; cases h1
    exact h2
  have otyped := fun p (hp : p ∈ e.outputs) => output_typed hm hr hsound hpre hid hh he hp (hv.outputTypes e he p hp) (outs p hp).1 (outs p hp).2
  have zfits := fun p (hp : p ∈ h.inputs) => zero_fits hm hr (conf := conf) hsound hpre (ts := p.field.ts) (.direct (.input hh hp rfl) rfl) (hv.inputTypes p hp)
  have etys := fun x (hx : x ∈ h.exceptions) => error_ty hm hr (conf := conf) hh hx (hv.exceptionTypes e he x hx) (hcall.exceptions x hx).1 (hcall.exceptions x hx).2
  have hpath : GoQuotable (callOf m conf h).path ↔ ∀ p q, PathAndQuery h.path.toList p q → ∀ c ∈ p, c ≠ '"' ∧ c ≠ '\\' ∧ c ≠ '\n' := by
    have e1 : (callOf m conf h).path = String.ofList (pathPart h.path.toList) := rfl
    rw [e1]
    unfold GoQuotable
    rw [String.toList_ofList]
    constructor
    · intro h1 p q hpq
      obtain ⟨rfl, _⟩ := pathAndQuery_unique hpq
      exact h1
    · intro h1
      exact h1 _ _ (pathAndQuery _)
  have e2 : (callOf m conf h).outputs = e.outputs.map (outputOf m conf) := by simp [callOf, he]
  have e3 : (callOf m conf h).status = e.status := by simp [callOf, he]
  have hst : ((callOf m conf h).status :: (callOf m conf h).cases.map (·.2)).Nodup ↔ (e.status :: h.exceptions.map (·.status)).Nodup := by
    rw [e3]; simp [callOf, Function.comp_def]
  constructor
  · intro hg
    obtain ⟨fs, hf1, hf2, hf3⟩ := hg.request
    have hfs : fs = h.inputs.map fun p => fieldOf m conf p.field := by
      have := flatMap_nodup_unique honce hf1 hreq (n := capitalize h.name ++ "Request") (by simp [DeclaredNames, callOf]) (by simp [DeclaredNames])
      injection this
    subst hfs
    obtain ⟨gs, hg1, hg2⟩ := hg.response
    have hgs : gs = e.outputs.map fun p => fieldOf m conf p.field := by
      have := flatMap_nodup_unique honce hg1 hres (n := capitalize h.name ++ "Response") (by simp [DeclaredNames, callOf]) (by simp [DeclaredNames])
      injection this
    subst hgs
    have hos : ∀ p ∈ e.outputs, _ := fun p hp => (otyped p hp).1 (hg2 _ (by rw [e2]; exact List.mem_map_of_mem hp))
    have hxs : ∀ x ∈ h.exceptions, _ := fun x hx => (etys x hx).1 (hg.cases _ (List.mem_map.2 ⟨x, hx, rfl⟩))
    refine ⟨hpath.1 hg.quoted.1, ?_, fun p hp => (hos p hp).2, fun x hx => (hxs x hx).1, ⟨fun p hp => (hos p hp).1, fun x hx => (hxs x hx).2⟩, hst.1 hg.casesOnce⟩
    intro p hp hq
    refine (zfits p hp).1 ?_
    obtain ⟨fd, h1, h2, h3⟩ := hf2 (argOf m p) (List.mem_map.2 ⟨p, List.mem_filter.2 ⟨hp, by simpa using hq⟩, rfl⟩)
    obtain ⟨q, hq', rfl⟩ := List.mem_map.1 h1
    have : q = p := List.inj_on_of_nodup_map (hsound.actionsOnce h hh).1 hq' hp h2
    subst this
    exact h3
  · intro hg
    refine ⟨⟨_, hreq, ?_, ?_⟩, ⟨_, hres, ?_⟩, ?_, ?_, hst.2 hg.statuses, hpath.2 hg.path, hmeth, ?_⟩
    · intro a ha
      obtain ⟨p, hp, rfl⟩ := List.mem_map.1 ha
      obtain ⟨hp, hq⟩ := List.mem_filter.1 hp
      exact ⟨_, List.mem_map_of_mem hp, rfl, (zfits p hp).2 (hg.query p hp (by simpa using hq))⟩
    · intro b hb
      change readerOf h = some b at hb
      unfold readerOf at hb
      split at hb
      · obtain ⟨p, hp, rfl⟩ := Option.map_eq_some_iff.1 hb
        exact ⟨_, List.mem_map_of_mem (List.mem_of_find?_eq_some hp), rfl⟩
      · cases hb
    · intro o ho
      rw [e2] at ho
      obtain ⟨p, hp, rfl⟩ := List.mem_map.1 ho
      exact (otyped p hp).2 ⟨hg.hidden.1 p hp, hg.headers p hp⟩
    · rw [e2]
      refine le_trans (le_of_eq ?_) (hv.oneOutputBody e he)
      rw [List.filter_map, List.length_map]
      congr 1
      apply List.filter_congr
      intro p _
      simp only [Function.comp_apply, outputOf, BodyOutput]
      by_cases h1 : p.header = "" <;> simp [h1]
    · intro x hx
      obtain ⟨y, hy, rfl⟩ := List.mem_map.1 hx
      exact (etys y hy).2 ⟨hg.exceptions y hy, hg.hidden.2 y hy⟩
    · intro a ha
      obtain ⟨p, hp, rfl⟩ := List.mem_map.1 ha
      obtain ⟨hp, _⟩ := List.mem_filter.1 hp
      exact quotable_capitalized ((hsound.actionIdents h hh).2.1 p hp)

/-! ### Packages -/

/-- The packages that are imported. -/
theorem client_imports (hcall : ∀ h ∈ m.schema.http, GoCallable h) (p : String) :
    p ∈ (clientOf m conf).imports ↔ p ∈ goClientImports ∨ (p = "bytes" ∧ ∃ h ∈ m.schema.http, SendsBody h) ∨
      (p = "github.com/boynton/sadl" ∧ conf.runtime = true ∧ ∃ h ∈ m.schema.http, (∃ e, h.expected = some e ∧ ∃ q ∈ e.outputs, q.field.ts.type ∈ runtimeTypes) ∨
        ∃ x ∈ h.exceptions, x.type ∈ runtimeTypes) := by
  unfold clientOf
  simp only
  rw [mem_imports_from]
  refine or_congr_right ?_
  rw [List.mem_flatMap]
  constructor
  · rintro ⟨hd, hh, h1⟩
    obtain ⟨e, he, h4⟩ := (hcall hd hh).expected
    unfold callNotes at h1
    rw [he, Option.getD_some, List.mem_append, List.mem_append] at h1
    rcases h1 with (h1 | h1) | h1
    · split at h1
      · next h2 =>
        rw [List.mem_singleton] at h1
        injection h1 with h1
        exact .inl ⟨h1, hd, hh, (reader_some hd).1 (Option.isSome_iff_exists.1 h2)⟩
      · cases h1
    · obtain ⟨q, hq, h2⟩ := List.mem_flatMap.1 h1
      obtain ⟨h5, h6, h7⟩ := (native_packs hm (h4 q hq).1 (h4 q hq).2).1 h2
      exact .inr ⟨h5, h6, hd, hh, .inl ⟨e, he, q, hq, h7⟩⟩
    · obtain ⟨q, hq, h2⟩ := List.mem_flatMap.1 h1
      obtain ⟨h5, h6, h7⟩ := (native_packs hm ((hcall hd hh).exceptions q hq).1 ((hcall hd hh).exceptions q hq).2).1 h2
      exact .inr ⟨h5, h6, hd, hh, .inr ⟨q, hq, h7⟩⟩
  · rintro (⟨rfl, hd, hh, h1⟩ | ⟨rfl, hrt, hd, hh, ⟨e, he, q, hq, h1⟩ | ⟨x, hx, h1⟩⟩)
    · refine ⟨hd, hh, ?_⟩
      unfold callNotes
      rw [if_pos (Option.isSome_iff_exists.2 ((reader_some hd).2 h1))]
      simp
    · obtain ⟨e', he', h4⟩ := (hcall hd hh).expected
      rw [he] at he'; cases he'
      refine ⟨hd, hh, ?_⟩
      unfold callNotes
      rw [he, Option.getD_some]
      exact List.mem_append_left _ (List.mem_append_right _ (List.mem_flatMap.2 ⟨q, hq, (native_packs hm (h4 q hq).1 (h4 q hq).2).2 ⟨rfl, hrt, h1⟩⟩))
    · refine ⟨hd, hh, ?_⟩
      unfold callNotes
      exact List.mem_append_right _ (List.mem_flatMap.2 ⟨x, hx, (native_packs hm ((hcall hd hh).exceptions x hx).1 ((hcall hd hh).exceptions x hx).2).2 ⟨rfl, hrt, h1⟩⟩)

/-- The packages that are used. -/
theorem client_uses (hcall : ∀ h ∈ m.schema.http, GoCallable h) (p : String) :
    (∃ c ∈ (clientOf m conf).calls, p ∈ CallPackages c) ↔ (m.schema.http ≠ [] ∧ p ∈ ["fmt", "net/http", "strings"]) ∨
      (p = "bytes" ∧ ∃ h ∈ m.schema.http, SendsBody h) ∨
      (p = "encoding/json" ∧ ∃ h ∈ m.schema.http, h.exceptions ≠ [] ∨ ∃ e, h.expected = some e ∧ ∃ q ∈ e.outputs, q.header = "") ∨
      (p = "github.com/boynton/sadl" ∧ conf.runtime = true ∧ ∃ h ∈ m.schema.http,
        (∃ e, h.expected = some e ∧ ∃ q ∈ e.outputs, q.header = "" ∧ q.field.ts.type ∈ runtimeTypes) ∨ ∃ x ∈ h.exceptions, x.type ∈ runtimeTypes) := by
  constructor
  · rintro ⟨c, hc, h1⟩
    obtain ⟨hd, hh, rfl⟩ := List.mem_map.1 hc
    obtain ⟨e, he, h4⟩ := (hcall hd hh).expected
    unfold CallPackages at h1
    simp only [List.mem_append] at h1
    rcases h1 with ((h1 | h1) | h1) | h1
    · exact .inl ⟨List.ne_nil_of_mem hh, h1⟩
    · split at h1
      · next h2 => exact .inr (.inl ⟨List.mem_singleton.1 h1, hd, hh, (reader_some hd).1 (Option.isSome_iff_exists.1 h2)⟩)
      · cases h1
    · obtain ⟨o, ho, h2⟩ := List.mem_flatMap.1 h1
      have e2 : (callOf m conf hd).outputs = e.outputs.map (outputOf m conf) := by simp [callOf, he]
      rw [e2] at ho
      obtain ⟨q, hq, rfl⟩ := List.mem_map.1 ho
      unfold outputOf at h2
      by_cases hqh : q.header = ""
      · simp only [hqh, if_true, List.mem_cons] at h2
        rcases h2 with h2 | h2
        · exact .inr (.inr (.inl ⟨h2, hd, hh, .inr ⟨e, he, q, hq, hqh⟩⟩))
        · obtain ⟨h5, h6, h7⟩ := (native_packages hm (h4 q hq).1 (h4 q hq).2).1 h2
          exact .inr (.inr (.inr ⟨h5, h6, hd, hh, .inl ⟨e, he, q, hq, hqh, h7⟩⟩))
      · simp [hqh] at h2
    · obtain ⟨o, ho, h2⟩ := List.mem_flatMap.1 h1
      obtain ⟨x, hx, rfl⟩ := List.mem_map.1 ho
      rcases List.mem_cons.1 h2 with h2 | h2
      · exact .inr (.inr (.inl ⟨h2, hd, hh, .inl (List.ne_nil_of_mem hx)⟩))
      · obtain ⟨h5, h6, h7⟩ := (native_packages hm ((hcall hd hh).exceptions x hx).1 ((hcall hd hh).exceptions x hx).2).1 h2
        exact .inr (.inr (.inr ⟨h5, h6, hd, hh, .inr ⟨x, hx, h7⟩⟩))
  · have mk : ∀ hd ∈ m.schema.http, p ∈ CallPackages (callOf m conf hd) → ∃ c ∈ (clientOf m conf).calls, p ∈ CallPackages c :=
      fun hd hh h1 => ⟨_, List.mem_map_of_mem hh, h1⟩
    have outs : ∀ hd ∈ m.schema.http, ∀ e, hd.expected = some e → ∀ q ∈ e.outputs, q.header = "" →
        p ∈ "encoding/json" :: GoTyPackages (nativeOf m conf q.field.ts.type).1 → p ∈ CallPackages (callOf m conf hd) := by
      intro hd hh e he q hq hqh hp
      have e2 : (callOf m conf hd).outputs = e.outputs.map (outputOf m conf) := by simp [callOf, he]
      unfold CallPackages
      refine List.mem_append_left _ (List.mem_append_right _ (List.mem_flatMap.2 ⟨outputOf m conf q, by rw [e2]; exact List.mem_map_of_mem hq, ?_⟩))
      simp only [outputOf, hqh, if_true]
      exact hp
    have exs : ∀ hd ∈ m.schema.http, ∀ x ∈ hd.exceptions,
        p ∈ "encoding/json" :: GoTyPackages (nativeOf m conf x.type).1 → p ∈ CallPackages (callOf m conf hd) := by
      intro hd hh x hx hp
      unfold CallPackages
      exact List.mem_append_right _ (List.mem_flatMap.2 ⟨_, List.mem_map.2 ⟨x, hx, rfl⟩, hp⟩)
    rintro (⟨h1, h2⟩ | ⟨rfl, hd, hh, h1⟩ | ⟨rfl, hd, hh, h1 | ⟨e, he, q, hq, h1⟩⟩ | ⟨rfl, hrt, hd, hh, ⟨e, he, q, hq, hqh, h1⟩ | ⟨x, hx, h1⟩⟩)
    · obtain ⟨hd, hh⟩ := List.exists_mem_of_ne_nil _ h1
      refine mk hd hh ?_
      unfold CallPackages
      simp only [List.append_assoc]
      exact List.mem_append_left _ h2
    · refine mk hd hh ?_
      unfold CallPackages
      have : (callOf m conf hd).body.isSome = true := Option.isSome_iff_exists.2 ((reader_some hd).2 h1)
      simp [this]
    · obtain ⟨x, hx⟩ := List.exists_mem_of_ne_nil _ h1
      exact mk hd hh (exs hd hh x hx (by simp))
    · exact mk hd hh (outs hd hh e he q hq h1 (by simp))
    · obtain ⟨e', he', h4⟩ := (hcall hd hh).expected
      rw [he] at he'; cases he'
      exact mk hd hh (outs hd hh e he q hq hqh (.tail _ ((native_packages hm (h4 q hq).1 (h4 q hq).2).2 ⟨rfl, hrt, h1⟩)))
    · exact mk hd hh (exs hd hh x hx (.tail _ ((native_packages hm ((hcall hd hh).exceptions x hx).1 ((hcall hd hh).exceptions x hx).2).2 ⟨rfl, hrt, h1⟩)))

/-! ### Names -/

omit hm in
theorem client_not {l : List String} (n : String)
    (h : ∀ b ∈ l, b.toList.reverse.take "Client".toList.length ≠ "Client".toList.reverse) : n ++ "Client" ∉ l :=
  fun hm => suffix_ne n "Client" (h _ hm) rfl

omit hm in
theorem client_inj {a b : String} (h : a ++ "Client" = b ++ "Client") : a = b := by
  have := congrArg String.toList h
  rw [String.toList_append, String.toList_append] at this
  exact String.toList_inj.1 (List.append_cancel_right this)

omit hm in
theorem client_ident {n : String} (h : GoIdent n) : GoIdent (n ++ "Client") := by
  obtain ⟨_, c, r, h1, h2, h3⟩ := h
  refine ⟨client_not _ (by decide), c, r ++ "Client".toList, ?_, h2, ?_⟩
  · rw [String.toList_append, h1]; rfl
  · intro d hd
    rcases List.mem_append.1 hd with hd | hd
    · exact h3 d hd
    · have : ∀ d ∈ "Client".toList, d.isAlphanum ∨ d = '_' := by decide
      exact this d hd

/-- What the files of types may declare beside what is in the schema. -/
def closingNames : List String :=
  ["Timestamp", "RFC3339Milli", "TimestampFromString", "ParseTimestamp", "DecimalPrecision", "Decimal", "DecimalFromString", "ParseDecimal", "NewDecimal"]

omit hm in
theorem closing_sub {n : String} (hn : n ∈ (goClosing (notesOf m conf)).1.flatMap DeclaredNames) : n ∈ closingNames := by
  rw [closing_names] at hn
  rcases List.mem_append.1 hn with hn | hn
  · split at hn
    · exact List.mem_append_left ["DecimalPrecision", "Decimal", "DecimalFromString", "ParseDecimal", "NewDecimal"] hn
    · cases hn
  · split at hn
    · exact List.mem_append_right ["Timestamp", "RFC3339Milli", "TimestampFromString", "ParseTimestamp"] hn
    · cases hn

omit hm in
include hr in
/-- Every name of the client is its own. -/
theorem client_names (honce : ((fileOf m conf).decls.flatMap DeclaredNames).Nodup) (packs : List String)
    (hpk : ∀ p ∈ packs, p ∈ ["bytes", "json", "fmt", "http", "strings", "sadl"]) (a : String) (ha : a = conf.name ++ "Client") :
    (((fileOf m conf).decls.flatMap DeclaredNames ++ [a, "NewClient"]).Nodup ∧
      (∀ p ∈ packs, p ∉ (fileOf m conf).decls.flatMap DeclaredNames ++ [a, "NewClient"]) ∧
      (∀ n ∈ (fileOf m conf).decls.flatMap DeclaredNames ++ [a, "NewClient"], n ∉ GoClientPredeclared)) ↔
    (∀ n ∈ GoNames conf.name m.schema, n ∉ packs ∧ n ∉ GoClientPredeclared ∧ n ≠ a ∧ n ≠ "NewClient") ∧ conf.name ≠ "New" := by
  have hnew : a = "NewClient" ↔ conf.name = "New" := by
    subst ha
    constructor
    · intro h
      exact client_inj (b := "New") h
    · intro h; rw [h]; rfl
  constructor
  · rintro ⟨h1, h2, h3⟩
    obtain ⟨_, h5, h4⟩ := List.nodup_append.1 h1
    refine ⟨?_, fun h => ?_⟩
    · intro n hn
      have hn' : n ∈ (fileOf m conf).decls.flatMap DeclaredNames := by rw [names_file hr]; exact List.mem_append_left _ hn
      refine ⟨fun h => h2 n h (List.mem_append_left _ hn'), h3 n (List.mem_append_left _ hn'), ?_, ?_⟩
      · exact fun h => h4 n hn' a (by simp) h
      · exact fun h => h4 n hn' "NewClient" (by simp) h
    · rw [hnew.2 h] at h5
      exact absurd h5 (by decide)
  · rintro ⟨h, hn⟩
    have key : ∀ n ∈ (fileOf m conf).decls.flatMap DeclaredNames, n ∉ [a, "NewClient"] ∧ n ∉ packs ∧ n ∉ GoClientPredeclared := by
      intro n hn
      rw [names_file hr] at hn
      rcases List.mem_append.1 hn with hn | hn
      · obtain ⟨k1, k2, k3, k4⟩ := h n hn
        exact ⟨by simp [k3, k4], k1, k2⟩
      · have hc := closing_sub hn
        have h1 : ∀ n ∈ closingNames, n ≠ "NewClient" ∧ n ∉ ["bytes", "json", "fmt", "http", "strings", "sadl"] ∧ n ∉ GoClientPredeclared := by decide
        obtain ⟨k1, k2, k3⟩ := h1 n hc
        refine ⟨?_, fun h => k2 (hpk n h), k3⟩
        have : n ≠ a := by
          rintro rfl
          exact client_not (l := closingNames) conf.name (by decide) (ha ▸ hc)
        simp [k1, this]
    have own : ∀ n ∈ [a, "NewClient"], n ∉ packs ∧ n ∉ GoClientPredeclared := by
      intro n hn
      rcases List.mem_cons.1 hn with rfl | hn
      · subst ha; exact ⟨fun h => client_not _ (by decide) (hpk _ h), client_not _ (by decide)⟩
      · rw [List.mem_singleton.1 hn]
        exact ⟨fun h => absurd (hpk _ h) (by decide), by decide⟩
    refine ⟨List.nodup_append.2 ⟨honce, ?_, ?_⟩, ?_, ?_⟩
    · simp [mt hnew.1 hn]
    · rintro x hx y hy rfl
      exact (key x hx).1 hy
    · intro p hp hn
      rcases List.mem_append.1 hn with hn | hn
      · exact (key p hn).2.1 hp
      · exact (own p hn).1 hp
    · intro n hn
      rcases List.mem_append.1 hn with hn | hn
      · exact (key n hn).2.2
      · exact (own n hn).2

include hr in
/-- There is a type for `NewClient` to make. -/
theorem crudl_struct (hpre : ∀ td ∈ m.schema.types, td.name ∉ GoPredeclared) :
    (∃ fs, .struct "CrudlClient" fs ∈ (fileOf m conf).decls ∧ ∃ fd ∈ fs, fd.name = "Target" ∧ fd.type = .ident "string") ↔
    ∃ td ∈ m.schema.types, td.name = "CrudlClient" ∧ td.ts.type = "Struct" ∧
      ∃ fd ∈ td.ts.fields, capitalize fd.name = "Target" ∧ fd.ts.type = "String" := by
  have hty : ∀ ts : TypeSpec, GoWritable m.schema ts → ((tyOf m conf ts ts.type).1 = .ident "string" ↔ ts.type = "String") := by
    intro ts hts
    by_cases ha : ts.type = "Array"
    · simp [tyOf, ha]
    by_cases hp : ts.type = "Map"
    · simp [tyOf, hp]
    rw [native_tyOf hm hr hts.known ha hp]
    exact native_string hm hr hpre hts.known ha hp
  constructor
  · rintro ⟨fs, h1, fd, h2, h3, h4⟩
    generalize hn : "CrudlClient" = n at h1
    cases (mem_decls hr _).1 h1 with
    | request h => exact absurd hn (suffix_ne _ "Request" (by decide))
    | response h => exact absurd hn (suffix_ne _ "Response" (by decide))
    | @type td _ g1 g2 =>
      cases g2 with
      | struct g3 =>
        obtain ⟨f, hf, rfl⟩ := List.mem_map.1 h2
        exact ⟨td, g1, rfl, g3, f, hf, h3, (hty _ (hr.typed (.field g1 g3 hf rfl))).1 h4⟩
  · rintro ⟨td, h1, h2, h3, f, h4, h5, h6⟩
    refine ⟨_, h2 ▸ (mem_decls hr _).2 (.type h1 (.struct h3)), fieldOf m conf f, List.mem_map_of_mem h4, h5, ?_⟩
    exact (hty _ (hr.typed (.field h1 h3 h4 rfl))).2 h6

include hr in
/-- A client respects the rules of Go just if its schema is such. -/
theorem client_compiles_iff (hcap : capitalize conf.name = conf.name) (server : Bool)
    (hsound : GoSound conf.name conf.runtime m.schema) (hcall : ∀ h ∈ m.schema.http, GoCallable h)
    (hv : ∀ h ∈ m.schema.http, HttpOk m.schema h) (hmeth : ∀ h ∈ m.schema.http, GoQuotable h.method) :
    GoClientCompiles (fileOf m conf) server (clientOf m conf) ↔ GoClientSound conf.name conf.runtime server m.schema := by
  have honce : ((fileOf m conf).decls.flatMap DeclaredNames).Nodup := (once_iff hr).2 ⟨hsound.once, hsound.decimalOnce, hsound.timestampOnce⟩
  have hname : (clientOf m conf).name = conf.name ++ "Client" := by simp [clientOf, hcap]
  have hsub : ∀ n ∈ GoPredeclared, n ∈ GoClientPredeclared := by decide
  have hcr : conf.name ++ "Client" = "CrudlClient" ↔ conf.name = "Crudl" := by
    constructor
    · intro h
      exact client_inj (b := "Crudl") h
    · intro h; rw [h]; rfl
  -- the packages, under the names they have in the client
  let packs : List String := (GoClientPackages.filter fun e => e.1 ∈ (clientOf m conf).imports).map (·.2)
  have hpacks : ∀ n, n ∈ packs ↔ ∃ p, (p, n) ∈ GoClientPackages ∧ p ∈ (clientOf m conf).imports := by
    intro n
    simp only [packs, List.mem_map, List.mem_filter, decide_eq_true_eq]
    constructor
    · rintro ⟨⟨p, n'⟩, ⟨h1, h2⟩, rfl⟩; exact ⟨p, h1, h2⟩
    · rintro ⟨p, h1, h2⟩; exact ⟨⟨p, n⟩, ⟨h1, h2⟩, rfl⟩
  have hnames := client_names hr honce packs (by
    intro n hn
    obtain ⟨p, h1, _⟩ := (hpacks n).1 hn
    have : ∀ e ∈ GoClientPackages, e.2 ∈ ["bytes", "json", "fmt", "http", "strings", "sadl"] := by decide
    exact this _ h1) (conf.name ++ "Client") rfl
  have himp := client_imports hm (conf := conf) hcall
  have huse := client_uses hm (conf := conf) hcall
  -- with the methods as they have to be, what comes from the run-time library is used
  have exc : (∀ h ∈ m.schema.http, ∀ e, h.expected = some e → GoCalled conf.runtime m.schema h e) →
      ∀ h ∈ m.schema.http, ∀ x ∈ h.exceptions, x.type ∉ runtimeTypes := by
    intro hc h hh x hx hxr
    obtain ⟨e, he, _⟩ := (hcall h hh).expected
    obtain ⟨td, h1, h2, h3⟩ := (hc h hh e he).exceptions x hx
    have hb := user_not_base hm h1
    rw [h2] at hb
    have : ∀ n ∈ runtimeTypes, n ∈ BaseTypes := by decide
    exact hb (this _ hxr)
  have outs : (∀ h ∈ m.schema.http, ∀ e, h.expected = some e → GoCalled conf.runtime m.schema h e) → conf.runtime = true →
      ∀ h ∈ m.schema.http, ∀ e, h.expected = some e → ∀ q ∈ e.outputs, q.field.ts.type ∈ runtimeTypes → q.header = "" := by
    intro hc hrt h hh e he q hq hqr
    by_contra hne
    rcases (hc h hh e he).headers q hq hne with h1 | ⟨_, h1⟩
    · rw [h1] at hqr; exact absurd hqr (by decide)
    · rw [hrt] at h1; cases h1
  -- the names of the packages
  have hpk : (∀ h ∈ m.schema.http, ∀ e, h.expected = some e → GoCalled conf.runtime m.schema h e) → ∀ n, n ∉ packs ↔
      n ∉ ["json", "fmt", "http", "strings"] ∧ (n = "bytes" → ∀ h ∈ m.schema.http, ¬ SendsBody h) ∧
      (n = "sadl" → conf.runtime = true → ∀ h ∈ m.schema.http, ∀ e, h.expected = some e → ∀ p ∈ e.outputs,
        p.field.ts.type ∉ ["Decimal", "Timestamp", "UnitValue"]) := by
    intro hc n
    rw [hpacks]
    constructor
    · intro h
      refine ⟨?_, ?_, ?_⟩
      · intro hn
        have : ∀ n ∈ ["json", "fmt", "http", "strings"], ∃ p ∈ goClientImports, (p, n) ∈ GoClientPackages := by decide
        obtain ⟨p, hp, h1⟩ := this n hn
        exact h ⟨p, h1, (himp p).2 (.inl hp)⟩
      · rintro rfl a ha hs
        exact h ⟨"bytes", by decide, (himp _).2 (.inr (.inl ⟨rfl, a, ha, hs⟩))⟩
      · rintro rfl hrt a ha e he p hp hk
        exact h ⟨"github.com/boynton/sadl", by decide, (himp _).2 (.inr (.inr ⟨rfl, hrt, a, ha, .inl ⟨e, he, p, hp, hk⟩⟩))⟩
    · rintro ⟨h1, h2, h3⟩ ⟨p, h4, h5⟩
      rcases (himp p).1 h5 with h6 | ⟨rfl, a, ha, hs⟩ | ⟨rfl, hrt, a, ha, ⟨e, he, q, hq, hk⟩ | ⟨x, hx, hk⟩⟩
      · have : ∀ e ∈ GoClientPackages, e.1 ∈ goClientImports → e.2 ∈ ["json", "fmt", "http", "strings"] := by decide
        exact h1 (this _ h4 h6)
      · have : ∀ e ∈ GoClientPackages, e.1 = "bytes" → e.2 = "bytes" := by decide
        exact h2 (this _ h4 rfl) a ha hs
      · have : ∀ e ∈ GoClientPackages, e.1 = "github.com/boynton/sadl" → e.2 = "sadl" := by decide
        exact h3 (this _ h4 rfl) hrt a ha e he q hq hk
      · exact exc hc a ha x hx hk
  have hbody : (∃ c ∈ (clientOf m conf).calls, c.body ≠ none) ↔ ∃ h ∈ m.schema.http, SendsBody h := by
    constructor
    · rintro ⟨c, hc, hb⟩
      obtain ⟨a, ha, rfl⟩ := List.mem_map.1 hc
      exact ⟨a, ha, (reader_some a).1 (Option.ne_none_iff_exists'.1 hb)⟩
    · rintro ⟨a, ha, hs⟩
      exact ⟨_, List.mem_map_of_mem ha, Option.ne_none_iff_exists'.2 ((reader_some a).2 hs)⟩
  have hmethods : ("Target" :: (clientOf m conf).calls.map (·.method)).Nodup ↔ ∀ h ∈ m.schema.http, capitalize h.name ≠ "Target" := by
    have e1 : (clientOf m conf).calls.map (·.method) = m.schema.http.map fun h => capitalize h.name := by
      simp [clientOf, callOf, Function.comp_def]
    rw [e1, List.nodup_cons]
    simp only [hsound.methodsOnce, and_true, List.mem_map, not_exists, not_and, ne_eq]
  constructor
  · intro hg
    have hpre : ∀ td ∈ m.schema.types, td.name ∉ GoPredeclared := fun td htd hn =>
      hg.predeclared td.name (List.mem_append_left _ (by rw [names_file hr]; exact List.mem_append_left _ (user_named htd))) (hsub _ hn)
    have hcalled : ∀ h ∈ m.schema.http, ∀ e, h.expected = some e → GoCalled conf.runtime m.schema h e := fun h hh e he =>
      (call_compiles hm hr hsound hpre hh (hcall h hh) (hv h hh) (hmeth h hh) he).1 (hg.calls _ (List.mem_map_of_mem hh))
    have hn := hg.once
    have hn2 := hg.packageNames
    have hn3 := hg.predeclared
    rw [hname] at hn hn2 hn3
    obtain ⟨q1, q2⟩ := hnames.1 ⟨hn, fun p hp h => by
      obtain ⟨e, h1, h2⟩ := (hpacks p).1 hp
      exact hn2 _ h1 h2 h, hn3⟩
    refine ⟨?_, ?_, ?_, q2, hmethods.1 hg.methods, fun h => hg.toJson (hbody.2 h), hcalled⟩
    · rcases hg.newClient with h | h
      · exact .inl (hcr.1 (hname ▸ h))
      · exact .inr ((crudl_struct hm hr hpre).1 h)
    · have h1 := (hg.packages "encoding/json").1 ((himp _).2 (.inl (by decide)))
      rcases (huse _).1 h1 with ⟨_, h⟩ | ⟨h, _⟩ | ⟨_, h⟩ | ⟨h, _⟩
      · exact absurd h (by decide)
      · exact absurd h (by decide)
      · exact h
      · exact absurd h (by decide)
    · intro n hn
      obtain ⟨k1, k2, k3, k4⟩ := q1 n hn
      obtain ⟨j1, j2, j3⟩ := (hpk hcalled n).1 k1
      exact ⟨j1, k2, k3, k4, j2, j3⟩
  · intro hg
    have hpre : ∀ td ∈ m.schema.types, td.name ∉ GoPredeclared := fun td htd hn =>
      (hg.names td.name (user_named htd)).2.1 (hsub _ hn)
    obtain ⟨n1, n2, n3⟩ := hnames.2 ⟨fun n hn => by
      obtain ⟨k1, k2, k3, k4, k5, k6⟩ := hg.names n hn
      exact ⟨(hpk hg.called n).2 ⟨k1, k5, k6⟩, k2, k3, k4⟩, hg.newService⟩
    rw [← hname] at n1 n2 n3
    refine ⟨?_, n1, ?_, n3, ?_, ?_, ?_, hmethods.2 hg.noTarget, fun h => hg.toJson (hbody.1 h)⟩
    · rw [hname]
      exact client_ident (hsound.idents _ (by simp [GoNames]))
    · intro e he h1
      exact n2 e.2 ((hpacks _).2 ⟨e.1, he, h1⟩)
    · intro p
      rw [himp, huse]
      obtain ⟨hd, hh, hdec⟩ := hg.decodes
      constructor
      · rintro (h1 | h1 | ⟨h1, h2, h3, h4, h5 | ⟨x, hx, hk⟩⟩)
        · by_cases hj : p = "encoding/json"
          · exact .inr (.inr (.inl ⟨hj, hd, hh, hdec⟩))
          · refine .inl ⟨List.ne_nil_of_mem hh, ?_⟩
            simpa [goClientImports, hj] using h1
        · exact .inr (.inl h1)
        · obtain ⟨e, he, q, hq, hk⟩ := h5
          exact .inr (.inr (.inr ⟨h1, h2, h3, h4, .inl ⟨e, he, q, hq, outs hg.called h2 h3 h4 e he q hq hk, hk⟩⟩))
        · exact absurd hk (exc hg.called h3 h4 x hx)
      · rintro (⟨_, h1⟩ | h1 | ⟨h1, _⟩ | ⟨h1, h2, h3, h4, ⟨e, he, q, hq, _, hk⟩ | h5⟩)
        · have : ∀ p ∈ ["fmt", "net/http", "strings"], p ∈ goClientImports := by decide
          exact .inl (this _ h1)
        · exact .inr (.inl h1)
        · exact .inl (by rw [h1]; decide)
        · exact .inr (.inr ⟨h1, h2, h3, h4, .inl ⟨e, he, q, hq, hk⟩⟩)
        · exact .inr (.inr ⟨h1, h2, h3, h4, .inr h5⟩)
    · rcases hg.crudl with h | h
      · exact .inl (by rw [hname]; exact hcr.2 h)
      · exact .inr ((crudl_struct hm hr hpre).2 h)
    · intro c hc
      obtain ⟨a, ha, rfl⟩ := List.mem_map.1 hc
      obtain ⟨e, he, _⟩ := (hcall a ha).expected
      exact (call_compiles hm hr hsound hpre ha (hcall a ha) (hv a ha) (hmeth a ha) he).2 (hg.called a ha e he)
end

end Sadl
