import Verif.Lemmas.OpenApiExamples
/-
The references in an exported document.
-/
namespace Sadl
open Sadl.Spec

theorem mem_mset_or {α : Type} {m : GoMap α} {k k' : String} {v v' : α} (h : (k', v') ∈ mset m k v) :
    (k' = k ∧ v' = v) ∨ (k', v') ∈ m := by
  induction m with
  | nil => simp [mset] at h; exact .inl h
  | cons e r ih =>
    obtain ⟨a, b⟩ := e
    unfold mset at h
    split at h
    · next ha =>
      rcases List.mem_cons.1 h with h | h
      · cases h; exact .inl ⟨ha, rfl⟩
      · exact .inr (by simp [h])
    · rcases List.mem_cons.1 h with h | h
      · cases h; exact .inr (by simp)
      · rcases ih h with h | h
        · exact .inl h
        · exact .inr (by simp [h])

theorem hasRef_iff (s : OSchema) (r : String) : HasRef s r ↔
    (s.ref ≠ "" ∧ r = s.ref) ∨ (∃ i, s.items = some i ∧ HasRef i r) ∨
    (∃ i, s.additionalProperties = some i ∧ HasRef i r) ∨
    (∃ ps k i, s.properties = some ps ∧ (k, i) ∈ ps ∧ HasRef i r) ∨ (∃ i ∈ s.oneOf, HasRef i r) := by
  constructor
  · intro h
    cases h with
    | here h => exact .inl ⟨h, rfl⟩
    | items h1 h2 => exact .inr (.inl ⟨_, h1, h2⟩)
    | additional h1 h2 => exact .inr (.inr (.inl ⟨_, h1, h2⟩))
    | property h1 h2 h3 => exact .inr (.inr (.inr (.inl ⟨_, _, _, h1, h2, h3⟩)))
    | oneOf h1 h2 => exact .inr (.inr (.inr (.inr ⟨_, h1, h2⟩)))
  · rintro (⟨h, rfl⟩ | ⟨i, h1, h2⟩ | ⟨i, h1, h2⟩ | ⟨ps, k, i, h1, h2, h3⟩ | ⟨i, h1, h2⟩)
    · exact .here h
    · exact .items h1 h2
    · exact .additional h1 h2
    · exact .property h1 h2 h3
    · exact .oneOf h1 h2

theorem oasProps_mem {conv : TypeSpec → Ran OSchema} {fs : List StructFieldDef} {acc ps : GoMap OSchema}
    (h : oasProps conv fs acc = .ok ps) {k : String} {s : OSchema} (hm : (k, s) ∈ ps) :
    (k, s) ∈ acc ∨ ∃ f ∈ fs, f.name = k ∧ conv f.ts = .ok s := by
  induction fs generalizing acc with
  | nil => cases h; exact .inl hm
  | cons f rest ih =>
    unfold oasProps at h
    obtain ⟨s1, h1, h⟩ := Ran.bind_eq_ok.1 h
    rcases ih h with h2 | ⟨g, h2, h3, h4⟩
    · rcases mem_mset_or h2 with ⟨rfl, rfl⟩ | h2
      · exact .inr ⟨f, by simp, rfl, h1⟩
      · exact .inl h2
    · exact .inr ⟨g, by simp [h2], h3, h4⟩

/-- The reference names a type of the schema. -/
def RefOk (s : Schema) (r : String) : Prop := ∃ name, r = refPrefix ++ name ∧ Named s name

/-- The type can be exported, under the name or in place, without a dangling reference. -/
def SpecSafe (s : Schema) (ts : TypeSpec) (name : String) : Prop :=
  ts.type ∈ PlainTypes ∨ (ts.type ∈ ["Array", "Map"] ∧ Written s ts) ∨
  (ts.type = "Struct" ∧ (name = "" → ∀ f ∈ ts.fields, Inline s f.ts) ∧ (name ≠ "" → Named s name)) ∨
  (ts.type = "Enum" ∧ Named s name) ∨ Named s ts.type

theorem inline_safe {s : Schema} (hs : RefSafe s) {t : TypeSpec} (h : Inline s t) : SpecSafe s t "" := by
  rcases hs.inline t h with h1 | h1 | h1
  · exact .inl h1
  · simp only [List.mem_cons, List.not_mem_nil, or_false] at h1
    rcases h1 with h1 | h1 | h1
    · exact .inr (.inl ⟨by simp [h1], .inr h⟩)
    · exact .inr (.inl ⟨by simp [h1], .inr h⟩)
    · exact .inr (.inr (.inl ⟨h1, fun _ f hf => .nested h h1 hf, fun hn => absurd rfl hn⟩))
  · exact .inr (.inr (.inr (.inr h1)))

theorem findType_defines {s : Schema} {m : Model} (hm : newModel s = .ok m) {n : String} {td : TypeDef}
    (h : m.findType n = some td) : Defines s n td.ts := by
  rcases (newModel_findType_iff hm n td).1 h with ⟨h1, h2⟩ | ⟨h1, rfl⟩
  · exact .inl ⟨td, h1, h2, rfl⟩
  · exact .inr ⟨h1, rfl⟩

theorem arrayItem_safe {s : Schema} {m : Model} (hm : newModel s = .ok m) (hs : RefSafe s) {t : TypeSpec}
    (hw : Written s t) (ht : t.type = "Array") {td : TypeDef} (hf : m.findType t.items = some td) :
    SpecSafe s td.ts t.items := by
  have h1 := hs.arrays t hw ht td.ts (findType_defines hm hf)
  have h2 := hs.collections t hw (by simp [ht])
  rcases (newModel_findType_iff hm _ _).1 hf with ⟨h3, h4⟩ | ⟨h3, rfl⟩
  · simp only [List.mem_cons, List.not_mem_nil, or_false] at h1
    rcases h1 with h1 | h1 | h1 | h1 | h1
    · exact .inl h1
    · exact .inr (.inl ⟨by simp [h1], .inl ⟨td, h3, rfl⟩⟩)
    · exact .inr (.inl ⟨by simp [h1], .inl ⟨td, h3, rfl⟩⟩)
    · exact .inr (.inr (.inl ⟨h1, fun _ f hf => .field h3 h1 hf, fun _ => ⟨td, h3, h4⟩⟩))
    · exact .inr (.inr (.inr (.inl ⟨h1, td, h3, h4⟩)))
  · rcases h1 with h1 | h1
    · exact .inl h1
    · simp [baseTypeDef] at h1 h2; tauto

theorem mapItem_safe {s : Schema} {m : Model} (hm : newModel s = .ok m) (hs : RefSafe s) {t : TypeSpec}
    (hw : Written s t) (ht : t.type = "Map") {td : TypeDef} (hf : m.findType t.items = some td) :
    SpecSafe s td.ts "" := by
  have h1 := hs.maps t hw ht td.ts (findType_defines hm hf)
  have h2 := hs.collections t hw (by simp [ht])
  rcases (newModel_findType_iff hm _ _).1 hf with ⟨h3, h4⟩ | ⟨h3, rfl⟩
  · simp only [List.mem_cons, List.not_mem_nil, or_false] at h1
    rcases h1 with h1 | h1 | h1 | h1
    · exact .inl h1
    · exact .inr (.inl ⟨by simp [h1], .inl ⟨td, h3, rfl⟩⟩)
    · exact .inr (.inl ⟨by simp [h1], .inl ⟨td, h3, rfl⟩⟩)
    · exact .inr (.inr (.inl ⟨h1, fun _ f hf => .field h3 h1 hf, fun hn => absurd rfl hn⟩))
  · rcases h1 with h1 | h1
    · exact .inl h1
    · simp [baseTypeDef] at h1 h2; tauto

theorem refOk_of_ref {s : Schema} {name r : String} (h : Named s name) (hr : HasRef { ref := refPrefix ++ name } r) :
    RefOk s r := by
  rw [hasRef_iff] at hr
  simp only [reduceCtorEq, false_and, exists_false, or_false, List.not_mem_nil] at hr
  exact ⟨name, hr.2, h⟩

/-- The numeric types, in the order of export_openapi.go:557. -/
def NumTypes : List String := ["Int32", "Int16", "Int8", "Int64", "Float32", "Float64", "Decimal"]

/-- What one call of `oasSchema` does, type by type. -/
theorem oasStep_cases (lib : OLib) (m : Model) (rec : TypeSpec → String → Ran OSchema) (ts : TypeSpec) (name : String) :
    (ts.type = "Bool" ∧ oasSchemaStep lib m rec ts name = .ok { type := "boolean" }) ∨
    (ts.type ∈ NumTypes ∧ oasSchemaStep lib m rec ts name =
      if ts.type = "Float64" ∧ name ≠ "" then .panic ("here? " ++ name) else .ok (oasNumeric lib ts)) ∨
    (ts.type = "Bytes" ∧ oasSchemaStep lib m rec ts name = .ok { type := "string", format := "byte" }) ∨
    (ts.type = "String" ∧ oasSchemaStep lib m rec ts name = .ok (oasString ts)) ∨
    (ts.type = "Timestamp" ∧ oasSchemaStep lib m rec ts name = .ok { type := "string", format := "date-time" }) ∨
    (ts.type = "UnitValue" ∧ oasSchemaStep lib m rec ts name = .ok { type := "string", description := "UnitValue" }) ∨
    (ts.type = "UUID" ∧ oasSchemaStep lib m rec ts name = .ok { type := "string", description := "UUID" }) ∨
    (ts.type = "Enum" ∧ oasSchemaStep lib m rec ts name = .ok { ref := refPrefix ++ name }) ∨
    (ts.type = "Array" ∧ m.findType ts.items = none ∧ oasSchemaStep lib m rec ts name = .panic "nil pointer") ∨
    (ts.type = "Array" ∧ ∃ itd, m.findType ts.items = some itd ∧ oasSchemaStep lib m rec ts name =
      (rec itd.ts ts.items >>= fun s => pure { type := "array", items := some s })) ∨
    (ts.type = "Map" ∧ m.findType ts.items = none ∧ oasSchemaStep lib m rec ts name = .panic "nil pointer") ∨
    (ts.type = "Map" ∧ ∃ itd, m.findType ts.items = some itd ∧ oasSchemaStep lib m rec ts name =
      (rec itd.ts "" >>= fun s => pure { type := "object", additionalProperties := some s })) ∨
    (ts.type = "Struct" ∧ name ≠ "" ∧ oasSchemaStep lib m rec ts name = .ok { ref := refPrefix ++ name }) ∨
    (ts.type = "Struct" ∧ name = "" ∧ oasSchemaStep lib m rec ts name =
      (oasProps (fun ts => rec ts "") ts.fields [] >>= fun ps => pure { type := "object", properties := some ps })) ∨
    (ts.type ∉ PlainTypes ∧ ts.type ∉ ["Array", "Map", "Struct", "Enum"] ∧
      oasSchemaStep lib m rec ts name = .ok { ref := refPrefix ++ ts.type }) := by
  by_cases h1 : ts.type = "Bool"
  · exact .inl ⟨h1, if_pos h1⟩
  right
  by_cases h2 : ts.type ∈ NumTypes
  · exact .inl ⟨h2, (if_neg h1).trans (if_pos h2)⟩
  right
  by_cases h3 : ts.type = "Bytes"
  · exact .inl ⟨h3, (if_neg h1).trans <| (if_neg h2).trans (if_pos h3)⟩
  right
  by_cases h4 : ts.type = "String"
  · exact .inl ⟨h4, (if_neg h1).trans <| (if_neg h2).trans <| (if_neg h3).trans (if_pos h4)⟩
  right
  by_cases h5 : ts.type = "Timestamp"
  · exact .inl ⟨h5, (if_neg h1).trans <| (if_neg h2).trans <| (if_neg h3).trans <| (if_neg h4).trans (if_pos h5)⟩
  right
  by_cases h6 : ts.type = "UnitValue"
  · exact .inl ⟨h6, (if_neg h1).trans <| (if_neg h2).trans <| (if_neg h3).trans <| (if_neg h4).trans <| (if_neg h5).trans (if_pos h6)⟩
  right
  by_cases h7 : ts.type = "UUID"
  · exact .inl ⟨h7, (if_neg h1).trans <| (if_neg h2).trans <| (if_neg h3).trans <| (if_neg h4).trans <| (if_neg h5).trans <|
      (if_neg h6).trans (if_pos h7)⟩
  right
  by_cases h8 : ts.type = "Enum"
  · exact .inl ⟨h8, (if_neg h1).trans <| (if_neg h2).trans <| (if_neg h3).trans <| (if_neg h4).trans <| (if_neg h5).trans <|
      (if_neg h6).trans <| (if_neg h7).trans (if_pos h8)⟩
  right
  have e8 : oasSchemaStep lib m rec ts name = _ := (if_neg h1).trans <| (if_neg h2).trans <| (if_neg h3).trans <|
    (if_neg h4).trans <| (if_neg h5).trans <| (if_neg h6).trans <| (if_neg h7).trans (if_neg h8)
  by_cases h9 : ts.type = "Array"
  · have e9 := e8.trans (if_pos h9)
    cases hf : m.findType ts.items with
    | none => rw [hf] at e9; exact .inl ⟨h9, rfl, e9⟩
    | some itd => rw [hf] at e9; exact .inr (.inl ⟨h9, itd, rfl, e9⟩)
  right; right
  have e9 := e8.trans (if_neg h9)
  by_cases h10 : ts.type = "Map"
  · have e10 := e9.trans (if_pos h10)
    cases hf : m.findType ts.items with
    | none => rw [hf] at e10; exact .inl ⟨h10, rfl, e10⟩
    | some itd => rw [hf] at e10; exact .inr (.inl ⟨h10, itd, rfl, e10⟩)
  right; right
  have e10 := e9.trans (if_neg h10)
  by_cases h11 : ts.type = "Struct"
  · have e11 := e10.trans (if_pos h11)
    by_cases hn : name = ""
    · exact .inr (.inl ⟨h11, hn, e11.trans (if_neg (by simpa using hn))⟩)
    · exact .inl ⟨h11, hn, e11.trans (if_pos hn)⟩
  right; right
  refine ⟨?_, ?_, e10.trans (if_neg h11)⟩
  · simp only [NumTypes, List.mem_cons, List.not_mem_nil, or_false, not_or] at h2
    simp only [PlainTypes, List.mem_cons, List.not_mem_nil, or_false, not_or]
    tauto
  · simp only [List.mem_cons, List.not_mem_nil, or_false, not_or]
    exact ⟨h9, h10, h11, h8⟩

theorem oasSchemaN_succ (n : Nat) (lib : OLib) (m : Model) (ts : TypeSpec) (name : String) :
    oasSchemaN (n + 1) lib m ts name = oasSchemaStep lib m (oasSchemaN n lib m) ts name := rfl

theorem oasSchema_refs {s : Schema} {m : Model} (hm : newModel s = .ok m) (hs : RefSafe s) (lib : OLib) :
    ∀ (n : Nat) (ts : TypeSpec) (name : String) (sch : OSchema), SpecSafe s ts name →
      oasSchemaN n lib m ts name = .ok sch → ∀ r, HasRef sch r → RefOk s r
  | 0, _, _, _, _, h, _, _ => by cases h
  | n + 1, ts, name, sch, hsafe, h, r, hr => by
    have ih := oasSchema_refs hm hs lib n
    have base : ∀ n ∈ BaseTypes, ¬ Named s n := by
      rintro n hn ⟨td, h1, rfl⟩
      exact ((newModel_ok_iff s m).1 hm).2.1 td h1 hn
    rw [oasSchemaN_succ] at h
    rcases oasStep_cases lib m (oasSchemaN n lib m) ts name with ⟨ht, e⟩ | ⟨ht, e⟩ | ⟨ht, e⟩ | ⟨ht, e⟩ | ⟨ht, e⟩ | ⟨ht, e⟩ |
      ⟨ht, e⟩ | ⟨ht, e⟩ | ⟨ht, hf, e⟩ | ⟨ht, itd, hf, e⟩ | ⟨ht, hf, e⟩ | ⟨ht, itd, hf, e⟩ | ⟨ht, hn, e⟩ | ⟨ht, hn, e⟩ | ⟨ht, ht', e⟩ <;>
      rw [e] at h
    · cases h; rw [hasRef_iff] at hr; simp at hr
    · split at h
      · cases h
      · cases h; rw [hasRef_iff] at hr; simp [oasNumeric] at hr
    · cases h; rw [hasRef_iff] at hr; simp at hr
    · cases h; rw [hasRef_iff] at hr; simp [oasString] at hr
    · cases h; rw [hasRef_iff] at hr; simp at hr
    · cases h; rw [hasRef_iff] at hr; simp at hr
    · cases h; rw [hasRef_iff] at hr; simp at hr
    · cases h
      rcases hsafe with h1 | h1 | h1 | h1 | h1
      · rw [ht] at h1; exact absurd h1 (by decide)
      · rw [ht] at h1; exact absurd h1.1 (by decide)
      · rw [ht] at h1; exact absurd h1.1 (by decide)
      · exact refOk_of_ref h1.2 hr
      · rw [ht] at h1; exact absurd h1 (base _ (by decide))
    · cases h
    · have hw : Written s ts := by
        rcases hsafe with h1 | h1 | h1 | h1 | h1
        · rw [ht] at h1; exact absurd h1 (by decide)
        · exact h1.2
        · rw [ht] at h1; exact absurd h1.1 (by decide)
        · rw [ht] at h1; exact absurd h1.1 (by decide)
        · rw [ht] at h1; exact absurd h1 (base _ (by decide))
      obtain ⟨s1, h1, h⟩ := Ran.bind_eq_ok.1 h
      cases h
      rw [hasRef_iff] at hr
      simp at hr
      exact ih _ _ _ (arrayItem_safe hm hs hw ht hf) h1 r hr
    · cases h
    · have hw : Written s ts := by
        rcases hsafe with h1 | h1 | h1 | h1 | h1
        · rw [ht] at h1; exact absurd h1 (by decide)
        · exact h1.2
        · rw [ht] at h1; exact absurd h1.1 (by decide)
        · rw [ht] at h1; exact absurd h1.1 (by decide)
        · rw [ht] at h1; exact absurd h1 (base _ (by decide))
      obtain ⟨s1, h1, h⟩ := Ran.bind_eq_ok.1 h
      cases h
      rw [hasRef_iff] at hr
      simp at hr
      exact ih _ _ _ (mapItem_safe hm hs hw ht hf) h1 r hr
    · cases h
      rcases hsafe with h1 | h1 | h1 | h1 | h1
      · rw [ht] at h1; exact absurd h1 (by decide)
      · rw [ht] at h1; exact absurd h1.1 (by decide)
      · exact refOk_of_ref (h1.2.2 hn) hr
      · rw [ht] at h1; exact absurd h1.1 (by decide)
      · rw [ht] at h1; exact absurd h1 (base _ (by decide))
    · have hw : ∀ f ∈ ts.fields, Inline s f.ts := by
        rcases hsafe with h1 | h1 | h1 | h1 | h1
        · rw [ht] at h1; exact absurd h1 (by decide)
        · rw [ht] at h1; exact absurd h1.1 (by decide)
        · exact h1.2.1 hn
        · rw [ht] at h1; exact absurd h1.1 (by decide)
        · rw [ht] at h1; exact absurd h1 (base _ (by decide))
      obtain ⟨ps, h1, h⟩ := Ran.bind_eq_ok.1 h
      cases h
      rw [hasRef_iff] at hr
      simp at hr
      obtain ⟨k, i, h2, h3⟩ := hr
      rcases oasProps_mem h1 h2 with h4 | ⟨f, h4, _, h5⟩
      · cases h4
      · exact ih _ _ _ (inline_safe hs (hw f h4)) h5 r h3
    · cases h
      simp only [List.mem_cons, List.not_mem_nil, or_false, not_or] at ht'
      rcases hsafe with h1 | h1 | h1 | h1 | h1
      · exact absurd h1 ht
      · simp only [List.mem_cons, List.not_mem_nil, or_false] at h1
        rcases h1.1 with h1 | h1
        · exact absurd h1 ht'.1
        · exact absurd h1 ht'.2.1
      · exact absurd h1.1 ht'.2.2.1
      · exact absurd h1.1 ht'.2.2.2
      · exact refOk_of_ref h1 hr

theorem hasRef_congr {a b : OSchema} {r : String} (h : HasRef a r) (h1 : a.ref = b.ref) (h2 : a.items = b.items)
    (h3 : a.additionalProperties = b.additionalProperties) (h4 : a.properties = b.properties) (h5 : a.oneOf = b.oneOf) :
    HasRef b r := by
  rw [hasRef_iff] at h ⊢
  rwa [← h1, ← h2, ← h3, ← h4, ← h5]

theorem exportString_refs {conv : TypeSpec → String → Ran OSchema} {td : TypeDef} {sch : OSchema}
    (h : exportString conv td = .ok sch) (P : String → Prop) (hc : ∀ a, conv td.ts td.name = .ok a → ∀ r, HasRef a r → P r) :
    ∀ r, HasRef sch r → P r := by
  intro r hr
  unfold exportString at h
  obtain ⟨a, h1, h⟩ := Ran.bind_eq_ok.1 h
  cases h
  exact hc a h1 r (hasRef_congr hr rfl rfl rfl rfl rfl)

theorem exportTypeDef_refs {s : Schema} {m : Model} (hm : newModel s = .ok m) (hs : RefSafe s) {lib : OLib} {n : Nat}
    {td : TypeDef} (htd : td ∈ s.types) {sch : OSchema} (h : exportTypeDefN n lib m td = .ok sch) :
    ∀ r, HasRef sch r → RefOk s r := by
  intro r hr
  have plain : td.ts.type ∈ PlainTypes → ∀ a, oasSchemaN n lib m td.ts td.name = .ok a → ∀ r, HasRef a r → RefOk s r :=
    fun h1 a ha r hr => oasSchema_refs hm hs lib n _ _ _ (.inl h1) ha r hr
  unfold exportTypeDefN at h
  simp only at h
  split at h
  · next ht =>
    unfold exportStruct at h
    obtain ⟨ps, h1, h⟩ := Ran.bind_eq_ok.1 h
    cases h
    rw [hasRef_iff] at hr
    simp at hr
    obtain ⟨k, i, h2, h3⟩ := hr
    rcases oasProps_mem h1 h2 with h4 | ⟨f, h4, _, h5⟩
    · cases h4
    · exact oasSchema_refs hm hs lib n _ _ _ (inline_safe hs (.field htd ht h4)) h5 r h3
  split at h
  · next ht =>
    unfold exportArray at h
    split at h
    · cases h
    · next itd hf =>
      obtain ⟨a, h1, h⟩ := Ran.bind_eq_ok.1 h
      cases h
      rw [hasRef_iff] at hr
      simp at hr
      exact oasSchema_refs hm hs lib n _ _ _ (arrayItem_safe hm hs (.inl ⟨td, htd, rfl⟩) ht hf) h1 r hr
  split at h
  · next ht =>
    unfold exportMap at h
    split at h
    · cases h
    · next itd hf =>
      obtain ⟨a, h1, h⟩ := Ran.bind_eq_ok.1 h
      cases h
      rw [hasRef_iff] at hr
      simp at hr
      exact oasSchema_refs hm hs lib n _ _ _ (mapItem_safe hm hs (.inl ⟨td, htd, rfl⟩) ht hf) h1 r hr
  split at h
  · next ht => exact exportString_refs h _ (plain (by rw [ht]; decide)) r hr
  split at h
  · cases h; rw [hasRef_iff] at hr; simp at hr
  split at h
  · cases h; rw [hasRef_iff] at hr; simp [exportEnum] at hr
  split at h
  · cases h; rw [hasRef_iff] at hr; simp [oasNumeric] at hr
  split at h
  · next ht =>
    obtain ⟨a, h1, h⟩ := Ran.bind_eq_ok.1 h
    cases h
    exact exportString_refs h1 _ (plain (by rw [ht]; decide)) r (hasRef_congr hr rfl rfl rfl rfl rfl)
  split at h
  · next ht =>
    cases h
    rw [hasRef_iff] at hr
    simp [exportUnion] at hr
    obtain ⟨v, hv, h1⟩ := hr
    exact refOk_of_ref (hs.variants td htd ht v hv) h1
  split at h
  · next ht =>
    obtain ⟨a, h1, h⟩ := Ran.bind_eq_ok.1 h
    cases h
    exact exportString_refs h1 _ (plain (by rw [ht]; decide)) r (hasRef_congr hr rfl rfl rfl rfl rfl)
  · cases h

theorem exportTypes_ok {n : Nat} {lib : OLib} {m : Model} {tds : List TypeDef} {acc schemas : GoMap OSchema}
    (h : exportTypesN n lib m tds acc = .ok schemas) :
    (∀ k, k ∈ schemas.map Prod.fst ↔ k ∈ acc.map Prod.fst ∨ ∃ td ∈ tds, td.name = k) ∧
    (∀ k s, (k, s) ∈ schemas → (k, s) ∈ acc ∨ ∃ td ∈ tds, td.name = k ∧ exportTypeDefN n lib m td = .ok s) ∧
    (acc.Distinct → schemas.Distinct) ∧
    (∀ td ∈ tds, ∃ s, exportTypeDefN n lib m td = .ok s) := by
  induction tds generalizing acc with
  | nil => cases h; simp
  | cons td rest ih =>
    unfold exportTypesN at h
    obtain ⟨s1, h1, h⟩ := Ran.bind_eq_ok.1 h
    obtain ⟨i1, i2, i3, i4⟩ := ih h
    refine ⟨fun k => ?_, fun k s hk => ?_, fun hd => i3 (distinct_mset hd _ _), ?_⟩
    · rw [i1, keys_mset]
      split
      · simp only [List.mem_cons, exists_eq_or_imp]
        constructor
        · rintro (h | h)
          · exact .inl h
          · exact .inr (.inr h)
        · rintro (h | h | h)
          · exact .inl h
          · next hk => subst h; exact .inl hk
          · exact .inr h
      · simp only [List.mem_append, List.mem_cons, List.not_mem_nil, or_false, exists_eq_or_imp]
        constructor
        · rintro ((h | h) | h)
          · exact .inl h
          · exact .inr (.inl h.symm)
          · exact .inr (.inr h)
        · rintro (h | h | h)
          · exact .inl (.inl h)
          · exact .inl (.inr h.symm)
          · exact .inr h
    · rcases i2 k s hk with h2 | ⟨t, h2, h3⟩
      · rcases mem_mset_or h2 with ⟨rfl, rfl⟩ | h2
        · exact .inr ⟨td, by simp, rfl, h1⟩
        · exact .inl h2
      · exact .inr ⟨t, by simp [h2], h3⟩
    · intro t ht
      rcases List.mem_cons.1 ht with rfl | ht
      · exact ⟨_, h1⟩
      · exact i4 t ht

/-! ### Schemas of an operation -/

theorem exportInputs_schemas {conv : TypeSpec → String → Ran OSchema} {ins : List HttpParamSpec} {op op' : OOperation}
    (h : exportInputs conv ins op = .ok op') :
    (∀ q ∈ op'.parameters, q ∈ op.parameters ∨ ∃ p ∈ ins, ∃ s, conv p.field.ts "" = .ok s ∧ q.schema = some s) ∧
    (∀ b, op'.requestBody = some b → op.requestBody = some b ∨ ∃ p ∈ ins, ∃ s, conv p.field.ts "" = .ok s ∧ b.content = jsonContent s) := by
  induction ins generalizing op with
  | nil => cases h; exact ⟨fun q hq => .inl hq, fun b hb => .inl hb⟩
  | cons p rest ih =>
    unfold exportInputs at h
    obtain ⟨s, hs, h⟩ := Ran.bind_eq_ok.1 h
    obtain ⟨h1, h2⟩ := ih h
    have e1 : ∀ q ∈ (exportInput p s op).parameters, q ∈ op.parameters ∨ q.schema = some s := by
      intro q hq
      unfold exportInput at hq
      simp only at hq
      split at hq
      · simp only [List.mem_append, List.mem_cons, List.not_mem_nil, or_false] at hq
        rcases hq with hq | rfl
        · exact .inl hq
        · exact .inr rfl
      split at hq
      · simp only [List.mem_append, List.mem_cons, List.not_mem_nil, or_false] at hq
        rcases hq with hq | rfl
        · exact .inl hq
        · exact .inr rfl
      split at hq
      · simp only [List.mem_append, List.mem_cons, List.not_mem_nil, or_false] at hq
        rcases hq with hq | rfl
        · exact .inl hq
        · exact .inr rfl
      · exact .inl hq
    have e2 : ∀ b, (exportInput p s op).requestBody = some b → op.requestBody = some b ∨ b.content = jsonContent s := by
      intro b hb
      unfold exportInput at hb
      simp only at hb
      split at hb
      · exact .inl hb
      split at hb
      · exact .inl hb
      split at hb
      · exact .inl hb
      · cases hb; exact .inr rfl
    constructor
    · intro q hq
      rcases h1 q hq with h3 | ⟨p', h3, h4⟩
      · rcases e1 q h3 with h3 | h3
        · exact .inl h3
        · exact .inr ⟨p, by simp, s, hs, h3⟩
      · exact .inr ⟨p', by simp [h3], h4⟩
    · intro b hb
      rcases h2 b hb with h3 | ⟨p', h3, h4⟩
      · rcases e2 b h3 with h3 | h3
        · exact .inl h3
        · exact .inr ⟨p, by simp, s, hs, h3⟩
      · exact .inr ⟨p', by simp [h3], h4⟩

theorem exportOutputs_schemas {conv : TypeSpec → String → Ran OSchema} {outs : List HttpParamSpec} {r r' : OResponse}
    (h : exportOutputs conv outs r = .ok r') :
    (∀ k hd, (k, hd) ∈ r'.headers → (k, hd) ∈ r.headers ∨ ∃ p ∈ outs, ∃ s, conv p.field.ts "" = .ok s ∧ hd.schema = some s) ∧
    (∀ k mt, (k, mt) ∈ r'.content → (k, mt) ∈ r.content ∨ ∃ p ∈ outs, ∃ s, conv p.field.ts "" = .ok s ∧ mt.schema = some s) := by
  induction outs generalizing r with
  | nil => cases h; exact ⟨fun _ _ hq => .inl hq, fun _ _ hb => .inl hb⟩
  | cons p rest ih =>
    unfold exportOutputs at h
    obtain ⟨s, hs, h⟩ := Ran.bind_eq_ok.1 h
    obtain ⟨h1, h2⟩ := ih h
    constructor
    · intro k hd hk
      rcases h1 k hd hk with h3 | ⟨p', h3, h4⟩
      · unfold exportOutput at h3
        split at h3
        · rcases mem_mset_or h3 with ⟨_, rfl⟩ | h3
          · exact .inr ⟨p, by simp, s, hs, rfl⟩
          · exact .inl h3
        · exact .inl h3
      · exact .inr ⟨p', by simp [h3], h4⟩
    · intro k mt hk
      rcases h2 k mt hk with h3 | ⟨p', h3, h4⟩
      · unfold exportOutput at h3
        split at h3
        · exact .inl h3
        · rcases mem_mset_or h3 with ⟨_, rfl⟩ | h3
          · exact .inr ⟨p, by simp, s, hs, rfl⟩
          · exact .inl h3
      · exact .inr ⟨p', by simp [h3], h4⟩

theorem exportExceptions_mem_inv {xs : List HttpExceptionSpec} {rs : GoMap OResponse} {k : String} {r : OResponse}
    (h : (k, r) ∈ exportExceptions xs rs) : (k, r) ∈ rs ∨ ∃ x ∈ xs, r = (exportException x).2 := by
  induction xs generalizing rs with
  | nil => exact .inl h
  | cons x rest ih =>
    unfold exportExceptions at h
    rcases ih h with h | ⟨y, h1, h2⟩
    · rcases mem_mset_or h with ⟨_, rfl⟩ | h
      · exact .inr ⟨x, by simp, rfl⟩
      · exact .inl h
    · exact .inr ⟨y, by simp [h1], h2⟩

theorem exportOp_schemas {conv : TypeSpec → String → Ran OSchema} {h : HttpDef} {op : OOperation}
    (ho : exportOp conv h = .ok op) {sch : OSchema} (hs : OpSchema op sch) :
    (∃ p ∈ h.inputs, conv p.field.ts "" = .ok sch) ∨
    (∃ e p, h.expected = some e ∧ p ∈ e.outputs ∧ conv p.field.ts "" = .ok sch) ∨
    (∃ x ∈ h.exceptions, sch = { ref := refPrefix ++ x.type }) := by
  unfold exportOp at ho
  obtain ⟨op1, h1, ho⟩ := Ran.bind_eq_ok.1 ho
  obtain ⟨a1, a2⟩ := exportInputs_schemas h1
  cases he : h.expected with
  | none => rw [he] at ho; simp at ho
  | some e =>
    rw [he] at ho
    obtain ⟨r, h2, ho⟩ := Ran.bind_eq_ok.1 ho
    cases ho
    obtain ⟨b1, b2⟩ := exportOutputs_schemas h2
    have exc : ∀ x : HttpExceptionSpec, (∀ k hd, (k, hd) ∈ (exportException x).2.headers → False) ∧
        ∀ k mt, (k, mt) ∈ (exportException x).2.content → mt.schema = some { ref := refPrefix ++ x.type } := by
      intro x
      constructor
      · intro k hd hk; simp [exportException] at hk
      · intro k mt hk; simp [exportException, jsonContent] at hk; rw [hk.2]
    cases hs with
    | param h3 h4 =>
      rcases a1 _ h3 with h5 | ⟨p, h5, s, h6, h7⟩
      · simp at h5
      · rw [h4] at h7; cases h7; exact .inl ⟨p, h5, h6⟩
    | body h3 h4 h5 =>
      rcases a2 _ h3 with h6 | ⟨p, h6, s, h7, h8⟩
      · simp at h6
      · rw [h8] at h4
        simp [jsonContent] at h4
        rw [h4.2] at h5
        cases h5
        exact .inl ⟨p, h6, h7⟩
    | header h3 h4 h5 =>
      rcases exportExceptions_mem_inv h3 with h6 | ⟨x, h6, h7⟩
      · simp at h6
        rw [h6.2] at h4
        rcases b1 _ _ h4 with h8 | ⟨p, h8, s, h9, h10⟩
        · simp at h8
        · rw [h5] at h10; cases h10; exact .inr (.inl ⟨e, p, rfl, h8, h9⟩)
      · rw [h7] at h4; exact ((exc x).1 _ _ h4).elim
    | response h3 h4 h5 =>
      rcases exportExceptions_mem_inv h3 with h6 | ⟨x, h6, h7⟩
      · simp at h6
        rw [h6.2] at h4
        rcases b2 _ _ h4 with h8 | ⟨p, h8, s, h9, h10⟩
        · simp at h8
        · rw [h5] at h10; cases h10; exact .inr (.inl ⟨e, p, rfl, h8, h9⟩)
      · rw [h7] at h4
        have := (exc x).2 _ _ h4
        rw [h5] at this
        cases this
        exact .inr (.inr ⟨x, h6, rfl⟩)

theorem pathOp_of_mem {paths : GoMap OPathItem} (hd : paths.Distinct) {p : String} {pi : OPathItem} {k : OMethod}
    (h : (p, pi) ∈ paths) : pathOp paths p k = pi.op k := by
  unfold pathOp
  rw [mget_of_mem hd h]; rfl

theorem exportOas_refs {s : Schema} {m : Model} (hm : newModel s = .ok m) (hs : RefSafe s) {lib : OLib}
    (hord : ∀ l, (lib.order l).Perm l) {n : Nat} {d : ODoc} (h : exportOasN n lib m = .ok d) : RefsResolve d := by
  have hms : m.schema = s := by
    obtain ⟨_, _, _, rfl⟩ := (newModel_ok_iff s m).1 hm; rfl
  obtain ⟨schemas, paths, h1, h2, h3, h4⟩ := exportOas_ok hord h
  rw [hms] at h1 h2
  obtain ⟨t1, t2, _, _⟩ := exportTypes_ok h1
  have key : ∀ {r}, RefOk s r → ∃ name target, r = "#/components/schemas/" ++ name ∧ (name, target) ∈ d.schemas := by
    rintro r ⟨name, h5, td, h6, h7⟩
    have h8 : name ∈ schemas.map Prod.fst := (t1 name).2 (.inr ⟨td, h6, h7⟩)
    have h9 := congrArg (List.map Prod.fst) h4.schemas
    simp only [List.map_map] at h9
    have h10 : name ∈ d.schemas.map Prod.fst := by
      have e1 : (Prod.fst ∘ fun e : String × OSchema => (e.1, e.2.bare)) = Prod.fst := rfl
      rw [e1] at h9
      rw [h9]; exact h8
    obtain ⟨e, h11, h12⟩ := List.mem_map.1 h10
    exact ⟨name, e.2, h5, by rw [← h12]; exact h11⟩
  intro sch r hsch hr
  apply key
  cases hsch with
  | component h5 =>
    rename_i k
    have h6 : (k, sch.bare) ∈ d.schemas.map (fun e => (e.1, e.2.bare)) := List.mem_map.2 ⟨_, h5, rfl⟩
    rw [h4.schemas] at h6
    obtain ⟨e, h7, h8⟩ := List.mem_map.1 h6
    obtain ⟨k', sch'⟩ := e
    simp only [Prod.mk.injEq] at h8
    have h9 : HasRef sch' r := by
      have e1 : HasRef sch.bare r := hasRef_congr hr rfl rfl rfl rfl rfl
      rw [← h8.2] at e1
      exact hasRef_congr e1 rfl rfl rfl rfl rfl
    rcases t2 k' sch' h7 with h10 | ⟨td, h10, _, h11⟩
    · cases h10
    · exact exportTypeDef_refs hm hs h10 h11 r h9
  | operation h5 h6 h7 =>
    rename_i p pi k op
    have h8 : pathOp d.paths p k = some op := by rw [pathOp_of_mem h4.distinct h5]; exact h6
    have h9 := h4.ops p k
    rw [h8] at h9
    cases h10 : pathOp paths p k with
    | none => simp [h10] at h9
    | some op0 =>
      simp only [h10, Option.map_some, Option.some.injEq] at h9
      have h11 : OpSchema op0 sch := by
        have := opSchema_bare h7
        rw [h9] at this
        exact opSchema_of_bare this
      rcases (exportHttp_ok h2).2.2.1 p k op0 h10 with h12 | ⟨a, h12, _, _, h13⟩
      · simp [pathOp, mget, OPathItem.op] at h12
        cases k <;> simp at h12
      · rcases exportOp_schemas h13 h11 with ⟨p, h14, h15⟩ | ⟨e, p, h14, h15, h16⟩ | ⟨x, h14, h15⟩
        · exact oasSchema_refs hm hs lib n _ _ _ (inline_safe hs (.input h12 h14)) h15 r hr
        · exact oasSchema_refs hm hs lib n _ _ _ (inline_safe hs (.output h12 h14 h15)) h16 r hr
        · rw [h15] at hr
          exact refOk_of_ref (hs.exceptions a h12 x h14) hr

end Sadl
