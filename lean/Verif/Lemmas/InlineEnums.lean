import Verif.Model.InlineEnums
import Verif.Lemmas.NewModel
import Verif.Lemmas.Tactics
import Mathlib.Data.List.Forall2
namespace Sadl

/-- What happens to one field. -/
def convertField (owner : String) (f : StructFieldDef) : StructFieldDef :=
  if f.ts.type = "Enum" then { f with ts := { type := enumTypeName owner f.name } } else f

/-- The types made from a list of fields. -/
def newTypes (owner : String) (fs : List StructFieldDef) : List TypeDef :=
  (fs.filter (fun f => f.ts.type = "Enum")).map (fun f => { name := enumTypeName owner f.name, ts := f.ts })

def convertDef (td : TypeDef) : TypeDef :=
  if td.ts.type = "Struct" then { td with ts := { td.ts with fields := td.ts.fields.map (convertField td.name) } } else td

def newTypesOf (td : TypeDef) : List TypeDef :=
  if td.ts.type = "Struct" then newTypes td.name td.ts.fields else []

/-- All inline enums of one definition may be converted. -/
def ConvertOk (m : Model) (td : TypeDef) : Prop :=
  td.ts.type = "Struct" → ∀ f ∈ td.ts.fields, f.ts.type = "Enum" → enumNameOk m (enumTypeName td.name f.name) f.ts = true

theorem convertFields_err {m : Model} {owner : String} (fs : List StructFieldDef) :
    (convertFields m owner fs).2.2 = false ↔
      ∀ f ∈ fs, f.ts.type = "Enum" → enumNameOk m (enumTypeName owner f.name) f.ts = true := by
  induction fs with
  | nil => simp [convertFields]
  | cons f r ih =>
    unfold convertFields
    by_cases he : f.ts.type = "Enum"
    · by_cases ho : enumNameOk m (enumTypeName owner f.name) f.ts = true
      · simp [he, ho, ih]
      · simp [he, ho]
    · simp [he, ih]

theorem convertFields_ok {m : Model} {owner : String} (fs : List StructFieldDef)
    (h : (convertFields m owner fs).2.2 = false) :
    (convertFields m owner fs).1 = fs.map (convertField owner) ∧ (convertFields m owner fs).2.1 = newTypes owner fs := by
  induction fs with
  | nil => simp [convertFields, newTypes]
  | cons f r ih =>
    unfold convertFields at h ⊢
    by_cases he : f.ts.type = "Enum"
    · by_cases ho : enumNameOk m (enumTypeName owner f.name) f.ts = true
      · simp only [he, ho, if_true] at h ⊢
        obtain ⟨h1, h2⟩ := ih h
        simp [h1, h2, convertField, he, newTypes]
      · simp [he, ho] at h
    · simp only [he, if_false] at h ⊢
      obtain ⟨h1, h2⟩ := ih h
      simp [h1, h2, convertField, he, newTypes]

theorem convertType_err {m : Model} (td : TypeDef) : (convertType m td).2.2 = false ↔ ConvertOk m td := by
  unfold convertType ConvertOk
  by_cases hs : td.ts.type = "Struct"
  · simp [hs, convertFields_err]
  · simp [hs]

theorem convertType_ok {m : Model} (td : TypeDef) (h : ConvertOk m td) :
    convertType m td = (convertDef td, newTypesOf td, false) := by
  have h' := (convertType_err td).2 h
  unfold convertType convertDef newTypesOf at *
  by_cases hs : td.ts.type = "Struct"
  · simp only [hs, if_true] at h' ⊢
    obtain ⟨h1, h2⟩ := convertFields_ok _ h'
    rw [h1, h2, h']
  · simp [hs]

theorem convertTypes_err {m : Model} (tds : List TypeDef) :
    (convertTypes m tds).2.2 = false ↔ ∀ td ∈ tds, ConvertOk m td := by
  induction tds with
  | nil => simp [convertTypes]
  | cons td r ih =>
    unfold convertTypes
    by_cases h : ConvertOk m td
    · rw [convertType_ok td h]; simp [ih, h]
    · have : (convertType m td).2.2 = true := by
        cases hc : (convertType m td).2.2 with
        | true => rfl
        | false => exact absurd ((convertType_err td).1 hc) h
      simp [this, h]

theorem convertTypes_ok {m : Model} (tds : List TypeDef) (h : ∀ td ∈ tds, ConvertOk m td) :
    convertTypes m tds = (tds.map convertDef, tds.flatMap newTypesOf, false) := by
  induction tds with
  | nil => simp [convertTypes]
  | cons td r ih =>
    have h1 := h td (by simp)
    have h2 := ih (fun t ht => h t (by simp [ht]))
    unfold convertTypes
    rw [convertType_ok td h1, h2]
    simp

@[simp] theorem convertDef_name (td : TypeDef) : (convertDef td).name = td.name := by
  unfold convertDef; split_ifs <;> rfl

theorem convertFields_names {m : Model} {owner : String} (fs : List StructFieldDef) :
    List.Forall₂ (fun f f' => f' = f ∨ f' = convertField owner f) fs (convertFields m owner fs).1 := by
  induction fs with
  | nil => exact .nil
  | cons f r ih =>
    unfold convertFields
    by_cases h1 : f.ts.type = "Enum"
    · by_cases h2 : enumNameOk m (enumTypeName owner f.name) f.ts = true
      · simp only [h1, h2, if_true]
        refine List.Forall₂.cons (Or.inr ?_) ih
        simp [convertField, h1]
      · simp only [h1, h2]
        exact List.Forall₂.cons (Or.inl rfl) (List.forall₂_same.2 (fun _ _ => Or.inl rfl))
    · simp only [h1]
      exact List.Forall₂.cons (Or.inl rfl) ih

end Sadl
