import Verif.Lemmas.InlineEnums
import Verif.Props.Validation
/-
C15-C17: ConvertInlineEnums.
`convertInlineEnums m` is the model after the call and whether an error was returned.
-/
namespace Sadl.Props
open Sadl Sadl.Spec

/-- How a field relates to the same field after the conversion, where `added` are the
types added to the model: an inline enum becomes a reference to one of the added types,
which is that very enum; any other field is unchanged. -/
def FieldConverted (added : List TypeDef) (f f' : StructFieldDef) : Prop :=
  (f.ts.type ≠ "Enum" ∧ f' = f) ∨
  (f.ts.type = "Enum" ∧ ∃ n, f' = { f with ts := { type := n } } ∧ ∃ td ∈ added, td.name = n ∧ td.ts = f.ts)

/-- How a type relates to the same type after the conversion. -/
def TypeConverted (added : List TypeDef) (td td' : TypeDef) : Prop :=
  (td.ts.type ≠ "Struct" ∧ td' = td) ∨
  (td.ts.type = "Struct" ∧ ∃ fs, td' = { td with ts := { td.ts with fields := fs } } ∧
    List.Forall₂ (FieldConverted added) td.ts.fields fs)

/-- The names ConvertInlineEnums makes up for a schema. -/
def madeUpNames (s : Schema) : List String :=
  s.types.flatMap fun td => if td.ts.type = "Struct" then
    (td.ts.fields.filter (fun f => f.ts.type = "Enum")).map (fun f => enumTypeName td.name f.name) else []

theorem convert_false {m m' : Model} (h : convertInlineEnums m = (m', false)) :
    (∀ td ∈ m.schema.types, ConvertOk m td) ∧
    m'.schema.types = m.schema.types.map convertDef ++ m.schema.types.flatMap newTypesOf := by
  unfold convertInlineEnums at h
  have h0 : (convertTypes m m.schema.types).2.2 = false := by
    cases hc : (convertTypes m m.schema.types).2.2 with
    | false => rfl
    | true => simp [hc] at h
  have h1 := (convertTypes_err _).1 h0
  rw [convertTypes_ok _ h1] at h
  simp only [Bool.false_eq_true, if_false, Prod.mk.injEq, and_true] at h
  exact ⟨h1, by rw [← h]⟩

theorem convertDef_converted (tds : List TypeDef) (td : TypeDef) (htd : td ∈ tds) :
    TypeConverted (tds.flatMap newTypesOf) td (convertDef td) := by
  unfold TypeConverted convertDef
  by_cases hs : td.ts.type = "Struct"
  · right
    refine ⟨hs, _, by rw [if_pos hs], ?_⟩
    have : ∀ fs : List StructFieldDef, (∀ f ∈ fs, f ∈ td.ts.fields) →
        List.Forall₂ (FieldConverted (tds.flatMap newTypesOf)) fs (fs.map (convertField td.name)) := by
      intro fs
      induction fs with
      | nil => intro _; exact .nil
      | cons f r ih =>
        intro hf
        refine .cons ?_ (ih (fun x hx => hf x (by simp [hx])))
        unfold FieldConverted convertField
        by_cases he : f.ts.type = "Enum"
        · right
          refine ⟨he, enumTypeName td.name f.name, by rw [if_pos he], ⟨enumTypeName td.name f.name, "", [], f.ts⟩, ?_, rfl, rfl⟩
          refine List.mem_flatMap.2 ⟨td, htd, ?_⟩
          unfold newTypesOf newTypes
          rw [if_pos hs]
          exact List.mem_map.2 ⟨f, by simp [hf f (by simp), he], rfl⟩
        · left; exact ⟨he, by rw [if_neg he]⟩
    exact this _ (fun _ h => h)
  · left; exact ⟨hs, by rw [if_neg hs]⟩

theorem newTypesOf_enum {tds : List TypeDef} {td : TypeDef} (h : td ∈ tds.flatMap newTypesOf) :
    ∃ o ∈ tds, o.ts.type = "Struct" ∧ ∃ f ∈ o.ts.fields, f.ts.type = "Enum" ∧
      td = { name := enumTypeName o.name f.name, ts := f.ts } := by
  obtain ⟨o, ho, h⟩ := List.mem_flatMap.1 h
  unfold newTypesOf newTypes at h
  split_ifs at h with hs
  · obtain ⟨f, hf, rfl⟩ := List.mem_map.1 h
    simp only [List.mem_filter, decide_eq_true_eq] at hf
    exact ⟨o, ho, hs, f, hf.1, hf.2, rfl⟩
  · simp at h

/-- C15: after success the old types, in place, have their inline enums replaced by
references to added enum types equal to them; everything else is unchanged; the added
types follow, and each is the inline enum of some field. -/
theorem C15_conversion (m m' : Model) (h : convertInlineEnums m = (m', false)) :
    ∃ olds added, m'.schema = { m.schema with types := olds ++ added } ∧ m'.httpIndex = m.httpIndex ∧
      List.Forall₂ (TypeConverted added) m.schema.types olds ∧
      ∀ td ∈ added, ∃ o ∈ m.schema.types, o.ts.type = "Struct" ∧ ∃ f ∈ o.ts.fields, f.ts.type = "Enum" ∧ td.ts = f.ts := by
  obtain ⟨h1, h2⟩ := convert_false h
  refine ⟨m.schema.types.map convertDef, m.schema.types.flatMap newTypesOf, ?_, ?_, ?_, ?_⟩
  · unfold convertInlineEnums at h
    rw [convertTypes_ok _ h1] at h
    simp only [Bool.false_eq_true, if_false, Prod.mk.injEq, and_true] at h
    rw [← h]
  · unfold convertInlineEnums at h
    rw [convertTypes_ok _ h1] at h
    simp only [Bool.false_eq_true, if_false, Prod.mk.injEq, and_true] at h
    rw [← h]
  · rw [List.forall₂_map_right_iff, List.forall₂_same]
    exact fun td htd => convertDef_converted _ td htd
  · intro td htd
    obtain ⟨o, h1, h2, f, h3, h4, rfl⟩ := newTypesOf_enum htd
    exact ⟨o, h1, h2, f, h3, h4, rfl⟩

/-- C15: after success no struct type has a field with an inline enum, provided each inline
enum had at least one element.  Without that it is false, see `C15_refuted`. -/
theorem C15_no_inline_enum_left_partial (s : Schema) (m m' : Model) (hm : newModel s = .ok m)
    (hne : ∀ td ∈ s.types, ∀ f ∈ td.ts.fields, f.ts.type = "Enum" → f.ts.elements ≠ [])
    (h : convertInlineEnums m = (m', false)) :
    ∀ td ∈ m'.schema.types, td.ts.type = "Struct" → ∀ f ∈ td.ts.fields, f.ts.type ≠ "Enum" := by
  obtain ⟨h1, h2⟩ := convert_false h
  have hs : m.schema = s := C01_newModel_keeps_schema s m hm
  rw [h2, hs]
  rw [hs] at h1
  intro td htd hst f hf
  rcases List.mem_append.1 htd with htd | htd
  · obtain ⟨o, ho, rfl⟩ := List.mem_map.1 htd
    have hso : o.ts.type = "Struct" := by
      by_contra hne
      simp [convertDef, hne] at hst
    simp only [convertDef, hso, if_true, List.mem_map] at hf
    obtain ⟨g, hg, rfl⟩ := hf
    unfold convertField
    split_ifs with he
    · intro hname
      have hok := h1 o ho hso g hg he
      have : m.findType "Enum" = some (baseTypeDef "Enum") :=
        (newModel_findType_iff hm _ _).2 (Or.inr ⟨by decide, rfl⟩)
      simp only at hname
      rw [hname] at hok
      simp [enumNameOk, this, equivTypes, equivStep, baseTypeDef, he] at hok
      exact hne o ho g hg he (List.length_eq_zero_iff.1 hok.1.symm)
    · exact he
  · obtain ⟨o, _, _, g, _, he, rfl⟩ := newTypesOf_enum htd
    exact absurd (he.symm.trans hst) (by decide)

/-- C15 refuted in general: a struct `E` with a field `enum Enum {}` keeps it. -/
theorem C15_refuted : ∃ (s : Schema) (m m' : Model), newModel s = .ok m ∧ convertInlineEnums m = (m', false) ∧
    ∃ td ∈ m'.schema.types, td.ts.type = "Struct" ∧ ∃ f ∈ td.ts.fields, f.ts.type = "Enum" := by
  refine ⟨{ types := [{ name := "E", ts := { type := "Struct", fields := [{ name := "enum", ts := { type := "Enum" } }] } }] }, _, _, rfl, rfl, ?_⟩
  exact ⟨_, List.mem_cons_self, rfl, _, List.mem_cons_self, by decide⟩

/-- C15: the call fails exactly when the name made up for some inline enum belongs to a
type that is not an enum of as many symbols containing those of the field. -/
theorem C15_fails_iff (m : Model) :
    (convertInlineEnums m).2 = true ↔
      ∃ td ∈ m.schema.types, td.ts.type = "Struct" ∧ ∃ f ∈ td.ts.fields, f.ts.type = "Enum" ∧
        ∃ prev, m.findType (enumTypeName td.name f.name) = some prev ∧
          ¬ (prev.ts.type = "Enum" ∧ prev.ts.elements.length = f.ts.elements.length ∧
             ∀ el ∈ f.ts.elements, ∃ el' ∈ prev.ts.elements, el'.symbol = el.symbol) := by
  have hok : ∀ n ts, ts.type = "Enum" → (enumNameOk m n ts = false ↔ ∃ prev, m.findType n = some prev ∧
      ¬ (prev.ts.type = "Enum" ∧ prev.ts.elements.length = ts.elements.length ∧
             ∀ el ∈ ts.elements, ∃ el' ∈ prev.ts.elements, el'.symbol = el.symbol)) := by
    intro n ts ht
    unfold enumNameOk
    cases m.findType n with
    | none => simp
    | some prev =>
      by_cases hp : prev.ts.type = "Enum"
      · simp [equivTypes, equivStep, hp, ht]
      · simp [equivTypes, equivStep, hp, ht]
  have : (convertInlineEnums m).2 = (convertTypes m m.schema.types).2.2 := by
    unfold convertInlineEnums
    cases h : (convertTypes m m.schema.types).2.2 <;> simp [h]
  rw [this, ← Bool.not_eq_false, convertTypes_err]
  simp only [ConvertOk]
  push_neg
  constructor
  · rintro ⟨td, h1, h2, f, h3, h4, h5⟩
    exact ⟨td, h1, h2, f, h3, h4, by
      have := (hok _ _ h4).1 (by simpa using h5)
      simpa using this⟩
  · rintro ⟨td, h1, h2, f, h3, h4, h5⟩
    exact ⟨td, h1, h2, f, h3, h4, by
      have := (hok (enumTypeName td.name f.name) _ h4).2 (by simpa using h5)
      simp [this]⟩

/-! ### C16 -/

theorem zip_find {l : List TypeDef} (g : TypeDef → TypeDef) (n : String) :
    (l.zip (l.map g)).find? (fun p => p.1.name == n) = (l.find? (fun td => td.name == n)).map (fun td => (td, g td)) := by
  induction l with
  | nil => rfl
  | cons a r ih =>
    simp only [List.map_cons, List.zip_cons_cons, List.find?_cons]
    cases a.name == n with
    | true => rfl
    | false => exact ih

theorem find_of_nodup {l : List TypeDef} (h : (l.map TypeDef.name).Nodup) {td : TypeDef} (htd : td ∈ l) :
    l.find? (fun t => t.name == td.name) = some td := by
  induction l with
  | nil => cases htd
  | cons a r ih =>
    simp only [List.map_cons, List.nodup_cons] at h
    rw [List.find?_cons]
    rcases List.mem_cons.1 htd with rfl | hm
    · simp
    · have : (a.name == td.name) = false := by
        simp only [beq_eq_false_iff_ne, ne_eq]
        intro he
        exact h.1 (List.mem_map.2 ⟨td, hm, he.symm⟩)
      rw [this]
      exact ih h.2 hm

theorem foldl_mset_fresh (l : List TypeDef) (idx : GoMap TypeDef) (h : (l.map TypeDef.name).Nodup)
    (hf : ∀ td ∈ l, td.name ∉ idx.map Prod.fst) :
    l.foldl (fun i td => mset i td.name td) idx = idx ++ l.map (fun td => (td.name, td)) := by
  induction l generalizing idx with
  | nil => simp
  | cons a r ih =>
    simp only [List.map_cons, List.nodup_cons] at h
    rw [List.foldl_cons, mset_of_not_mem (hf a (by simp)), ih _ h.2]
    · simp
    · intro td htd
      simp only [List.map_append, List.map_cons, List.map_nil, List.mem_append, List.mem_singleton, not_or]
      exact ⟨hf td (by simp [htd]), fun he => h.1 (List.mem_map.2 ⟨td, htd, he⟩)⟩

/-- C16: if the made-up names are distinct and new, the call succeeds and the resulting
model is exactly the model that `NewModel` builds from the resulting schema (so names are
unique and all lookups are right); in particular each made-up name finds the enum of its
field.  Without the hypothesis it is false, see `C16_refuted_*`. -/
theorem C16_consistent_partial (s : Schema) (m : Model) (hm : newModel s = .ok m)
    (hd : (madeUpNames s).Nodup)
    (hfresh : ∀ n ∈ madeUpNames s, n ∉ BaseTypes ∧ ∀ td ∈ s.types, td.name ≠ n) :
    ∃ m', convertInlineEnums m = (m', false) ∧ newModel m'.schema = .ok m' ∧
      ∀ td ∈ s.types, td.ts.type = "Struct" → ∀ f ∈ td.ts.fields, f.ts.type = "Enum" →
        ∃ td', m'.findType (enumTypeName td.name f.name) = some td' ∧ td'.ts = f.ts := by
  have hs : m.schema = s := C01_newModel_keeps_schema s m hm
  have hfind : ∀ n ∈ madeUpNames s, m.findType n = none := by
    intro n hn
    cases hf : m.findType n with
    | none => rfl
    | some td =>
      rcases (newModel_findType_iff hm n td).1 hf with ⟨h1, h2⟩ | ⟨h1, _⟩
      · exact absurd h2 ((hfresh n hn).2 td h1)
      · exact absurd h1 (hfresh n hn).1
  have hmade : ∀ td ∈ s.types, td.ts.type = "Struct" → ∀ f ∈ td.ts.fields, f.ts.type = "Enum" →
      enumTypeName td.name f.name ∈ madeUpNames s := by
    intro td h1 h2 f h3 h4
    refine List.mem_flatMap.2 ⟨td, h1, ?_⟩
    rw [if_pos h2]
    exact List.mem_map.2 ⟨f, by simp [h3, h4], rfl⟩
  have hok : ∀ td ∈ m.schema.types, ConvertOk m td := by
    rw [hs]
    intro td h1 h2 f h3 h4
    simp [enumNameOk, hfind _ (hmade td h1 h2 f h3 h4)]
  have hnames : (s.types.flatMap newTypesOf).map TypeDef.name = madeUpNames s := by
    unfold madeUpNames newTypesOf newTypes
    rw [List.map_flatMap]
    congr 1
    funext td
    split_ifs <;> simp [Function.comp_def]
  obtain ⟨u1, u2, u3, hmeq⟩ := (newModel_ok_iff s m).1 hm
  have hres : ∃ m', convertInlineEnums m = (m', false) ∧ newModel m'.schema = .ok m' := by
    unfold convertInlineEnums
    rw [convertTypes_ok _ hok]
    refine ⟨_, by simp only [Bool.false_eq_true, if_false]; rfl, ?_⟩
    rw [newModel_ok_iff]
    simp only [hs]
    refine ⟨?_, ?_, u3, ?_⟩
    · rw [List.map_append, hnames, List.map_map]
      have : TypeDef.name ∘ convertDef = TypeDef.name := by funext td; simp
      rw [this, List.nodup_append]
      refine ⟨u1, hd, ?_⟩
      rintro a ha b hb rfl
      obtain ⟨td, h1, h2⟩ := List.mem_map.1 ha
      exact (hfresh a hb).2 td h1 h2
    · intro td htd
      rcases List.mem_append.1 htd with h | h
      · obtain ⟨o, ho, rfl⟩ := List.mem_map.1 h
        rw [convertDef_name]; exact u2 o ho
      · exact (hfresh td.name (hnames ▸ List.mem_map.2 ⟨td, h, rfl⟩)).1
    · have hidx : m.typeIndex.map (sharedEntry s.types (s.types.map convertDef)) = baseIndex ++ s.types.map (fun td => (td.name, convertDef td)) := by
        rw [hmeq]
        rw [List.map_append]
        congr 1
        · rw [baseIndex_eq, List.map_map]
          apply List.map_congr_left
          intro n hn
          have : s.types.find? (fun td => td.name == n) = none := by
            rw [List.find?_eq_none]
            intro td htd
            simp only [beq_iff_eq]
            rintro rfl
            exact u2 td htd hn
          simp [sharedEntry, zip_find, this]
        · rw [List.map_map]
          apply List.map_congr_left
          intro td htd
          simp [sharedEntry, zip_find, find_of_nodup u1 htd]
      have hh : m.httpIndex = s.http.map (fun hd => (hd.name, hd)) := by rw [hmeq]
      rw [hh]
      congr 1
      rw [hidx, foldl_mset_fresh _ _ (by rw [hnames]; exact hd)]
      · simp [Function.comp_def]
      · intro td htd
        have hn : td.name ∈ madeUpNames s := hnames ▸ List.mem_map.2 ⟨td, htd, rfl⟩
        rw [List.map_append, baseIndex_keys]
        simp only [List.map_map, List.mem_append, List.mem_map, Function.comp_apply, not_or, not_exists, not_and]
        exact ⟨(hfresh _ hn).1, fun o ho => (hfresh _ hn).2 o ho⟩
  obtain ⟨m', h1, h2⟩ := hres
  refine ⟨m', h1, h2, ?_⟩
  intro td k1 k2 f k3 k4
  refine ⟨⟨enumTypeName td.name f.name, "", [], f.ts⟩, ?_, rfl⟩
  rw [newModel_findType_iff h2]
  left
  refine ⟨?_, rfl⟩
  rw [(convert_false h1).2, hs]
  refine List.mem_append_right _ (List.mem_flatMap.2 ⟨td, k1, ?_⟩)
  unfold newTypesOf newTypes
  rw [if_pos k2]
  exact List.mem_map.2 ⟨f, by simp [k3, k4], rfl⟩

/-- `Shirt { size Enum {S,M}; color Enum {RED}; price Decimal }` -/
def exShirt : Schema :=
  { types := [{ name := "Shirt", ts := { type := "Struct", fields := [
      { name := "size", ts := { type := "Enum", elements := [{ symbol := "S" }, { symbol := "M" }] } },
      { name := "color", ts := { type := "Enum", elements := [{ symbol := "RED" }] } },
      { name := "price", ts := { type := "Decimal" } }] } }] }

example : madeUpNames exShirt = ["ShirtSize", "ShirtColor"] := by decide
example : (madeUpNames exShirt).Nodup ∧ (∀ n ∈ madeUpNames exShirt, n ∉ BaseTypes) ∧
    ∃ m m', newModel exShirt = .ok m ∧ convertInlineEnums m = (m', false) ∧
      m'.schema.types.map (·.name) = ["Shirt", "ShirtSize", "ShirtColor"] := by
  refine ⟨by decide, by decide, _, _, rfl, rfl, by decide⟩

/-- C16 refuted: two fields ask for the same name; it is added twice, and the name finds
the second enum only. -/
theorem C16_refuted_collision : ∃ (s : Schema) (m m' : Model), newModel s = .ok m ∧ convertInlineEnums m = (m', false) ∧
    m'.schema.types.map (·.name) = ["Foo", "FooBar", "FooBar"] ∧
    (m'.findType "FooBar").map (fun td => td.ts.elements.map (·.symbol)) = some ["B"] ∧
    ∃ td ∈ s.types, ∃ f ∈ td.ts.fields, enumTypeName td.name f.name = "FooBar" ∧
      f.ts.type = "Enum" ∧ f.ts.elements.map (·.symbol) = ["A"] := by
  refine ⟨{ types := [{ name := "Foo", ts := { type := "Struct", fields := [
      { name := "fooBar", ts := { type := "Enum", elements := [{ symbol := "A" }] } },
      { name := "bar", ts := { type := "Enum", elements := [{ symbol := "B" }] } }] } }] }, _, _, rfl, rfl, by decide, by decide, ?_⟩
  exact ⟨_, List.mem_cons_self, _, List.mem_cons_self, by decide, rfl, rfl⟩

/-- C16 refuted: an equivalent type of that name exists; it is then defined twice. -/
theorem C16_refuted_existing : ∃ (s : Schema) (m m' : Model), newModel s = .ok m ∧ convertInlineEnums m = (m', false) ∧
    m'.schema.types.map (·.name) = ["FooBar", "Foo", "FooBar"] := by
  refine ⟨{ types := [{ name := "FooBar", ts := { type := "Enum", elements := [{ symbol := "A" }] } },
      { name := "Foo", ts := { type := "Struct", fields := [
      { name := "bar", ts := { type := "Enum", elements := [{ symbol := "A" }] } }] } }] }, _, _, rfl, rfl, by decide⟩

/-! ### C17 -/

/-- C17: after an error no type has been added or renamed, nothing but the fields of
structs has changed, and each field is either unchanged or converted.  That fields may be
converted although the call failed is `C17_refuted`. -/
theorem C17_failure_adds_nothing_partial (m m' : Model) (h : convertInlineEnums m = (m', true)) :
    (∃ tds, m'.schema = { m.schema with types := tds }) ∧ m'.httpIndex = m.httpIndex ∧
    m'.typeIndex.map Prod.fst = m.typeIndex.map Prod.fst ∧
    List.Forall₂ (fun td td' => td' = td ∨ ∃ fs, td.ts.type = "Struct" ∧ td' = { td with ts := { td.ts with fields := fs } } ∧
      List.Forall₂ (fun f f' => f' = f ∨ (f.ts.type = "Enum" ∧ ∃ n, f' = { f with ts := { type := n } })) td.ts.fields fs)
      m.schema.types m'.schema.types := by
  have conv : ∀ td, ∀ fs fs' : List StructFieldDef,
      List.Forall₂ (fun f f' => f' = f ∨ f' = convertField td f) fs fs' →
      List.Forall₂ (fun f f' => f' = f ∨ (f.ts.type = "Enum" ∧ ∃ n, f' = { f with ts := { type := n } })) fs fs' := by
    intro td fs fs' hf
    refine hf.imp ?_
    intro f f' hh
    rcases hh with rfl | rfl
    · exact Or.inl rfl
    · unfold convertField
      split_ifs with he
      · exact Or.inr ⟨he, _, rfl⟩
      · exact Or.inl rfl
  have one : ∀ td, (convertType m td).1 = td ∨ ∃ fs, td.ts.type = "Struct" ∧
      (convertType m td).1 = { td with ts := { td.ts with fields := fs } } ∧
      List.Forall₂ (fun f f' => f' = f ∨ (f.ts.type = "Enum" ∧ ∃ n, f' = { f with ts := { type := n } })) td.ts.fields fs := by
    intro td
    unfold convertType
    split_ifs with hs
    · exact Or.inr ⟨_, hs, rfl, conv td.name _ _ (convertFields_names _)⟩
    · exact Or.inl rfl
  have all : ∀ tds : List TypeDef, List.Forall₂ (fun td td' => td' = td ∨ ∃ fs, td.ts.type = "Struct" ∧
      td' = { td with ts := { td.ts with fields := fs } } ∧
      List.Forall₂ (fun f f' => f' = f ∨ (f.ts.type = "Enum" ∧ ∃ n, f' = { f with ts := { type := n } })) td.ts.fields fs)
      tds (convertTypes m tds).1 := by
    intro tds
    induction tds with
    | nil => exact .nil
    | cons td r ih =>
      unfold convertTypes
      by_cases hc : (convertType m td).2.2 = true
      · simp only [hc, if_true]
        exact .cons (one td) (List.forall₂_same.2 (fun _ _ => Or.inl rfl))
      · simp only [hc]
        exact .cons (one td) ih
  unfold convertInlineEnums at h
  by_cases hc : (convertTypes m m.schema.types).2.2 = true
  · simp only [hc, if_true, Prod.mk.injEq, and_true] at h
    rw [← h]
    refine ⟨⟨_, rfl⟩, rfl, ?_, all _⟩
    simp only [List.map_map]
    apply List.map_congr_left
    intro kv _
    simp only [Function.comp_apply, sharedEntry]
    split <;> rfl
  · simp [hc] at h

/-- C17 refuted: the call fails on the second field, but the first has already been changed
to name a type that does not exist. -/
theorem C17_refuted : ∃ (s : Schema) (m m' : Model), newModel s = .ok m ∧ convertInlineEnums m = (m', true) ∧
    (m.schema.types.map fun td => td.ts.fields.map (·.ts.type)) = [["Enum", "Enum"], []] ∧
    (m'.schema.types.map fun td => td.ts.fields.map (·.ts.type)) = [["FooA", "Enum"], []] ∧
    (m'.findType "FooA").isNone = true := by
  refine ⟨{ types := [{ name := "Foo", ts := { type := "Struct", fields := [
      { name := "a", ts := { type := "Enum", elements := [{ symbol := "A" }] } },
      { name := "b", ts := { type := "Enum", elements := [{ symbol := "B" }] } }] } },
      { name := "FooB", ts := { type := "String" } }] }, _, _, rfl, rfl, by decide, by decide, by decide⟩

end Sadl.Props
