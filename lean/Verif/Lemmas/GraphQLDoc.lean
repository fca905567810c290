import Verif.Lemmas.GraphQLText
import Verif.Lemmas.NewModel
/-
What the references of an exported GraphQL document are, and when the document is valid.
-/
namespace Sadl.GraphQL
open Sadl.Spec

/-! ### Scalars -/

theorem scalarType_cases (n : String) : n ∈ gqlScalarTypes ∨ ∀ custom, scalarType custom n = "" := by
  by_cases h : n ∈ gqlScalarTypes
  · exact .inl h
  · right
    intro custom
    simp only [gqlScalarTypes, List.mem_cons, List.not_mem_nil, or_false, not_or] at h
    unfold scalarType
    split <;> simp_all

theorem scalarType_nonempty (custom : String → String) {n : String} (h : n ∈ gqlScalarTypes) : scalarType custom n ≠ "" := by
  simp only [gqlScalarTypes, List.mem_cons, List.not_mem_nil, or_false] at h
  rcases h with h | h | h | h | h | h | h | h | h | h | h <;> subst h <;> simp [scalarType, customScalar] <;>
    split <;> simp_all

theorem declared_iff (custom : String → String) (n k : String) :
    declaredScalar custom n = some k ↔ n ∈ ["UUID", "Timestamp", "Int64", "Decimal"] ∧ custom n = k ∧ k ≠ "" := by
  unfold declaredScalar
  split <;> (try split) <;> simp_all <;> aesop

/-- A scalar is a built-in name, or the configured one. -/
theorem scalarType_builtin (custom : String → String) {n : String} (h : n ∈ gqlScalarTypes) :
    scalarType custom n ∈ gqlBuiltin ∨ declaredScalar custom n = some (scalarType custom n) := by
  simp only [gqlScalarTypes, List.mem_cons, List.not_mem_nil, or_false] at h
  rcases h with h | h | h | h | h | h | h | h | h | h | h <;> subst h <;>
    simp [scalarType, customScalar, gqlBuiltin, declaredScalar] <;> split <;> simp_all

/-! ### References -/

theorem arrays_iff {s : Schema} {m : Model} (h : newModel s = .ok m) (n : String) (td : TypeDef) :
    mget (arrays m) n = some td ↔ td ∈ s.types ∧ td.name = n ∧ td.ts.type = "Array" := by
  obtain ⟨hnd, _, _, hm⟩ := (newModel_ok_iff s m).1 h
  have hs : m.schema = s := by rw [hm]
  have key : ∀ (l : List TypeDef), (l.map TypeDef.name).Nodup → ∀ (acc : GoMap TypeDef),
      (mget (l.foldl (fun acc td => mset acc td.name td) acc) n = some td ↔
        (td ∈ l ∧ td.name = n) ∨ ((∀ x ∈ l, x.name ≠ n) ∧ mget acc n = some td)) := by
    intro l
    induction l with
    | nil => intro _ acc; simp
    | cons x r ih =>
      intro hnd acc
      rw [List.map_cons, List.nodup_cons] at hnd
      rw [List.foldl_cons, ih hnd.2]
      by_cases e : x.name = n
      · subst e
        rw [mget_mset_same]
        constructor
        · rintro (⟨h1, h2⟩ | ⟨h1, h2⟩)
          · exact absurd (h2 ▸ List.mem_map_of_mem h1) hnd.1
          · cases h2; simp
        · rintro (⟨h1, h2⟩ | ⟨h1, h2⟩)
          · rcases List.mem_cons.1 h1 with e | e
            · subst e
              exact .inr ⟨fun y hy e => hnd.1 (e ▸ List.mem_map_of_mem hy), rfl⟩
            · exact .inl ⟨e, h2⟩
          · exact absurd rfl (h1 x (by simp))
      · rw [mget_mset_other _ _ _ _ (fun e' => e e'.symm)]
        constructor
        · rintro (⟨h1, h2⟩ | ⟨h1, h2⟩)
          · exact .inl ⟨by simp [h1], h2⟩
          · refine .inr ⟨fun y hy => ?_, h2⟩
            rcases List.mem_cons.1 hy with e' | e'
            · subst e'; exact e
            · exact h1 y e'
        · rintro (⟨h1, h2⟩ | ⟨h1, h2⟩)
          · rcases List.mem_cons.1 h1 with e' | e'
            · subst e'; exact absurd h2 e
            · exact .inl ⟨e', h2⟩
          · exact .inr ⟨fun y hy => h1 y (by simp [hy]), h2⟩
  unfold arrays
  rw [hs]
  have hnd' : ((s.types.filter (fun td => td.ts.type == "Array")).map TypeDef.name).Nodup :=
    List.Nodup.sublist (List.Sublist.map _ List.filter_sublist) hnd
  rw [key _ hnd' []]
  simp only [List.mem_filter, beq_iff_eq]
  constructor
  · rintro (⟨⟨h1, h2⟩, h3⟩ | ⟨_, h⟩)
    · exact ⟨h1, h3, h2⟩
    · cases h
  · rintro ⟨h1, h2, h3⟩
    exact .inl ⟨⟨h1, h3⟩, h2⟩

/-- How the type of a field is written. -/
inductive RefCase (s : Schema) (custom : String → String) (ts : TypeSpec) : GType → Option String → Prop
  | scalar : ts.type ∈ gqlScalarTypes →
      RefCase s custom ts (.named (scalarType custom ts.type)) (declaredScalar custom ts.type)
  | synonym (td : TypeDef) : td ∈ s.types → td.name = ts.type → td.ts.type ∈ gqlScalarTypes →
      RefCase s custom ts (.named (scalarType custom td.ts.type)) (declaredScalar custom td.ts.type)
  | array : ts.type = "Array" → RefCase s custom ts (.list ts.items) none
  | arrayDef (td : TypeDef) : td ∈ s.types → td.name = ts.type → td.ts.type = "Array" →
      RefCase s custom ts (.list td.ts.items) none
  | other : ts.type ∉ gqlScalarTypes → ts.type ≠ "Array" →
      (∀ td ∈ s.types, td.name = ts.type → td.ts.type ∉ gqlScalarTypes ∧ td.ts.type ≠ "Array") →
      RefCase s custom ts (.named ts.type) none

theorem declared_none (custom : String → String) {n : String} (h : n ∉ gqlScalarTypes) : declaredScalar custom n = none := by
  simp only [gqlScalarTypes, List.mem_cons, List.not_mem_nil, or_false, not_or] at h
  unfold declaredScalar
  split <;> simp_all

theorem refCase {s : Schema} {m : Model} (h : newModel s = .ok m) (custom : String → String) (ts : TypeSpec) :
    RefCase s custom ts (typeRef m custom ts) (refScalar m custom ts) := by
  obtain ⟨hnd, hb, _, _⟩ := (newModel_ok_iff s m).1 h
  have uniq : ∀ td ∈ s.types, ∀ td' ∈ s.types, td.name = td'.name → td = td' := by
    intro td h1 td' h2 e
    have a := (newModel_findType_iff h td.name td).2 (.inl ⟨h1, rfl⟩)
    rw [(newModel_findType_iff h td.name td').2 (.inl ⟨h2, e.symm⟩)] at a
    exact (Option.some.inj a).symm
  unfold typeRef refScalar
  cases ha : mget (arrays m) ts.type with
  | some td =>
    obtain ⟨h1, h2, h3⟩ := (arrays_iff h _ _).1 ha
    simp only [h3]
    have : scalarType custom "Array" = "" := rfl
    simp only [this, ne_eq, not_true_eq_false, if_false, if_true]
    exact .arrayDef td h1 h2 h3
  | none =>
    simp only
    rcases scalarType_cases ts.type with hs | hs
    · have := scalarType_nonempty custom hs
      simp only [ne_eq, this, not_false_eq_true, if_true]
      exact .scalar hs
    · simp only [hs custom, ne_eq, not_true_eq_false, if_false]
      have hns : ts.type ∉ gqlScalarTypes := fun h' => scalarType_nonempty custom h' (hs custom)
      by_cases e : ts.type = "Array"
      · simp only [e, if_true]
        exact .array e
      · simp only [e, if_false]
        have hother : (∀ td ∈ s.types, td.name = ts.type → td.ts.type ∉ gqlScalarTypes ∧ td.ts.type ≠ "Array") ∨
            ∃ td ∈ s.types, td.name = ts.type ∧ td.ts.type ∈ gqlScalarTypes := by
          by_cases hx : ∃ td ∈ s.types, td.name = ts.type ∧ td.ts.type ∈ gqlScalarTypes
          · exact .inr hx
          · left
            intro td h1 h2
            refine ⟨fun h3 => hx ⟨td, h1, h2, h3⟩, fun h3 => ?_⟩
            rw [(arrays_iff h _ _).2 ⟨h1, h2, h3⟩] at ha
            cases ha
        cases hf : m.findType ts.type with
        | none =>
          simp only
          rcases hother with ho | ⟨td, h1, h2, h3⟩
          · exact .other hns e ho
          · rw [(newModel_findType_iff h _ td).2 (.inl ⟨h1, h2⟩)] at hf
            cases hf
        | some td =>
          simp only
          rcases (newModel_findType_iff h _ _).1 hf with ⟨h1, h2⟩ | ⟨h1, h2⟩
          · rcases scalarType_cases td.ts.type with hs' | hs'
            · have := scalarType_nonempty custom hs'
              simp only [this, not_false_eq_true, if_true]
              exact .synonym td h1 h2 hs'
            · have hns' : td.ts.type ∉ gqlScalarTypes := fun h' => scalarType_nonempty custom h' (hs' custom)
              simp only [hs' custom, not_true_eq_false, if_false, declared_none custom hns']
              rcases hother with ho | ⟨td', h1', h2', h3'⟩
              · exact .other hns e ho
              · have := uniq td h1 td' h1' (h2.trans h2'.symm)
                subst this
                exact absurd h3' hns'
          · have ht : td.ts.type = ts.type := by rw [h2]; rfl
            rw [ht]
            simp only [hs custom, not_true_eq_false, if_false, declared_none custom hns]
            rcases hother with ho | ⟨td', h1', h2', h3'⟩
            · exact .other hns e ho
            · exact absurd (h2' ▸ h1) (hb td' h1')

/-! ### The scalars that are declared -/

theorem usedScalars_iff {s : Schema} {m : Model} (h : newModel s = .ok m) (custom : String → String) (n : String) :
    n ∈ usedScalars m custom ↔ CustomScalar s custom n := by
  obtain ⟨hnd, hb, _, hm⟩ := (newModel_ok_iff s m).1 h
  have hs : m.schema = s := by rw [hm]
  unfold usedScalars CustomScalar
  rw [List.mem_eraseDups, hs]
  simp only [List.mem_flatMap, List.mem_filter, List.mem_filterMap, beq_iff_eq]
  constructor
  · rintro ⟨td, ⟨h1, h2⟩, f, h3, h4⟩
    have hr := refCase h custom f.ts
    generalize typeRef m custom f.ts = t at hr
    rw [h4] at hr
    generalize hk : some n = k at hr
    cases hr with
    | scalar hs' =>
      obtain ⟨a, b, c⟩ := (declared_iff _ _ _).1 hk.symm
      exact ⟨c, td, h1, h2, f, h3, _, a, b, .inl rfl⟩
    | synonym td' h1' h2' h3' =>
      obtain ⟨a, b, c⟩ := (declared_iff _ _ _).1 hk.symm
      exact ⟨c, td, h1, h2, f, h3, _, a, b, .inr ⟨td', h1', h2', rfl⟩⟩
    | array => cases hk
    | arrayDef => cases hk
    | other => cases hk
  · rintro ⟨hne, td, h1, h2, f, h3, b, hb', hc, hor⟩
    refine ⟨td, ⟨h1, h2⟩, f, h3, ?_⟩
    have hr := refCase h custom f.ts
    have hbs : b ∈ gqlScalarTypes := by
      have : ∀ b ∈ ["UUID", "Timestamp", "Int64", "Decimal"], b ∈ gqlScalarTypes := by decide
      exact this b hb'
    have hbase : b ∈ BaseTypes := by
      have : ∀ b ∈ ["UUID", "Timestamp", "Int64", "Decimal"], b ∈ BaseTypes := by decide
      exact this b hb'
    have hna : b ≠ "Array" := by
      rintro rfl
      exact absurd hbs (by decide)
    have hd : declaredScalar custom b = some n := (declared_iff _ _ _).2 ⟨hb', hc, hne⟩
    have uniq : ∀ td ∈ s.types, ∀ td' ∈ s.types, td.name = td'.name → td = td' := by
      intro td h1 td' h2 e
      have a := (newModel_findType_iff h td.name td).2 (.inl ⟨h1, rfl⟩)
      rw [(newModel_findType_iff h td.name td').2 (.inl ⟨h2, e.symm⟩)] at a
      exact (Option.some.inj a).symm
    generalize typeRef m custom f.ts = t at hr
    generalize refScalar m custom f.ts = k at hr
    rcases hor with e | ⟨td', h1', h2', h3'⟩
    · cases hr with
      | scalar => rw [e]; exact hd
      | synonym td' h1' h2' h3' => exact absurd (h2'.trans e ▸ hbase) (hb td' h1')
      | array e' => exact absurd (e.symm.trans e') hna
      | arrayDef td' h1' h2' h3' => exact absurd (h2'.trans e ▸ hbase) (hb td' h1')
      | other h' => exact absurd (e ▸ hbs) h'
    · cases hr with
      | scalar h' =>
        have : f.ts.type ∈ BaseTypes := by
          have : ∀ x ∈ gqlScalarTypes, x ∈ BaseTypes := by decide
          exact this _ h'
        exact absurd (h2' ▸ this) (hb td' h1')
      | synonym td'' h1'' h2'' h3'' =>
        have := uniq td' h1' td'' h1'' (h2'.trans h2''.symm)
        subst this
        rw [h3']; exact hd
      | array e' => exact absurd (h2'.trans e' ▸ (by decide : "Array" ∈ BaseTypes)) (hb td' h1')
      | arrayDef td'' h1'' h2'' h3'' =>
        have := uniq td' h1' td'' h1'' (h2'.trans h2''.symm)
        subst this
        exact absurd (h3'.symm.trans h3'') hna
      | other _ _ h' => exact absurd (h3' ▸ hbs) (h' td' h1' h2').1

theorem nodup_eraseDups' (l : List String) : l.eraseDups.Nodup := by
  generalize hn : l.length = n
  induction n using Nat.strongRecOn generalizing l with
  | ind n ih =>
    cases l with
    | nil => simp
    | cons a l =>
      rw [List.eraseDups_cons, List.nodup_cons]
      refine ⟨?_, ih _ ?_ _ rfl⟩
      · rw [List.mem_eraseDups]; simp
      · rw [← hn]
        exact Nat.lt_succ_of_le (List.length_filter_le _ _)

/-! ### What a document contains -/

theorem mem_docNames {m : Model} {custom : String → String} {sc : List String} (n : String) :
    n ∈ (docOf m custom sc).filterMap GDefName ↔ Emitted m.schema n ∨ n ∈ sc := by
  unfold docOf
  rw [List.filterMap_append, List.mem_append]
  refine or_congr ?_ ?_
  · rw [List.mem_filterMap]
    constructor
    · rintro ⟨d, hd, hn⟩
      obtain ⟨td, htd, e⟩ := List.mem_filterMap.1 hd
      refine ⟨td, htd, ?_⟩
      unfold docDef at e
      split at e
      · rename_i h; cases e; cases hn; exact ⟨rfl, by simp [h]⟩
      · split at e
        · rename_i h; cases e; cases hn; exact ⟨rfl, by simp [h]⟩
        · split at e
          · rename_i h; cases e; cases hn; exact ⟨rfl, by simp [h]⟩
          · cases e
    · rintro ⟨td, htd, rfl, h⟩
      have : ∃ d, docDef m custom td = some d ∧ GDefName d = some td.name := by
        simp only [List.mem_cons, List.not_mem_nil, or_false] at h
        unfold docDef
        rcases h with h | h | h <;> rw [h] <;> simp [GDefName]
      obtain ⟨d, h1, h2⟩ := this
      exact ⟨d, List.mem_filterMap.2 ⟨td, htd, h1⟩, h2⟩
  · simp [GDefName]

theorem mem_object {m : Model} {custom : String → String} {sc : List String} (n : String) (d : Option String)
    (fs : List GFieldDef) :
    GDef.object n d fs ∈ docOf m custom sc ↔
      ∃ td ∈ m.schema.types, td.ts.type = "Struct" ∧ td.name = n ∧ d = none ∧ fs = td.ts.fields.map (fieldDef m custom) := by
  unfold docOf
  rw [List.mem_append, List.mem_filterMap]
  constructor
  · rintro (⟨td, htd, e⟩ | h)
    · unfold docDef at e
      split at e
      · cases e
      · split at e
        · rename_i h; cases e; exact ⟨td, htd, h, rfl, rfl, rfl⟩
        · split at e <;> cases e
    · simp at h
  · rintro ⟨td, htd, h, rfl, rfl, rfl⟩
    exact .inl ⟨td, htd, by simp [docDef, h]⟩

theorem mem_enum {m : Model} {custom : String → String} {sc : List String} (n : String) (d : Option String)
    (vs : List GValueDef) :
    GDef.enum n d vs ∈ docOf m custom sc ↔
      ∃ td ∈ m.schema.types, td.ts.type = "Enum" ∧ td.name = n ∧ d = none ∧
        vs = td.ts.elements.map fun e => { name := e.symbol } := by
  unfold docOf
  rw [List.mem_append, List.mem_filterMap]
  constructor
  · rintro (⟨td, htd, e⟩ | h)
    · unfold docDef at e
      split at e
      · rename_i h; cases e; exact ⟨td, htd, h, rfl, rfl, rfl⟩
      · split at e
        · cases e
        · split at e <;> cases e
    · simp at h
  · rintro ⟨td, htd, h, rfl, rfl, rfl⟩
    exact .inl ⟨td, htd, by simp [docDef, h]⟩

theorem mem_union {m : Model} {custom : String → String} {sc : List String} (n : String) (d : Option String)
    (ts : List String) :
    GDef.union n d ts ∈ docOf m custom sc ↔
      ∃ td ∈ m.schema.types, td.ts.type = "Union" ∧ td.name = n ∧ d = none ∧
        ts = td.ts.variants.map fun v => v.ts.type := by
  unfold docOf
  rw [List.mem_append, List.mem_filterMap]
  constructor
  · rintro (⟨td, htd, e⟩ | h)
    · unfold docDef at e
      split at e
      · cases e
      · split at e
        · cases e
        · split at e
          · rename_i h; cases e; exact ⟨td, htd, h, rfl, rfl, rfl⟩
          · cases e
    · simp at h
  · rintro ⟨td, htd, h, rfl, rfl, rfl⟩
    exact .inl ⟨td, htd, by simp [docDef, h]⟩

theorem docNames_nodup {m : Model} {custom : String → String} (h : (m.schema.types.map TypeDef.name).Nodup) :
    ((m.schema.types.filterMap (docDef m custom)).filterMap GDefName).Nodup := by
  have key : ∀ l : List TypeDef,
      ((l.filterMap (docDef m custom)).filterMap GDefName).Sublist (l.map TypeDef.name) := by
    intro l
    induction l with
    | nil => simp
    | cons td l ih =>
      rw [List.filterMap_cons]
      cases hd : docDef m custom td with
      | none => exact List.Sublist.cons _ ih
      | some d =>
        have : GDefName d = some td.name := by
          unfold docDef at hd
          split at hd
          · cases hd; rfl
          · split at hd
            · cases hd; rfl
            · split at hd
              · cases hd; rfl
              · cases hd
        simp only [List.filterMap_cons, this, List.map_cons]
        exact List.Sublist.cons_cons _ ih
  exact List.Nodup.sublist (key _) h

theorem base_fieldTyp (t : GType) (req : Bool) :
    GTyp.base (fieldTyp t req) = match t with | .named n => n | .list i => i := by
  cases t <;> cases req <;> rfl

/-- A field's type means something in the document exactly when it can be said. -/
theorem base_iff {s : Schema} {m : Model} (h : newModel s = .ok m) (custom : String → String) (td : TypeDef)
    (htd : td ∈ s.types) (ht : td.ts.type = "Struct") (f : StructFieldDef) (hf : f ∈ td.ts.fields) :
    GqlName s custom (GTyp.base (fieldDef m custom f).type) ↔ FieldSayable s custom f.ts := by
  obtain ⟨hnd, hb, _, hm⟩ := (newModel_ok_iff s m).1 h
  have hs : m.schema = s := by rw [hm]
  have uniq : ∀ td ∈ s.types, ∀ td' ∈ s.types, td.name = td'.name → td = td' := by
    intro td h1 td' h2 e
    have a := (newModel_findType_iff h td.name td).2 (.inl ⟨h1, rfl⟩)
    rw [(newModel_findType_iff h td.name td').2 (.inl ⟨h2, e.symm⟩)] at a
    exact (Option.some.inj a).symm
  have hr := refCase h custom f.ts
  have hu : ∀ n, refScalar m custom f.ts = some n → GqlName s custom n := by
    intro n hn
    refine .inr (.inr ((usedScalars_iff h custom n).1 ?_))
    unfold usedScalars
    rw [List.mem_eraseDups, hs]
    simp only [List.mem_flatMap, List.mem_filter, List.mem_filterMap, beq_iff_eq]
    exact ⟨td, ⟨htd, ht⟩, f, hf, hn⟩
  have hscal : ∀ x ∈ gqlScalarTypes, x ∈ BaseTypes := by decide
  simp only [fieldDef, base_fieldTyp]
  generalize typeRef m custom f.ts = t at hr
  generalize refScalar m custom f.ts = k at hr hu
  cases hr with
  | scalar h1 =>
    refine ⟨fun _ => .inl h1, fun _ => ?_⟩
    rcases scalarType_builtin custom h1 with h2 | h2
    · exact .inl h2
    · exact hu _ h2
  | synonym td' h1 h2 h3 =>
    refine ⟨fun _ => .inr (.inl ⟨td', h1, h2, h3⟩), fun _ => ?_⟩
    rcases scalarType_builtin custom h3 with h2 | h2
    · exact .inl h2
    · exact hu _ h2
  | array e =>
    refine ⟨fun h' => .inr (.inr (.inl ⟨e, h'⟩)), ?_⟩
    rintro (h' | ⟨td', h1, h2, h3⟩ | ⟨_, h'⟩ | ⟨td', h1, h2, h3, _⟩ | ⟨h', _⟩)
    · rw [e] at h'; exact absurd h' (by decide)
    · exact absurd (h2.trans e ▸ (by decide : "Array" ∈ BaseTypes)) (hb td' h1)
    · exact h'
    · exact absurd (h2.trans e ▸ (by decide : "Array" ∈ BaseTypes)) (hb td' h1)
    · exact absurd e h'
  | arrayDef td0 h1 h2 h3 =>
    refine ⟨fun h' => .inr (.inr (.inr (.inl ⟨td0, h1, h2, h3, h'⟩))), ?_⟩
    rintro (h' | ⟨td', h1', h2', h3'⟩ | ⟨e, h'⟩ | ⟨td', h1', h2', h3', h4'⟩ | ⟨_, h', _⟩)
    · exact absurd (h2 ▸ hscal _ h') (hb td0 h1)
    · have := uniq td0 h1 td' h1' (h2.trans h2'.symm)
      subst this
      rw [h3] at h3'
      exact absurd h3' (by decide)
    · exact absurd (h2.trans e ▸ (by decide : "Array" ∈ BaseTypes)) (hb td0 h1)
    · have := uniq td0 h1 td' h1' (h2.trans h2'.symm)
      subst this
      exact h4'
    · exact absurd ⟨td0, h1, h2, h3⟩ h'
  | other h1 h2 h3 =>
    refine ⟨fun h' => .inr (.inr (.inr (.inr ⟨h2, ?_, h'⟩))), ?_⟩
    · rintro ⟨td', h1', h2', h3'⟩
      exact (h3 td' h1' h2').2 h3'
    · rintro (h' | ⟨td', h1', h2', h3'⟩ | ⟨e, h'⟩ | ⟨td', h1', h2', h3', h4'⟩ | ⟨_, _, h'⟩)
      · exact absurd h' h1
      · exact absurd h3' (h3 td' h1' h2').1
      · exact absurd e h2
      · exact absurd h3' (h3 td' h1' h2').2
      · exact h'

/-- The document of a schema is valid exactly when the schema can be said in GraphQL. -/
theorem valid_iff {s : Schema} {m : Model} (h : newModel s = .ok m) (custom : String → String)
    (order : List String → List String) (ho : ∀ l, (order l).Perm l)
    (hf : ∀ td ∈ s.types, td.ts.type = "Struct" → td.ts.fields ≠ [])
    (he : ∀ td ∈ s.types, td.ts.type = "Enum" → td.ts.elements ≠ [])
    (hv : ∀ td ∈ s.types, td.ts.type = "Union" → td.ts.variants ≠ []) :
    GqlValid (docOf m custom (order (usedScalars m custom))) ↔ GqlSayable s custom := by
  obtain ⟨hnd, hb, _, hm⟩ := (newModel_ok_iff s m).1 h
  have hs : m.schema = s := by rw [hm]
  have hname : ∀ n, n ∈ gqlBuiltin ++ (docOf m custom (order (usedScalars m custom))).filterMap GDefName ↔
      GqlName s custom n := by
    intro n
    rw [List.mem_append, mem_docNames, hs, (ho _).mem_iff, usedScalars_iff h]
    rfl
  constructor
  · intro hval
    have hd := hval.distinct
    rw [List.nodup_append] at hd
    obtain ⟨_, hd1, hd2⟩ := hd
    refine ⟨?_, ?_, ?_, ?_, ?_⟩
    · intro n hn hbn
      exact hd2 n hbn n ((mem_docNames n).2 (.inl (hs ▸ hn))) rfl
    · intro n hn
      have hn' : n ∈ order (usedScalars m custom) := (ho _).mem_iff.2 ((usedScalars_iff h custom n).2 hn)
      refine ⟨fun hbn => hd2 n hbn n ((mem_docNames n).2 (.inr hn')) rfl, fun he => ?_⟩
      unfold docOf at hd1
      rw [List.filterMap_append, List.nodup_append] at hd1
      have h1 : n ∈ (m.schema.types.filterMap (docDef m custom)).filterMap GDefName := by
        have := (mem_docNames (m := m) (custom := custom) (sc := []) n).2 (.inl (hs ▸ he))
        simpa [docOf] using this
      exact hd1.2.2 n h1 n (by simpa [GDefName] using hn') rfl
    · intro td htd ht
      obtain ⟨_, h2, h3⟩ := hval.fields td.name none _ ((mem_object _ _ _).2 ⟨td, hs ▸ htd, ht, rfl, rfl, rfl⟩)
      refine ⟨?_, fun f hf' => (base_iff h custom td htd ht f hf').1 ((hname _).1 (h3 _ (List.mem_map_of_mem hf')))⟩
      rw [List.map_map] at h2
      exact h2
    · intro td htd ht
      obtain ⟨_, h2, h3⟩ := hval.values td.name none _ ((mem_enum _ _ _).2 ⟨td, hs ▸ htd, ht, rfl, rfl, rfl⟩)
      rw [List.map_map] at h2
      exact ⟨h2, fun e he' => h3 _ (List.mem_map_of_mem he')⟩
    · intro td htd ht
      obtain ⟨_, h2, h3⟩ := hval.members td.name none _ ((mem_union _ _ _).2 ⟨td, hs ▸ htd, ht, rfl, rfl, rfl⟩)
      refine ⟨h2, fun v hv' => ?_⟩
      obtain ⟨d', fs, ho⟩ := h3 _ (List.mem_map_of_mem hv')
      obtain ⟨td', h1', h2', h3', _⟩ := (mem_object _ _ _).1 ho
      exact ⟨td', hs ▸ h1', h3', h2'⟩
  · intro hsay
    refine ⟨?_, ?_, ?_, ?_⟩
    · rw [List.nodup_append]
      refine ⟨by decide, ?_, ?_⟩
      · unfold docOf
        rw [List.filterMap_append, List.nodup_append]
        refine ⟨docNames_nodup (hs ▸ hnd), ?_, ?_⟩
        · have : ((order (usedScalars m custom)).map GDef.scalar).filterMap GDefName = order (usedScalars m custom) := by
            rw [List.filterMap_map]
            exact List.filterMap_some
          rw [this]
          exact (ho _).nodup_iff.2 (nodup_eraseDups' _)
        · rintro a ha b hb' rfl
          have h1 : Emitted s a := by
            have : a ∈ (docOf m custom []).filterMap GDefName := by simpa [docOf] using ha
            rcases (mem_docNames a).1 this with h' | h'
            · exact hs ▸ h'
            · cases h'
          have h2 : CustomScalar s custom a := by
            refine (usedScalars_iff h custom a).1 ((ho _).mem_iff.1 ?_)
            simpa [GDefName] using hb'
          exact (hsay.scalars a h2).2 h1
      · rintro a ha b hb' rfl
        rcases (mem_docNames a).1 hb' with h' | h'
        · exact hsay.names a (hs ▸ h') ha
        · exact (hsay.scalars a ((usedScalars_iff h custom a).1 ((ho _).mem_iff.1 h'))).1 ha
    · intro n d fs hmem
      obtain ⟨td, h1, h2, rfl, rfl, rfl⟩ := (mem_object _ _ _).1 hmem
      rw [hs] at h1
      obtain ⟨h3, h4⟩ := hsay.fields td h1 h2
      refine ⟨by simpa using hf td h1 h2, ?_, ?_⟩
      · rw [List.map_map]; exact h3
      · intro f hf'
        obtain ⟨f', hf'', rfl⟩ := List.mem_map.1 hf'
        exact (hname _).2 ((base_iff h custom td h1 h2 f' hf'').2 (h4 f' hf''))
    · intro n d vs hmem
      obtain ⟨td, h1, h2, rfl, rfl, rfl⟩ := (mem_enum _ _ _).1 hmem
      rw [hs] at h1
      obtain ⟨h3, h4⟩ := hsay.values td h1 h2
      refine ⟨by simpa using he td h1 h2, ?_, ?_⟩
      · rw [List.map_map]; exact h3
      · intro v hv'
        obtain ⟨e, he', rfl⟩ := List.mem_map.1 hv'
        exact h4 e he'
    · intro n d ts hmem
      obtain ⟨td, h1, h2, rfl, rfl, rfl⟩ := (mem_union _ _ _).1 hmem
      rw [hs] at h1
      obtain ⟨h3, h4⟩ := hsay.members td h1 h2
      refine ⟨by simpa using hv td h1 h2, h3, ?_⟩
      intro t ht'
      obtain ⟨v, hv', rfl⟩ := List.mem_map.1 ht'
      obtain ⟨td', h1', h2', h3'⟩ := h4 v hv'
      exact ⟨none, _, (mem_object _ _ _).2 ⟨td', hs ▸ h1', h3', h2', rfl, rfl⟩⟩

/-! ### Fit for the text -/

theorem scalarType_name (custom : String → String)
    (hc : ∀ b ∈ ["UUID", "Timestamp", "Int64", "Decimal"], custom b = "" ∨ IsGName (custom b)) {n : String}
    (h : n ∈ gqlScalarTypes) : IsGName (scalarType custom n) := by
  have hb : IsGName "Boolean" := ⟨'B', ['o', 'o', 'l', 'e', 'a', 'n'], rfl, by decide, by decide⟩
  have hst : IsGName "String" := ⟨'S', ['t', 'r', 'i', 'n', 'g'], rfl, by decide, by decide⟩
  have hi : IsGName "Int" := ⟨'I', ['n', 't'], rfl, by decide, by decide⟩
  have hf : IsGName "Float" := ⟨'F', ['l', 'o', 'a', 't'], rfl, by decide, by decide⟩
  simp only [List.mem_cons, List.not_mem_nil, or_false, forall_eq_or_imp, forall_eq] at hc
  obtain ⟨h1, h2, h3, h4⟩ := hc
  simp only [gqlScalarTypes, List.mem_cons, List.not_mem_nil, or_false] at h
  rcases h with h | h | h | h | h | h | h | h | h | h | h <;> subst h <;> simp only [scalarType, customScalar] <;>
    first
    | assumption
    | (split
       · rename_i hne; first | exact h1.resolve_left hne | exact h2.resolve_left hne | exact h3.resolve_left hne |
          exact h4.resolve_left hne
       · assumption)

theorem typeFit_of {s : Schema} {m : Model} (h : newModel s = .ok m) (custom : String → String) (hw : GqlWritable s custom)
    (td : TypeDef) (htd : td ∈ s.types) : TypeFit m custom td := by
  refine ⟨hw.names td htd, fun ht => ⟨(hw.fields td htd ht).1, fun f hf => ?_⟩, fun ht => hw.elements td htd ht,
    fun ht => hw.variants td htd ht⟩
  obtain ⟨h1, h2, h3, h4⟩ := (hw.fields td htd ht).2 f hf
  refine ⟨h1, h2, ?_⟩
  have hr := refCase h custom f.ts
  generalize typeRef m custom f.ts = t at hr
  generalize refScalar m custom f.ts = k at hr
  cases hr with
  | scalar h' => exact scalarType_name custom hw.scalars h'
  | synonym td' _ _ h' => exact scalarType_name custom hw.scalars h'
  | array e => exact h4 e
  | arrayDef td' h1' _ h3' => exact hw.items td' h1' h3'
  | other => exact h3

theorem scalars_fit {s : Schema} {m : Model} (h : newModel s = .ok m) (custom : String → String) (hw : GqlWritable s custom)
    (order : List String → List String) (ho : ∀ l, (order l).Perm l) :
    ∀ n ∈ order (usedScalars m custom), IsGName n := by
  intro n hn
  obtain ⟨hne, _, _, _, _, _, b, hb, e, _⟩ := (usedScalars_iff h custom n).1 ((ho _).mem_iff.1 hn)
  rcases hw.scalars b hb with h' | h'
  · exact absurd (e.symm.trans h') hne
  · exact e ▸ h'

theorem emitTypeDefs_ok (m : Model) (custom : String → String) (tds : List TypeDef) :
    (∃ t, emitTypeDefs m custom tds = .ok t) ↔ ∀ td ∈ tds, ∃ t, emitTypeDef m custom td = .ok t := by
  induction tds with
  | nil => simp [emitTypeDefs]
  | cons td tds ih =>
    rw [emitTypeDefs]
    cases h1 : emitTypeDef m custom td with
    | err e => simp [Out.bind, h1]
    | panic e => simp [Out.bind, h1]
    | ok t =>
      simp only [List.forall_mem_cons, h1, ← ih]
      cases h2 : emitTypeDefs m custom tds <;> simp [Out.bind]

theorem emitTypeDefs_no_err (m : Model) (custom : String → String) (tds : List TypeDef) (e : String) :
    emitTypeDefs m custom tds ≠ .err e := by
  induction tds with
  | nil => simp [emitTypeDefs]
  | cons td tds ih =>
    rw [emitTypeDefs]
    have h1 : ∀ e, emitTypeDef m custom td ≠ .err e := by
      intro e
      unfold emitTypeDef
      (repeat' split) <;> simp
    cases h : emitTypeDef m custom td with
    | err e' => exact absurd h (h1 e')
    | panic e' => simp [Out.bind]
    | ok t =>
      simp only [Out.bind]
      cases h2 : emitTypeDefs m custom tds with
      | err e' => simp only; intro h3; cases h3; exact ih h2
      | panic e' => simp
      | ok t => simp

end Sadl.GraphQL
