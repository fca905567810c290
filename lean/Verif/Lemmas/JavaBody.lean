import Verif.Lemmas.JavaClass
/-
The classes and enums of all kinds of types.
-/
namespace Sadl
open Sadl.Spec

section
variable {s : Schema} {m : Model} (hw : JavaWf s m) (conf : JavaConf)
include hw

/-- The type of a name, with a type beside it. -/
theorem javaType_at (ts : TypeSpec) (n : String) (r : Bool) (t : JTy) :
    (∃ jt, javaType m conf (some ts) n r = .ok jt ∧ jt.type = t) ↔ JavaUse s conf.instants { ts with type := n } r t := by
  rw [← javaType_use hw conf]
  by_cases ha : n = "Array"
  · subst ha
    rw [javaType, javaType, javaTypeN_array, javaTypeN_array]
  by_cases hp : n = "Map"
  · subst hp
    rw [javaType, javaType, javaTypeN_map, javaTypeN_map]
  rw [javaType_named hw conf ha hp, javaType_named hw conf ha hp]

/-- A variant can be written exactly when it is ready. -/
theorem javaVariant_ok (cls : String) (v : UnionVariantDef) {x : JMember} (h : javaVariant m conf cls v = .ok x) :
    ((∃ t, JavaUse s conf.instants v.ts false t) ∧ (v.ts.type = "Struct" → v.name ≠ "" ∧ capitalize v.name ≠ cls)) ∧
    JavaMemberOf s conf.instants conf.decText (JavaVariantField v) x.field ∧ x.anon = decide (v.ts.type = "Struct") := by
  unfold javaVariant at h
  obtain ⟨t, h1, h2⟩ := gbind_ok.1 h
  obtain ⟨h3, h4⟩ := javaType_annos hw conf h1
  have h5 := (javaType_use hw conf v.ts false t.type).1 ⟨t, h1, rfl⟩
  dsimp only at h2
  by_cases hs : v.ts.type = "Struct"
  · rw [h4, if_pos hs, if_pos (by rfl)] at h2
    obtain ⟨tn, h6, h7⟩ := gbind_ok.1 h2
    unfold javaCapitalize at h6
    by_cases he : v.name = ""
    · rw [if_pos he] at h6; cases h6
    rw [if_neg he] at h6
    cases h6
    by_cases hc : capitalize v.name = cls
    · rw [if_pos hc] at h7; cases h7
    rw [if_neg hc] at h7
    cases h7
    exact ⟨⟨⟨_, h5⟩, fun _ => ⟨he, hc⟩⟩, ⟨rfl, rfl, rfl, h3, h5, (if_pos hs).symm, rfl⟩, (decide_eq_true hs).symm⟩
  · rw [h4, if_neg hs, if_neg (by simp)] at h2
    cases h2
    exact ⟨⟨⟨_, h5⟩, fun h => absurd h hs⟩, ⟨rfl, rfl, rfl, h3, h5, (if_neg hs).symm, rfl⟩, (decide_eq_false hs).symm⟩

theorem javaVariant_ready (cls : String) (v : UnionVariantDef)
    (h : (∃ t, JavaUse s conf.instants v.ts false t) ∧ (v.ts.type = "Struct" → v.name ≠ "" ∧ capitalize v.name ≠ cls)) :
    ∃ x, javaVariant m conf cls v = .ok x := by
  obtain ⟨⟨t, ht⟩, hs⟩ := h
  obtain ⟨jt, h1, h2⟩ := (javaType_use hw conf v.ts false t).2 ht
  obtain ⟨_, h4⟩ := javaType_annos hw conf h1
  unfold javaVariant
  rw [h1]
  simp only [Out.bind]
  by_cases hst : v.ts.type = "Struct"
  · rw [h4, if_pos hst, if_pos (by rfl), javaCapitalize, if_neg (hs hst).1]
    simp only
    rw [if_neg (hs hst).2]
    exact ⟨_, rfl⟩
  · rw [h4, if_neg hst, if_neg (by simp)]
    exact ⟨_, rfl⟩

theorem javaVariants_ok (cls : String) (vs : List UnionVariantDef) {xs : List JMember} (h : javaVariants m conf cls vs = .ok xs) :
    (∀ v ∈ vs, (∃ t, JavaUse s conf.instants v.ts false t) ∧ (v.ts.type = "Struct" → v.name ≠ "" ∧ capitalize v.name ≠ cls)) ∧
    List.Forall₂ (fun f x => JavaMemberOf s conf.instants conf.decText f x.field ∧ x.anon = decide (f.ts.type = "Struct"))
      (vs.map JavaVariantField) xs := by
  induction vs generalizing xs with
  | nil => cases h; exact ⟨by simp, .nil⟩
  | cons v vs ih =>
    obtain ⟨x, h1, h2⟩ := gbind_ok.1 h
    obtain ⟨ys, h3, h4⟩ := gbind_ok.1 h2
    cases h4
    obtain ⟨a, b, c⟩ := javaVariant_ok hw conf cls v h1
    obtain ⟨d, e⟩ := ih h3
    exact ⟨List.forall_mem_cons.2 ⟨a, d⟩, .cons ⟨b, c⟩ e⟩

theorem javaVariants_ready (cls : String) (vs : List UnionVariantDef)
    (h : ∀ v ∈ vs, (∃ t, JavaUse s conf.instants v.ts false t) ∧ (v.ts.type = "Struct" → v.name ≠ "" ∧ capitalize v.name ≠ cls)) :
    ∃ xs, javaVariants m conf cls vs = .ok xs := by
  induction vs with
  | nil => exact ⟨_, rfl⟩
  | cons v vs ih =>
    obtain ⟨h1, h2⟩ := List.forall_mem_cons.1 h
    obtain ⟨x, h3⟩ := javaVariant_ready hw conf cls v h1
    obtain ⟨xs, h4⟩ := ih h2
    unfold javaVariants
    rw [h3]
    simp only [Out.bind]
    rw [h4]
    exact ⟨_, rfl⟩

/-- The classes inside a class or union. -/
theorem javaInnerClasses_ok (ho : ∀ l, (conf.order l).Perm l) (fields : List StructFieldDef) {ns : List (JavaClass × List JNote)}
    (h : javaAll ((innerFields conf fields).map fun f => javaInner m conf (capitalize f.name) f.ts) = .ok ns) :
    JavaClassesFor s conf.instants conf.lombok conf.decText (innerFields conf fields) (ns.map Prod.fst) ∧
    ∀ f, JavaInnerField fields f → JavaStructReady s conf.instants conf.lombok conf.immutable false (capitalize f.name) f.ts.fields := by
  rw [javaAll_ok, List.forall₂_map_left_iff] at h
  have key : ∀ (f : StructFieldDef) c, javaInner m conf (capitalize f.name) f.ts = .ok c →
      JavaClassFor s conf.instants conf.lombok conf.decText false (capitalize f.name) f.ts.fields c.1 ∧
      JavaStructReady s conf.instants conf.lombok conf.immutable false (capitalize f.name) f.ts.fields := by
    intro f c hc
    rw [javaInner_eq] at hc
    simpa using javaClassOf_ok hw conf ho _ [] false _ _ c (Nat.le_refl _) hc
  constructor
  · generalize innerFields conf fields = inn at h
    induction h with
    | nil => exact .nil
    | cons hx _ ih => exact .cons (key _ _ hx).1 ih
  · intro f hf
    obtain ⟨c, _, hc⟩ := forall₂_mem_left h (((innerFields_spec conf ho fields).1 f).2 hf)
    exact (key f c hc).2

theorem javaInnerClasses_ready (ho : ∀ l, (conf.order l).Perm l) (fields : List StructFieldDef)
    (h : ∀ f, JavaInnerField fields f → JavaStructReady s conf.instants conf.lombok conf.immutable false (capitalize f.name) f.ts.fields) :
    ∃ ns, javaAll ((innerFields conf fields).map fun f => javaInner m conf (capitalize f.name) f.ts) = .ok ns := by
  have hall : ∀ f ∈ innerFields conf fields, ∃ c, javaInner m conf (capitalize f.name) f.ts = .ok c := by
    intro f hf
    rw [javaInner_eq]
    exact javaClassOf_ready hw conf ho _ [] false _ _ (Nat.le_refl _) (by simpa using h f (((innerFields_spec conf ho fields).1 f).1 hf))
  revert hall
  generalize innerFields conf fields = inn
  intro hall
  simp only [javaAll_ok, List.forall₂_map_left_iff]
  induction inn with
  | nil => exact ⟨[], .nil⟩
  | cons f inn ih' =>
    obtain ⟨ha, hb⟩ := List.forall_mem_cons.1 hall
    obtain ⟨c, hc⟩ := ha
    obtain ⟨cs, hcs⟩ := ih' hb
    exact ⟨c :: cs, .cons hc hcs⟩

omit hw in
theorem javaNested_variants (vs : List UnionVariantDef) (ms : List JMember)
    (h : List.Forall₂ (fun f x => JavaMemberOf s conf.instants conf.decText f x.field ∧ x.anon = decide (f.ts.type = "Struct"))
      (vs.map JavaVariantField) ms) :
    javaNested conf ms (vs.map fun v => javaInner m conf (capitalize v.name) v.ts) =
      (innerFields conf (vs.map JavaVariantField)).map fun f => javaInner m conf (capitalize f.name) f.ts := by
  rw [← javaNested_eq conf (vs.map JavaVariantField) ms _ (h.imp fun _ _ h => ⟨h.1.name, h.2⟩), List.map_map]
  rfl

omit hw in
theorem javaConsts_spec (els : List EnumElementDef) : List.Forall₂ JavaConstFor els (javaConsts els) := by
  unfold javaConsts
  rw [List.forall₂_map_right_iff]
  refine List.forall₂_same.2 fun el _ => ⟨rfl, ?_, rfl⟩
  dsimp only
  unfold JavaEnumText
  cases hx : mget el.annotations "x_enumValue" with
  | none =>
    have hg : getAnnotation (some el.annotations) "x_enumValue" = "" := by simp [getAnnotation, hx]
    rw [hg]; rfl
  | some v =>
    have hg : getAnnotation (some el.annotations) "x_enumValue" = if v = "" then "true" else v := by simp [getAnnotation, hx]
    rw [hg]
    by_cases hv : v = ""
    · subst hv; rfl
    · simp [hv]

omit hw in
theorem javaReadValue_spec (t : JTy) : JavaReadValue t (javaReadValue t.text) := by
  unfold javaReadValue
  by_cases h1 : t.text = "double"
  · rw [if_pos h1]; exact .number (by rw [h1]; decide)
  by_cases h2 : t.text = "float"
  · rw [if_neg h1, if_pos h2]; exact .number (by rw [h2]; decide)
  by_cases h3 : t.text = "long"
  · rw [if_neg h1, if_neg h2, if_pos h3]; exact .number (by rw [h3]; decide)
  by_cases h4 : t.text = "int"
  · rw [if_neg h1, if_neg h2, if_neg h3, if_pos h4]; exact .number (by rw [h4]; decide)
  by_cases h5 : t.text = "short"
  · rw [if_neg h1, if_neg h2, if_neg h3, if_neg h4, if_pos h5]; exact .number (by rw [h5]; decide)
  by_cases h6 : t.text = "byte"
  · rw [if_neg h1, if_neg h2, if_neg h3, if_neg h4, if_neg h5, if_pos h6]; exact .number (by rw [h6]; decide)
  by_cases h7 : t.text = "BigDecimal"
  · rw [if_neg h1, if_neg h2, if_neg h3, if_neg h4, if_neg h5, if_neg h6, if_pos h7]; exact .number (by rw [h7]; decide)
  · rw [if_neg h1, if_neg h2, if_neg h3, if_neg h4, if_neg h5, if_neg h6, if_neg h7]
    refine .bad fun e he => ?_
    simp only [JavaParsers, List.mem_cons, Prod.mk.injEq, List.not_mem_nil, or_false] at he
    rcases he with h | h | h | h | h | h | h <;> exact absurd h.1 (by assumption)

theorem findType_kind {n : String} {td : TypeDef} (h : m.findType n = some td) (k : String) : td.ts.type = k ↔ JavaKind s n k := by
  rcases (newModel_findType_iff hw.model n td).1 h with ⟨h1, h2⟩ | ⟨h1, rfl⟩
  · constructor
    · intro h3; exact .inr ⟨td, h1, h2, h3⟩
    · rintro (⟨h3, rfl⟩ | ⟨td', h3, h4, rfl⟩)
      · have := findType_base hw.model h3
        rw [h] at this
        injection this with this
        rw [this]; rfl
      · have := (newModel_findType_iff hw.model n td').2 (.inl ⟨h3, h4⟩)
        rw [h] at this
        injection this with this
        rw [this]
  · constructor
    · intro h3; exact .inl ⟨h1, h3⟩
    · rintro (⟨_, h3⟩ | ⟨td', h3, h4, rfl⟩)
      · exact h3
      · have := (newModel_findType_iff hw.model n td').2 (.inl ⟨h3, h4⟩)
        rw [h] at this
        injection this with this
        rw [this]

/-- A class or enum that can be written is the one of the specification, and the type is ready. -/
theorem javaBody_ok (ho : ∀ l, (conf.order l).Perm l) (exceptions : List String) (cls : String) (ts : TypeSpec) {b : JavaBody}
    {ns : List JNote} (h : javaBody m conf exceptions cls ts = some (.ok (b, ns))) :
    JavaBodyFor s conf.instants conf.lombok conf.decText (decide (cls ∈ exceptions)) cls ts b ∧
    JavaReady s conf.instants conf.lombok conf.immutable (decide (cls ∈ exceptions)) cls ts := by
  unfold javaBody at h
  by_cases h1 : ts.type = "Struct"
  · rw [if_pos h1] at h
    obtain ⟨c, h2, h3⟩ := gbind_ok.1 (Option.some.inj h)
    cases h3
    obtain ⟨h4, h5⟩ := javaClassOf_ok hw conf ho _ exceptions true cls _ c (Nat.le_refl _) h2
    exact ⟨.struct h1 h4, .struct h1 h5⟩
  rw [if_neg h1] at h
  by_cases h2 : ts.type = "UnitValue"
  · rw [if_pos h2] at h
    obtain ⟨v, h3, h4⟩ := gbind_ok.1 (Option.some.inj h)
    obtain ⟨u, h5, h6⟩ := gbind_ok.1 h4
    have hv := (javaType_at hw conf ts ts.value true v.type).1 ⟨v, h3, rfl⟩
    have hu := (javaType_at hw conf ts ts.unit true u.type).1 ⟨u, h5, rfl⟩
    cases hf : m.findType u.type.text with
    | none => rw [hf] at h6; cases h6
    | some ut =>
      rw [hf] at h6
      cases h6
      have hk : Known s u.type.text := by
        apply Classical.not_not.1
        intro hc
        rw [(goFind_none_iff hw.model _).2 hc] at hf; cases hf
      refine ⟨.unit h2 hv hu (javaReadValue_spec v.type) ?_, .unit h2 hv hu hk⟩
      dsimp only
      by_cases h7 : ut.ts.type = "String"
      · rw [if_pos h7]; exact .string ((findType_kind hw hf _).1 h7)
      by_cases h8 : ut.ts.type = "Enum"
      · rw [if_neg h7, if_pos h8]; exact .enum ((findType_kind hw hf _).1 h8)
      · rw [if_neg h7, if_neg h8]
        exact .bad hk (fun h => h7 ((findType_kind hw hf _).2 h)) (fun h => h8 ((findType_kind hw hf _).2 h))
  rw [if_neg h2] at h
  by_cases h3 : ts.type = "Enum"
  · rw [if_pos h3] at h
    cases h
    exact ⟨.enum h3 (javaConsts_spec _), .enum h3⟩
  rw [if_neg h3] at h
  by_cases h4 : ts.type = "Union"
  · rw [if_pos h4] at h
    obtain ⟨ms, h5, h6⟩ := gbind_ok.1 (Option.some.inj h)
    obtain ⟨hr, hm⟩ := javaVariants_ok hw conf cls _ h5
    by_cases hn : ts.variants.any (·.name = "") = true
    · rw [if_pos hn] at h6; cases h6
    rw [if_neg hn] at h6
    rw [javaNested_variants (s := s) conf _ _ hm] at h6
    obtain ⟨ns', h7, h8⟩ := gbind_ok.1 h6
    cases h8
    obtain ⟨h9, h10⟩ := javaInnerClasses_ok hw conf ho _ h7
    obtain ⟨hs1, hs2⟩ := innerFields_spec conf ho (ts.variants.map JavaVariantField)
    refine ⟨.union h4 ?_ hs1 hs2 h9, .union h4 ?_ h10⟩
    · rw [List.forall₂_map_right_iff]
      exact hm.imp fun _ _ h => h.1
    · intro v hv
      obtain ⟨ha, hb⟩ := hr v hv
      exact ⟨fun he => hn (List.any_eq_true.2 ⟨v, hv, by simpa using he⟩), ha, fun h => (hb h).2⟩
  · rw [if_neg h4] at h; cases h

theorem javaBody_ready (ho : ∀ l, (conf.order l).Perm l) (exceptions : List String) (cls : String) (ts : TypeSpec)
    (h : JavaReady s conf.instants conf.lombok conf.immutable (decide (cls ∈ exceptions)) cls ts) :
    ∃ b ns, javaBody m conf exceptions cls ts = some (.ok (b, ns)) := by
  unfold javaBody
  cases h with
  | struct h1 h2 =>
    obtain ⟨c, hc⟩ := javaClassOf_ready hw conf ho _ exceptions true cls _ (Nat.le_refl _) h2
    rw [if_pos h1]
    unfold javaStruct
    rw [hc]
    exact ⟨_, _, rfl⟩
  | enum h1 =>
    rw [if_neg (by rw [h1]; decide), if_neg (by rw [h1]; decide), if_pos h1]
    exact ⟨_, _, rfl⟩
  | union h1 h2 h3 =>
    rw [if_neg (by rw [h1]; decide), if_neg (by rw [h1]; decide), if_neg (by rw [h1]; decide), if_pos h1]
    obtain ⟨ms, hms⟩ := javaVariants_ready hw conf cls ts.variants fun v hv => ⟨(h2 v hv).2.1, fun h => ⟨(h2 v hv).1, (h2 v hv).2.2 h⟩⟩
    obtain ⟨_, hm⟩ := javaVariants_ok hw conf cls _ hms
    obtain ⟨ns, hns⟩ := javaInnerClasses_ready hw conf ho _ h3
    unfold javaUnion
    rw [hms]
    simp only [Out.bind]
    rw [if_neg (by
      intro hany
      obtain ⟨v, hv, he⟩ := List.any_eq_true.1 hany
      exact (h2 v hv).1 (by simpa using he)), javaNested_variants (s := s) conf _ _ hm, hns]
    exact ⟨_, _, rfl⟩
  | unit h1 h2 h3 h4 =>
    rename_i v u
    rw [if_neg (by rw [h1]; decide), if_pos h1]
    obtain ⟨jv, h5, _⟩ := (javaType_at hw conf ts ts.value true v).2 h2
    obtain ⟨ju, h6, h7⟩ := (javaType_at hw conf ts ts.unit true u).2 h3
    unfold javaUnit
    rw [h5, h6]
    simp only [Out.bind, h7]
    cases hf : m.findType u.text with
    | none => exact absurd h4 ((goFind_none_iff hw.model _).1 hf)
    | some ut => exact ⟨_, _, rfl⟩

end

end Sadl
