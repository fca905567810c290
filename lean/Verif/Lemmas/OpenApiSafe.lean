import Verif.Spec.OpenApiSafe
import Verif.Lemmas.NewModel
import Mathlib.Tactic.SplitIfs
import Mathlib.Tactic.Common
/-
Import of OpenAPI documents: where it crashes.
-/
namespace Sadl
open Sadl.Spec

/-- The examples a schema itself gives. -/
def ownExample (name : String) (s : OSchema) : List ExampleDef :=
  match s.example with
  | .null => []
  | v => [{ target := name, «example» := v }]

theorem convertOas_eq (name : String) (s : OSchema) : convertOas name s =
    if s.type = "boolean" then .ok { ts := { type := "Bool" }, examples := ownExample name s }
    else if s.type = "string" then
      match convertEnum s.enum with
      | none => .ok { err := some "string enum value is not a string", examples := ownExample name s }
      | some ts => .ok { ts := convertString s.format s.pattern s.minLength s.maxLength ts, examples := ownExample name s }
    else if s.type = "array" then convertItems name (ownExample name s) s.items
    else if s.type = "number" then .ok { ts := { type := "Decimal", min := s.min, max := s.max }, examples := ownExample name s }
    else if s.type = "integer" then .ok { ts := { type := convertInteger s.format, min := s.min, max := s.max }, examples := ownExample name s }
    else if s.type = "" ∨ s.type = "object" then
      convertProperties name s.required { ts := { type := "Struct" }, examples := ownExample name s } s.properties
    else .panic "oas type not handled" := by
  rcases s with ⟨ref, type, format, description, enum, ex, min, max, minLength, maxLength, pattern, oneOf, items, required, properties, additional⟩
  cases ex <;> (simp only [convertOas, ownExample]; rfl)

theorem oasTypeRef_ne (s : OSchema) : oasTypeRef s ≠ "" ↔ IsRef s := by
  unfold oasTypeRef IsRef
  by_cases h1 : s.ref = ""
  · simp [h1]
  · rw [if_neg h1]
    split_ifs with h2
    · unfold hasPrefix at h2
      rw [List.isPrefixOf_iff_prefix] at h2
      obtain ⟨r, hr⟩ := h2
      rw [← hr, List.drop_left]
      constructor
      · intro h
        refine ⟨h1, fun e => h ?_⟩
        rw [e] at hr
        have : r = [] := List.append_right_eq_self.1 (show "#/components/schemas/".toList ++ r = "#/components/schemas/".toList from hr)
        rw [this]
      · rintro ⟨_, h⟩ e
        apply h
        have : r = [] := by
          have := congrArg String.toList e
          simpa using this
        rw [this, List.append_nil] at hr
        exact (String.toList_inj.1 hr).symm
    · refine ⟨fun _ => ⟨h1, ?_⟩, fun h => h.1⟩
      intro e
      rw [e] at h2
      exact h2 (by decide)

theorem bind_ok_iff {α β : Type} {x : Out α} {f : α → Out β} {b : β} : x.bind f = .ok b ↔ ∃ a, x = .ok a ∧ f a = .ok b := by
  cases x <;> simp [Out.bind]

theorem bind_panic_iff {α β : Type} {x : Out α} {f : α → Out β} {e : String} :
    x.bind f = .panic e ↔ x = .panic e ∨ ∃ a, x = .ok a ∧ f a = .panic e := by
  cases x <;> simp [Out.bind]

theorem convertProps_ok {name : String} {required : List String} : ∀ {ps : List (String × OSchema)} {acc : Converted},
    (∃ c, convertProps name required acc ps = .ok c) ↔ ∀ p ∈ ps, IsRef p.2 ∨ ∃ c, convertOas (name ++ "." ++ p.1) p.2 = .ok c := by
  intro ps
  induction ps with
  | nil => intro acc; rw [convertProps]; simp
  | cons p ps ih =>
    intro acc
    rw [convertProps]
    obtain ⟨fname, s⟩ := p
    rw [convertProp]
    rw [List.forall_mem_cons]
    split_ifs with h
    · simp only
      rw [ih]
      exact ⟨fun h' => ⟨.inl ((oasTypeRef_ne s).1 h), h'⟩, fun h' => h'.2⟩
    · cases hc : convertOas (name ++ "." ++ fname) s with
      | ok c =>
        simp only
        rw [ih]
        exact ⟨fun h' => ⟨.inr ⟨c, rfl⟩, h'⟩, fun h' => h'.2⟩
      | err e =>
        simp only
        constructor
        · rintro ⟨c, h'⟩; cases h'
        · rintro ⟨h' | ⟨c, h'⟩, _⟩
          · exact absurd ((oasTypeRef_ne s).2 h') h
          · cases h'
      | panic e =>
        simp only
        constructor
        · rintro ⟨c, h'⟩; cases h'
        · rintro ⟨h' | ⟨c, h'⟩, _⟩
          · exact absurd ((oasTypeRef_ne s).2 h') h
          · cases h'

theorem convertProps_no_err {name : String} {required : List String} : ∀ {ps : List (String × OSchema)} {acc : Converted} {e : String},
    convertProps name required acc ps = .err e → ∃ p ∈ ps, ∃ n, convertOas n p.2 = .err e := by
  intro ps
  induction ps with
  | nil => intro acc e h; rw [convertProps] at h; cases h
  | cons p ps ih =>
    intro acc e h
    rw [convertProps] at h
    obtain ⟨fname, s⟩ := p
    rw [convertProp] at h
    split_ifs at h with h1
    · obtain ⟨p, hp, n, hn⟩ := ih h
      exact ⟨p, List.mem_cons_of_mem _ hp, n, hn⟩
    · cases hc : convertOas (name ++ "." ++ fname) s with
      | ok c =>
        rw [hc] at h
        obtain ⟨p, hp, n, hn⟩ := ih h
        exact ⟨p, List.mem_cons_of_mem _ hp, n, hn⟩
      | err e' => rw [hc] at h; cases h; exact ⟨_, List.mem_cons_self, _, hc⟩
      | panic e' => rw [hc] at h; cases h

theorem sizeOf_items {s i : OSchema} (h : s.items = some i) : sizeOf i < sizeOf s := by
  cases s
  simp only at h
  subst h
  simp only [OSchema.mk.sizeOf_spec, Option.some.sizeOf_spec]
  omega

theorem sizeOf_prop {s : OSchema} {ps : List (String × OSchema)} {n : String} {p : OSchema} (h : s.properties = some ps) (hp : (n, p) ∈ ps) :
    sizeOf p < sizeOf s := by
  have h1 := List.sizeOf_lt_of_mem hp
  cases s
  simp only at h
  subst h
  simp only [OSchema.mk.sizeOf_spec, Option.some.sizeOf_spec, Prod.mk.sizeOf_spec] at *
  omega

/-- A schema is converted, or the conversion crashes. -/
theorem convertOas_ok (k : Nat) : ∀ (s : OSchema), sizeOf s ≤ k → ∀ name,
    ((∃ c, convertOas name s = .ok c) ↔ SchemaSafe s) ∧ ∀ e, convertOas name s ≠ .err e := by
  induction k with
  | zero => intro s h; cases s; simp at h
  | succ k ih =>
    intro s hs name
    have hi : ∀ i, s.items = some i → sizeOf i ≤ k := fun i h => by have := sizeOf_items h; omega
    have hp : ∀ ps n p, s.properties = some ps → (n, p) ∈ ps → sizeOf p ≤ k := fun ps n p h h' => by have := sizeOf_prop h h'; omega
    rw [convertOas_eq]
    have leaf : s.type ∈ SchemaTypes → s.type ≠ "array" → s.type ≠ "" → s.type ≠ "object" → SchemaSafe s := by
      intro h1 h2 h3 h4
      exact .mk h1 (fun i h => absurd h h2) (fun ps n p h => by rcases h with h | h <;> contradiction)
    split_ifs with h1 h2 h3 h4 h5 h6
    · refine ⟨⟨fun _ => leaf (by rw [h1]; decide) (by rw [h1]; decide) (by rw [h1]; decide) (by rw [h1]; decide), fun _ => ⟨_, rfl⟩⟩, fun e h => by cases h⟩
    · refine ⟨⟨fun _ => leaf (by rw [h2]; decide) (by rw [h2]; decide) (by rw [h2]; decide) (by rw [h2]; decide), fun _ => ?_⟩, fun e h => ?_⟩
      · split <;> exact ⟨_, rfl⟩
      · split at h <;> cases h
    · cases hit : s.items with
      | none =>
        rw [convertItems]
        refine ⟨⟨fun _ => .mk (by rw [h3]; decide) (fun i _ h => by rw [hit] at h; cases h) (fun ps n p h => by rw [h3] at h; exact absurd h (by decide)), fun _ => ⟨_, rfl⟩⟩, fun e h => by cases h⟩
      | some i =>
        rw [convertItems]
        split_ifs with hr
        · refine ⟨⟨fun _ => .mk (by rw [h3]; decide) (fun i' _ h hr' => ?_) (fun ps n p h => by rw [h3] at h; exact absurd h (by decide)), fun _ => ⟨_, rfl⟩⟩, fun e h => by cases h⟩
          rw [hit] at h
          cases h
          exact absurd hr' hr
        · obtain ⟨ih1, ih2⟩ := ih i (hi i hit) (name ++ ".Items")
          have hsafe : SchemaSafe s ↔ SchemaSafe i := by
            constructor
            · rintro ⟨_, h', _⟩
              exact h' i h3 hit (by simpa using hr)
            · intro h'
              refine .mk (by rw [h3]; decide) (fun i' _ hi' _ => ?_) (fun ps n p h => by rw [h3] at h; exact absurd h (by decide))
              rw [hit] at hi'
              cases hi'
              exact h'
          rw [hsafe, ← ih1]
          cases hc : convertOas (name ++ ".Items") i with
          | ok c => simp
          | err e => exact absurd hc (ih2 e)
          | panic e => simp
    · refine ⟨⟨fun _ => leaf (by rw [h4]; decide) (by rw [h4]; decide) (by rw [h4]; decide) (by rw [h4]; decide), fun _ => ⟨_, rfl⟩⟩, fun e h => by cases h⟩
    · refine ⟨⟨fun _ => leaf (by rw [h5]; decide) (by rw [h5]; decide) (by rw [h5]; decide) (by rw [h5]; decide), fun _ => ⟨_, rfl⟩⟩, fun e h => by cases h⟩
    · have hmem : s.type ∈ SchemaTypes := by rcases h6 with h | h <;> (rw [h]; decide)
      cases hps : s.properties with
      | none =>
        rw [convertProperties]
        exact ⟨⟨fun _ => .mk hmem (fun i h => absurd h h3) (fun ps n p _ h => by rw [hps] at h; cases h), fun _ => ⟨_, rfl⟩⟩, fun e h => by cases h⟩
      | some ps =>
        rw [convertProperties]
        refine ⟨?_, ?_⟩
        · rw [convertProps_ok]
          constructor
          · intro h
            refine .mk hmem (fun i h => absurd h h3) (fun ps' n p _ h' hmem hn => ?_)
            rw [hps] at h'
            cases h'
            rcases h _ hmem with h'' | h''
            · exact absurd h'' hn
            · exact ((ih p (hp ps n p hps hmem) _).1).1 h''
          · rintro ⟨_, _, h⟩ ⟨n, p⟩ hmem
            by_cases hn : IsRef p
            · exact .inl hn
            · exact .inr (((ih p (hp ps n p hps hmem) _).1).2 (h ps n p h6 hps hmem hn))
        · intro e he
          obtain ⟨⟨n, p⟩, hmem, n', hn⟩ := convertProps_no_err he
          exact (ih p (hp ps n p hps hmem) n').2 e hn
    · refine ⟨⟨fun ⟨c, h⟩ => (by cases h), ?_⟩, fun e h => by cases h⟩
      rintro ⟨h, _, _⟩
      exfalso
      simp only [SchemaTypes, List.mem_cons, List.not_mem_nil, or_false] at h
      rw [not_or] at h6
      rcases h with h | h | h | h | h | h | h
      · exact h6.1 h
      · exact h6.2 h
      · exact h1 h
      · exact h2 h
      · exact h3 h
      · exact h4 h
      · exact h5 h

theorem convert_safe {s : OSchema} (name : String) : (∃ c, convertOas name s = .ok c) ↔ SchemaSafe s := ((convertOas_ok _ s le_rfl name).1)
theorem convert_no_err {s : OSchema} (name e : String) : convertOas name s ≠ .err e := (convertOas_ok _ s le_rfl name).2 e
theorem convert_panic {s : OSchema} {name e : String} (h : convertOas name s = .panic e) : ¬ SchemaSafe s := by
  intro hs
  obtain ⟨c, hc⟩ := (convert_safe name).2 hs
  rw [hc] at h; cases h

/-- The target of a reference. -/
theorem oasTypeRef_spec (s : OSchema) (h : IsRef s) :
    ∀ t, (s.ref = "#/components/schemas/" ++ t ∨ s.ref = t ∧ ¬ hasPrefix s.ref "#/components/schemas/" = true) ↔ t = oasTypeRef s := by
  intro t
  unfold oasTypeRef
  rw [if_neg h.1]
  split_ifs with h2
  · have h2' := h2
    unfold hasPrefix at h2
    rw [List.isPrefixOf_iff_prefix] at h2
    obtain ⟨r, hr⟩ := h2
    rw [← hr, List.drop_left]
    constructor
    · rintro (e | ⟨_, e⟩)
      · rw [e, String.toList_append] at hr
        have := List.append_cancel_left (show "#/components/schemas/".toList ++ r = "#/components/schemas/".toList ++ t.toList from hr)
        rw [this, String.ofList_toList]
      · exact absurd h2' e
    · rintro rfl
      left
      apply String.toList_inj.1
      rw [← hr, String.toList_append]
      exact congrArg _ String.toList_ofList.symm
  · constructor
    · rintro (e | ⟨e, _⟩)
      · exfalso
        apply h2
        rw [e]
        unfold hasPrefix
        rw [List.isPrefixOf_iff_prefix, String.toList_append]
        exact ⟨t.toList, rfl⟩
      · exact e.symm
    · rintro rfl
      exact .inr ⟨rfl, h2⟩

theorem validSadlName_ne (n : String) (s : OSchema) (hn : n ≠ "") :
    validSadlName n s ≠ "" ↔ n ≠ "Decimal" ∧ (n = "Timestamp" → s.type ≠ "string") := by
  unfold validSadlName
  split_ifs with h1 h2 h3
  · simp [h1, h2]
  · simp [h1, h2]
  · simp [h3]
  · simp [h1, h3, hn]

theorem importTypes_safe (d : ODoc) : ∀ (l : GoMap OSchema),
    ((∀ n s, (n, s) ∈ l → n ≠ "" → n ≠ "Decimal" → (n = "Timestamp" → s.type ≠ "string") → ComponentSafe d s) →
      ∀ e, importTypes d.schemas l ≠ .panic e) ∧
    (∀ r, importTypes d.schemas l = .ok r →
      ∀ n s, (n, s) ∈ l → n ≠ "" → n ≠ "Decimal" → (n = "Timestamp" → s.type ≠ "string") → ComponentSafe d s) := by
  intro l
  induction l with
  | nil => exact ⟨fun _ e h => (by rw [importTypes] at h; cases h), fun r _ n s h => by cases h⟩
  | cons x l ih =>
    obtain ⟨name, s⟩ := x
    rw [importTypes]
    simp only
    split_ifs with hv hr
    · refine ⟨fun h => ih.1 (fun n s hm => h n s (List.mem_cons_of_mem _ hm)), fun r hr n s' hm h1 h2 h3 => ?_⟩
      rcases List.mem_cons.1 hm with hm | hm
      · cases hm
        exact absurd hv ((validSadlName_ne name s h1).2 ⟨h2, h3⟩)
      · exact ih.2 r hr n s' hm h1 h2 h3
    · have hir := (oasTypeRef_ne s).1 hr
      constructor
      · intro h e hp
        have hk : name ≠ "" := by rintro rfl; exact hv (by simp [validSadlName])
        obtain ⟨h2, h3⟩ := (validSadlName_ne name s hk).1 hv
        rcases h name s List.mem_cons_self hk h2 h3 with ⟨hn, _⟩ | ⟨_, t, ht1, ht2, ht3⟩
        · exact hn hir
        · have ht := (oasTypeRef_spec s hir t).1 ht2
          subst ht
          cases hg : mget d.schemas (oasTypeRef s) with
          | none => exact ht1 hg
          | some s' =>
            rw [hg] at hp
            simp only at hp
            obtain ⟨c, hc⟩ := (convert_safe (oasTypeRef s)).2 (ht3 s' hg)
            rw [hc] at hp
            simp only [Out.bind] at hp
            cases hce : c.err with
            | some e' => rw [hce] at hp; cases hp
            | none =>
              rw [hce] at hp
              simp only at hp
              rcases bind_panic_iff.1 hp with hp | ⟨a, _, hp⟩
              · exact ih.1 (fun n s hm => h n s (List.mem_cons_of_mem _ hm)) e hp
              · cases hp
      · intro r hok n s' hm h1 h2 h3
        obtain ⟨⟨c, cm⟩, hc, hok⟩ := bind_ok_iff.1 hok
        simp only at hok
        split at hok
        · cases hok
        · obtain ⟨⟨tds, exs⟩, hrest, _⟩ := bind_ok_iff.1 hok
          rcases List.mem_cons.1 hm with hm | hm
          · cases hm
            split at hc
            · next t ht =>
              obtain ⟨c', hc', _⟩ := bind_ok_iff.1 hc
              refine .inr ⟨hir, oasTypeRef s, by rw [ht]; simp, (oasTypeRef_spec s hir _).2 rfl, fun s' hs' => ?_⟩
              rw [ht] at hs'
              cases hs'
              exact (convert_safe _).1 ⟨c', hc'⟩
            · cases hc
          · exact ih.2 _ hrest n s' hm h1 h2 h3
    · have hir : ¬ IsRef s := fun h => hr ((oasTypeRef_ne s).2 h)
      constructor
      · intro h e hp
        have hk : name ≠ "" := by rintro rfl; exact hv (by simp [validSadlName])
        obtain ⟨h2, h3⟩ := (validSadlName_ne name s hk).1 hv
        rcases h name s List.mem_cons_self hk h2 h3 with ⟨_, hs⟩ | ⟨hn, _⟩
        · obtain ⟨c, hc⟩ := (convert_safe (validSadlName name s)).2 hs
          rw [hc] at hp
          simp only [Out.bind] at hp
          cases hce : c.err with
          | some e' => rw [hce] at hp; cases hp
          | none =>
            rw [hce] at hp
            simp only at hp
            rcases bind_panic_iff.1 hp with hp | ⟨a, _, hp⟩
            · exact ih.1 (fun n s hm => h n s (List.mem_cons_of_mem _ hm)) e hp
            · cases hp
        · exact hir hn
      · intro r hok n s' hm h1 h2 h3
        obtain ⟨⟨c, cm⟩, hc, hok⟩ := bind_ok_iff.1 hok
        simp only at hok
        split at hok
        · cases hok
        · obtain ⟨⟨tds, exs⟩, hrest, _⟩ := bind_ok_iff.1 hok
          rcases List.mem_cons.1 hm with hm | hm
          · cases hm
            obtain ⟨c', hc', _⟩ := bind_ok_iff.1 hc
            exact .inl ⟨hir, (convert_safe _).1 ⟨c', hc'⟩⟩
          · exact ih.2 _ hrest n s' hm h1 h2 h3

/-- The types of parameters. -/
def ParamTypes : List String := ["boolean", "string", "array", "number", "integer"]

theorem primitive_cases (t : String) :
    (t ∈ ParamTypes ∧ ∃ p, sadlPrimitiveType t = .ok p ∧ p ≠ "Struct") ∨ (t = "object" ∧ sadlPrimitiveType t = .ok "Struct") ∨
    (t ∉ ParamTypes ∧ t ≠ "object" ∧ ∃ e, sadlPrimitiveType t = .panic e) := by
  unfold sadlPrimitiveType
  split
  · exact .inl ⟨by decide, _, rfl, by decide⟩
  · exact .inl ⟨by decide, _, rfl, by decide⟩
  · exact .inl ⟨by decide, _, rfl, by decide⟩
  · exact .inl ⟨by decide, _, rfl, by decide⟩
  · exact .inr (.inl ⟨rfl, rfl⟩)
  · exact .inl ⟨by decide, _, rfl, by decide⟩
  · refine .inr (.inr ⟨?_, ?_, _, rfl⟩)
    · intro h
      simp only [ParamTypes, List.mem_cons, List.not_mem_nil, or_false] at h
      rcases h with h | h | h | h | h <;> simp_all
    · assumption

theorem paramType_safe (os : Option OSchema) :
    ((∀ s, os = some s → IsRef s ∨ s.type ∈ ParamTypes) → ∀ e, importParamType os ≠ .panic e) ∧
    (∀ ts, importParamType os = .ok ts → ∀ s, os = some s → IsRef s ∨ s.type ∈ ParamTypes) := by
  cases os with
  | none => exact ⟨fun _ e h => (by rw [importParamType] at h; cases h), fun _ _ s h => by cases h⟩
  | some s =>
    rw [importParamType]
    split_ifs with h
    · exact ⟨fun _ e h => (by cases h), fun _ _ s' hs => by cases hs; exact .inl ((oasTypeRef_ne s).1 h)⟩
    · have hn : ¬ IsRef s := fun h' => h ((oasTypeRef_ne s).2 h')
      rcases primitive_cases s.type with ⟨h1, p, h2, h3⟩ | ⟨h1, h2⟩ | ⟨h1, h1', e0, h2⟩
      · rw [h2]
        simp only [Out.bind, h3, if_false]
        refine ⟨fun _ e he => ?_, fun ts hts s' hs => by cases hs; exact .inr h1⟩
        split at he
        · cases he
        · split at he <;> cases he
      · rw [h2]
        simp only [Out.bind, if_true]
        refine ⟨fun hp => ?_, fun ts hts => by cases hts⟩
        rcases hp s rfl with h' | h'
        · exact absurd h' hn
        · rw [h1] at h'; exact absurd h' (by decide)
      · rw [h2]
        simp only [Out.bind]
        refine ⟨fun hp => ?_, fun ts hts => by cases hts⟩
        rcases hp s rfl with h' | h'
        · exact absurd h' hn
        · exact absurd h' h1

theorem importParam_safe (path : String) (p : OParam) :
    (ParamSafe path p → ∀ e, importParam path p ≠ .panic e) ∧ (∀ r, importParam path p = .ok r → ParamSafe path p) := by
  have hty := paramType_safe p.schema
  unfold importParam ParamSafe
  simp only
  have nb : ∀ {β : Type} {f : TypeSpec → Out β}, (∀ t e, f t ≠ .panic e) → (∀ s, p.schema = some s → IsRef s ∨ s.type ∈ ParamTypes) →
      ∀ e, (importParamType p.schema).bind f ≠ .panic e := by
    intro β f hf h e hp
    rcases bind_panic_iff.1 hp with hp | ⟨a, _, hp⟩
    · exact hty.1 h e hp
    · exact hf a e hp
  split_ifs with h1 h2 h3 h4 h5
  · refine ⟨fun h => nb (fun t e h => by cases h) h.2, fun r hr => ?_⟩
    obtain ⟨a, ha, _⟩ := bind_ok_iff.1 hr
    exact ⟨fun h => by rw [h1] at h; exact absurd h (by decide), hty.2 a ha⟩
  · refine ⟨fun h => nb (fun t e h => by cases h) h.2, fun r hr => ?_⟩
    obtain ⟨a, ha, _⟩ := bind_ok_iff.1 hr
    exact ⟨fun _ => h3, hty.2 a ha⟩
  · exact ⟨fun h => absurd (h.1 h2) h3, fun r hr => by cases hr⟩
  · refine ⟨fun h => nb (fun t e h => by cases h) h.2, fun r hr => ?_⟩
    obtain ⟨a, ha, _⟩ := bind_ok_iff.1 hr
    exact ⟨fun h => absurd h h2, hty.2 a ha⟩
  · exact ⟨fun _ e h => (by cases h), fun r hr => by cases hr⟩
  · refine ⟨fun h => nb (fun t e h => by cases h) h.2, fun r hr => ?_⟩
    obtain ⟨a, ha, _⟩ := bind_ok_iff.1 hr
    exact ⟨fun h => absurd h h2, hty.2 a ha⟩

theorem importParams_safe (path : String) (ps : List OParam) :
    ((∀ p ∈ ps, ParamSafe path p) → ∀ e, importParams path ps ≠ .panic e) ∧ (∀ r, importParams path ps = .ok r → ∀ p ∈ ps, ParamSafe path p) := by
  induction ps with
  | nil => exact ⟨fun _ e h => (by rw [importParams] at h; cases h), fun _ _ p h => by cases h⟩
  | cons p ps ih =>
    rw [importParams]
    constructor
    · intro h e hp
      rcases bind_panic_iff.1 hp with hp | ⟨a, _, hp⟩
      · exact (importParam_safe path p).1 (h p List.mem_cons_self) e hp
      · rcases bind_panic_iff.1 hp with hp | ⟨b, _, hp⟩
        · exact ih.1 (fun q hq => h q (List.mem_cons_of_mem _ hq)) e hp
        · cases hp
    · intro r hr
      obtain ⟨a, ha, hr⟩ := bind_ok_iff.1 hr
      obtain ⟨b, hb, _⟩ := bind_ok_iff.1 hr
      exact List.forall_mem_cons.2 ⟨(importParam_safe path p).2 a ha, ih.2 b hb⟩

theorem outputType_safe (name : String) (s : OSchema) :
    (s.ref ≠ "" ∨ SchemaSafe s → ∀ e, importOutputType name s ≠ .panic e) ∧ (∀ r, importOutputType name s = .ok r → s.ref ≠ "" ∨ SchemaSafe s) := by
  unfold importOutputType
  split_ifs with h
  · exact ⟨fun _ e he => (by cases he), fun _ _ => .inl h⟩
  · constructor
    · rintro (h' | h') e he
      · exact h h'
      · rcases bind_panic_iff.1 he with he | ⟨a, _, he⟩
        · exact convert_panic he h'
        · cases he
    · intro r hr
      obtain ⟨a, ha, _⟩ := bind_ok_iff.1 hr
      exact .inr ((convert_safe name).1 ⟨a, ha⟩)

theorem importHeaders_safe (action : String) (hs : GoMap OHeader) :
    ((∀ n h s, (n, h) ∈ hs → h.schema = some s → s.ref ≠ "" ∨ SchemaSafe s) → ∀ e, importHeaders action hs ≠ .panic e) ∧
    (∀ r, importHeaders action hs = .ok r → ∀ n h s, (n, h) ∈ hs → h.schema = some s → s.ref ≠ "" ∨ SchemaSafe s) := by
  induction hs with
  | nil => exact ⟨fun _ e h => (by rw [importHeaders] at h; cases h), fun _ _ n h s hm => by cases hm⟩
  | cons x hs ih =>
    obtain ⟨header, d⟩ := x
    rw [importHeaders]
    cases hd : d.schema with
    | none =>
      simp only
      refine ⟨fun h => ih.1 (fun n h' s hm => h n h' s (List.mem_cons_of_mem _ hm)), fun r hr n h s hm hs => ?_⟩
      rcases List.mem_cons.1 hm with hm | hm
      · cases hm; rw [hd] at hs; cases hs
      · exact ih.2 r hr n h s hm hs
    | some s0 =>
      simp only
      constructor
      · intro h e he
        rcases bind_panic_iff.1 he with he | ⟨a, _, he⟩
        · exact (outputType_safe _ s0).1 (h _ _ _ List.mem_cons_self hd) e he
        · rcases bind_panic_iff.1 he with he | ⟨b, _, he⟩
          · exact ih.1 (fun n h' s hm => h n h' s (List.mem_cons_of_mem _ hm)) e he
          · cases he
      · intro r hr n h s hm hs
        obtain ⟨a, ha, hr⟩ := bind_ok_iff.1 hr
        obtain ⟨b, hb, _⟩ := bind_ok_iff.1 hr
        rcases List.mem_cons.1 hm with hm | hm
        · cases hm
          rw [hd] at hs
          cases hs
          exact (outputType_safe _ _).2 a ha
        · exact ih.2 b hb n h s hm hs

theorem json_schema (content : GoMap OMedia) (s : OSchema) : (mget content "application/json").bind (·.schema) = some s ↔ JsonSchema content s := by
  unfold JsonSchema
  cases mget content "application/json" <;> simp

theorem importResult_safe (action : String) (content : GoMap OMedia) :
    ((∀ s, JsonSchema content s → s.ref ≠ "" ∨ SchemaSafe s) → ∀ e, importResult action content ≠ .panic e) ∧
    (∀ r, importResult action content = .ok r → ∀ s, JsonSchema content s → s.ref ≠ "" ∨ SchemaSafe s) := by
  unfold importResult
  cases hj : (mget content "application/json").bind (·.schema) with
  | none =>
    refine ⟨fun _ e h => (by cases h), fun r _ s hs => ?_⟩
    rw [(json_schema content s).2 hs] at hj
    cases hj
  | some s0 =>
    constructor
    · intro h e he
      rcases bind_panic_iff.1 he with he | ⟨a, _, he⟩
      · exact (outputType_safe _ s0).1 (h s0 ((json_schema content s0).1 hj)) e he
      · cases he
    · intro r hr s hs
      rw [(json_schema content s).2 hs] at hj
      cases hj
      obtain ⟨a, ha, _⟩ := bind_ok_iff.1 hr
      exact (outputType_safe _ _).2 a ha

theorem containsSub_one (c : Char) (l : List Char) : containsSub [c] l = true ↔ c ∈ l := by
  induction l with
  | nil => simp [containsSub, List.isPrefixOf]
  | cons x l ih =>
    rw [containsSub, Bool.or_eq_true, ih, List.mem_cons]
    simp [List.isPrefixOf]

theorem importExceptions_safe (expected : String) (rs : GoMap OResponse) :
    ((∀ st r, (st, r) ∈ rs → st ≠ expected → ErrorSafe st r) → ∀ e, importExceptions expected rs ≠ .panic e) ∧
    (∀ x, importExceptions expected rs = .ok x → ∀ st r, (st, r) ∈ rs → st ≠ expected → ErrorSafe st r) := by
  induction rs with
  | nil => exact ⟨fun _ e h => (by rw [importExceptions] at h; cases h), fun _ _ st r hm => by cases hm⟩
  | cons x rs ih =>
    obtain ⟨st, r⟩ := x
    rw [importExceptions]
    simp only
    have hx : containsSub ['X'] (if st = "default" then "0" else st).toList = true ↔ 'X' ∈ st.toList := by
      rw [containsSub_one]
      split_ifs with h
      · rw [h]; decide
      · rfl
    by_cases h1 : st = expected
    · rw [if_pos h1]
      refine ⟨fun h => ih.1 (fun st' r' hm => h st' r' (List.mem_cons_of_mem _ hm)), fun x hx st' r' hm hne => ?_⟩
      rcases List.mem_cons.1 hm with hm | hm
      · cases hm; exact absurd h1 hne
      · exact ih.2 x hx st' r' hm hne
    rw [if_neg h1]
    by_cases h2 : containsSub ['X'] (if st = "default" then "0" else st).toList = true
    · rw [if_pos h2]
      exact ⟨fun h => absurd (hx.1 h2) (h st r List.mem_cons_self h1).1, fun x hx => by cases hx⟩
    · rw [if_neg h2]
      have hnx : 'X' ∉ st.toList := fun h => h2 (hx.2 h)
      split
      · exact ⟨fun _ e h => (by cases h), fun x hx => by cases hx⟩
      · constructor
        · intro h e he
          rcases bind_panic_iff.1 he with he | ⟨a, _, he⟩
          · split at he
            · cases he
            · next s hs =>
              split_ifs at he with hr
              have := (h st r List.mem_cons_self h1).2 s ((json_schema _ s).1 hs)
              exact hr this
          · rcases bind_panic_iff.1 he with he | ⟨b, _, he⟩
            · exact ih.1 (fun st' r' hm => h st' r' (List.mem_cons_of_mem _ hm)) e he
            · cases he
        · intro x hok st' r' hm hne
          obtain ⟨a, ha, hok⟩ := bind_ok_iff.1 hok
          obtain ⟨b, hb, _⟩ := bind_ok_iff.1 hok
          rcases List.mem_cons.1 hm with hm | hm
          · cases hm
            refine ⟨hnx, fun s hs => ?_⟩
            rw [(json_schema _ s).2 hs] at ha
            simp only at ha
            split_ifs at ha with hr
            exact hr
          · exact ih.2 b hb st' r' hm hne

theorem path_safe (path : String) (op : OOperation) (method : String) :
    (OperationSafe path op → ∀ e, convertOasPath path op method ≠ .panic e) ∧ (∀ r, convertOasPath path op method = .ok r → OperationSafe path op) := by
  unfold convertOasPath OperationSafe
  simp only
  constructor
  · rintro ⟨h1, h2, h3⟩ e he
    rcases bind_panic_iff.1 he with he | ⟨ps, _, he⟩
    · exact (importParams_safe path op.parameters).1 h1 e he
    · split at he
      · cases he
      · next er her =>
        obtain ⟨h4, h5⟩ := h2 er her
        rcases bind_panic_iff.1 he with he | ⟨code, _, he⟩
        · unfold expectedCode at he
          split_ifs at he
          split at he <;> cases he
        · rcases bind_panic_iff.1 he with he | ⟨⟨hs, exs1⟩, _, he⟩
          · exact (importHeaders_safe _ _).1 h4 e he
          · rcases bind_panic_iff.1 he with he | ⟨⟨rs, exs2⟩, _, he⟩
            · exact (importResult_safe _ _).1 h5 e he
            · rcases bind_panic_iff.1 he with he | ⟨xs, _, he⟩
              · exact (importExceptions_safe _ _).1 h3 e he
              · cases he
  · intro r hr
    obtain ⟨ps, hps, hr⟩ := bind_ok_iff.1 hr
    split at hr
    · cases hr
    · next er her =>
      obtain ⟨code, _, hr⟩ := bind_ok_iff.1 hr
      obtain ⟨⟨hs, exs1⟩, hhs, hr⟩ := bind_ok_iff.1 hr
      obtain ⟨⟨rs, exs2⟩, hrs, hr⟩ := bind_ok_iff.1 hr
      obtain ⟨xs, hxs, _⟩ := bind_ok_iff.1 hr
      refine ⟨(importParams_safe path op.parameters).2 ps hps, fun r' hr' => ?_, (importExceptions_safe _ _).2 xs hxs⟩
      rw [her] at hr'
      cases hr'
      exact ⟨(importHeaders_safe _ _).2 _ hhs, (importResult_safe _ _).2 _ hrs⟩

theorem importPath_safe (path : String) (pi : OPathItem) : ∀ (ms : List (String × OMethod)),
    ((∀ x ∈ ms, ∀ op, pi.op x.2 = some op → ¬ "x-".toList <+: path.toList → OperationSafe path op) → ∀ e, importPath path pi ms ≠ .panic e) ∧
    (∀ r, importPath path pi ms = .ok r → ∀ x ∈ ms, ∀ op, pi.op x.2 = some op → ¬ "x-".toList <+: path.toList → OperationSafe path op) := by
  have hx : hasPrefix path "x-" = true ↔ "x-".toList <+: path.toList := by unfold hasPrefix; exact List.isPrefixOf_iff_prefix
  intro ms
  induction ms with
  | nil => exact ⟨fun _ e h => (by rw [importPath] at h; cases h), fun _ _ x hm => by cases hm⟩
  | cons m ms ih =>
    obtain ⟨method, k⟩ := m
    rw [importPath]
    cases hop : pi.op k with
    | none =>
      simp only
      refine ⟨fun h => ih.1 (fun x hm => h x (List.mem_cons_of_mem _ hm)), fun r hr x hm op ho => ?_⟩
      rcases List.mem_cons.1 hm with rfl | hm
      · simp only at ho; rw [hop] at ho; cases ho
      · exact ih.2 r hr x hm op ho
    | some op0 =>
      simp only
      split_ifs with h1
      · refine ⟨fun h => ih.1 (fun x hm => h x (List.mem_cons_of_mem _ hm)), fun r hr x hm op ho hn => absurd (hx.1 h1) hn⟩
      · have hn : ¬ "x-".toList <+: path.toList := fun h => h1 (hx.2 h)
        constructor
        · intro h e he
          rcases bind_panic_iff.1 he with he | ⟨⟨a, exs⟩, _, he⟩
          · exact (path_safe path op0 method).1 (h _ List.mem_cons_self op0 hop hn) e he
          · rcases bind_panic_iff.1 he with he | ⟨b, _, he⟩
            · exact ih.1 (fun x hm => h x (List.mem_cons_of_mem _ hm)) e he
            · cases he
        · intro r hr x hm op ho hn'
          obtain ⟨a, ha, hr⟩ := bind_ok_iff.1 hr
          obtain ⟨b, hb, _⟩ := bind_ok_iff.1 hr
          rcases List.mem_cons.1 hm with rfl | hm
          · simp only at ho
            rw [hop] at ho
            cases ho
            exact (path_safe path _ method).2 a ha
          · exact ih.2 b hb x hm op ho hn'

theorem methods_ops (pi : OPathItem) (P : OOperation → Prop) :
    (∀ x ∈ importMethods, ∀ op, pi.op x.2 = some op → P op) ↔ ∀ op ∈ [pi.get, pi.put, pi.post, pi.delete, pi.head].filterMap id, P op := by
  constructor
  · intro h op ho
    simp only [List.mem_filterMap, List.mem_cons, List.not_mem_nil, or_false, id] at ho
    obtain ⟨o, rfl | rfl | rfl | rfl | rfl, ho⟩ := ho
    · exact h ("GET", .get) (by simp [importMethods]) op ho
    · exact h ("PUT", .put) (by simp [importMethods]) op ho
    · exact h ("POST", .post) (by simp [importMethods]) op ho
    · exact h ("DELETE", .delete) (by simp [importMethods]) op ho
    · exact h ("HEAD", .head) (by simp [importMethods]) op ho
  · intro h x hx op ho
    refine h op (List.mem_filterMap.2 ⟨some op, ?_, rfl⟩)
    rw [← ho]
    simp only [importMethods, List.mem_cons, List.not_mem_nil, or_false] at hx
    rcases hx with rfl | rfl | rfl | rfl | rfl <;> simp [OPathItem.op]

theorem importPaths_safe : ∀ (ps : GoMap OPathItem),
    ((∀ path pi op, (path, pi) ∈ ps → ¬ "x-".toList <+: path.toList → op ∈ [pi.get, pi.put, pi.post, pi.delete, pi.head].filterMap id →
      OperationSafe path op) → ∀ e, importPaths ps ≠ .panic e) ∧
    (∀ r, importPaths ps = .ok r → ∀ path pi op, (path, pi) ∈ ps → ¬ "x-".toList <+: path.toList →
      op ∈ [pi.get, pi.put, pi.post, pi.delete, pi.head].filterMap id → OperationSafe path op) := by
  intro ps
  induction ps with
  | nil => exact ⟨fun _ e h => (by rw [importPaths] at h; cases h), fun _ _ path pi op hm => by cases hm⟩
  | cons x ps ih =>
    obtain ⟨path, pi⟩ := x
    rw [importPaths]
    constructor
    · intro h e he
      rcases bind_panic_iff.1 he with he | ⟨a, _, he⟩
      · refine (importPath_safe path pi importMethods).1 ?_ e he
        exact (methods_ops pi (fun op => ¬ "x-".toList <+: path.toList → OperationSafe path op)).2
          (fun op ho hn => h path pi op List.mem_cons_self hn ho)
      · rcases bind_panic_iff.1 he with he | ⟨b, _, he⟩
        · exact ih.1 (fun path pi op hm => h path pi op (List.mem_cons_of_mem _ hm)) e he
        · cases he
    · intro r hr path' pi' op hm hn ho
      obtain ⟨a, ha, hr⟩ := bind_ok_iff.1 hr
      obtain ⟨b, hb, _⟩ := bind_ok_iff.1 hr
      rcases List.mem_cons.1 hm with hm | hm
      · cases hm
        exact (methods_ops _ (fun op => ¬ "x-".toList <+: path.toList → OperationSafe path op)).1
          ((importPath_safe path pi importMethods).2 a ha) op ho hn
      · exact ih.2 b hb path' pi' op hm hn ho

theorem toSadl_safe (d : ODoc) (name : String) :
    (DocSafe d → ∀ e, toSadl d name ≠ .panic e) ∧ (∀ m, toSadl d name = .ok m → DocSafe d) := by
  unfold toSadl DocSafe
  simp only
  constructor
  · rintro ⟨h1, h2⟩ e he
    rcases bind_panic_iff.1 he with he | ⟨a, _, he⟩
    · exact (importTypes_safe d d.schemas).1 h1 e he
    · rcases bind_panic_iff.1 he with he | ⟨b, _, he⟩
      · exact (importPaths_safe d.paths).1 h2 e he
      · exact newModel_no_panic _ e he
  · intro m hm
    obtain ⟨a, ha, hm⟩ := bind_ok_iff.1 hm
    obtain ⟨b, hb, _⟩ := bind_ok_iff.1 hm
    exact ⟨(importTypes_safe d d.schemas).2 a ha, (importPaths_safe d.paths).2 b hb⟩

end Sadl
