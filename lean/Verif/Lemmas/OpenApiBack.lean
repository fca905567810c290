import Verif.Lemmas.OpenApiJson
import Verif.Lemmas.OpenApiTrip
/-
Exported documents of kept types and actions say the same after they were printed and read.
-/
namespace Sadl
open Spec

/-- An entry of a map is found under the same key after the map was printed and read. -/
theorem entriesBack_mget {α : Type} (f : α → α) {m : GoMap α} (h : (m.map Prod.fst).Nodup) (k : String) :
    mget (entriesBack f m) k = (mget m k).map f := by
  have hp : (entriesBack f m).Perm (m.map fun p => (p.1, f p.2)) := jSort_perm _
  have key : ∀ l : GoMap α, mget (l.map fun p => (p.1, f p.2)) k = (mget l k).map f := by
    intro l
    induction l with
    | nil => rfl
    | cons p r ih =>
      simp only [List.map_cons, mget]
      split
      · rfl
      · exact ih
  have hd : ((entriesBack f m).map Prod.fst).Nodup := by
    rw [(hp.map Prod.fst).nodup_iff, List.map_map]
    exact h
  rw [← key]
  have hd' : ((m.map fun p => (p.1, f p.2)).map Prod.fst).Nodup := by rw [List.map_map]; exact h
  cases hm : mget (m.map fun p => (p.1, f p.2)) k with
  | some v => exact mget_of_mem hd (hp.mem_iff.2 (mget_mem hm))
  | none =>
    rw [mget_none_iff] at hm ⊢
    intro hk
    exact hm ((hp.map Prod.fst).mem_iff.1 hk)

/-- The schema comes back as it is. -/
def Fixed (L : JLib) (s : OSchema) : Prop := oschemaBack L s = s

theorem leaf_fixed (L : JLib) {s : OSchema} (h1 : s.enum = none) (h2 : s.example = .null) (h3 : s.oneOf = []) (h4 : s.items = none)
    (h5 : s.properties = none) (h6 : s.additionalProperties = none) : Fixed L s := by
  cases s
  dsimp only at h1 h2 h3 h4 h5 h6
  subst h1 h2 h3 h4 h5 h6
  simp [Fixed, oschemaBack, valuesBack, valueBack_null, oschemasBack, oschemaOptBack, oschemaEntriesBack]

theorem array_fixed {L : JLib} {s i : OSchema} (hi : Fixed L i) (h1 : s.enum = none) (h2 : s.example = .null) (h3 : s.oneOf = []) (h4 : s.items = some i)
    (h5 : s.properties = none) (h6 : s.additionalProperties = none) : Fixed L s := by
  cases s
  dsimp only at h1 h2 h3 h4 h5 h6
  subst h1 h2 h3 h4 h5 h6
  unfold Fixed at hi
  simp [Fixed, oschemaBack, valuesBack, valueBack_null, oschemasBack, oschemaOptBack, oschemaEntriesBack, hi]

/-- A component schema comes back as it is, up to its example and the order of its properties. -/
structure SettledSchema (L : JLib) (s : OSchema) : Prop where
  enum : valuesBack L s.enum = s.enum
  oneOf : s.oneOf = []
  items : ∀ i ∈ s.items, Fixed L i
  additional : s.additionalProperties = none
  properties : ∀ p ∈ s.properties.getD [], Fixed L p.2

theorem SettledSchema.same {L : JLib} {s : OSchema} (h : SettledSchema L s) : SameSchema s (oschemaBack L s) := by
  obtain ⟨h1, h2, h3, h4, h5⟩ := h
  obtain ⟨ref, type, format, description, enum, ex, min, max, minLength, maxLength, pattern, oneOf, items, required, properties, additional⟩ := s
  dsimp only at h1 h2 h3 h4 h5
  subst h2 h4
  have hi : oschemaOptBack L items = items := by
    cases items with
    | none => rfl
    | some i => rw [oschemaOptBack, h3 i rfl]
  refine ⟨by simp [oschemaBack, h1, hi, oschemasBack], ?_⟩
  simp only [oschemaBack]
  have hprops : ∀ ps : List (String × OSchema), (∀ p ∈ ps, Fixed L p.2) → oschemaPropsBack L ps = ps := by
    intro ps
    induction ps with
    | nil => intro _; rfl
    | cons p r ih =>
      intro h
      have hp : oschemaBack L p.2 = p.2 := h p (by simp)
      rw [oschemaPropsBack, ih fun q hq => h q (by simp [hq]), oschemaPropBack, hp]
  cases properties with
  | none => exact .rfl
  | some ps =>
    cases ps with
    | nil => exact .rfl
    | cons p r =>
      have := hprops _ h5
      rw [Option.getD_some, oschemaPropsBack] at this
      rw [oschemaEntriesBack, Option.getD_some, Option.getD_some, this]
      exact jSort_perm _

theorem SettledSchema.bare {L : JLib} {s s' : OSchema} (h : SettledSchema L s) (hb : s'.bare = s.bare) : SettledSchema L s' := by
  have e1 : s'.enum = s.enum := by have := congrArg OSchema.enum hb; exact this
  have e2 : s'.oneOf = s.oneOf := by have := congrArg OSchema.oneOf hb; exact this
  have e3 : s'.items = s.items := by have := congrArg OSchema.items hb; exact this
  have e4 : s'.additionalProperties = s.additionalProperties := by have := congrArg OSchema.additionalProperties hb; exact this
  have e5 : s'.properties = s.properties := by have := congrArg OSchema.properties hb; exact this
  exact ⟨by rw [e1]; exact h.enum, by rw [e2]; exact h.oneOf, by rw [e3]; exact h.items, by rw [e4]; exact h.additional,
    by rw [e5]; exact h.properties⟩

theorem Fixed.settled {L : JLib} {s : OSchema} (h1 : s.enum = none) (h3 : s.oneOf = []) (h4 : s.items = none)
    (h5 : s.properties = none) (h6 : s.additionalProperties = none) : SettledSchema L s :=
  ⟨by rw [h1]; rfl, h3, by rw [h4]; simp, h6, by rw [h5]; simp⟩

theorem values_str (L : JLib) {vs : List String} (h : vs ≠ []) : valuesBack L (some (vs.map .str)) = some (vs.map .str) := by
  cases vs with
  | nil => exact absurd rfl h
  | cons v r =>
    have : ∀ l : List String, (l.map Value.str).map (valueBack L) = l.map .str := by
      intro l
      rw [List.map_map]
      exact List.map_congr_left fun x _ => rfl
    show some ((List.map Value.str (v :: r)).map (valueBack L)) = _
    rw [this]

section
variable {s : Schema} {m : Model} (hm : newModel s = .ok m) {lib : OLib} (L : JLib)
include hm

theorem item_fixed {n : Nat} {items : String} {itd : TypeDef} {sc : OSchema} (hk : ItemKept s items) (hf : m.findType items = some itd)
    (h : oasSchemaN n lib m itd.ts items = .ok sc) : Fixed L sc := by
  cases n with
  | zero => simp [oasSchemaN] at h
  | succ n =>
    obtain ⟨_, hb, _⟩ := (newModel_ok_iff s m).1 hm
    cases hk with
    | base hn =>
      have hbase : items ∈ BaseTypes := by
        simp only [List.mem_cons, List.not_mem_nil, or_false] at hn
        rcases hn with rfl | rfl | rfl | rfl | rfl | rfl <;> decide
      have hi : itd = baseTypeDef items := by
        rcases (newModel_findType_iff hm items itd).1 hf with ⟨h1, h2⟩ | ⟨_, h2⟩
        · exact absurd (h2 ▸ hbase) (hb itd h1)
        · exact h2
      subst hi
      simp only [List.mem_cons, List.not_mem_nil, or_false] at hn
      rcases hn with rfl | rfl | rfl | rfl | rfl | rfl
      all_goals
        cases h
        exact leaf_fixed L rfl rfl rfl rfl rfl rfl
    | @named td htd ht hne =>
      have hi : itd = td := by
        have := (newModel_findType_iff hm td.name td).2 (.inl ⟨htd, rfl⟩)
        rw [hf] at this
        exact Option.some.inj this
      subst hi
      rw [oasSchemaN_succ] at h
      simp only [List.mem_cons, List.not_mem_nil, or_false] at ht
      have : sc = { ref := refPrefix ++ itd.name } := by
        unfold oasSchemaStep at h
        rcases ht with ht | ht
        · simp [ht, hne] at h; exact h.symm
        · simp [ht] at h; exact h.symm
      subst this
      exact leaf_fixed L rfl rfl rfl rfl rfl rfl

theorem named_ref {n : Nat} {td : TypeDef} {sc : OSchema} (htd : td ∈ s.types)
    (h : oasSchemaN n lib m { type := td.name } "" = .ok sc) : sc = { ref := refPrefix ++ td.name } := by
  obtain ⟨_, hb, _⟩ := (newModel_ok_iff s m).1 hm
  have hbn := hb td htd
  cases n with
  | zero => simp [oasSchemaN] at h
  | succ n =>
    rw [oasSchemaN_succ] at h
    rcases oasStep_cases lib m (oasSchemaN n lib m) { type := td.name } "" with ⟨ht, e⟩ | ⟨ht, e⟩ | ⟨ht, e⟩ | ⟨ht, e⟩ | ⟨ht, e⟩ | ⟨ht, e⟩ |
      ⟨ht, e⟩ | ⟨ht, e⟩ | ⟨ht, hf, e⟩ | ⟨ht, itd', hf, e⟩ | ⟨ht, hf, e⟩ | ⟨ht, itd', hf, e⟩ | ⟨ht, hn', e⟩ | ⟨ht, hn', e⟩ | ⟨ht, ht', e⟩
    all_goals first
      | (rw [e] at h; cases h; rfl)
      | (exfalso; apply hbn; simp only at ht; rw [ht]; decide)
      | (exfalso; apply hbn; simp only [NumTypes, List.mem_cons, List.not_mem_nil, or_false] at ht
         simp only [BaseTypes, List.mem_cons, List.not_mem_nil, or_false]; tauto)

theorem array_schema {n : Nat} {items : String} {sc : OSchema} (hi : ItemKept s items)
    (h : oasSchemaN n lib m { type := "Array", items := items } "" = .ok sc) : Fixed L sc := by
  cases n with
  | zero => simp [oasSchemaN] at h
  | succ n =>
    rw [oasSchemaN_succ] at h
    rcases oasStep_cases lib m (oasSchemaN n lib m) { type := "Array", items := items } "" with ⟨ht, e⟩ | ⟨ht, e⟩ | ⟨ht, e⟩ | ⟨ht, e⟩ | ⟨ht, e⟩ | ⟨ht, e⟩ |
      ⟨ht, e⟩ | ⟨ht, e⟩ | ⟨ht, hf, e⟩ | ⟨ht, itd, hf, e⟩ | ⟨ht, hf, e⟩ | ⟨ht, itd, hf, e⟩ | ⟨ht, hn', e⟩ | ⟨ht, hn', e⟩ | ⟨ht, ht', e⟩
    all_goals first | (exfalso; simp [NumTypes] at ht; done) | (exfalso; simp at ht'; done) | skip
    · rw [e] at h; cases h
    · rw [e] at h
      obtain ⟨si, h1, h2⟩ := Ran.bind_eq_ok.1 h
      cases h2
      exact array_fixed (item_fixed hm L hi hf h1) rfl rfl rfl rfl rfl rfl

theorem field_fixed {n : Nat} {t : TypeSpec} {sc : OSchema} (hk : FieldKept lib s t) (h : oasSchemaN n lib m t "" = .ok sc) : Fixed L sc := by
  cases hk with
  | @named td htd hne => rw [named_ref hm htd h]; exact leaf_fixed L rfl rfl rfl rfl rfl rfl
  | @array items hi => exact array_schema hm L hi h
  | @integer t mn mx ht hb =>
    cases n with
    | zero => simp [oasSchemaN] at h
    | succ n =>
      simp only [List.mem_cons, List.not_mem_nil, or_false] at ht
      rcases ht with rfl | rfl <;> cases h <;> exact leaf_fixed L rfl rfl rfl rfl rfl rfl
  | bool => cases n with
    | zero => simp [oasSchemaN] at h
    | succ n => cases h; exact leaf_fixed L rfl rfl rfl rfl rfl rfl
  | timestamp => cases n with
    | zero => simp [oasSchemaN] at h
    | succ n => cases h; exact leaf_fixed L rfl rfl rfl rfl rfl rfl
  | string hs => cases n with
    | zero => simp [oasSchemaN] at h
    | succ n => cases h; exact leaf_fixed L rfl rfl rfl rfl rfl rfl

theorem param_fixed {n : Nat} {t : TypeSpec} {sc : OSchema} (hk : OasParamKept s t) (h : oasSchemaN n lib m t "" = .ok sc) : Fixed L sc := by
  cases hk with
  | @named td htd hne => rw [named_ref hm htd h]; exact leaf_fixed L rfl rfl rfl rfl rfl rfl
  | strings => exact array_schema hm L (.base (by simp)) h
  | @base t ht =>
    cases n with
    | zero => simp [oasSchemaN] at h
    | succ n =>
      simp only [List.mem_cons, List.not_mem_nil, or_false] at ht
      rcases ht with rfl | rfl | rfl | rfl <;> cases h <;> exact leaf_fixed L rfl rfl rfl rfl rfl rfl

theorem type_settled {n : Nat} {td : TypeDef} {sc : OSchema} (hk : TypeKept lib s td.ts) (he : td.ts.type = "Enum" → td.ts.elements ≠ [])
    (h : exportTypeDefN n lib m td = .ok sc) : SettledSchema L sc := by
  unfold exportTypeDefN at h
  obtain ⟨tname, comment, annos, ts⟩ := td
  dsimp only at hk h he
  cases hk with
  | bool =>
    cases h
    exact Fixed.settled rfl rfl rfl rfl rfl
  | timestamp =>
    obtain ⟨s1, h1, h2⟩ := Ran.bind_eq_ok.1 h
    cases h2
    obtain ⟨k, s0, rfl, h3, rfl⟩ := exportTypeDef_string hm h1
    cases h3
    exact Fixed.settled rfl rfl rfl rfl rfl
  | uuid =>
    obtain ⟨s1, h1, h2⟩ := Ran.bind_eq_ok.1 h
    cases h2
    obtain ⟨k, s0, rfl, h3, rfl⟩ := exportTypeDef_string hm h1
    cases h3
    exact Fixed.settled rfl rfl rfl rfl rfl
  | @string p mn mx hs =>
    obtain ⟨k, s0, rfl, h3, rfl⟩ := exportTypeDef_string hm h
    cases h3
    exact Fixed.settled rfl rfl rfl rfl rfl
  | @values p mn mx vs hs hv =>
    obtain ⟨k, s0, rfl, h3, rfl⟩ := exportTypeDef_string hm h
    cases h3
    obtain ⟨v, hv1, hv2⟩ := hv
    have hne : vs ≠ [] := by rintro rfl; simp at hv1
    have hen : enumOfValues { type := "String", pattern := p, minSize := mn, maxSize := mx, values := some vs } = some (vs.map .str) := by
      cases vs with
      | nil => exact absurd rfl hne
      | cons a r => rfl
    simp only [hen]
    exact ⟨values_str L hne, rfl, by simp [oasString], rfl, by simp [oasString]⟩
  | @enum symbols hsym =>
    cases h
    have hne : symbols ≠ [] := by rintro rfl; exact he rfl rfl
    refine ⟨?_, rfl, by simp [exportEnum], rfl, by simp [exportEnum]⟩
    have := values_str L hne
    simp only [exportEnum, List.map_map]
    exact this
  | @number t mn mx ht hb =>
    simp only [List.mem_cons, List.not_mem_nil, or_false] at ht
    rcases ht with rfl | rfl | rfl <;> cases h <;> exact Fixed.settled rfl rfl rfl rfl rfl
  | @array items hi =>
    have h : exportArray m (oasSchemaN n lib m) { name := tname, comment := comment, annotations := annos, ts := { type := "Array", items := items } } = .ok sc := h
    unfold exportArray at h
    dsimp only at h
    split at h
    · cases h
    · next itd hf =>
      obtain ⟨si, h1, h2⟩ := Ran.bind_eq_ok.1 h
      cases h2
      refine ⟨rfl, rfl, fun i hi' => ?_, rfl, by simp⟩
      cases hi'
      exact item_fixed hm L hi hf h1
  | @struct fields hn hf =>
    have h : exportStruct (oasSchemaN n lib m) { name := tname, comment := comment, annotations := annos, ts := { type := "Struct", fields := fields } } = .ok sc := h
    unfold exportStruct at h
    obtain ⟨props, h1, h2⟩ := Ran.bind_eq_ok.1 h
    cases h2
    obtain ⟨l, hl0, h3⟩ := oasProps_list hn (by simp) h1
    rw [List.nil_append] at hl0
    subst hl0
    refine ⟨rfl, rfl, by simp, rfl, fun p hp => ?_⟩
    rw [Option.getD_some] at hp
    obtain ⟨i, rfl⟩ := List.mem_iff_get.1 hp
    have hlen := h3.length_eq
    obtain ⟨e1, e2⟩ := h3.get (by rw [hlen]; exact i.2) i.2
    exact field_fixed hm L (hf _ (List.get_mem _ _)).2.2.2 e2

end

/-! ### Operations -/

/-- All schemas in the content of a body. -/
def ContentAll (P : OSchema → Prop) (c : GoMap OMedia) : Prop := ∀ e ∈ c, ∀ s ∈ e.2.schema, P s

structure ResponseAll (P : OSchema → Prop) (r : OResponse) : Prop where
  headers : ∀ e ∈ r.headers, ∀ s ∈ e.2.schema, P s
  content : ContentAll P r.content

/-- All schemas of an operation. -/
structure OpAll (P : OSchema → Prop) (op : OOperation) : Prop where
  parameters : ∀ p ∈ op.parameters, ∀ s ∈ p.schema, P s
  body : ∀ b ∈ op.requestBody, ContentAll P b.content
  responses : ∀ e ∈ op.responses, ResponseAll P e.2

theorem content_bare {P : OSchema → Prop} {c : GoMap OMedia} : ContentAll P (bareContent c) ↔ ContentAll P c := by
  unfold ContentAll bareContent
  constructor
  · intro h e he s hs
    exact h (e.1, e.2.bare) (List.mem_map_of_mem he) s hs
  · intro h e he s hs
    obtain ⟨e', he', rfl⟩ := List.mem_map.1 he
    exact h e' he' s hs

theorem response_bare {P : OSchema → Prop} {r : OResponse} : ResponseAll P r.bare ↔ ResponseAll P r :=
  ⟨fun h => ⟨h.headers, content_bare.1 h.content⟩, fun h => ⟨h.headers, content_bare.2 h.content⟩⟩

theorem op_bare {P : OSchema → Prop} {op : OOperation} : OpAll P op.bare ↔ OpAll P op := by
  constructor
  · intro h
    refine ⟨fun p hp s hs => h.parameters p.bare (List.mem_map_of_mem hp) s hs, fun b hb => ?_, fun e he => ?_⟩
    · refine content_bare.1 (h.body b.bare ?_)
      show b.bare ∈ op.requestBody.map OBody.bare
      exact Option.mem_map_of_mem _ hb
    · exact response_bare.1 (h.responses (e.1, e.2.bare) (List.mem_map.2 ⟨e, he, rfl⟩))
  · intro h
    refine ⟨fun p hp s hs => ?_, fun b hb => ?_, fun e he => ?_⟩
    · obtain ⟨q, hq, rfl⟩ := List.mem_map.1 hp
      exact h.parameters q hq s hs
    · obtain ⟨c, hc, rfl⟩ := Option.mem_map.1 hb
      exact content_bare.2 (h.body c hc)
    · obtain ⟨q, hq, rfl⟩ := List.mem_map.1 he
      exact response_bare.2 (h.responses q hq)

theorem exportInputs_all {P : OSchema → Prop} {conv : TypeSpec → String → Ran OSchema} {ps : List HttpParamSpec} {op op' : OOperation}
    (hc : ∀ p ∈ ps, ∀ s, conv p.field.ts "" = .ok s → P s) (hop : OpAll P op) (h : exportInputs conv ps op = .ok op') : OpAll P op' := by
  induction ps generalizing op with
  | nil => cases h; exact hop
  | cons p r ih =>
    unfold exportInputs at h
    obtain ⟨s, h1, h2⟩ := Ran.bind_eq_ok.1 h
    refine ih (fun q hq => hc q (by simp [hq])) ?_ h2
    have hs := hc p (by simp) s h1
    have add : ∀ q : OParam, q.schema = some s → OpAll P { op with parameters := op.parameters ++ [q] } := by
      intro q hq
      refine ⟨fun x hx s' hs' => ?_, hop.body, hop.responses⟩
      rcases List.mem_append.1 hx with hx | hx
      · exact hop.parameters x hx s' hs'
      · rw [List.mem_singleton] at hx
        subst hx
        rw [hq] at hs'
        cases hs'
        exact hs
    unfold exportInput
    dsimp only
    split
    · exact add _ rfl
    · split
      · exact add _ rfl
      · split
        · exact add _ rfl
        · refine ⟨hop.parameters, fun b hb => ?_, hop.responses⟩
          cases hb
          intro e he s' hs'
          simp only [jsonContent, List.mem_cons, List.not_mem_nil, or_false] at he
          subst he
          cases hs'
          exact hs

theorem exportOutputs_all {P : OSchema → Prop} {conv : TypeSpec → String → Ran OSchema} {ps : List HttpParamSpec} {r r' : OResponse}
    (hc : ∀ p ∈ ps, ∀ s, conv p.field.ts "" = .ok s → P s) (hr : ResponseAll P r) (h : exportOutputs conv ps r = .ok r') : ResponseAll P r' := by
  induction ps generalizing r with
  | nil => cases h; exact hr
  | cons p rest ih =>
    unfold exportOutputs at h
    obtain ⟨s, h1, h2⟩ := Ran.bind_eq_ok.1 h
    refine ih (fun q hq => hc q (by simp [hq])) ?_ h2
    have hs := hc p (by simp) s h1
    unfold exportOutput
    split
    · refine ⟨fun e he s' hs' => ?_, hr.content⟩
      rcases mem_mset_or (k' := e.1) (v' := e.2) he with ⟨_, he⟩ | he
      · rw [he] at hs'; cases hs'; exact hs
      · exact hr.headers e he s' hs'
    · refine ⟨hr.headers, fun e he s' hs' => ?_⟩
      rcases mem_mset_or (k' := e.1) (v' := e.2) he with ⟨_, he⟩ | he
      · rw [he] at hs'; cases hs'; exact hs
      · exact hr.content e he s' hs'

theorem exportExceptions_all {P : OSchema → Prop} (hp : ∀ ref, P { ref := ref }) {xs : List HttpExceptionSpec} {rs : GoMap OResponse}
    (hr : ∀ e ∈ rs, ResponseAll P e.2) : ∀ e ∈ exportExceptions xs rs, ResponseAll P e.2 := by
  induction xs generalizing rs with
  | nil => exact hr
  | cons x rest ih =>
    unfold exportExceptions
    refine ih fun e he => ?_
    rcases mem_mset_or (k' := e.1) (v' := e.2) he with ⟨_, he⟩ | he
    · rw [he]
      refine ⟨by simp [exportException], fun c hc s hs => ?_⟩
      simp only [exportException, jsonContent, List.mem_cons, List.not_mem_nil, or_false] at hc
      subst hc
      cases hs
      exact hp _
    · exact hr e he

theorem sameMap_back {α : Type} {R : α → α → Prop} {f : α → α} {m : GoMap α} (h : (m.map Prod.fst).Nodup) (hR : ∀ e ∈ m, R e.2 (f e.2)) :
    SameMap R m (entriesBack f m) := by
  refine ⟨?_, fun k => ?_⟩
  · have hp : (entriesBack f m).Perm (m.map fun p => (p.1, f p.2)) := jSort_perm _
    unfold GoMap.Distinct
    rw [(hp.map Prod.fst).nodup_iff, List.map_map]
    exact h
  · rw [entriesBack_mget f h]
    cases hk : mget m k with
    | none => exact .none
    | some v => exact .some (hR (k, v) (mget_mem hk))

theorem schema_back {L : JLib} {o : Option OSchema} (h : ∀ s ∈ o, Fixed L s) : o.map (oschemaBack L) = o := by
  cases o with
  | none => rfl
  | some s => rw [Option.map_some, h s rfl]

theorem sameContent_back {L : JLib} {n : Nat} {c : GoMap OMedia} (hc : OContentOk L n c) (h : ContentAll (Fixed L) c) :
    SameContent c (entriesBack (omediaBack L) c) :=
  sameMap_back hc.1 fun e he => schema_back (h e he)

theorem sameResponse_back {L : JLib} {n : Nat} {r : OResponse} (hc : OResponseOk L n r) (h : ResponseAll (Fixed L) r) :
    SameResponse r (oresponseBack L r) := by
  refine ⟨rfl, sameMap_back hc.keys fun e he => ?_, sameContent_back hc.content h.content⟩
  unfold oheaderBack
  rw [schema_back (h.headers e he)]

theorem sameOperation_back {L : JLib} {n : Nat} {op : OOperation} (hc : OOperationOk L n op) (h : OpAll (Fixed L) op) :
    SameOperation op (ooperationBack L op) := by
  refine ⟨rfl, rfl, rfl, ?_, ?_, sameMap_back hc.keys fun e he => sameResponse_back (hc.responses e he) (h.responses e he)⟩
  · show List.Forall₂ _ op.parameters (op.parameters.map (oparamBack L))
    rw [List.forall₂_map_right_iff, List.forall₂_same]
    intro p hp
    unfold oparamBack
    rw [schema_back (h.parameters p hp)]
  · show Option.Rel SameBody op.requestBody (op.requestBody.map (obodyBack L))
    cases hb : op.requestBody with
    | none => exact .none
    | some b => exact .some ⟨rfl, rfl, sameContent_back (hc.body b hb) (h.body b hb)⟩

section
variable {s : Schema} {m : Model} (hm : newModel s = .ok m) {lib : OLib} (L : JLib)
include hm

theorem exportOp_fixed {n : Nat} {a : HttpDef} {op : OOperation} (hk : OasActionKept lib s a) (h : exportOp (oasSchemaN n lib m) a = .ok op) :
    OpAll (Fixed L) op := by
  unfold exportOp at h
  obtain ⟨op1, h1, h⟩ := Ran.bind_eq_ok.1 h
  obtain ⟨uri, _, _, _, hin⟩ := hk.uri
  obtain ⟨e, he, _, _, hout, _⟩ := hk.expected
  rw [he] at h
  dsimp only at h
  obtain ⟨r, h2, h⟩ := Ran.bind_eq_ok.1 h
  cases h
  have a1 : OpAll (Fixed L) op1 := by
    refine exportInputs_all (fun p hp sc hsc => ?_) ⟨by simp, by simp, by simp⟩ h1
    have hp' := hin p hp
    cases hb : BodyInput p with
    | false => exact param_fixed hm L (hp'.type hb) hsc
    | true =>
      obtain ⟨_, _, td, htd, hne, hts⟩ := hp'.body hb
      rw [hts] at hsc
      exact field_fixed hm L (lib := lib) (.named htd hne) hsc
  have a2 : ResponseAll (Fixed L) r :=
    exportOutputs_all (fun p hp sc hsc => field_fixed hm L (hout p hp).type hsc) ⟨by simp, by simp [ContentAll]⟩ h2
  refine ⟨a1.parameters, a1.body, ?_⟩
  exact exportExceptions_all (fun ref => leaf_fixed L rfl rfl rfl rfl rfl rfl) (by
    intro x hx
    rw [List.mem_singleton] at hx
    subst hx
    exact a2)

/-- The paths of an exported document after it was printed and read. -/
theorem samePaths_back (hord : ∀ l, (lib.order l).Perm l) {n k : Nat} {d : ODoc} (hd : exportOasN n lib m = .ok d)
    (hk : ∀ h ∈ s.http, OasActionKept lib s h) (hok : ODocOk L k d) : SamePaths d.paths (odocBack L d).paths := by
  have hsch : m.schema = s := by obtain ⟨_, _, _, rfl⟩ := (newModel_ok_iff s m).1 hm; rfl
  obtain ⟨schemas, paths, _, h2, h3, h4⟩ := exportOas_ok hord hd
  obtain ⟨_, a2, a3, _, a5, _, _⟩ := exportHttp_ok h2
  rw [hsch] at a2 a3 a5
  refine sameMap_back hok.pathKeys fun e he method => ?_
  have hop : (opathBack L e.2).op method = (e.2.op method).map (ooperationBack L) := by cases method <;> rfl
  rw [hop]
  cases ho : e.2.op method with
  | none => exact .none
  | some op =>
    refine .some (sameOperation_back (hok.paths e he method op ho) ?_)
    have hg : mget d.paths e.1 = some e.2 := mget_of_mem hok.pathKeys he
    have hops := h4.ops e.1 method
    have hp : pathOp d.paths e.1 method = some op := by unfold pathOp; rw [hg]; exact ho
    rw [hp] at hops
    dsimp only at hops
    cases hq : pathOp paths e.1 method with
    | none => rw [hq] at hops; cases hops
    | some op0 =>
      rw [hq] at hops
      simp only [Option.map_some, Option.some.injEq] at hops
      rcases a3 _ _ _ hq with h0 | ⟨a, ha, _, _, hexp⟩
      · cases method <;> cases h0
      · rw [← op_bare, hops, op_bare]
        exact exportOp_fixed hm L (hk a ha) hexp

/-- The component schemas of an exported document after it was printed and read. -/
theorem sameSchemas_back (hord : ∀ l, (lib.order l).Perm l) {n : Nat} {d : ODoc} (hd : exportOasN n lib m = .ok d)
    (hk : ∀ td ∈ s.types, td.name ≠ "" ∧ TypeKept lib s td.ts) (he : ∀ td ∈ s.types, td.ts.type = "Enum" → td.ts.elements ≠ []) :
    SameSchemas d.schemas (odocBack L d).schemas := by
  have same : SameSchemas d.schemas d.schemas := ⟨d.schemas, .rfl, List.forall₂_same.2 fun e _ => ⟨rfl, ⟨by cases e.2; rfl, .rfl⟩⟩⟩
  obtain ⟨tds, h1, h2⟩ := exportOas_schemas hm hord hd same
  have settled : ∀ e ∈ d.schemas, SettledSchema L e.2 := by
    intro e hme
    obtain ⟨i, rfl⟩ := List.mem_iff_get.1 hme
    obtain ⟨e1, sc, e2, e3⟩ := h2.get (by rw [h2.length_eq]; exact i.2) i.2
    have htd := h1.mem_iff.1 (List.get_mem tds ⟨i, by rw [h2.length_eq]; exact i.2⟩)
    have hs := type_settled hm L (hk _ htd).2 (he _ htd) e2
    obtain ⟨r1, r2⟩ := e3
    rw [r1]
    refine ⟨hs.enum, hs.oneOf, hs.items, hs.additional, fun p hp => hs.properties p ?_⟩
    exact r2.mem_iff.1 hp
  refine ⟨jSort d.schemas, jSort_perm _, ?_⟩
  show List.Forall₂ _ (jSort d.schemas) (jSort (d.schemas.map fun p => (p.1, oschemaBack L p.2)))
  rw [jSort_map (fun p => oschemaBack L p.2), List.forall₂_map_right_iff, List.forall₂_same]
  intro e hme
  exact ⟨rfl, (settled e ((jSort_perm _).mem_iff.1 hme)).same⟩

end

end Sadl
