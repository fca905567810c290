import Verif.Spec.OpenApiTypes
import Verif.Lemmas.OpenApiRefs
import Mathlib.Data.List.Perm.Basic
import Mathlib.Data.List.Forall2
import Mathlib.Data.List.Nodup
/-
Lemmas for the round trip of types through OpenAPI.
-/
namespace Sadl
open Sadl.Spec

theorem identifier_iff (s : String) : Identifier s ↔ isSymbolText s = true := by
  unfold Identifier isSymbolText
  cases s.toList with
  | nil => simp
  | cons c r =>
    have h1 : isSymbolChar c true = true ↔ (('a' ≤ c ∧ c ≤ 'z') ∨ ('A' ≤ c ∧ c ≤ 'Z')) := by
      simp [isSymbolChar, isLetterCh, isUpperCh, isLowerCh, or_comm]
    have h2 : ∀ x, isSymbolChar x false = true ↔ (('a' ≤ x ∧ x ≤ 'z') ∨ ('A' ≤ x ∧ x ≤ 'Z') ∨ ('0' ≤ x ∧ x ≤ '9') ∨ x = '_') := by
      intro x
      simp only [isSymbolChar, isLetterCh, isUpperCh, isLowerCh, isDigitCh]
      by_cases h : ('A' ≤ x ∧ x ≤ 'Z') <;> by_cases h' : ('a' ≤ x ∧ x ≤ 'z') <;> simp [h, h']
    simp only [List.cons.injEq, Bool.and_eq_true, List.all_eq_true, h1, h2]
    constructor
    · rintro ⟨c', r', ⟨rfl, rfl⟩, h⟩; exact h
    · intro h; exact ⟨c, r, ⟨rfl, rfl⟩, h⟩

theorem toInt64_toUint64 {n : Int} (h : Int64Range n) : toInt64 (toUint64 n) = n := by
  unfold Int64Range at h
  unfold toInt64 toUint64
  split <;> omega

theorem toUint64_pos {n : Int} (h : Int64Range n) (hn : n ≠ 0) : 0 < toUint64 n := by
  unfold Int64Range at h
  unfold toUint64
  omega

theorem oasTypeRef_ref (n : String) (s : OSchema) (h : s.ref = refPrefix ++ n) : oasTypeRef s = n := by
  unfold oasTypeRef
  rw [h]
  have h1 : refPrefix ++ n ≠ "" := by
    intro h
    have := congrArg String.toList h
    simp [refPrefix] at this
  have h2 : hasPrefix (refPrefix ++ n) refPrefix = true := by
    unfold hasPrefix
    rw [String.toList_append]
    simp
  rw [if_neg h1, if_pos h2, String.toList_append, List.drop_left, String.ofList_toList]

theorem oasTypeRef_none (s : OSchema) (h : s.ref = "") : oasTypeRef s = "" := if_pos h

theorem sizes_back {mn mx : Option Int} (h : SizesKept mn mx) (p : String) (vs : Option (List String)) :
    convertString "" p (oasString { minSize := mn }).minLength (mx.map toUint64) { type := "String", values := vs } =
      { type := "String", pattern := p, minSize := mn, maxSize := mx, values := vs } := by
  obtain ⟨h1, h2⟩ := h
  unfold convertString oasString
  cases mn with
  | none =>
    cases mx with
    | none => simp
    | some k => simp [toInt64_toUint64 (h2 k rfl)]
  | some n =>
    obtain ⟨h3, h4⟩ := h1 n rfl
    have := toUint64_pos h3 h4
    cases mx with
    | none => simp [toInt64_toUint64 h3, this]
    | some k => simp [toInt64_toUint64 (h2 k rfl), toInt64_toUint64 h3, this]

theorem enumStrings_map (vs : List String) : enumStrings (vs.map .str) = some vs := by
  induction vs with
  | nil => rfl
  | cons a r ih => simp only [List.map_cons, enumStrings, ih, Option.map_some]

theorem enumStrings_elements (vs : List String) :
    enumStrings ((vs.map fun v => ({ symbol := v } : EnumElementDef)).map fun el => .str el.symbol) = some vs := by
  induction vs with
  | nil => rfl
  | cons a r ih => simp only [List.map_cons, enumStrings, ih, Option.map_some]

theorem map_of_forall₂ {α β : Type} {f : β → α} {xs : List α} {ys : List β} (h : List.Forall₂ (fun x y => f y = x) xs ys) : ys.map f = xs := by
  induction h with
  | nil => rfl
  | cons h _ ih => rw [List.map_cons, h, ih]

/-- What the import makes of a property. -/
def importField (required : List String) (e : String × OSchema) : StructFieldDef :=
  { name := e.1, comment := e.2.description, required := required.contains e.1
    ts := if oasTypeRef e.2 ≠ "" then { type := oasTypeRef e.2 }
      else match convertOas "" e.2 with
        | .ok c => c.ts
        | _ => {} }

/-- The import of the schema yields the type, whatever the name. -/
def Reads (s : OSchema) (t : TypeSpec) : Prop := s.ref = "" ∧ ∀ name, convertOas name s = .ok { ts := t }

/-- The property is read as the field type. -/
def PropReads (s : OSchema) (t : TypeSpec) : Prop :=
  (oasTypeRef s ≠ "" ∧ t = { type := oasTypeRef s }) ∨ Reads s t

theorem importField_ts {required : List String} {e : String × OSchema} {t : TypeSpec} (h : PropReads e.2 t) : (importField required e).ts = t := by
  unfold importField
  rcases h with ⟨h1, rfl⟩ | ⟨h1, h2⟩
  · simp [h1]
  · simp [oasTypeRef_none _ h1, h2]

theorem convertProp_reads (name : String) (required : List String) (e : String × OSchema) {t : TypeSpec} (ht : PropReads e.2 t)
    (fs : List StructFieldDef) (exs : List ExampleDef) :
    convertProp name required { ts := { type := "Struct", fields := fs }, examples := exs } e =
      .ok { ts := { type := "Struct", fields := fs ++ [importField required e] }, examples := exs } := by
  obtain ⟨fname, s⟩ := e
  have hts := importField_ts (required := required) ht
  have he : importField required (fname, s) = { name := fname, comment := s.description, required := required.contains fname, ts := t } := by
    rw [← hts]; rfl
  rw [he]
  rcases ht with ⟨h1, rfl⟩ | ⟨h1, h2⟩
  · simp only [convertProp, ne_eq, h1, not_false_eq_true, if_true]
  · simp only [convertProp, ne_eq, oasTypeRef_none _ h1, not_true_eq_false, if_false, h2, List.append_nil]

theorem convertProps_reads (name : String) (required : List String) (ps : List (String × OSchema)) (h : ∀ e ∈ ps, ∃ t, PropReads e.2 t)
    (fs : List StructFieldDef) (exs : List ExampleDef) :
    convertProps name required { ts := { type := "Struct", fields := fs }, examples := exs } ps =
      .ok { ts := { type := "Struct", fields := fs ++ ps.map (importField required) }, examples := exs } := by
  induction ps generalizing fs with
  | nil => simp [convertProps]
  | cons e rest ih =>
    obtain ⟨t, ht⟩ := h e (by simp)
    simp only [convertProps, convertProp_reads name required e ht]
    rw [ih (fun e he => h e (by simp [he]))]
    simp

theorem oasProps_list {conv : TypeSpec → Ran OSchema} {fs : List StructFieldDef} {acc ps : GoMap OSchema}
    (hn : (fs.map (·.name)).Nodup) (hd : ∀ f ∈ fs, f.name ∉ acc.map Prod.fst) (h : oasProps conv fs acc = .ok ps) :
    ∃ l, ps = acc ++ l ∧ List.Forall₂ (fun f e => e.1 = f.name ∧ conv f.ts = .ok e.2) fs l := by
  induction fs generalizing acc with
  | nil => cases h; exact ⟨[], by simp, .nil⟩
  | cons f rest ih =>
    unfold oasProps at h
    obtain ⟨s, h1, h2⟩ := Ran.bind_eq_ok.1 h
    rw [mset_of_not_mem (hd f (by simp))] at h2
    rw [List.map_cons, List.nodup_cons] at hn
    obtain ⟨l, h3, h4⟩ := ih hn.2 (by
      intro g hg
      simp only [List.map_append, List.map_cons, List.map_nil, List.mem_append, List.mem_singleton, not_or]
      refine ⟨hd g (by simp [hg]), fun he => hn.1 (he ▸ List.mem_map_of_mem hg)⟩) h2
    exact ⟨(f.name, s) :: l, by simp [h3], .cons ⟨rfl, h1⟩ h4⟩

section
variable {s : Schema} {m : Model} (hm : newModel s = .ok m) {lib : OLib}
include hm

theorem item_reads {n : Nat} {items : String} {itd : TypeDef} {sc : OSchema} (hk : ItemKept s items) (hf : m.findType items = some itd)
    (h : oasSchemaN n lib m itd.ts items = .ok sc) :
    (sc.ref ≠ "" ∧ oasTypeRef sc = items) ∨ (sc.ref = "" ∧ ∀ name, ∃ c, convertOas name sc = .ok c ∧ c.err = none ∧ c.ts.type = items ∧ c.examples = []) := by
  cases n with
  | zero => simp [oasSchemaN] at h
  | succ n =>
    obtain ⟨_, hb, _⟩ := (newModel_ok_iff s m).1 hm
    cases hk with
    | base hn =>
      have hbase : items ∈ BaseTypes := by
        simp only [List.mem_cons, List.not_mem_nil, or_false] at hn
        rcases hn with rfl | rfl | rfl | rfl | rfl | rfl <;> decide
      have hi : itd = baseTypeDef items := by
        rcases (newModel_findType_iff hm items itd).1 hf with ⟨h1, h2⟩ | ⟨_, h2⟩
        · exact absurd (h2 ▸ hbase) (hb itd h1)
        · exact h2
      subst hi
      right
      simp only [List.mem_cons, List.not_mem_nil, or_false] at hn
      rcases hn with rfl | rfl | rfl | rfl | rfl | rfl
      all_goals
        cases h
        exact ⟨rfl, fun name => ⟨_, rfl, rfl, rfl, rfl⟩⟩
    | @named td htd ht hne =>
      have hi : itd = td := by
        have := (newModel_findType_iff hm td.name td).2 (.inl ⟨htd, rfl⟩)
        rw [hf] at this
        exact Option.some.inj this
      subst hi
      left
      rw [oasSchemaN_succ] at h
      simp only [List.mem_cons, List.not_mem_nil, or_false] at ht
      have : sc = { ref := refPrefix ++ itd.name } := by
        unfold oasSchemaStep at h
        rcases ht with ht | ht
        · simp [ht, hne] at h; exact h.symm
        · simp [ht] at h; exact h.symm
      subst this
      refine ⟨?_, oasTypeRef_ref _ _ rfl⟩
      intro h
      have := congrArg String.toList h
      simp [refPrefix] at this

theorem items_read {n : Nat} {items : String} {itd : TypeDef} {sc : OSchema} (hk : ItemKept s items) (hf : m.findType items = some itd)
    (h : oasSchemaN n lib m itd.ts items = .ok sc) (name : String) (exs : List ExampleDef) :
    convertItems name exs (some sc) = .ok { ts := { type := "Array", items := items }, examples := exs } := by
  unfold convertItems
  rcases item_reads hm hk hf h with ⟨h1, h2⟩ | ⟨h1, h2⟩
  · simp [h1, h2]
  · obtain ⟨c, k1, k2, k3, k4⟩ := h2 (name ++ ".Items")
    simp [h1, k1, k2, k3, k4]

theorem field_reads {n : Nat} {t : TypeSpec} {sc : OSchema} (hk : FieldKept lib s t) (h : oasSchemaN n lib m t "" = .ok sc) :
    PropReads sc t ∧ sc.description = "" := by
  cases n with
  | zero => simp [oasSchemaN] at h
  | succ n =>
    rw [oasSchemaN_succ] at h
    obtain ⟨_, hb, _⟩ := (newModel_ok_iff s m).1 hm
    cases hk with
    | bool => cases h; exact ⟨.inr ⟨rfl, fun _ => rfl⟩, rfl⟩
    | timestamp => cases h; exact ⟨.inr ⟨rfl, fun _ => rfl⟩, rfl⟩
    | @string p mn mx hs =>
      cases h
      refine ⟨.inr ⟨rfl, fun name => ?_⟩, rfl⟩
      have := sizes_back hs p none
      simp only [convertOas, convertEnum, oasString] at this ⊢
      rw [← this]
      rfl
    | @integer t mn mx ht hb =>
      have hmn : mn.map lib.asFloat64 = mn := by
        cases mn with
        | none => rfl
        | some b => simp [hb.1 b rfl]
      have hmx : mx.map lib.asFloat64 = mx := by
        cases mx with
        | none => rfl
        | some b => simp [hb.2 b rfl]
      simp only [List.mem_cons, List.not_mem_nil, or_false] at ht
      rcases ht with rfl | rfl
      all_goals
        cases h
        refine ⟨.inr ⟨rfl, fun name => ?_⟩, rfl⟩
        simp [convertOas, oasNumeric, oasNumericEquivalent, convertInteger, hmn, hmx]
    | @named td htd hne =>
      have hbn := hb td htd
      have : sc = { ref := refPrefix ++ td.name } := by
        rcases oasStep_cases lib m (oasSchemaN n lib m) { type := td.name } "" with ⟨ht, e⟩ | ⟨ht, e⟩ | ⟨ht, e⟩ | ⟨ht, e⟩ | ⟨ht, e⟩ | ⟨ht, e⟩ |
          ⟨ht, e⟩ | ⟨ht, e⟩ | ⟨ht, hf, e⟩ | ⟨ht, itd', hf, e⟩ | ⟨ht, hf, e⟩ | ⟨ht, itd', hf, e⟩ | ⟨ht, hn', e⟩ | ⟨ht, hn', e⟩ | ⟨ht, ht', e⟩
        all_goals first
          | (rw [e] at h; cases h; rfl)
          | (exfalso; apply hbn; simp only at ht; rw [ht]; decide)
          | (exfalso; apply hbn; simp only [NumTypes, List.mem_cons, List.not_mem_nil, or_false] at ht
             simp only [BaseTypes, List.mem_cons, List.not_mem_nil, or_false]; tauto)
      subst this
      have hr : oasTypeRef { ref := refPrefix ++ td.name } = td.name := oasTypeRef_ref _ _ rfl
      exact ⟨.inl ⟨by rw [hr]; exact hne, by rw [hr]⟩, rfl⟩
    | @array items hi =>
      rcases oasStep_cases lib m (oasSchemaN n lib m) { type := "Array", items := items } "" with ⟨ht, e⟩ | ⟨ht, e⟩ | ⟨ht, e⟩ | ⟨ht, e⟩ | ⟨ht, e⟩ | ⟨ht, e⟩ |
        ⟨ht, e⟩ | ⟨ht, e⟩ | ⟨ht, hf, e⟩ | ⟨ht, itd, hf, e⟩ | ⟨ht, hf, e⟩ | ⟨ht, itd, hf, e⟩ | ⟨ht, hn', e⟩ | ⟨ht, hn', e⟩ | ⟨ht, ht', e⟩
      all_goals first | (exfalso; simp [NumTypes] at ht; done) | (exfalso; simp at ht'; done) | skip
      · rw [e] at h; cases h
      · rw [e] at h
        obtain ⟨si, h1, h2⟩ := Ran.bind_eq_ok.1 h
        cases h2
        refine ⟨.inr ⟨rfl, fun name => ?_⟩, rfl⟩
        simp only [convertOas]
        exact items_read hm hi hf h1 name []

theorem exportTypeDef_string {n : Nat} {td : TypeDef} {sc : OSchema} (h : exportString (oasSchemaN n lib m) td = .ok sc) :
    ∃ k s0, n = k + 1 ∧ oasSchemaStep lib m (oasSchemaN k lib m) td.ts td.name = .ok s0 ∧
      sc = { s0 with description := td.comment
                     enum := match enumOfValues td.ts with
                       | some e => some e
                       | none => s0.enum } := by
  clear hm
  obtain ⟨s0, h1, h2⟩ := Ran.bind_eq_ok.1 h
  cases h2
  cases n with
  | zero => simp [oasSchemaN] at h1
  | succ k => exact ⟨k, s0, rfl, h1, rfl⟩

/-- The import of the schema of a kept type, with or without example, its properties in any order. -/
theorem type_reads {n : Nat} {td : TypeDef} {sc sc' : OSchema} (hk : TypeKept lib s td.ts) (h : exportTypeDefN n lib m td = .ok sc)
    (hsame : SameSchema sc sc') :
    sc'.ref = "" ∧ (td.ts.type ∉ ["Int32", "Int64", "Decimal"] → sc'.description = td.comment) ∧
    ∀ name, ∃ c, convertOas name sc' = .ok c ∧ c.err = none ∧ SameType td.ts c.ts := by
  obtain ⟨hrest, hprops⟩ := hsame
  generalize hex : sc'.example = ex at hrest
  generalize hps : sc'.properties = ps at hrest hprops
  have same : ∀ t : TypeSpec, SameType t t := fun t => ⟨.refl _, by cases t; rfl⟩
  unfold exportTypeDefN at h
  obtain ⟨tname, comment, annos, ts⟩ := td
  subst hrest
  dsimp only at hk h ⊢
  cases hk with
  | bool =>
    cases h
    exact ⟨rfl, fun _ => rfl, fun name => ⟨_, rfl, rfl, same _⟩⟩
  | timestamp =>
    obtain ⟨s1, h1, h2⟩ := Ran.bind_eq_ok.1 h
    cases h2
    obtain ⟨k, s0, rfl, h3, rfl⟩ := exportTypeDef_string hm h1
    cases h3
    exact ⟨rfl, fun _ => rfl, fun name => ⟨_, rfl, rfl, same _⟩⟩
  | uuid =>
    obtain ⟨s1, h1, h2⟩ := Ran.bind_eq_ok.1 h
    cases h2
    obtain ⟨k, s0, rfl, h3, rfl⟩ := exportTypeDef_string hm h1
    cases h3
    exact ⟨rfl, fun _ => rfl, fun name => ⟨_, rfl, rfl, same _⟩⟩
  | @string p mn mx hs =>
    obtain ⟨k, s0, rfl, h3, rfl⟩ := exportTypeDef_string hm h
    cases h3
    refine ⟨rfl, fun _ => rfl, fun name => ⟨_, rfl, rfl, ?_⟩⟩
    have := sizes_back hs p none
    have e : ∀ t, t = ({ type := "String", pattern := p, minSize := mn, maxSize := mx } : TypeSpec) →
      SameType { type := "String", pattern := p, minSize := mn, maxSize := mx } t := by rintro t rfl; exact same _
    exact e _ this
  | @values p mn mx vs hs hv =>
    obtain ⟨k, s0, rfl, h3, rfl⟩ := exportTypeDef_string hm h
    cases h3
    obtain ⟨v, hv1, hv2⟩ := hv
    rw [identifier_iff] at hv2
    have hne : vs ≠ [] := by rintro rfl; simp at hv1
    have hen : enumOfValues { type := "String", pattern := p, minSize := mn, maxSize := mx, values := some vs } = some (vs.map .str) := by
      cases vs with
      | nil => exact absurd rfl hne
      | cons a r => rfl
    have hes := enumStrings_map vs
    have hall : vs.all isSymbolText = false := by
      rw [List.all_eq_false]
      exact ⟨v, hv1, hv2⟩
    have hce : convertEnum (some (vs.map .str)) = some { type := "String", values := some vs } := by
      simp [convertEnum, hes, hall, nilIfEmpty, hne]
    refine ⟨rfl, fun _ => rfl, fun name => ?_⟩
    have := sizes_back hs p (some vs)
    simp only [hen]
    refine ⟨_, by simp only [convertOas, oasString, hce]; rfl, rfl, ?_⟩
    have e : ∀ t, t = ({ type := "String", pattern := p, minSize := mn, maxSize := mx, values := some vs } : TypeSpec) →
      SameType { type := "String", pattern := p, minSize := mn, maxSize := mx, values := some vs } t := by rintro t rfl; exact same _
    exact e _ this
  | @enum symbols hsym =>
    cases h
    have hes := enumStrings_elements symbols
    have hall : symbols.all isSymbolText = true := by
      rw [List.all_eq_true]
      exact fun v hv => (identifier_iff v).1 (hsym v hv)
    have hce : convertEnum (some ((symbols.map fun v => ({ symbol := v } : EnumElementDef)).map fun el => .str el.symbol)) =
        some { type := "Enum", elements := symbols.map fun v => { symbol := v } } := by
      simp only [convertEnum, hes, hall, if_true]
    refine ⟨rfl, fun _ => rfl, fun name => ?_⟩
    exact ⟨_, by simp only [convertOas, exportEnum, hce]; rfl, rfl, same _⟩
  | @number t mn mx ht hb =>
    have hmn : mn.map lib.asFloat64 = mn := by
      cases mn with
      | none => rfl
      | some b => simp [hb.1 b rfl]
    have hmx : mx.map lib.asFloat64 = mx := by
      cases mx with
      | none => rfl
      | some b => simp [hb.2 b rfl]
    refine ⟨?_, fun hc => absurd ht hc, fun name => ?_⟩
    · simp only [List.mem_cons, List.not_mem_nil, or_false] at ht
      rcases ht with rfl | rfl | rfl <;> cases h <;> rfl
    · simp only [List.mem_cons, List.not_mem_nil, or_false] at ht
      rcases ht with rfl | rfl | rfl
      all_goals
        cases h
        refine ⟨_, by simp only [convertOas, oasNumeric, oasNumericEquivalent]; rfl, rfl, ?_⟩
        simp only [hmn, hmx]
        exact same _
  | @array items hi =>
    have h : exportArray m (oasSchemaN n lib m) { name := tname, comment := comment, annotations := annos, ts := { type := "Array", items := items } } = .ok sc := h
    unfold exportArray at h
    dsimp only at h
    split at h
    · cases h
    · next itd hf =>
      obtain ⟨si, h1, h2⟩ := Ran.bind_eq_ok.1 h
      cases h2
      refine ⟨rfl, fun _ => rfl, fun name => ?_⟩
      exact ⟨_, by simp only [convertOas]; exact items_read hm hi hf h1 name _, rfl, same _⟩
  | @struct fields hn hf =>
    have h : exportStruct (oasSchemaN n lib m) { name := tname, comment := comment, annotations := annos, ts := { type := "Struct", fields := fields } } = .ok sc := h
    unfold exportStruct at h
    obtain ⟨props, h1, h2⟩ := Ran.bind_eq_ok.1 h
    cases h2
    obtain ⟨l, hl0, h3⟩ := oasProps_list hn (by simp) h1
    rw [List.nil_append] at hl0
    subst hl0
    have h6 : (ps.getD []).Perm props := hprops
    generalize hps2 : ps.getD [] = ps2 at h6
    refine ⟨rfl, fun _ => rfl, fun name => ?_⟩
    let req := (fields.filter (·.required)).map (·.name)
    have hreq : ∀ f ∈ fields, req.contains f.name = f.required := by
      intro f hfm
      rw [Bool.eq_iff_iff, List.contains_iff_mem]
      simp only [req, List.mem_map, List.mem_filter]
      constructor
      · rintro ⟨g, ⟨hg1, hg2⟩, hg3⟩
        rw [List.inj_on_of_nodup_map hn hg1 hfm hg3] at hg2
        exact hg2
      · intro hr; exact ⟨f, ⟨hfm, hr⟩, rfl⟩
    have hback : List.Forall₂ (fun f e => importField req e = f ∧ ∃ t, PropReads e.2 t) fields props := by
      refine List.forall₂_iff_get.2 ⟨h3.length_eq, fun i hi hi' => ?_⟩
      obtain ⟨e1, e2⟩ := h3.get hi hi'
      have hmem : fields.get ⟨i, hi⟩ ∈ fields := List.get_mem _ _
      obtain ⟨f1, f2, f3, f4⟩ := hf _ hmem
      obtain ⟨r1, r2⟩ := field_reads hm f4 e2
      refine ⟨?_, _, r1⟩
      have t1 := importField_ts (required := req) r1
      have : importField req (props.get ⟨i, hi'⟩) = { name := (props.get ⟨i, hi'⟩).1, comment := (props.get ⟨i, hi'⟩).2.description, required := req.contains (props.get ⟨i, hi'⟩).1, ts := (importField req (props.get ⟨i, hi'⟩)).ts } := rfl
      rw [this, t1, r2, e1, hreq _ hmem]
      generalize fields.get ⟨i, hi⟩ = f at f1 f2 f3
      cases f
      simp_all
    have hl : props.map (importField req) = fields := map_of_forall₂ (hback.imp fun _ _ h => h.1)
    have hall : ∀ e ∈ ps2, ∃ t, PropReads e.2 t := by
      intro e he
      have he' : e ∈ props := h6.mem_iff.1 he
      obtain ⟨i, rfl⟩ := List.mem_iff_get.1 he'
      exact (hback.get (by rw [hback.length_eq]; exact i.2) i.2).2
    have hcp : ∀ acc, convertProperties name req acc ps = convertProps name req acc ps2 := by
      intro acc
      rw [← hps2]
      cases ps with
      | none => simp [convertProperties, convertProps]
      | some p => simp [convertProperties]
    refine ⟨_, by simp only [convertOas]; exact (hcp _).trans (convertProps_reads name req ps2 hall [] _), rfl, ?_, rfl⟩
    simp only [List.nil_append]
    rw [← hl]
    exact h6.map _

theorem exportTypes_list {n : Nat} {tds : List TypeDef} {acc schemas : GoMap OSchema}
    (hn : (tds.map (·.name)).Nodup) (hd : ∀ td ∈ tds, td.name ∉ acc.map Prod.fst) (h : exportTypesN n lib m tds acc = .ok schemas) :
    ∃ l, schemas = acc ++ l ∧ List.Forall₂ (fun td e => e.1 = td.name ∧ exportTypeDefN n lib m td = .ok e.2) tds l := by
  clear hm
  induction tds generalizing acc with
  | nil => cases h; exact ⟨[], by simp, .nil⟩
  | cons f rest ih =>
    unfold exportTypesN at h
    obtain ⟨s, h1, h2⟩ := Ran.bind_eq_ok.1 h
    rw [mset_of_not_mem (hd f (by simp))] at h2
    rw [List.map_cons, List.nodup_cons] at hn
    obtain ⟨l, h3, h4⟩ := ih hn.2 (by
      intro g hg
      simp only [List.map_append, List.map_cons, List.map_nil, List.mem_append, List.mem_singleton, not_or]
      refine ⟨hd g (by simp [hg]), fun he => hn.1 (he ▸ List.mem_map_of_mem hg)⟩) h2
    exact ⟨(f.name, s) :: l, by simp [h3], .cons ⟨rfl, h1⟩ h4⟩

/-- The components, as a shuffled list of the types. -/
theorem exportOas_schemas (hord : ∀ l, (lib.order l).Perm l) {n : Nat} {d : ODoc} (h : exportOasN n lib m = .ok d)
    {l : GoMap OSchema} (hl : SameSchemas d.schemas l) :
    ∃ tds : List TypeDef, tds.Perm s.types ∧
      List.Forall₂ (fun td e => e.1 = td.name ∧ ∃ sc, exportTypeDefN n lib m td = .ok sc ∧ SameSchema sc e.2) tds l := by
  have hsch : m.schema = s := by obtain ⟨_, _, _, rfl⟩ := (newModel_ok_iff s m).1 hm; rfl
  obtain ⟨hnd, _, _⟩ := (newModel_ok_iff s m).1 hm
  obtain ⟨schemas, paths, h1, _, _, h4⟩ := exportOas_ok hord h
  rw [hsch] at h1
  obtain ⟨l0, h5, h6⟩ := exportTypes_list hm hnd (by simp) h1
  rw [List.nil_append] at h5
  subst h5
  obtain ⟨l1, h7, h8⟩ := hl
  have h9 : List.Forall₂ (fun (e e' : String × OSchema) => e'.1 = e.1 ∧ e'.2.bare = e.2.bare) schemas d.schemas := by
    have := h4.schemas
    dsimp only at this
    have h10 : List.Forall₂ (fun e e' : String × OSchema => (e'.1, e'.2.bare) = (e.1, e.2.bare)) schemas d.schemas := by
      rw [← List.forall₂_map_left_iff (f := fun e : String × OSchema => (e.1, e.2.bare)) (R := fun x (e' : String × OSchema) => (e'.1, e'.2.bare) = x),
        ← List.forall₂_map_right_iff (f := fun e : String × OSchema => (e.1, e.2.bare)) (R := fun x y => y = x), this]
      exact List.forall₂_refl _
    exact h10.imp fun a b h => Prod.mk.inj h
  have h11 : List.Forall₂ (fun td (e : String × OSchema) => e.1 = td.name ∧ ∃ sc, exportTypeDefN n lib m td = .ok sc ∧ e.2.bare = sc.bare) s.types d.schemas := by
    have : ∀ {xs : List TypeDef} {ys zs : GoMap OSchema},
        List.Forall₂ (fun td e => e.1 = td.name ∧ exportTypeDefN n lib m td = .ok e.2) xs ys →
        List.Forall₂ (fun (e e' : String × OSchema) => e'.1 = e.1 ∧ e'.2.bare = e.2.bare) ys zs →
        List.Forall₂ (fun td (e : String × OSchema) => e.1 = td.name ∧ ∃ sc, exportTypeDefN n lib m td = .ok sc ∧ e.2.bare = sc.bare) xs zs := by
      intro xs ys zs h1 h2
      induction h1 generalizing zs with
      | nil => cases h2; exact .nil
      | cons a _ ih =>
        cases h2 with
        | cons b c => exact .cons ⟨b.1.trans a.1, _, a.2, b.2⟩ (ih c)
    exact this h6 h9
  have h12 : Relation.Comp List.Perm (List.Forall₂ (fun td (e : String × OSchema) => e.1 = td.name ∧ ∃ sc, exportTypeDefN n lib m td = .ok sc ∧ e.2.bare = sc.bare)) s.types l1 := by
    rw [← List.forall₂_comp_perm_eq_perm_comp_forall₂]
    exact ⟨d.schemas, h11, h7.symm⟩
  obtain ⟨tds, h13, h14⟩ := h12
  refine ⟨tds, h13.symm, ?_⟩
  have same : ∀ {sc s1 s2 : OSchema}, s1.bare = sc.bare → SameSchema s1 s2 → SameSchema sc s2 := by
    intro sc s1 s2 hb hs
    obtain ⟨r1, r2⟩ := hs
    have hp : s1.properties = sc.properties := by
      have := congrArg OSchema.properties hb
      exact this
    refine ⟨?_, by rw [← hp]; exact r2⟩
    rw [r1]
    cases s1; cases sc
    simp only [OSchema.bare, OSchema.mk.injEq] at hb
    obtain ⟨rfl, rfl, rfl, rfl, rfl, _, rfl, rfl, rfl, rfl, rfl, rfl, rfl, rfl, rfl, rfl⟩ := hb
    rfl
  clear h7 h11 h13 h9 h6
  induction h14 generalizing l with
  | nil => cases h8; exact .nil
  | cons a _ ih =>
    cases h8 with
    | cons b c =>
      obtain ⟨a1, sc, a2, a3⟩ := a
      exact .cons ⟨b.1.trans a1, sc, a2, same a3 b.2⟩ (ih c)

theorem importTypes_ok {n : Nat} (hkept : ∀ td ∈ s.types, td.name ≠ "" ∧ TypeKept lib s td.ts) (all : GoMap OSchema)
    {tds : List TypeDef} {l : GoMap OSchema} (hsub : ∀ td ∈ tds, td ∈ s.types)
    (h : List.Forall₂ (fun td e => e.1 = td.name ∧ ∃ sc, exportTypeDefN n lib m td = .ok sc ∧ SameSchema sc e.2) tds l) :
    ∃ tds' exs, importTypes all l = .ok (tds', exs) ∧ List.Forall₂ SameDef tds tds' := by
  obtain ⟨_, hb, _⟩ := (newModel_ok_iff s m).1 hm
  induction h with
  | nil => exact ⟨[], [], rfl, .nil⟩
  | @cons td e rest restl a _ ih =>
    obtain ⟨ename, esc⟩ := e
    obtain ⟨a1, sc, a2, a3⟩ := a
    dsimp only at a1 a3
    subst a1
    have htd := hsub td (by simp)
    obtain ⟨k1, k2⟩ := hkept td htd
    obtain ⟨r1, r2, r3⟩ := type_reads hm k2 a2 a3
    obtain ⟨c, c1, c2, c3⟩ := r3 td.name
    obtain ⟨tds', exs, i1, i2⟩ := ih (fun x hx => hsub x (by simp [hx]))
    have hv : validSadlName td.name esc = td.name := by
      have b := hb td htd
      unfold validSadlName
      have n1 : td.name ≠ "Timestamp" := by intro h; rw [h] at b; exact b (by decide)
      have n2 : td.name ≠ "Decimal" := by intro h; rw [h] at b; exact b (by decide)
      simp [n1, n2]
    refine ⟨{ name := td.name, comment := esc.description, ts := c.ts } :: tds', c.examples ++ exs, ?_, .cons ⟨rfl, r2, c3⟩ i2⟩
    unfold importTypes
    simp only [hv, k1, if_false, oasTypeRef_none _ r1, ne_eq, not_true_eq_false, c1, Out.bind, c2, i1]
end

end Sadl
