import Verif.Lemmas.Swagger
import Verif.Lemmas.OpenApiTypes
import Verif.Lemmas.OpenApiActions
import Verif.Lemmas.Trace
/-
The types that the import makes of the schemas of a Swagger document.
-/
namespace Sadl
open Spec

theorem textAt_eq (v : Value) (k : String) : textAt v k = getString v k := by
  unfold textAt getString
  rw [dataGet_one]
  cases v <;> simp only [asMap, asString]
  rename_i kvs
  cases h : mget kvs k with
  | none => rfl
  | some w => cases w <;> rfl

theorem textOr_iff {v : Value} {k s : String} : textAt v k = s ↔ getString v k = s := by rw [textAt_eq]

theorem replaceFrom_none (c : Char) (pat val a : List Char) (h : c ∉ a) : replaceFrom (c :: pat) val 0 a = a := by
  induction a with
  | nil => rfl
  | cons x r ih =>
    simp only [List.mem_cons, not_or] at h
    rw [replaceFrom, if_neg (by simp [List.isPrefixOf, h.1]), ih h.2]

theorem replaceAll_prefix (c : Char) (pat val a : List Char) (h : c ∉ a) :
    replaceAll (c :: pat) val ((c :: pat) ++ a) = val ++ a := by
  unfold replaceAll
  rw [List.cons_append, replaceFrom, if_pos (by rw [List.isPrefixOf_iff_prefix]; exact ⟨a, by simp⟩)]
  simp only [List.length_cons, Nat.add_sub_cancel]
  rw [replaceFrom_skip, replaceFrom_none c pat val a h]

theorem v3Ref_definition (n : String) (h : '#' ∉ n.toList) : v3Ref ("#/definitions/" ++ n) = "#/components/schemas/" ++ n := by
  unfold v3Ref
  rw [String.toList_append]
  have := replaceAll_prefix '#' "/definitions/".toList "#/components/schemas/".toList n.toList h
  rw [show "#/definitions/".toList = '#' :: "/definitions/".toList from by decide, this]
  apply String.toList_injective
  simp

theorem oasTypeRef_definition (s : OSchema) (n : String) (h : s.ref = "#/components/schemas/" ++ n) : oasTypeRef s = n := by
  unfold oasTypeRef
  have h1 : s.ref ≠ "" := by
    rw [h]; intro he
    have := congrArg String.toList he
    simp at this
  have h2 : hasPrefix s.ref refPrefix = true := by
    rw [h]; simp [hasPrefix, refPrefix, List.isPrefixOf_iff_prefix]
  rw [if_neg h1, if_pos h2, h]
  apply String.toList_injective
  simp [refPrefix]

theorem not_str_of_text {v : Value} {k s : String} (h : Text v k s) : ∀ t, v ≠ .str t := by
  rintro t rfl
  rcases h with ⟨_, h, _⟩ | ⟨_, h, _⟩ <;> cases h

/-- A reference is converted to a reference. -/
theorem refersTo_v3 (wild : Int) {v : Value} {n : String} (h : RefersTo v n) :
    ∃ s, toV3Schema wild v = .ok s ∧ s.ref = "#/components/schemas/" ++ n ∧ s.type = "" ∧ s.description = getString v "description" := by
  obtain ⟨hl, ht, hn, hh⟩ := h
  have hty : getString v "type" = "" := by simp [getString, (lacks_iff v "type").mp hl, asString]
  rw [toV3Schema_eq wild v (not_str_of_text ht)]
  have hhas : dataHas v ["$ref"] = true := (dataHas_iff v "$ref").mpr (by rcases ht with h | h <;> exact ⟨_, h⟩)
  refine ⟨{ description := getString v "description", type := "", required := dataGetStringArray v ["required"]
            ref := v3Ref (getString v "$ref") }, ?_, ?_, rfl, rfl⟩
  · simp only [hty, String.reduceEq, if_false, v3Simple, or_self, hhas, if_true]
  · simp only [getString_of_text ht]; exact v3Ref_definition n hh

theorem truncInt_whole {f : BigFloat} {n : Nat} (wild : Int) (h : IsWhole f n) (hn : n < 2 ^ 63) : truncInt wild f = n := by
  obtain ⟨m, e, rfl, h⟩ := h
  unfold truncInt
  by_cases he : 0 ≤ e
  · rw [if_pos he] at h
    simp only [he, if_true, h]
    rw [if_pos (by omega)]
  · rw [if_neg he] at h
    simp only [he, if_false]
    have : m.tdiv (2 ^ (-e).toNat) = n := by
      rw [h]; exact Int.mul_tdiv_cancel _ (by positivity)
    rw [this, if_pos (by omega)]

theorem size_v3 (wild : Int) {v : Value} {k : String} {n : Option Nat} (h : SizeIs v k n) :
    (if dataHas v [k] then some (toUint64 (asInt64 wild (dataGet v [k]))) else none) = n ∧ ∀ x ∈ n, x < 2 ^ 63 := by
  cases n with
  | none =>
    have : dataHas v [k] = false := by simp [dataHas, (lacks_iff v k).mp h]
    simp [this]
  | some n =>
    obtain ⟨hn, f, hm, hw⟩ := h
    have h1 : dataHas v [k] = true := (dataHas_iff v k).mpr ⟨_, hm⟩
    have h2 := ((member_iff _ _ _).mp hm).1
    simp only [h1, if_true, h2, asInt64, truncInt_whole wild hw hn]
    refine ⟨?_, by simpa using hn⟩
    unfold toUint64
    congr 1
    omega

theorem sizes_read {wild : Int} {v : Value} {min max : Option Nat} (h1 : SizeIs v "minLength" min) (h2 : SizeIs v "maxLength" max)
    (f pattern : String) (hf : f ∉ ["uuid", "date-time"]) (vs : Option (List String)) :
    convertString f pattern (if dataHas v ["minLength"] then toUint64 (asInt64 wild (dataGet v ["minLength"])) else 0)
      (if dataHas v ["maxLength"] then some (toUint64 (asInt64 wild (dataGet v ["maxLength"]))) else none)
      { type := "String", values := vs } =
    { type := "String", pattern := pattern, values := vs
      minSize := (min.filter (· ≠ 0)).map Int.ofNat, maxSize := max.map Int.ofNat } := by
  obtain ⟨e1, b1⟩ := size_v3 wild h1
  obtain ⟨e2, b2⟩ := size_v3 wild h2
  have e1' : (if dataHas v ["minLength"] then toUint64 (asInt64 wild (dataGet v ["minLength"])) else 0) = min.getD 0 := by
    rw [← e1]; split <;> rfl
  rw [e1', e2]
  simp only [List.mem_cons, List.not_mem_nil, or_false, not_or] at hf
  unfold convertString
  simp only [if_true, hf.1, hf.2, if_false]
  have hto : ∀ n < 2 ^ 63, toInt64 n = Int.ofNat n := by
    intro n hn; unfold toInt64; rw [if_pos hn]; rfl
  congr 1
  · cases min with
    | none => rfl
    | some n =>
      have := b1 n rfl
      by_cases hz : n = 0
      · subst hz; rfl
      · simp [Option.filter, hz, Nat.pos_of_ne_zero hz, hto n this]
  · cases max with
    | none => rfl
    | some n => simp [hto n (b2 n rfl)]

theorem noLimits_v3 {v : Value} (h : NoLimits v) : dataHas v ["min"] = false ∧ dataHas v ["max"] = false := by
  have h1 := (lacks_iff v "min").mp (h "min" (by simp))
  have h2 := (lacks_iff v "max").mp (h "max" (by simp))
  simp [dataHas, h1, h2]

theorem required_v3 {v : Value} {n : String} (hn : n ≠ "") : (dataGetStringArray v ["required"]).contains n = true ↔ RequiredIn v n := by
  rw [List.contains_iff_mem]
  have : dataGetStringArray v ["required"] = (getArray v "required").map asString := rfl
  rw [this, List.mem_map]
  unfold RequiredIn
  constructor
  · rintro ⟨w, hw, he⟩
    refine ⟨w, (getArray_element _ _ _).mp hw, ?_⟩
    cases w <;> simp [asString] at he <;> first | exact absurd he hn | simp [he]
  · rintro ⟨w, hw, he⟩
    refine ⟨w, (getArray_element _ _ _).mpr hw, ?_⟩
    rcases he with rfl | rfl <;> rfl

theorem enumArray {v : Value} {xs : List String} (h : Member v "enum" (.arr (xs.map .str))) :
    dataGetStringArray v ["enum"] = xs := by
  unfold dataGetStringArray
  rw [((member_iff _ _ _).mp h).1]
  simp [asArray, Function.comp_def, asString]

theorem v3Enum_of {v : Value} {xs : List String} (hne : xs ≠ []) (h : Member v "enum" (.arr (xs.map .str))) :
    v3Enum v = some (xs.map .str) := by
  unfold v3Enum
  rw [enumArray h]
  cases xs with
  | nil => exact absurd rfl hne
  | cons a r => rfl

/-- The schema is converted, first to OpenAPI 3 and then to the type. -/
def Gives (wild : Int) (v : Value) (ts : TypeSpec) : Prop :=
  ∃ s, toV3Schema wild v = .ok s ∧ s.ref = "" ∧ s.description = getString v "description" ∧
    ∀ name, convertOas name s = .ok { ts := ts }

/-- The property is converted to a field type. -/
def GivesField (wild : Int) (v : Value) (ts : TypeSpec) : Prop :=
  (∃ n s, toV3Schema wild v = .ok s ∧ oasTypeRef s = n ∧ n ≠ "" ∧ s.description = getString v "description" ∧ ts = { type := n }) ∨
  Gives wild v ts

/-- The properties are converted to fields. -/
def GivesFields (wild : Int) (v : Value) (ps : List (String × Value)) (fields : List StructFieldDef) : Prop :=
  ∃ ss, v3Properties wild ps = .ok ss ∧ ∀ name acc, acc.err = none →
    convertProps name (dataGetStringArray v ["required"]) acc ss =
      .ok { acc with ts := { acc.ts with fields := acc.ts.fields ++ fields } }

theorem gives_string {wild : Int} {v : Value} {f pattern : String} {ts : TypeSpec} (ht : Text v "type" "string")
    (hf : getString v "format" = f) (hp : getString v "pattern" = pattern)
    (h : ∃ t0, convertEnum (if dataHas v ["enum"] then v3Enum v else none) = some t0 ∧
      convertString f pattern (if dataHas v ["minLength"] then toUint64 (asInt64 wild (dataGet v ["minLength"])) else 0)
        (if dataHas v ["maxLength"] then some (toUint64 (asInt64 wild (dataGet v ["maxLength"]))) else none) t0 = ts) :
    Gives wild v ts := by
  obtain ⟨t0, h0, h1⟩ := h
  unfold Gives
  rw [toV3Schema_eq wild v (not_str_of_text ht)]
  have hty := getString_of_text ht
  refine ⟨_, by simp only [hty, String.reduceEq, if_false, v3Simple, if_true]; rfl, rfl, rfl, fun name => ?_⟩
  simp only [convertOas, String.reduceEq, if_false, if_true]
  rw [h0]
  simp only [hf, hp]
  rw [h1]

mutual
theorem means_gives (wild : Int) : ∀ {v : Value} {ts : TypeSpec}, Means v ts → Gives wild v ts
  | v, _, .boolean ht => by
    unfold Gives
    rw [toV3Schema_eq wild v (not_str_of_text ht)]
    have hty := getString_of_text ht
    refine ⟨_, by simp only [hty, String.reduceEq, if_false, v3Simple, if_true, or_self]; rfl, rfl, rfl, fun name => ?_⟩
    simp [convertOas]
  | v, _, .number ht hl => by
    unfold Gives
    rw [toV3Schema_eq wild v (not_str_of_text ht)]
    have hty := getString_of_text ht
    obtain ⟨h1, h2⟩ := noLimits_v3 hl
    refine ⟨_, by simp only [hty, String.reduceEq, if_false, v3Simple, if_true, or_true, h1, h2, Bool.false_eq_true]; rfl, rfl, rfl, fun name => ?_⟩
    simp [convertOas]
  | v, _, .integer (f := f) (t := t) ht hl hf hm => by
    unfold Gives
    rw [toV3Schema_eq wild v (not_str_of_text ht)]
    have hty := getString_of_text ht
    obtain ⟨h1, h2⟩ := noLimits_v3 hl
    have hfo := textOr_iff.mp hf
    refine ⟨_, by simp only [hty, String.reduceEq, if_false, v3Simple, if_true, true_or, h1, h2, Bool.false_eq_true]; rfl, rfl, rfl, fun name => ?_⟩
    simp only [convertOas, String.reduceEq, if_false, if_true, hfo]
    simp only [List.mem_cons, Prod.mk.injEq, List.not_mem_nil, or_false] at hm
    rcases hm with ⟨rfl, rfl⟩ | ⟨rfl, rfl⟩ | ⟨rfl, rfl⟩ | ⟨rfl, rfl⟩ | ⟨rfl, rfl⟩ <;> rfl
  | v, _, .format (f := f) (t := t) ht hf hm he => by
    refine gives_string ht (getString_of_text hf) rfl ⟨{ type := "String" }, ?_, ?_⟩
    · simp [dataHas, (lacks_iff v "enum").mp he, convertEnum]
    · simp only [List.mem_cons, Prod.mk.injEq, List.not_mem_nil, or_false] at hm
      rcases hm with ⟨rfl, rfl⟩ | ⟨rfl, rfl⟩ <;> simp [convertString]
  | v, _, .string (f := f) ht hf hm he hp h1 h2 => by
    refine gives_string ht (textOr_iff.mp hf) (textOr_iff.mp hp) ⟨{ type := "String" }, ?_, sizes_read h1 h2 f _ hm none⟩
    simp [dataHas, (lacks_iff v "enum").mp he, convertEnum]
  | v, _, .enum (symbols := symbols) ht hne he hs => by
    refine gives_string ht rfl rfl ⟨{ type := "Enum", elements := symbols.map fun s => { symbol := s } }, ?_, ?_⟩
    · rw [if_pos ((dataHas_iff v "enum").mpr ⟨_, he⟩), v3Enum_of hne he]
      have hall : symbols.all isSymbolText = true := by
        rw [List.all_eq_true]
        exact fun v hv => (identifier_iff v).1 (hs v hv)
      simp only [convertEnum, enumStrings_map, hall, if_true]
    · simp [convertString]
  | v, _, .values (f := f) (texts := texts) ht hf hm he hs hp h1 h2 => by
    obtain ⟨s, hs1, hs2⟩ := hs
    have hne : texts ≠ [] := by rintro rfl; simp at hs1
    refine gives_string ht (textOr_iff.mp hf) (textOr_iff.mp hp) ⟨{ type := "String", values := some texts }, ?_, sizes_read h1 h2 f _ hm _⟩
    rw [if_pos ((dataHas_iff v "enum").mpr ⟨_, he⟩), v3Enum_of hne he]
    have hall : texts.all isSymbolText = false := by
      rw [List.all_eq_false]
      exact ⟨s, hs1, by rwa [identifier_iff] at hs2⟩
    simp [convertEnum, enumStrings_map, hall, nilIfEmpty, hne]
  | v, _, .arrayRef (t := t) ht hi hr => by
    unfold Gives
    rw [toV3Schema_eq wild v (not_str_of_text ht)]
    have hty := getString_of_text ht
    have hit := ((member_iff _ _ _).mp hi).1
    obtain ⟨si, hsi, href, -, -⟩ := refersTo_v3 wild hr
    refine ⟨_, by simp only [hty, String.reduceEq, if_false, if_true, hit, hsi, Out.bind]; rfl, rfl, rfl, fun name => ?_⟩
    simp only [v3Base, hty, convertOas, String.reduceEq, if_false, if_true, convertItems]
    have h1 : si.ref ≠ "" := by
      rw [href]; intro he
      have := congrArg String.toList he
      simp at this
    rw [if_pos h1, oasTypeRef_definition si t href]
  | v, _, .array (t := t) ht hi hw => by
    obtain ⟨si, hsi, href, -, hc⟩ := means_gives wild hw
    unfold Gives
    rw [toV3Schema_eq wild v (not_str_of_text ht)]
    have hty := getString_of_text ht
    have hit := ((member_iff _ _ _).mp hi).1
    refine ⟨_, by simp only [hty, String.reduceEq, if_false, if_true, hit, hsi, Out.bind]; rfl, rfl, rfl, fun name => ?_⟩
    simp only [v3Base, hty, convertOas, String.reduceEq, if_false, if_true, convertItems, href, ne_eq, not_true_eq_false]
    rw [hc (name ++ ".Items")]
    simp
  | v, _, .object ht hl he => by
    unfold Gives
    rw [toV3Schema_eq wild v (not_str_of_text ht)]
    have hty := getString_of_text ht
    have hp : getMap v "properties" = [] := by simp [getMap, (lacks_iff v "properties").mp hl, asMap]
    refine ⟨_, by simp only [hty, if_true, hp, v3Properties, Out.bind]; rfl, rfl, rfl, fun name => ?_⟩
    subst he
    simp [v3Base, hty, convertOas, convertProperties, convertProps]
  | v, _, .properties (ps := ps) ht hm hf => by
    obtain ⟨ss, hss, hc⟩ := meansFields_gives wild hf
    unfold Gives
    rw [toV3Schema_eq wild v (not_str_of_text ht)]
    have hty := getString_of_text ht
    have hp : getMap v "properties" = ps := by simp [getMap, ((member_iff _ _ _).mp hm).1, asMap]
    refine ⟨_, by simp only [hty, if_true, hp, hss, Out.bind]; rfl, rfl, rfl, fun name => ?_⟩
    simp only [v3Base, hty, convertOas, String.reduceEq, if_false, or_true, if_true, convertProperties]
    rw [hc name _ rfl]
    simp

theorem meansFields_gives (wild : Int) : ∀ {v : Value} {ps : List (String × Value)} {fields : List StructFieldDef},
    MeansFields v ps fields → GivesFields wild v ps fields
  | v, _, _, .nil => ⟨[], rfl, fun name acc _ => by
      obtain ⟨ts, _, _⟩ := acc
      cases ts
      simp only [convertProps, List.append_nil]⟩
  | v, _, _, .cons (n := n) (w := w) (f := f) hn hfn hc hr hd ha hw hrest => by
    obtain ⟨ss, hss, hcs⟩ := meansFields_gives wild hrest
    have hcom := textOr_iff.mp hc
    have hreq : (dataGetStringArray v ["required"]).contains n = f.required := by
      rw [Bool.eq_iff_iff, required_v3 hn, hr]
    have hf : f = { name := n, comment := getString w "description", required := (dataGetStringArray v ["required"]).contains n, ts := f.ts } := by
      rw [hreq, hcom, ← hfn, ← hd, ← ha]
      cases f; rfl
    rcases meansField_gives wild hw with ⟨t, s, hs, href, hne, hdesc, hts⟩ | ⟨s, hs, href, hdesc, hconv⟩
    · refine ⟨(n, s) :: ss, by rw [v3Properties, v3Member, hs, hss]; rfl, fun name acc hacc => ?_⟩
      rw [convertProps, convertProp, href, if_pos hne]
      simp only
      rw [hcs name _ (by simpa using hacc)]
      conv_rhs => rw [hf, hts]
      simp [hdesc]
    · refine ⟨(n, s) :: ss, by rw [v3Properties, v3Member, hs, hss]; rfl, fun name acc hacc => ?_⟩
      have hnr : oasTypeRef s = "" := by simp [oasTypeRef, href]
      rw [convertProps, convertProp, if_neg (by simp [hnr]), hconv]
      simp only
      rw [hcs name _ rfl]
      conv_rhs => rw [hf]
      simp [hdesc, hacc]

theorem meansField_gives (wild : Int) : ∀ {v : Value} {ts : TypeSpec}, MeansField v ts → GivesField wild v ts
  | v, _, .ref (t := t) hr => by
    obtain ⟨s, hs, href, -, hd⟩ := refersTo_v3 wild hr
    exact .inl ⟨t, s, hs, oasTypeRef_definition s t href, hr.2.2.1, hd, rfl⟩
  | v, _, .inline h => .inr (means_gives wild h)
end

end Sadl
