import Verif.Lemmas.SmithyTypes
import Verif.Lemmas.SmithyRefs
/-
Lemmas about the Smithy import: each kind of type.
-/
namespace Sadl
open Smithy Spec
namespace Smithy

theorem decNull : asDecimal .null = none := rfl

theorem intNull (w : Int) : asInt64 w .null = 0 := rfl

theorem range_back (T : Transport) (lo hi : Option BigFloat) (hl : ∀ d, lo = some d ∨ hi = some d → LimitKept T d) (t : Traits)
    (h : mget t "smithy.api#range" = (rangeTrait lo hi).map T.carry) :
    asDecimal (getKey ((t.map "smithy.api#range").getD []) "min") = lo ∧
    asDecimal (getKey ((t.map "smithy.api#range").getD []) "max") = hi := by
  unfold Traits.map
  rw [h]
  simp only [LimitKept] at hl
  cases lo with
  | none => cases hi with
    | none => simp [rangeTrait, getKey, mget, decNull]
    | some b => simp [rangeTrait, getKey, mget, decNull, T.obj, asMap, hl b (.inr rfl)]
  | some a => cases hi with
    | none => simp [rangeTrait, getKey, mget, decNull, T.obj, asMap, hl a (.inl rfl)]
    | some b => simp [rangeTrait, getKey, mget, T.obj, asMap, hl a (.inl rfl), hl b (.inr rfl)]

theorem length_back (lib : SLib) (T : Transport) (lo hi : Option Int) (hl : ∀ d, lo = some d ∨ hi = some d → SizeKept lib T d) (t : Traits)
    (h : mget t "smithy.api#length" = (lengthTrait lo hi).map T.carry) :
    nonZero (asInt64 lib.wild (getKey ((t.map "smithy.api#length").getD []) "min")) = lo ∧
    nonZero (asInt64 lib.wild (getKey ((t.map "smithy.api#length").getD []) "max")) = hi := by
  unfold Traits.map
  rw [h]
  simp only [SizeKept] at hl
  cases lo with
  | none => cases hi with
    | none => simp [lengthTrait, getKey, mget, intNull, nonZero]
    | some b => simp [lengthTrait, getKey, mget, T.obj, asMap, nonZero, intNull, hl b (.inr rfl)]
  | some a => cases hi with
    | none => simp [lengthTrait, getKey, mget, T.obj, asMap, nonZero, intNull, hl a (.inl rfl)]
    | some b => simp [lengthTrait, getKey, mget, T.obj, asMap, nonZero, hl a (.inl rfl), hl b (.inr rfl)]

/-- A type shape is imported as a type. -/
def ImportsTo (lib : SLib) (suf : Suffixes) (ast : Ast) (io : List String) (name : String) (sh : Shape) (td' : TypeDef) : Prop :=
  ∀ acc, importShape lib suf ast io name sh acc = .ok (acc.add td')

section
variable (lib : SLib) (suf : Suffixes) (ast : Ast) (io : List String) (T : Transport) (ns : String)
  (hns : '#' ∉ ns.toList) (s : Schema) (td : TypeDef) (sh : Shape) (hm : Marked (typeShape ns td) sh)
  (hio : q ns td.name ∉ io)

include hns in
theorem strip_q (n : String) : stripNamespace (q ns n) = n := stripNamespace_qualified ns n hns

include hm in
theorem shape_type : (T.shape sh).type = (bareShape ns td).type := by
  simp only [Transport.shape, hm.type, (typeShape_same ns td).1]

include hns hm hio in
theorem import_number (hb : td.ts.type ∈ numberTypes) (annos : GoMap String)
    (ha : importTraits lib ast (T.traits sh.traits) [] = .ok annos) :
    ImportsTo lib suf ast io (q ns td.name) (T.shape sh)
      { name := td.name, comment := escapeComment td.comment, annotations := annos,
        ts := { type := td.ts.type,
                min := asDecimal (getKey (((T.traits sh.traits).map "smithy.api#range").getD []) "min"),
                max := asDecimal (getKey (((T.traits sh.traits).map "smithy.api#range").getD []) "max") } } := by
  intro acc
  have hty := shape_type T ns td sh hm
  have hdoc := doc_import T ns td sh (by
    rw [bare_number hb, mget_none_iff]
    unfold shapeFromNumber Shape.putOpt
    split <;> simp [Shape.put, mset]) hm
  rw [bare_number hb] at hty
  have hty' : (T.shape sh).type = numberShapeType td.ts.type := by
    rw [hty]; unfold shapeFromNumber Shape.putOpt; split <;> rfl
  have hn : numberShapeType td.ts.type ∈ numberShapes ∧ numberType (numberShapeType td.ts.type) = td.ts.type ∧
      numberShapeType td.ts.type ≠ "bigInteger" :=
    (by decide : ∀ t ∈ numberTypes, numberShapeType t ∈ numberShapes ∧ numberType (numberShapeType t) = t ∧
      numberShapeType t ≠ "bigInteger") _ hb
  unfold importShape
  rw [if_neg hio, hty', if_pos hn.1]
  unfold importNumericShape
  simp only [hty', if_neg hn.2.2, hn.2.1, show (T.shape sh).traits = T.traits sh.traits from rfl, ha, Out.bind_ok, hdoc,
    strip_q ns hns]

include hns hm hio in
theorem import_string (hb : (bareShape ns td).type = "string") (hd : mget (bareShape ns td).traits "smithy.api#documentation" = none)
    (hname : td.name ≠ "UUID") :
    ∃ ts, ImportsTo lib suf ast io (q ns td.name) (T.shape sh) { name := td.name, comment := escapeComment td.comment, ts := ts } ∧
      ts = (if (T.traits sh.traits).str "smithy.api#pattern" = uuidPattern then { type := "UUID" }
        else
        { type := "String", pattern := (T.traits sh.traits).str "smithy.api#pattern",
          minSize := nonZero (asInt64 lib.wild (getKey (((T.traits sh.traits).map "smithy.api#length").getD []) "min")),
          maxSize := nonZero (asInt64 lib.wild (getKey (((T.traits sh.traits).map "smithy.api#length").getD []) "max")),
          values := match (T.traits sh.traits).array "smithy.api#enum" with
            | some lst => nilIfEmpty (lst.map fun v => asString (getKey ((asMap v).getD []) "value"))
            | none => none }) := by
  refine ⟨_, ?_, rfl⟩
  intro acc
  have hty := shape_type T ns td sh hm
  have hdoc := doc_import T ns td sh hd hm
  unfold importShape
  rw [if_neg hio, hty, hb, if_neg (by decide), if_pos rfl]
  unfold importStringShape
  rw [strip_q ns hns, if_neg hname, if_neg (by simp [importEnum]), show (T.shape sh).traits = T.traits sh.traits from rfl, hdoc]
  rfl

include hns hm hio in
theorem import_enum (hb : td.ts.type = "Enum") (annos : GoMap String)
    (ha : importTraits lib ast (T.traits sh.traits) [] = .ok annos) (els : List EnumElementDef)
    (he : importElements lib ast (arrived T (enumMembers td.ts.elements [])) = .ok els) :
    ImportsTo lib suf ast io (q ns td.name) (T.shape sh)
      { name := td.name, comment := escapeComment td.comment, annotations := annos, ts := { type := "Enum", elements := els } } := by
  intro acc
  have hty := shape_type T ns td sh hm
  have hdoc := doc_import T ns td sh (by rw [bare_enum hb]; rfl) hm
  have hmem := importElements_like lib ast T hm.members
  rw [(typeShape_same ns td).2.2.2.2, bare_enum hb] at hmem
  have hty : (T.shape sh).type = "enum" := by rw [hty, bare_enum hb]; rfl
  unfold importShape
  rw [if_neg hio, hty]
  rw [if_neg (by decide), if_neg (by decide), if_neg (by decide), if_neg (by decide), if_neg (by decide), if_neg (by decide),
    if_neg (by decide), if_neg (by decide), if_neg (by decide), if_neg (by decide), if_pos rfl]
  unfold importEnumShape
  rw [show (T.shape sh).traits = T.traits sh.traits from rfl, ha, Out.bind_ok,
    show (T.shape sh).members = arrived T sh.members from rfl, hmem]
  simp only [shapeFromEnum]
  rw [he, Out.bind_ok, hdoc, strip_q ns hns]
  rfl

include hns hm hio in
theorem import_struct (hb : td.ts.type = "Struct") (annos : GoMap String)
    (ha : importTraits lib ast (T.traits sh.traits) [] = .ok annos) (fs : List StructFieldDef)
    (he : importFields lib ast (arrived T (fieldMembers ns td.ts.fields [])) = .ok fs) :
    ImportsTo lib suf ast io (q ns td.name) (T.shape sh)
      { name := td.name, comment := escapeComment td.comment, annotations := annos, ts := { type := "Struct", fields := fs } } := by
  intro acc
  have hty := shape_type T ns td sh hm
  have hdoc := doc_import T ns td sh (by rw [bare_struct hb]; rfl) hm
  have hmem := importFields_like lib ast T hm.members
  rw [(typeShape_same ns td).2.2.2.2, bare_struct hb] at hmem
  have hty : (T.shape sh).type = "structure" := by rw [hty, bare_struct hb]
  unfold importShape
  rw [if_neg hio, hty]
  rw [if_neg (by decide), if_neg (by decide), if_neg (by decide), if_neg (by decide), if_neg (by decide), if_neg (by decide),
    if_neg (by decide), if_pos rfl]
  unfold importStructureShape
  rw [show (T.shape sh).traits = T.traits sh.traits from rfl, ha, Out.bind_ok,
    show (T.shape sh).members = arrived T sh.members from rfl, hmem, he, Out.bind_ok, hdoc, strip_q ns hns]
  rfl

include hns hm hio in
theorem import_union (hb : td.ts.type = "Union") (annos : GoMap String)
    (ha : importTraits lib ast (T.traits sh.traits) [] = .ok annos) (vs : List UnionVariantDef)
    (he : importVariants lib ast (arrived T (unionMembers ns td.ts.variants [])) = .ok vs) :
    ImportsTo lib suf ast io (q ns td.name) (T.shape sh)
      { name := td.name, comment := escapeComment td.comment, annotations := annos, ts := { type := "Union", variants := vs } } := by
  intro acc
  have hty := shape_type T ns td sh hm
  have hdoc := doc_import T ns td sh (by rw [bare_union hb]; rfl) hm
  have hmem := importVariants_like lib ast T hm.members
  rw [(typeShape_same ns td).2.2.2.2, bare_union hb] at hmem
  have hty : (T.shape sh).type = "union" := by rw [hty, bare_union hb]; rfl
  unfold importShape
  rw [if_neg hio, hty]
  rw [if_neg (by decide), if_neg (by decide), if_neg (by decide), if_neg (by decide), if_neg (by decide), if_neg (by decide),
    if_neg (by decide), if_neg (by decide), if_pos rfl]
  unfold importUnionShape
  rw [show (T.shape sh).traits = T.traits sh.traits from rfl, ha, Out.bind_ok,
    show (T.shape sh).members = arrived T sh.members from rfl, hmem]
  simp only [shapeFromUnion]
  rw [he, Out.bind_ok, hdoc, strip_q ns hns]
  rfl

theorem array_traits (ts : TypeSpec) (annos : GoMap String) (k : String) (h : k ≠ "smithy.api#length") :
    mget (shapeFromArray ns ts annos).traits k = none := by
  unfold shapeFromArray
  cases lengthTrait ts.minSize ts.maxSize with
  | none => rfl
  | some v => simp [Shape.putOpt, Shape.put, mset, mget, Ne.symm h]

include hns hm hio in
theorem import_array (hb : td.ts.type = "Array") :
    ImportsTo lib suf ast io (q ns td.name) (T.shape sh)
      { name := td.name, comment := escapeComment td.comment,
        annotations := if annotation td.annotations "x_unique" = "true" then [("x_unique", "true")] else [],
        ts := { type := "Array", items := shapeRefToTypeRef (ensureNamespaced ns (typeReferenceByName ns td.ts.items)) } } := by
  intro acc
  have hty := shape_type T ns td sh hm
  have hdoc := doc_import T ns td sh (by rw [bare_array hb]; exact array_traits ns _ _ _ (by decide)) hm
  have h1 := trait_import T ns td sh hm "smithy.api#min" (by decide)
  have h2 := trait_import T ns td sh hm "smithy.api#max" (by decide)
  rw [bare_array hb, array_traits ns _ _ _ (by decide)] at h1 h2
  have hmember : (T.shape sh).member = some (T.member { target := ensureNamespaced ns (typeReferenceByName ns td.ts.items) }) := by
    have : (bareShape ns td).member = some { target := ensureNamespaced ns (typeReferenceByName ns td.ts.items) } := by
      rw [bare_array hb]; unfold shapeFromArray; cases lengthTrait td.ts.minSize td.ts.maxSize <;> rfl
    simp only [Transport.shape, hm.member, (typeShape_same ns td).2.1, this, Option.map]
  have hty2 : (T.shape sh).type = if annotation td.annotations "x_unique" = "true" then "set" else "list" := by
    rw [hty, bare_array hb]
    unfold shapeFromArray
    cases lengthTrait td.ts.minSize td.ts.maxSize <;> rfl
  have hz : nonZero 0 = none := rfl
  unfold importShape
  rw [if_neg hio, hty2]
  by_cases hu : annotation td.annotations "x_unique" = "true"
  · rw [if_pos hu, if_pos hu]
    rw [if_neg (by decide), if_neg (by decide), if_neg (by decide), if_neg (by decide), if_neg (by decide), if_pos rfl]
    unfold importListShape
    simp only [hmember, strip_q ns hns, member_target, Traits.int,
      show (T.shape sh).traits = T.traits sh.traits from rfl, h1, h2, hdoc, Option.map, hz, if_true]
    rfl
  · rw [if_neg hu, if_neg hu]
    rw [if_neg (by decide), if_neg (by decide), if_neg (by decide), if_neg (by decide), if_pos rfl]
    unfold importListShape
    simp only [hmember, strip_q ns hns, member_target, Traits.int,
      show (T.shape sh).traits = T.traits sh.traits from rfl, h1, h2, hdoc, Option.map, hz]
    rfl

include hns hm hio in
theorem import_map (hb : td.ts.type = "Map") :
    ImportsTo lib suf ast io (q ns td.name) (T.shape sh)
      { name := td.name, comment := escapeComment td.comment,
        ts := { type := "Map", keys := shapeRefToTypeRef (ensureNamespaced ns (typeReferenceByName ns td.ts.keys)),
                items := shapeRefToTypeRef (ensureNamespaced ns (typeReferenceByName ns td.ts.items)) } } := by
  intro acc
  have hty := shape_type T ns td sh hm
  have hdoc := doc_import T ns td sh (by rw [bare_map hb]; rfl) hm
  have h1 := trait_import T ns td sh hm "smithy.api#min" (by decide)
  have h2 := trait_import T ns td sh hm "smithy.api#max" (by decide)
  rw [bare_map hb] at h1 h2
  have hty : (T.shape sh).type = "map" := by rw [hty, bare_map hb]; rfl
  have hk : (T.shape sh).key = some (T.member { target := ensureNamespaced ns (typeReferenceByName ns td.ts.keys) }) := by
    simp only [Transport.shape, hm.key, (typeShape_same ns td).2.2.1, bare_map hb, shapeFromMap, Option.map]
  have hv : (T.shape sh).value = some (T.member { target := ensureNamespaced ns (typeReferenceByName ns td.ts.items) }) := by
    simp only [Transport.shape, hm.value, (typeShape_same ns td).2.2.2.1, bare_map hb, shapeFromMap, Option.map]
  have h1' : mget (T.traits sh.traits) "smithy.api#min" = none := h1
  have h2' : mget (T.traits sh.traits) "smithy.api#max" = none := h2
  have hz : nonZero 0 = none := rfl
  unfold importShape
  rw [if_neg hio, hty]
  rw [if_neg (by decide), if_neg (by decide), if_neg (by decide), if_neg (by decide), if_neg (by decide), if_neg (by decide), if_pos rfl]
  unfold importMapShape
  simp only [hk, hv, strip_q ns hns, member_target, Traits.int,
      show (T.shape sh).traits = T.traits sh.traits from rfl, h1', h2', hdoc, hz]
  rfl

end

/-! ### Types that survive -/

/-- What the import makes of a type. -/
def Becomes (lib : SLib) (T : Transport) (s : Schema) (td td' : TypeDef) : Prop :=
  td'.name = td.name ∧ (SmithyKept lib T td → SameSmithyType s td td')

theorem not_number {t : String} (h : t ∈ numberTypes) (x : String) (hx : x ∉ numberTypes) : t ≠ x := fun e => hx (e ▸ h)

theorem string_traits (ts : TypeSpec) :
    mget (shapeFromString ts).traits "smithy.api#length" = lengthTrait ts.minSize ts.maxSize ∧
    mget (shapeFromString ts).traits "smithy.api#pattern" = (if ts.pattern ≠ "" then some (.str ts.pattern) else none) ∧
    mget (shapeFromString ts).traits "smithy.api#enum" = (if ts.values.getD [] ≠ [] then some (enumTrait ts) else none) ∧
    mget (shapeFromString ts).traits "smithy.api#documentation" = none ∧ (shapeFromString ts).type = "string" := by
  unfold shapeFromString
  cases lengthTrait ts.minSize ts.maxSize with
  | none =>
    simp only [Shape.putOpt]
    by_cases h1 : ts.pattern = "" <;> by_cases h2 : ts.values.getD [] = [] <;>
      simp [h1, h2, Shape.put, mset, mget]
  | some v =>
    simp only [Shape.putOpt]
    by_cases h1 : ts.pattern = "" <;> by_cases h2 : ts.values.getD [] = [] <;>
      simp [h1, h2, Shape.put, mset, mget]

theorem values_back (T : Transport) (vs : List String) :
    asArray (T.carry (.arr (vs.map fun s => .obj [("value", .str s)]))) = some (vs.map fun s => .obj [("value", .str s)]) := by
  rw [T.arr]
  simp only [asArray, List.map_map, Option.some.injEq]
  refine List.map_congr_left fun s _ => ?_
  simp [T.obj, T.str]

theorem type_back (lib : SLib) (suf : Suffixes) (ast : Ast) (io : List String) (T : Transport) (ns : String)
    (hns : '#' ∉ ns.toList) (hs : ns ≠ "smithy.api") (s : Schema) (td : TypeDef) (hb : td.ts.type ∈ SmithyBases)
    (hname : td.name ≠ "UUID") (hio : q ns td.name ∉ io) :
    ∃ td', ImportsTo lib suf ast io (q ns td.name)
        (T.shape (marks ns (s.http.flatMap (·.exceptions)) (q ns td.name) (typeShape ns td))) td' ∧ Becomes lib T s td td' := by
  have hm := marks_marked ns (s.http.flatMap (·.exceptions)) (q ns td.name) (typeShape ns td)
  have hsame : ¬ IsException s td.name →
      marks ns (s.http.flatMap (·.exceptions)) (q ns td.name) (typeShape ns td) = typeShape ns td := by
    intro hx
    refine marks_other _ _ _ _ fun x hxm e => hx ?_
    obtain ⟨h, h1, h2⟩ := List.mem_flatMap.1 hxm
    exact ⟨h, h1, x, h2, (q_inj.1 e).symm⟩
  generalize hsh : marks ns (s.http.flatMap (·.exceptions)) (q ns td.name) (typeShape ns td) = sh at hm hsame
  have hk : td.ts.type ∈ numberTypes ∨ td.ts.type = "String" ∨ td.ts.type = "Enum" ∨ td.ts.type = "Struct" ∨ td.ts.type = "Array" ∨
      td.ts.type = "Union" ∨ td.ts.type = "Map" ∨ td.ts.type = "UUID" := by
    simp only [SmithyBases, numberTypes, List.mem_cons, List.not_mem_nil, or_false] at hb ⊢
    tauto
  rcases hk with hk | hk | hk | hk | hk | hk | hk | hk
  · -- numbers
    have hseen : seen (bareShape ns td).traits = [] := by
      rw [bare_number hk]
      unfold shapeFromNumber Shape.putOpt
      split
      · exact seen_mset_ignored _ _ _ (by decide)
      · rfl
    obtain ⟨annos, ha⟩ := traits_ok lib ast T ns td sh (by
      rw [bare_number hk]
      unfold shapeFromNumber Shape.putOpt
      split
      · simp only [Shape.put, mset, List.map_cons, List.map_nil, List.mem_singleton, forall_eq]; decide
      · simp) hm
    refine ⟨_, import_number lib suf ast io T ns hns td sh hm hio hk annos ha, rfl, ?_⟩
    intro hkept
    cases hkept with
    | number base lo hi tidy tags hb' hl ts =>
      have htr := trait_import T ns td sh hm "smithy.api#range" (by decide)
      have hbare : mget (bareShape ns td).traits "smithy.api#range" = rangeTrait lo hi := by
        rw [bare_number hk, ts]
        unfold shapeFromNumber Shape.putOpt
        split
        · next v hv => simp [Shape.put, mget_mset, ← hv]
        · next hv => simp [mget, ← hv]
      rw [hbare] at htr
      obtain ⟨h1, h2⟩ := range_back T lo hi hl _ htr
      refine ⟨rfl, escapeComment_tidy _ tidy, ?_, fun hx => ?_⟩
      · simp only [h1, h2, ts]
      · have := annos_import lib ast T ns td tags hseen
        rw [hsame hx, this] at ha
        exact (Out.ok.inj ha).symm
    | string _ _ _ _ _ _ _ _ _ ts => rw [show td.ts.type = "String" by rw [ts]] at hk; exact absurd hk (by decide)
    | uuid _ _ ts => rw [show td.ts.type = "UUID" by rw [ts]] at hk; exact absurd hk (by decide)
    | enum _ _ _ _ _ ts => rw [show td.ts.type = "Enum" by rw [ts]] at hk; exact absurd hk (by decide)
    | struct _ _ _ _ _ ts => rw [show td.ts.type = "Struct" by rw [ts]] at hk; exact absurd hk (by decide)
    | array _ _ _ _ ts => rw [show td.ts.type = "Array" by rw [ts]] at hk; exact absurd hk (by decide)
    | map _ _ _ _ _ _ ts => rw [show td.ts.type = "Map" by rw [ts]] at hk; exact absurd hk (by decide)
    | union _ _ _ _ _ ts => rw [show td.ts.type = "Union" by rw [ts]] at hk; exact absurd hk (by decide)
  · -- strings
    obtain ⟨t1, t2, t3, t4, t5⟩ := string_traits td.ts
    obtain ⟨ts', h1, h2⟩ := import_string lib suf ast io T ns hns td sh hm hio (by rw [bare_string hk]; exact t5)
      (by rw [bare_string hk]; exact t4) hname
    refine ⟨_, h1, rfl, ?_⟩
    intro hkept
    cases hkept with
    | number base lo hi tidy tags hb' hl ts => rw [ts] at hk; exact absurd (show base = "String" from hk) (not_number hb' _ (by decide))
    | string pattern lo hi values tidy annos hp hl hv ts =>
      have e1 := trait_import T ns td sh hm "smithy.api#length" (by decide)
      have e2 := trait_import T ns td sh hm "smithy.api#pattern" (by decide)
      have e3 := trait_import T ns td sh hm "smithy.api#enum" (by decide)
      rw [bare_string hk] at e1 e2 e3
      rw [t1] at e1
      rw [t2] at e2
      rw [t3] at e3
      rw [ts] at e1 e2 e3
      obtain ⟨l1, l2⟩ := length_back lib T lo hi hl _ e1
      have hpat : (T.traits sh.traits).str "smithy.api#pattern" = pattern := by
        unfold Traits.str
        rw [e2]
        by_cases hpe : pattern = "" <;> simp [hpe, asString, T.str]
      have hval : (match (T.traits sh.traits).array "smithy.api#enum" with
            | some lst => nilIfEmpty (lst.map fun v => asString (getKey ((asMap v).getD []) "value"))
            | none => none) = values := by
        unfold Traits.array
        rw [e3]
        cases values with
        | none => simp
        | some vs =>
          have hvs : vs ≠ [] := fun e => hv (by rw [e])
          simp only [Option.getD_some, ne_eq, hvs, not_false_eq_true, if_true, Option.map, enumTrait, not_true, if_false, values_back]
          have : ∀ vs : List String, List.map (fun v => asString (getKey ((asMap v).getD []) "value"))
              (List.map (fun s => Value.obj [("value", .str s)]) vs) = vs := by
            intro vs
            rw [List.map_map]
            conv_rhs => rw [← List.map_id vs]
            refine List.map_congr_left fun x _ => ?_
            simp [asMap, getKey, mget, asString]
          rw [this]
          simp [nilIfEmpty, hvs]
      refine ⟨rfl, escapeComment_tidy _ tidy, ?_, fun _ => annos.symm⟩
      rw [h2, hpat, if_neg hp, l1, l2, ts, hval]
    | uuid _ _ ts => rw [show td.ts.type = "UUID" by rw [ts]] at hk; exact absurd hk (by decide)
    | enum _ _ _ _ _ ts => rw [show td.ts.type = "Enum" by rw [ts]] at hk; exact absurd hk (by decide)
    | struct _ _ _ _ _ ts => rw [show td.ts.type = "Struct" by rw [ts]] at hk; exact absurd hk (by decide)
    | array _ _ _ _ ts => rw [show td.ts.type = "Array" by rw [ts]] at hk; exact absurd hk (by decide)
    | map _ _ _ _ _ _ ts => rw [show td.ts.type = "Map" by rw [ts]] at hk; exact absurd hk (by decide)
    | union _ _ _ _ _ ts => rw [show td.ts.type = "Union" by rw [ts]] at hk; exact absurd hk (by decide)
  · -- enumerations
    obtain ⟨annos, ha⟩ := traits_ok lib ast T ns td sh (by rw [bare_enum hk]; simp [shapeFromEnum]) hm
    obtain ⟨els, he⟩ := importElements_ok lib ast (fine_arrived (T := T) (fine_enum td.ts.elements fine_nil))
    refine ⟨_, import_enum lib suf ast io T ns hns td sh hm hio hk annos ha els he, rfl, ?_⟩
    intro hkept
    cases hkept with
    | number base lo hi tidy tags hb' hl ts => rw [ts] at hk; exact absurd (show base = "Enum" from hk) (not_number hb' _ (by decide))
    | enum elements tidy tags distinct hel ts =>
      have hels : td.ts.elements = elements := by rw [ts]
      rw [hels, enumMembers_fresh elements [] (by simpa using distinct), List.nil_append, elements_back lib ast T elements hel] at he
      refine ⟨rfl, escapeComment_tidy _ tidy, ?_, fun hx => ?_⟩
      · rw [ts, Out.ok.inj he]
      · have := annos_import lib ast T ns td tags (by rw [bare_enum hk]; rfl)
        rw [hsame hx, this] at ha
        exact (Out.ok.inj ha).symm
    | string _ _ _ _ _ _ _ _ _ ts => rw [show td.ts.type = "String" by rw [ts]] at hk; exact absurd hk (by decide)
    | uuid _ _ ts => rw [show td.ts.type = "UUID" by rw [ts]] at hk; exact absurd hk (by decide)
    | struct _ _ _ _ _ ts => rw [show td.ts.type = "Struct" by rw [ts]] at hk; exact absurd hk (by decide)
    | array _ _ _ _ ts => rw [show td.ts.type = "Array" by rw [ts]] at hk; exact absurd hk (by decide)
    | map _ _ _ _ _ _ ts => rw [show td.ts.type = "Map" by rw [ts]] at hk; exact absurd hk (by decide)
    | union _ _ _ _ _ ts => rw [show td.ts.type = "Union" by rw [ts]] at hk; exact absurd hk (by decide)
  · -- structures
    obtain ⟨annos, ha⟩ := traits_ok lib ast T ns td sh (by rw [bare_struct hk]; simp) hm
    obtain ⟨fs, he⟩ := importFields_ok lib ast (fine_arrived (T := T) (fine_fields ns td.ts.fields fine_nil))
    refine ⟨_, import_struct lib suf ast io T ns hns td sh hm hio hk annos ha fs he, rfl, ?_⟩
    intro hkept
    cases hkept with
    | number base lo hi tidy tags hb' hl ts => rw [ts] at hk; exact absurd (show base = "Struct" from hk) (not_number hb' _ (by decide))
    | struct fields tidy tags distinct hf ts =>
      have hfs : td.ts.fields = fields := by rw [ts]
      rw [hfs, fieldMembers_fresh ns fields [] (by simpa using distinct), List.nil_append, fields_back lib ast T ns hns hs fields hf] at he
      refine ⟨rfl, escapeComment_tidy _ tidy, ?_, fun hx => ?_⟩
      · rw [ts, Out.ok.inj he]
      · have := annos_import lib ast T ns td tags (by rw [bare_struct hk]; rfl)
        rw [hsame hx, this] at ha
        exact (Out.ok.inj ha).symm
    | string _ _ _ _ _ _ _ _ _ ts => rw [show td.ts.type = "String" by rw [ts]] at hk; exact absurd hk (by decide)
    | uuid _ _ ts => rw [show td.ts.type = "UUID" by rw [ts]] at hk; exact absurd hk (by decide)
    | enum _ _ _ _ _ ts => rw [show td.ts.type = "Enum" by rw [ts]] at hk; exact absurd hk (by decide)
    | array _ _ _ _ ts => rw [show td.ts.type = "Array" by rw [ts]] at hk; exact absurd hk (by decide)
    | map _ _ _ _ _ _ ts => rw [show td.ts.type = "Map" by rw [ts]] at hk; exact absurd hk (by decide)
    | union _ _ _ _ _ ts => rw [show td.ts.type = "Union" by rw [ts]] at hk; exact absurd hk (by decide)
  · -- arrays
    refine ⟨_, import_array lib suf ast io T ns hns td sh hm hio hk, rfl, ?_⟩
    intro hkept
    cases hkept with
    | number base lo hi tidy tags hb' hl ts => rw [ts] at hk; exact absurd (show base = "Array" from hk) (not_number hb' _ (by decide))
    | array items tidy annos hi ts =>
      refine ⟨rfl, escapeComment_tidy _ tidy, ?_, fun _ => ?_⟩
      · simp only [ensureNamespaced_typeReference, ts, refKept ns items hns hs hi]
      · rcases annos with ha | ha <;> simp only [ha] <;> decide
    | string _ _ _ _ _ _ _ _ _ ts => rw [show td.ts.type = "String" by rw [ts]] at hk; exact absurd hk (by decide)
    | uuid _ _ ts => rw [show td.ts.type = "UUID" by rw [ts]] at hk; exact absurd hk (by decide)
    | enum _ _ _ _ _ ts => rw [show td.ts.type = "Enum" by rw [ts]] at hk; exact absurd hk (by decide)
    | struct _ _ _ _ _ ts => rw [show td.ts.type = "Struct" by rw [ts]] at hk; exact absurd hk (by decide)
    | map _ _ _ _ _ _ ts => rw [show td.ts.type = "Map" by rw [ts]] at hk; exact absurd hk (by decide)
    | union _ _ _ _ _ ts => rw [show td.ts.type = "Union" by rw [ts]] at hk; exact absurd hk (by decide)
  · -- unions
    obtain ⟨annos, ha⟩ := traits_ok lib ast T ns td sh (by rw [bare_union hk]; simp [shapeFromUnion]) hm
    obtain ⟨vs, he⟩ := importVariants_ok lib ast (fine_arrived (T := T) (fine_union ns td.ts.variants fine_nil))
    refine ⟨_, import_union lib suf ast io T ns hns td sh hm hio hk annos ha vs he, rfl, ?_⟩
    intro hkept
    cases hkept with
    | number base lo hi tidy tags hb' hl ts => rw [ts] at hk; exact absurd (show base = "Union" from hk) (not_number hb' _ (by decide))
    | union variants tidy tags distinct hv ts =>
      have hvs : td.ts.variants = variants := by rw [ts]
      rw [hvs, unionMembers_fresh ns variants [] (by simpa using distinct), List.nil_append,
        variants_back lib ast T ns hns hs variants hv] at he
      refine ⟨rfl, escapeComment_tidy _ tidy, ?_, fun hx => ?_⟩
      · rw [ts, Out.ok.inj he]
      · have := annos_import lib ast T ns td tags (by rw [bare_union hk]; rfl)
        rw [hsame hx, this] at ha
        exact (Out.ok.inj ha).symm
    | string _ _ _ _ _ _ _ _ _ ts => rw [show td.ts.type = "String" by rw [ts]] at hk; exact absurd hk (by decide)
    | uuid _ _ ts => rw [show td.ts.type = "UUID" by rw [ts]] at hk; exact absurd hk (by decide)
    | enum _ _ _ _ _ ts => rw [show td.ts.type = "Enum" by rw [ts]] at hk; exact absurd hk (by decide)
    | struct _ _ _ _ _ ts => rw [show td.ts.type = "Struct" by rw [ts]] at hk; exact absurd hk (by decide)
    | map _ _ _ _ _ _ ts => rw [show td.ts.type = "Map" by rw [ts]] at hk; exact absurd hk (by decide)
    | array _ _ _ _ ts => rw [show td.ts.type = "Array" by rw [ts]] at hk; exact absurd hk (by decide)
  · -- maps
    refine ⟨_, import_map lib suf ast io T ns hns td sh hm hio hk, rfl, ?_⟩
    intro hkept
    cases hkept with
    | number base lo hi tidy tags hb' hl ts => rw [ts] at hk; exact absurd (show base = "Map" from hk) (not_number hb' _ (by decide))
    | map keys items tidy annos hkeys hi ts =>
      refine ⟨rfl, escapeComment_tidy _ tidy, ?_, fun _ => annos.symm⟩
      simp only [ensureNamespaced_typeReference, ts, refKept ns items hns hs hi, refKept ns keys hns hs hkeys]
    | string _ _ _ _ _ _ _ _ _ ts => rw [show td.ts.type = "String" by rw [ts]] at hk; exact absurd hk (by decide)
    | uuid _ _ ts => rw [show td.ts.type = "UUID" by rw [ts]] at hk; exact absurd hk (by decide)
    | enum _ _ _ _ _ ts => rw [show td.ts.type = "Enum" by rw [ts]] at hk; exact absurd hk (by decide)
    | struct _ _ _ _ _ ts => rw [show td.ts.type = "Struct" by rw [ts]] at hk; exact absurd hk (by decide)
    | array _ _ _ _ ts => rw [show td.ts.type = "Array" by rw [ts]] at hk; exact absurd hk (by decide)
    | union _ _ _ _ _ ts => rw [show td.ts.type = "Union" by rw [ts]] at hk; exact absurd hk (by decide)
  · -- UUIDs
    obtain ⟨ts', h1, h2⟩ := import_string lib suf ast io T ns hns td sh hm hio (by rw [bare_uuid hk]; rfl)
      (by rw [bare_uuid hk]; rfl) hname
    refine ⟨_, h1, rfl, ?_⟩
    intro hkept
    cases hkept with
    | number base lo hi tidy tags hb' hl ts => rw [ts] at hk; exact absurd (show base = "UUID" from hk) (not_number hb' _ (by decide))
    | uuid tidy annos ts =>
      have e2 := trait_import T ns td sh hm "smithy.api#pattern" (by decide)
      rw [bare_uuid hk] at e2
      have hpat : (T.traits sh.traits).str "smithy.api#pattern" = uuidPattern := by
        unfold Traits.str
        rw [e2]
        simp [uuidShape, Shape.put, mset, mget, T.str, asString]
      refine ⟨rfl, escapeComment_tidy _ tidy, ?_, fun _ => annos.symm⟩
      rw [h2, if_pos hpat, ts]
    | string _ _ _ _ _ _ _ _ _ ts => rw [show td.ts.type = "String" by rw [ts]] at hk; exact absurd hk (by decide)
    | enum _ _ _ _ _ ts => rw [show td.ts.type = "Enum" by rw [ts]] at hk; exact absurd hk (by decide)
    | struct _ _ _ _ _ ts => rw [show td.ts.type = "Struct" by rw [ts]] at hk; exact absurd hk (by decide)
    | array _ _ _ _ ts => rw [show td.ts.type = "Array" by rw [ts]] at hk; exact absurd hk (by decide)
    | map _ _ _ _ _ _ ts => rw [show td.ts.type = "Map" by rw [ts]] at hk; exact absurd hk (by decide)
    | union _ _ _ _ _ ts => rw [show td.ts.type = "Union" by rw [ts]] at hk; exact absurd hk (by decide)

end Smithy
end Sadl
