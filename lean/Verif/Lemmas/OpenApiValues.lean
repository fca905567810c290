import Verif.Spec.OpenApiValues
import Verif.Lemmas.OpenApiRefs
import Verif.Lemmas.Text
import Mathlib.Data.List.Nodup
/-
The values admitted by the schemas of an exported document.
-/
namespace Sadl
open Sadl.Spec

theorem utf8Size_ascii {c : Char} (h : c.toNat < 128) : c.utf8Size = 1 := by
  unfold Char.utf8Size
  have h1 : c.val ≤ 127 := by
    rw [UInt32.le_iff_toNat_le]
    have : c.toNat = c.val.toNat := rfl
    have h2 : (127 : UInt32).toNat = 127 := rfl
    omega
  simp [h1]

theorem bytes_ascii {s : String} (h : ∀ c ∈ s.toList, c.toNat < 128) : Bytes s = s.length := by
  unfold Bytes
  rw [← byteLen_eq]
  unfold byteLen bytesOf
  rw [← String.length_toList]
  generalize s.toList = l at h
  induction l with
  | nil => rfl
  | cons c r ih =>
    have h1 := ih (fun c hc => h c (by simp [hc]))
    simp only [List.flatMap_cons, List.length_append, String.length_utf8EncodeChar, utf8Size_ascii (h c (by simp)), List.length_cons]
    push_cast at h1 ⊢
    omega

/-! ### Values and their parts -/

theorem ascii_item {xs : List Value} {x : Value} (h : AsciiOnly (.arr xs)) (hx : x ∈ xs) : AsciiOnly x :=
  fun y s hy => h y s (.item hx hy)
theorem ascii_member {kvs : List (String × Value)} {k : String} {x : Value} (h : AsciiOnly (.obj kvs)) (hx : (k, x) ∈ kvs) :
    AsciiOnly x := fun y s hy => h y s (.member hx hy)
theorem whole_item {s : Schema} {xs : List Value} {x : Value} (h : Integral s (.arr xs)) (hx : x ∈ xs) : Integral s x :=
  fun hi d hy => h hi d (.item hx hy)
theorem whole_member {s : Schema} {kvs : List (String × Value)} {k : String} {x : Value} (h : Integral s (.obj kvs)) (hx : (k, x) ∈ kvs) :
    Integral s x := fun hi d hy => h hi d (.member hx hy)
theorem plain_item {xs : List Value} {x : Value} (h : PlainOnly (.arr xs)) (hx : x ∈ xs) : PlainOnly x :=
  fun t => ⟨fun hy => (h t).1 (.item hx hy), fun hy => (h t).2 (.item hx hy)⟩
theorem plain_member {kvs : List (String × Value)} {k : String} {x : Value} (h : PlainOnly (.obj kvs)) (hx : (k, x) ∈ kvs) :
    PlainOnly x := fun t => ⟨fun hy => (h t).1 (.member hx hy), fun hy => (h t).2 (.member hx hy)⟩

/-! ### Fits -/

theorem fits_bare {lib : Lib} {strict : Bool} {schemas : GoMap OSchema} {a b : OSchema} {v : Value}
    (h : Fits lib strict schemas a v) (e : b.bare = a.bare) : Fits lib strict schemas b v := by
  have e1 : b.ref = a.ref := (congrArg OSchema.ref e :)
  have e2 : b.oneOf = a.oneOf := (congrArg OSchema.oneOf e :)
  have e3 : b.type = a.type := (congrArg OSchema.type e :)
  have e4 : b.format = a.format := (congrArg OSchema.format e :)
  have e5 : b.enum = a.enum := (congrArg OSchema.enum e :)
  have e6 : b.min = a.min := (congrArg OSchema.min e :)
  have e7 : b.max = a.max := (congrArg OSchema.max e :)
  have e8 : b.minLength = a.minLength := (congrArg OSchema.minLength e :)
  have e9 : b.maxLength = a.maxLength := (congrArg OSchema.maxLength e :)
  have e10 : b.pattern = a.pattern := (congrArg OSchema.pattern e :)
  have e11 : b.items = a.items := (congrArg OSchema.items e :)
  have e12 : b.required = a.required := (congrArg OSchema.required e :)
  have e13 : b.properties = a.properties := (congrArg OSchema.properties e :)
  have e14 : b.additionalProperties = a.additionalProperties := (congrArg OSchema.additionalProperties e :)
  cases h with
  | ref h1 h2 h3 => exact .ref (e1.trans h1) h2 h3
  | oneOf h1 h2 h3 => exact .oneOf (e1.trans h1) (by rw [e2]; exact h2) h3
  | plain h1 h2 h3 h4 h5 h6 h7 h8 h9 h10 h11 h12 =>
    refine .plain (e1.trans h1) (e2.trans h2) ?_ ?_ ?_ ?_ ?_ ?_ ?_ ?_ ?_ ?_
    · rwa [e3]
    · rwa [e4]
    · rwa [e5]
    · rwa [e6, e7]
    · rwa [e8, e9, e10]
    · rwa [e11]
    · rwa [e12]
    · rwa [e13]
    · rwa [e13, e14]
    · rwa [e13, e14]

/-- The value is neither an array nor an object. -/
def Scalar (v : Value) : Prop := (∀ xs, v ≠ .arr xs) ∧ ∀ kvs, v ≠ .obj kvs

theorem scalar_text {v : Value} {s : String} (h : IsText v s) : Scalar v := by
  rcases h with rfl | rfl <;> exact ⟨by simp, by simp⟩

theorem fits_scalar {lib : Lib} {strict : Bool} {schemas : GoMap OSchema} {s : OSchema} {v : Value} (hv : Scalar v)
    (h1 : s.ref = "") (h2 : s.oneOf = []) (h3 : HasKind s.type v) (h4 : HasFormat lib s.format v)
    (h5 : ∀ vals, s.enum = some vals → ∃ t, IsText v t ∧ Value.str t ∈ vals)
    (h6 : ∀ d, v = .dec d → NumWithin s.min s.max d)
    (h7 : ∀ t, IsText v t → s.minLength ≤ t.length ∧ (∀ n, s.maxLength = some n → t.length ≤ n) ∧
        (s.pattern ≠ "" → lib.regexMatch s.pattern t = some true)) : Fits lib strict schemas s v :=
  .plain h1 h2 h3 h4 h5 h6 h7
    (fun _ xs _ _ e => absurd e (hv.1 xs)) (fun kvs _ e => absurd e (hv.2 kvs)) (fun _ kvs _ _ _ _ e => absurd e (hv.2 kvs))
    (fun _ kvs _ _ _ _ _ e => absurd e (hv.2 kvs)) (fun _ kvs _ _ _ e => absurd e (hv.2 kvs))

theorem isText_unique {v : Value} {s t : String} (h : IsText v s) (h' : IsText v t) : s = t := by
  rcases h with rfl | rfl <;> rcases h' with h | h <;> cases h <;> rfl

/-! ### Where types come from -/

theorem used_cases {s : Schema} {t : TypeSpec} (h : Used s t) : Written s t ∨ ∃ b ∈ BaseTypes, t = { type := b } := by
  rcases h with h | h
  · exact .inl h
  · cases h with
    | inline h => exact .inl (.inr h)
    | item _ _ h _ =>
      rcases h with ⟨td, h1, _, h3⟩ | ⟨h1, h2⟩
      · exact .inl (.inl ⟨td, h1, h3⟩)
      · exact .inr ⟨_, h1, h2⟩
    | mapItem _ _ h =>
      rcases h with ⟨td, h1, _, h3⟩ | ⟨h1, h2⟩
      · exact .inl (.inl ⟨td, h1, h3⟩)
      · exact .inr ⟨_, h1, h2⟩

theorem used_sizes {lib : OLib} {s : Schema} (hx : Expressible lib s) {t : TypeSpec} (h : Used s t) (ht : t.type = "String") :
    (∀ n, t.minSize = some n → 0 ≤ n ∧ n < 2 ^ 63) ∧ ∀ n, t.maxSize = some n → 0 ≤ n ∧ n < 2 ^ 63 := by
  rcases used_cases h with h | ⟨b, _, rfl⟩
  · exact hx.sizes t h ht
  · simp

theorem used_values {lib : OLib} {s : Schema} (hx : Expressible lib s) {t : TypeSpec} (h : Used s t) (ht : t.type = "String") :
    t.values = none ∨ t.pattern = "" := by
  rcases used_cases h with h | ⟨b, _, rfl⟩
  · exact hx.values t h ht
  · exact .inl rfl

theorem used_bounds {lib : OLib} {s : Schema} (hx : Expressible lib s) {t : TypeSpec} (h : Used s t) (ht : t.type ∈ NumericNames) :
    t.min.map lib.asFloat64 = t.min ∧ t.max.map lib.asFloat64 = t.max := by
  have key : (∀ b, t.min = some b → lib.asFloat64 b = b) ∧ ∀ b, t.max = some b → lib.asFloat64 b = b := by
    rcases used_cases h with h | ⟨b, _, rfl⟩
    · exact hx.bounds t h ht
    · simp
  constructor
  · cases he : t.min with
    | none => rfl
    | some b => simp [key.1 b he]
  · cases he : t.max with
    | none => rfl
    | some b => simp [key.2 b he]

theorem no_union {lib : Lib} {s : Schema} (hb : ∀ td ∈ s.types, td.name ∉ BaseTypes) {t : TypeSpec} {v : Value}
    (h : Conforms lib (Defines s) t v) : t.type ≠ "Union" := by
  induction h with
  | bool _ ht => rw [ht]; decide
  | string _ ht => rw [ht]; decide
  | enum _ ht => rw [ht]; decide
  | number _ ht => intro e; rw [e] at ht; exact absurd ht (by decide)
  | timestampPtr ht => rw [ht]; decide
  | timestampText _ ht => rw [ht]; decide
  | uuid _ ht => rw [ht]; decide
  | uuidText _ ht => rw [ht]; decide
  | unitValue _ _ _ _ _ ht => rw [ht]; decide
  | struct _ ht => rw [ht]; decide
  | arrayAny _ ht => rw [ht]; decide
  | arrayOf _ _ ht => rw [ht]; decide
  | mapAny _ ht => rw [ht]; decide
  | mapOf _ _ ht => rw [ht]; decide
  | bytes ht => rw [ht]; decide
  | any ht => rw [ht]; decide
  | named t ht hd _ ih =>
    intro e
    rw [e] at hd
    rcases hd with ⟨td, h1, h2, _⟩ | ⟨_, rfl⟩
    · exact hb td h1 (by rw [h2]; decide)
    · exact ih rfl

/-! ### Schemas of scalar types -/

theorem hasFormat_none {lib : Lib} {f : String} {v : Value} (h1 : f ≠ "date-time") (h2 : f ≠ "uuid") : HasFormat lib f v :=
  ⟨fun e => absurd e h1, fun e => absurd e h2⟩

theorem numericEquivalent_cases {t : String} (h : t ∈ NumericNames) :
    ((oasNumericEquivalent t).1 = "integer" ∧ t ∈ ["Int8", "Int16", "Int32", "Int64"] ∨ (oasNumericEquivalent t).1 = "number") ∧
    (oasNumericEquivalent t).2.1 ≠ "date-time" ∧ (oasNumericEquivalent t).2.1 ≠ "uuid" := by
  simp only [NumericNames, List.mem_cons, List.not_mem_nil, or_false] at h
  rcases h with rfl | rfl | rfl | rfl | rfl | rfl | rfl <;> decide

theorem fits_numeric {olib : OLib} {lib : Lib} {strict : Bool} {schemas : GoMap OSchema} {s : Schema} (hx : Expressible olib s)
    {ts : TypeSpec} (hu : Used s ts) (ht : ts.type ∈ NumericNames) {d : BigFloat} (hd : NumWithin ts.min ts.max d)
    (hw : ts.type ∈ ["Int8", "Int16", "Int32", "Int64"] → Whole d) :
    Fits lib strict schemas (oasNumeric olib ts) (.dec d) := by
  obtain ⟨b1, b2⟩ := used_bounds hx hu ht
  obtain ⟨c1, c2, c3⟩ := numericEquivalent_cases ht
  refine fits_scalar ⟨by simp, by simp⟩ rfl rfl ?_ ?_ ?_ ?_ ?_
  · unfold oasNumeric HasKind
    simp only
    rcases c1 with ⟨c1, c1'⟩ | c1 <;> rw [c1] <;> refine ⟨?_, ?_, ?_, ?_, ?_, ?_⟩ <;> intro e <;> first | exact absurd e (by decide) | skip
    · exact ⟨d, rfl, hw c1'⟩
    · exact ⟨d, rfl⟩
  · exact hasFormat_none c2 c3
  · intro vals h; exact absurd h (by simp [oasNumeric])
  · rintro d' ⟨⟩
    have e1 : (oasNumeric olib ts).min = ts.min.map olib.asFloat64 := rfl
    have e2 : (oasNumeric olib ts).max = ts.max.map olib.asFloat64 := rfl
    rw [e1, e2, b1, b2]; exact hd
  · intro t h; rcases h with h | h <;> cases h

theorem toUint64_of_nonneg {n : Int} (h : 0 ≤ n) (h' : n < 2 ^ 63) : (toUint64 n : Int) = n := by
  unfold toUint64
  rw [Int.emod_eq_of_lt h (by omega)]
  exact Int.toNat_of_nonneg h

theorem minLength_iff {ts : TypeSpec} (hs : ∀ n, ts.minSize = some n → 0 ≤ n ∧ n < 2 ^ 63) (k : Nat) :
    (oasString ts).minLength ≤ k ↔ ∀ n, ts.minSize = some n → n ≤ k := by
  unfold oasString
  simp only
  cases he : ts.minSize with
  | none => simp
  | some n =>
    have := toUint64_of_nonneg (hs n he).1 (hs n he).2
    simp only [Option.some.injEq, forall_eq']
    omega

theorem maxLength_iff {ts : TypeSpec} (hs : ∀ n, ts.maxSize = some n → 0 ≤ n ∧ n < 2 ^ 63) (k : Nat) :
    (∀ n, (oasString ts).maxLength = some n → k ≤ n) ↔ ∀ n, ts.maxSize = some n → (k : Int) ≤ n := by
  unfold oasString
  simp only
  cases he : ts.maxSize with
  | none => simp
  | some n =>
    have := toUint64_of_nonneg (hs n he).1 (hs n he).2
    simp only [Option.map_some, Option.some.injEq, forall_eq']
    omega

theorem kind_string {v : Value} {t : String} (h : IsText v t) : HasKind "string" v := by
  refine ⟨?_, fun _ => .inl ⟨t, h⟩, ?_, ?_, ?_, ?_⟩ <;> intro e <;> exact absurd e (by decide)

/-- A string schema, perhaps with a list of values, a format that does not matter, and a comment. -/
theorem fits_string {olib : OLib} {lib : Lib} {strict : Bool} {schemas : GoMap OSchema} {s : Schema} (hx : Expressible olib s)
    {ts : TypeSpec} (hu : Used s ts) (ht : ts.type = "String") {v : Value} {t : String} (hv : IsText v t)
    (ha : ∀ c ∈ t.toList, c.toNat < 128) (hk : StringOk lib ts t) (desc : String) (en : Option (List Value))
    (hen : en = none ∨ en = enumOfValues ts) :
    Fits lib strict schemas { oasString ts with description := desc, enum := en } v := by
  obtain ⟨z1, z2⟩ := used_sizes hx hu ht
  obtain ⟨w, vals, pat⟩ := hk
  have hb := bytes_ascii ha
  refine fits_scalar (scalar_text hv) rfl rfl (kind_string hv) (hasFormat_none (by simp [oasString]) (by simp [oasString])) ?_ ?_ ?_
  · intro l hl
    simp only at hl
    rcases hen with h | h
    · rw [h] at hl; cases hl
    · refine ⟨t, hv, ?_⟩
      rw [h] at hl
      unfold enumOfValues at hl
      split at hl
      · next u us he =>
        cases hl
        exact List.mem_map.2 ⟨t, vals _ he, rfl⟩
      · cases hl
  · rintro d rfl
    rcases hv with h | h <;> cases h
  · intro t' ht'
    obtain rfl := isText_unique hv ht'
    refine ⟨?_, ?_, ?_⟩
    · refine (minLength_iff z1 _).2 fun n hn => ?_
      have := w.1 n hn; rw [hb] at this; exact this
    · refine (maxLength_iff z2 _).2 fun n hn => ?_
      have := w.2 n hn; rw [hb] at this; exact this
    · intro hp
      have hp' : ts.pattern ≠ "" := hp
      rcases used_values hx hu ht with h | h
      · exact pat h hp'
      · exact absurd h hp'

theorem fits_plainString {lib : Lib} {strict : Bool} {schemas : GoMap OSchema} {v : Value} (hv : Scalar v)
    (hk : (∃ t, IsText v t) ∨ (∃ t, v = .uuid t) ∨ v = .tsPtr) (format desc : String) (hf : HasFormat lib format v) :
    Fits lib strict schemas { type := "string", format := format, description := desc } v := by
  refine fits_scalar hv rfl rfl ?_ hf (by simp) ?_ (by simp)
  · refine ⟨?_, fun _ => hk, ?_, ?_, ?_, ?_⟩ <;> intro e <;> exact absurd e (by simp)
  · rintro d rfl
    rcases hk with ⟨t, h | h⟩ | ⟨t, h⟩ | h <;> cases h

theorem fits_bool {lib : Lib} {strict : Bool} {schemas : GoMap OSchema} {v : Value} {b : Bool} (hv : v = .bool b ∨ v = .boolPtr b)
    (desc : String) : Fits lib strict schemas { type := "boolean", description := desc } v := by
  refine fits_scalar ?_ rfl rfl ?_ (hasFormat_none (by simp) (by simp)) (by simp) ?_ (by simp)
  · rcases hv with rfl | rfl <;> exact ⟨by simp, by simp⟩
  · refine ⟨fun _ => ⟨b, hv⟩, ?_, ?_, ?_, ?_, ?_⟩ <;> intro e <;> exact absurd e (by simp)
  · rintro d rfl
    rcases hv with h | h <;> cases h

theorem fits_array {lib : Lib} {strict : Bool} {schemas : GoMap OSchema} {xs : List Value} {i : OSchema}
    (h : ∀ x ∈ xs, Fits lib strict schemas i x) (desc : String) :
    Fits lib strict schemas { type := "array", description := desc, items := some i } (.arr xs) := by
  refine .plain rfl rfl ?_ (hasFormat_none (by simp) (by simp)) (by simp) (by simp) ?_ ?_ (by simp) (by simp) (by simp) (by simp)
  · refine ⟨?_, ?_, ?_, ?_, fun _ => ⟨xs, rfl⟩, ?_⟩ <;> intro e <;> exact absurd e (by simp)
  · intro t ht; rcases ht with ht | ht <;> cases ht
  · rintro i' xs' x hi hx hm
    cases hi; cases hx
    exact h x hm

theorem fits_map {lib : Lib} {strict : Bool} {schemas : GoMap OSchema} {kvs : List (String × Value)} {i : OSchema}
    (h : ∀ k x, (k, x) ∈ kvs → Fits lib strict schemas i x) (desc : String) :
    Fits lib strict schemas { type := "object", description := desc, additionalProperties := some i } (.obj kvs) := by
  refine .plain rfl rfl ?_ (hasFormat_none (by simp) (by simp)) (by simp) (by simp) ?_ (by simp) (by simp) (by simp) (by simp) ?_
  · refine ⟨?_, ?_, ?_, ?_, ?_, fun _ => ⟨kvs, rfl⟩⟩ <;> intro e <;> exact absurd e (by simp)
  · intro t ht; rcases ht with ht | ht <;> cases ht
  · rintro i' xs' k x hi hx hm _
    cases hi; cases hx
    exact h k x hm

theorem fits_struct {lib : Lib} {strict : Bool} {schemas : GoMap OSchema} {kvs : List (String × Value)} {ps : GoMap OSchema}
    {required : List String} (hr : ∀ k ∈ required, ∃ x, (k, x) ∈ kvs)
    (h : ∀ k i x, (k, i) ∈ ps → (k, x) ∈ kvs → Fits lib strict schemas i x)
    (hk : ∀ k x, (k, x) ∈ kvs → ∃ i, (k, i) ∈ ps) (desc : String) :
    Fits lib strict schemas { type := "object", description := desc, required := required, properties := some ps } (.obj kvs) := by
  refine .plain rfl rfl ?_ (hasFormat_none (by simp) (by simp)) (by simp) (by simp) ?_ (by simp) ?_ ?_ ?_ (by simp)
  · refine ⟨?_, ?_, ?_, ?_, ?_, fun _ => ⟨kvs, rfl⟩⟩ <;> intro e <;> exact absurd e (by simp)
  · intro t ht; rcases ht with ht | ht <;> cases ht
  · rintro kvs' k he hk; cases he; exact hr k hk
  · rintro ps' kvs' k i x hp he h1 h2; cases hp; cases he; exact h k i x h1 h2
  · rintro ps' kvs' k x _ hp _ he h1; cases hp; cases he; exact hk k x h1

theorem oasProps_has {conv : TypeSpec → Ran OSchema} {fs : List StructFieldDef} {acc ps : GoMap OSchema}
    (h : oasProps conv fs acc = .ok ps) (k : String) (hk : k ∈ acc.map Prod.fst ∨ ∃ f ∈ fs, f.name = k) : ∃ i, (k, i) ∈ ps := by
  induction fs generalizing acc with
  | nil =>
    cases h
    rcases hk with hk | ⟨f, hf, _⟩
    · obtain ⟨e, h1, rfl⟩ := List.mem_map.1 hk; exact ⟨e.2, h1⟩
    · cases hf
  | cons f rest ih =>
    unfold oasProps at h
    obtain ⟨s1, h1, h⟩ := Ran.bind_eq_ok.1 h
    refine ih h ?_
    rcases hk with hk | ⟨g, hg, rfl⟩
    · left; rw [keys_mset]; split
      · exact hk
      · simp [hk]
    · rcases List.mem_cons.1 hg with rfl | hg
      · left; rw [keys_mset]; split
        · assumption
        · simp
      · exact .inr ⟨g, hg, rfl⟩

/-! ### The document -/

/-- The component schemas are those of the types, up to examples. -/
structure Components (s : Schema) (m : Model) (olib : OLib) (n : Nat) (schemas : GoMap OSchema) : Prop where
  all : ∀ td ∈ s.types, ∃ c c0, (td.name, c) ∈ schemas ∧ exportTypeDefN n olib m td = .ok c0 ∧ c.bare = c0.bare
  only : ∀ k c, (k, c) ∈ schemas → ∃ td ∈ s.types, td.name = k ∧ ∃ c0, exportTypeDefN n olib m td = .ok c0 ∧ c.bare = c0.bare

theorem step_ok {n : Nat} {lib : OLib} {m : Model} {ts : TypeSpec} {name : String} {sch : OSchema}
    (h : oasSchemaN n lib m ts name = .ok sch) : ∃ k, oasSchemaStep lib m (oasSchemaN k lib m) ts name = .ok sch := by
  cases n with
  | zero => cases h
  | succ k => exact ⟨k, h⟩

theorem safe_struct {s : Schema} (hb : ∀ td ∈ s.types, td.name ∉ BaseTypes) {ts : TypeSpec} {name : String}
    (h : SpecSafe s ts name) (ht : ts.type = "Struct") :
    (name = "" → ∀ f ∈ ts.fields, Inline s f.ts) ∧ (name ≠ "" → Named s name) := by
  rcases h with h1 | h1 | h1 | h1 | ⟨td, h1, h2⟩
  · rw [ht] at h1; exact absurd h1 (by decide)
  · rw [ht] at h1; exact absurd h1.1 (by decide)
  · exact h1.2
  · rw [ht] at h1; exact absurd h1.1 (by decide)
  · exact absurd (by rw [h2, ht]; decide) (hb td h1)

theorem safe_enum {s : Schema} (hb : ∀ td ∈ s.types, td.name ∉ BaseTypes) {ts : TypeSpec} {name : String}
    (h : SpecSafe s ts name) (ht : ts.type = "Enum") : Named s name := by
  rcases h with h1 | h1 | h1 | h1 | ⟨td, h1, h2⟩
  · rw [ht] at h1; exact absurd h1 (by decide)
  · rw [ht] at h1; exact absurd h1.1 (by decide)
  · rw [ht] at h1; exact absurd h1.1 (by decide)
  · exact h1.2
  · exact absurd (by rw [h2, ht]; decide) (hb td h1)

theorem safe_collection {s : Schema} (hb : ∀ td ∈ s.types, td.name ∉ BaseTypes) {ts : TypeSpec} {name : String}
    (h : SpecSafe s ts name) (ht : ts.type = "Array" ∨ ts.type = "Map") : Written s ts := by
  rcases h with h1 | h1 | h1 | h1 | ⟨td, h1, h2⟩
  · rcases ht with ht | ht <;> rw [ht] at h1 <;> exact absurd h1 (by decide)
  · exact h1.2
  · rcases ht with ht | ht <;> rw [ht] at h1 <;> exact absurd h1.1 (by decide)
  · rcases ht with ht | ht <;> rw [ht] at h1 <;> exact absurd h1.1 (by decide)
  · exact absurd (by rw [h2]; rcases ht with ht | ht <;> rw [ht] <;> decide) (hb td h1)

theorem unique_def {s : Schema} (hn : (s.types.map TypeDef.name).Nodup) {td td' : TypeDef} (h : td ∈ s.types) (h' : td' ∈ s.types)
    (e : td.name = td'.name) : td = td' := List.inj_on_of_nodup_map hn h h' e

theorem defines_named {s : Schema} (hb : ∀ td ∈ s.types, td.name ∉ BaseTypes) {name : String} {ts : TypeSpec}
    (hd : Defines s name ts) (hn : Named s name) : ∃ td ∈ s.types, td.name = name ∧ td.ts = ts := by
  rcases hd with h | ⟨h, _⟩
  · exact h
  · obtain ⟨td, h1, h2⟩ := hn
    exact absurd (h2 ▸ h) (hb td h1)

/-- The item type of a collection: what is found is what is defined. -/
theorem findType_eq {s : Schema} {m : Model} (hm : newModel s = .ok m) {n : String} {td : TypeDef} {t : TypeSpec}
    (h : m.findType n = some td) (hd : Defines s n t) : td.ts = t := by
  obtain ⟨hn, hb, _, _⟩ := (newModel_ok_iff s m).1 hm
  rcases (newModel_findType_iff hm n td).1 h with ⟨h1, h2⟩ | ⟨h1, rfl⟩
  · rcases hd with ⟨td', h3, h4, h5⟩ | ⟨h3, _⟩
    · rw [unique_def hn h1 h3 (h2.trans h4.symm)]; exact h5
    · exact absurd (h2 ▸ h3) (hb td h1)
  · rcases hd with ⟨td', h3, h4, h5⟩ | ⟨h3, h4⟩
    · exact absurd (h4 ▸ h1) (hb td' h3)
    · exact h4.symm

theorem plain_meaningful {t : String} (h : t ∈ PlainTypes) : t ∈ MeaningfulNames := by
  simp only [PlainTypes, List.mem_cons, List.not_mem_nil, or_false] at h
  rcases h with rfl | rfl | rfl | rfl | rfl | rfl | rfl | rfl | rfl | rfl | rfl | rfl | rfl <;> decide

theorem inline_not_enum {s : Schema} (hb : ∀ td ∈ s.types, td.name ∉ BaseTypes) (hs : RefSafe s) {t : TypeSpec} (h : Inline s t) :
    t.type ≠ "Enum" := by
  intro e
  rcases hs.inline t h with h1 | h1 | ⟨td, h1, h2⟩
  · rw [e] at h1; exact absurd h1 (by decide)
  · rw [e] at h1; exact absurd h1 (by decide)
  · exact absurd (by rw [h2, e]; decide) (hb td h1)

theorem any_def {s : Schema} {m : Model} (hm : newModel s = .ok m) {td : TypeDef} (h : m.findType "Any" = some td) :
    td.ts.type = "Any" := by
  obtain ⟨_, hb, _, _⟩ := (newModel_ok_iff s m).1 hm
  rcases (newModel_findType_iff hm _ _).1 h with ⟨h1, h2⟩ | ⟨_, rfl⟩
  · exact absurd (by rw [h2]; decide) (hb td h1)
  · rfl

theorem used_item {s : Schema} {ts u : TypeSpec} (hw : Written s ts) (ht : ts.type = "Array") (hd : Defines s ts.items u)
    (hc : ts.items ∉ ["Enum", "Struct", "Array", "Map"]) : Used s u := by
  by_cases h : u.type ∈ ["Struct", "Enum"]
  · rcases hd with ⟨td, h1, _, rfl⟩ | ⟨h1, rfl⟩
    · exact .inl (.inl ⟨td, h1, rfl⟩)
    · simp at h hc; tauto
  · exact .inr (.item hw ht hd h)

theorem no_values {olib : OLib} {s : Schema} (hx : Expressible olib s) {td : TypeDef} (htd : td ∈ s.types)
    (ht : td.ts.type ∈ ["UUID", "Timestamp"]) : enumOfValues td.ts = none := by
  simp [enumOfValues, hx.strings td.ts (.inl ⟨td, htd, rfl⟩) ht]

theorem timestampComp {lib : Lib} {strict : Bool} {schemas : GoMap OSchema} {n : Nat} {olib : OLib} {m : Model} {td : TypeDef}
    {c : OSchema} {v : Value} (ht : td.ts.type = "Timestamp") (h : exportTypeDefN n olib m td = .ok c) (hv : Scalar v)
    (hk : (∃ t, IsText v t) ∨ (∃ t, v = .uuid t) ∨ v = .tsPtr) (hf : HasFormat lib "date-time" v) (he : enumOfValues td.ts = none) :
    Fits lib strict schemas c v := by
  simp only [exportTypeDefN, ht] at h
  simp at h
  obtain ⟨a, h1, h⟩ := Ran.bind_eq_ok.1 h
  cases h
  unfold exportString at h1
  obtain ⟨b, h2, h1⟩ := Ran.bind_eq_ok.1 h1
  cases h1
  obtain ⟨k, h2⟩ := step_ok h2
  simp [oasSchemaStep, ht] at h2
  subst h2
  simp only [he]
  exact fits_plainString hv hk "date-time" td.comment hf

theorem uuidComp {lib : Lib} {strict : Bool} {schemas : GoMap OSchema} {n : Nat} {olib : OLib} {m : Model} {td : TypeDef}
    {c : OSchema} {v : Value} (ht : td.ts.type = "UUID") (h : exportTypeDefN n olib m td = .ok c) (hv : Scalar v)
    (hk : (∃ t, IsText v t) ∨ (∃ t, v = .uuid t) ∨ v = .tsPtr) (hf : HasFormat lib "uuid" v) (he : enumOfValues td.ts = none) :
    Fits lib strict schemas c v := by
  simp only [exportTypeDefN, ht] at h
  simp at h
  obtain ⟨a, h1, h⟩ := Ran.bind_eq_ok.1 h
  cases h
  unfold exportString at h1
  obtain ⟨b, h2, h1⟩ := Ran.bind_eq_ok.1 h1
  cases h1
  obtain ⟨k, h2⟩ := step_ok h2
  simp [oasSchemaStep, ht] at h2
  subst h2
  simp only [he]
  exact fits_plainString hv hk "uuid" td.comment hf

/-- The values of a type are admitted by its schema, in place and as component. -/
theorem fits_of_conforms {s : Schema} {m : Model} (hm : newModel s = .ok m) (hs : RefSafe s) {olib : OLib}
    (hx : Expressible olib s) (hbytes : ∀ t, Used s t → t.type ≠ "Bytes") {n : Nat} {schemas : GoMap OSchema}
    (hc : Components s m olib n schemas) (lib : Lib) (strict : Bool) {ts : TypeSpec} {v : Value}
    (h : Conforms lib (Defines s) ts v) : AsciiOnly v → Integral s v →
    (∀ k name sch, SpecSafe s ts name → (name = "" ∧ ts.type ≠ "Enum" ∨ Defines s name ts) → Used s ts →
      oasSchemaN k olib m ts name = .ok sch → Fits lib strict schemas sch v) ∧
    (∀ td ∈ s.types, td.ts = ts → ∀ c, exportTypeDefN n olib m td = .ok c → Fits lib strict schemas c v) := by
  obtain ⟨hn, hb, _, _⟩ := (newModel_ok_iff s m).1 hm
  -- a reference to a named type whose component admits the value
  have byRef : ∀ {v : Value} {td : TypeDef}, td ∈ s.types →
      (∀ c, exportTypeDefN n olib m td = .ok c → Fits lib strict schemas c v) →
      Fits lib strict schemas { ref := refPrefix ++ td.name } v := by
    intro v td htd hf
    obtain ⟨c, c0, h1, h2, h3⟩ := hc.all td htd
    exact .ref rfl h1 (fits_bare (hf c0 h2) h3)
  induction h with
  | @bool ts v b ht hv =>
    intro _ _
    refine ⟨fun k name sch _ _ _ h => ?_, fun td htd e c h => ?_⟩
    · obtain ⟨k, h⟩ := step_ok h
      simp only [oasSchemaStep, ht, if_true, Ran.ok.injEq] at h
      subst h
      exact fits_bool hv ""
    · subst e
      simp [exportTypeDefN, ht] at h
      subst h
      exact fits_bool hv _
  | @string ts v t ht hv hk =>
    intro ha _
    have ha' := ha v t .refl hv
    refine ⟨fun k name sch _ _ hu h => ?_, fun td htd e c h => ?_⟩
    · obtain ⟨k, h⟩ := step_ok h
      simp [oasSchemaStep, ht] at h
      subst h
      exact fits_string hx hu ht hv ha' hk "" none (.inl rfl)
    · subst e
      simp only [exportTypeDefN, ht] at h
      simp at h
      unfold exportString at h
      obtain ⟨a, h1, h⟩ := Ran.bind_eq_ok.1 h
      obtain ⟨k, h1⟩ := step_ok h1
      simp [oasSchemaStep, ht] at h1
      subst h1
      cases h
      refine fits_string hx (.inl (.inl ⟨td, htd, rfl⟩)) ht hv ha' hk td.comment _ (.inr ?_)
      cases enumOfValues td.ts <;> rfl
  | @enum ts v t ht hv h0 hel =>
    intro _ _
    have comp : ∀ td ∈ s.types, td.ts = ts → ∀ c, exportTypeDefN n olib m td = .ok c → Fits lib strict schemas c v := by
      intro td _ e c h
      subst e
      simp [exportTypeDefN, ht] at h
      subst h
      refine fits_scalar (scalar_text hv) rfl rfl (kind_string hv) (hasFormat_none (by simp [exportEnum]) (by simp [exportEnum])) ?_ ?_ ?_
      · intro vals hvals
        simp only [exportEnum, Option.some.injEq] at hvals
        subst hvals
        obtain ⟨el, h1, rfl⟩ := hel
        exact ⟨_, hv, List.mem_map.2 ⟨el, h1, rfl⟩⟩
      · rintro d rfl
        rcases hv with h | h <;> cases h
      · intro t' _; simp [exportEnum]
    refine ⟨fun k name sch hsafe hd hu h => ?_, comp⟩
    obtain ⟨k, h⟩ := step_ok h
    simp [oasSchemaStep, ht] at h
    subst h
    have h1 := safe_enum hb hsafe ht
    rcases hd with hd | hd
    · exact absurd ht hd.2
    · obtain ⟨td, h2, rfl, h3⟩ := defines_named hb hd h1
      exact byRef h2 (comp td h2 h3)
  | @number ts v d ht hv hw =>
    intro _ hwhole
    subst hv
    refine ⟨fun k name sch _ _ hu h => ?_, fun td htd e c h => ?_⟩
    · obtain ⟨k, h⟩ := step_ok h
      have : sch = oasNumeric olib ts := by
        have ht' := ht
        simp only [NumericNames, List.mem_cons, List.not_mem_nil, or_false] at ht'
        rcases ht' with e | e | e | e | e | e | e <;> simp [oasSchemaStep, e] at h <;> first | exact h.symm | (split at h <;> first | exact (Ran.ok.inj h).symm | cases h)
      subst this
      exact fits_numeric hx hu ht hw (fun hi => hwhole ⟨_, hu, hi⟩ d .refl)
    · subst e
      have : c = oasNumeric olib td.ts := by
        have ht' := ht
        simp only [NumericNames, List.mem_cons, List.not_mem_nil, or_false] at ht'
        rcases ht' with e | e | e | e | e | e | e <;> simp [exportTypeDefN, e] at h <;> exact h.symm
      subst this
      exact fits_numeric hx (.inl (.inl ⟨td, htd, rfl⟩)) ht hw (fun hi => hwhole ⟨_, .inl (.inl ⟨td, htd, rfl⟩), hi⟩ d .refl)
  | @timestampPtr ts v ht hv =>
    intro _ _
    subst hv
    have hf : HasFormat lib "date-time" .tsPtr := ⟨fun _ => .inl rfl, fun e => absurd e (by decide)⟩
    refine ⟨fun k name sch _ _ _ h => ?_, fun td htd e c h => ?_⟩
    · obtain ⟨k, h⟩ := step_ok h
      simp [oasSchemaStep, ht] at h
      subst h
      exact fits_plainString ⟨by simp, by simp⟩ (.inr (.inr rfl)) "date-time" "" hf
    · subst e
      exact timestampComp ht h ⟨by simp, by simp⟩ (.inr (.inr rfl)) hf (no_values hx htd (by simp [ht]))
  | @timestampText ts v t ht hv htxt =>
    intro _ _
    have hv' : IsText v t := .inr hv
    have hf : HasFormat lib "date-time" v := ⟨fun _ => .inr ⟨t, hv', htxt⟩, fun e => absurd e (by decide)⟩
    refine ⟨fun k name sch _ _ _ h => ?_, fun td htd e c h => ?_⟩
    · obtain ⟨k, h⟩ := step_ok h
      simp [oasSchemaStep, ht] at h
      subst h
      exact fits_plainString (scalar_text hv') (.inl ⟨t, hv'⟩) "date-time" "" hf
    · subst e
      exact timestampComp ht h (scalar_text hv') (.inl ⟨t, hv'⟩) hf (no_values hx htd (by simp [ht]))
  | @uuid ts v t ht hv =>
    intro _ _
    subst hv
    refine ⟨fun k name sch _ _ _ h => ?_, fun td htd e c h => ?_⟩
    · obtain ⟨k, h⟩ := step_ok h
      simp [oasSchemaStep, ht] at h
      subst h
      exact fits_plainString ⟨by simp, by simp⟩ (.inr (.inl ⟨t, rfl⟩)) "" _ (hasFormat_none (by simp) (by simp))
    · subst e
      exact uuidComp ht h ⟨by simp, by simp⟩ (.inr (.inl ⟨t, rfl⟩)) ⟨fun e => absurd e (by decide), fun _ => .inl ⟨t, rfl⟩⟩ (no_values hx htd (by simp [ht]))
  | @uuidText ts v t ht hv hshape =>
    intro _ _
    refine ⟨fun k name sch _ _ _ h => ?_, fun td htd e c h => ?_⟩
    · obtain ⟨k, h⟩ := step_ok h
      simp [oasSchemaStep, ht] at h
      subst h
      exact fits_plainString (scalar_text hv) (.inl ⟨t, hv⟩) "" _ (hasFormat_none (by simp) (by simp))
    · subst e
      exact uuidComp ht h (scalar_text hv) (.inl ⟨t, hv⟩) ⟨fun e => absurd e (by decide), fun _ => .inr ⟨t, hv, hshape⟩⟩ (no_values hx htd (by simp [ht]))
  | @unitValue ts v val unit d tv tu ht hv _ _ _ _ _ _ _ _ _ =>
    intro _ _
    have hv' : IsText v _ := .inr hv
    refine ⟨fun k name sch _ _ _ h => ?_, fun td htd e c h => ?_⟩
    · obtain ⟨k, h⟩ := step_ok h
      simp [oasSchemaStep, ht] at h
      subst h
      exact fits_plainString (scalar_text hv') (.inl ⟨_, hv'⟩) "" _ (hasFormat_none (by simp) (by simp))
    · subst e
      simp [exportTypeDefN, ht] at h
  | @struct ts v kvs ht hv hknown hreq _ ih =>
    intro ha hw
    subst hv
    have props : ∀ (k : Nat) (ps : GoMap OSchema), (∀ f ∈ ts.fields, Inline s f.ts) →
        oasProps (fun ts => oasSchemaN k olib m ts "") ts.fields [] = .ok ps →
        (∀ key i x, (key, i) ∈ ps → (key, x) ∈ kvs → Fits lib strict schemas i x) ∧
        (∀ key x, (key, x) ∈ kvs → ∃ i, (key, i) ∈ ps) := by
      intro k ps hin hps
      constructor
      · intro key i x h1 h2
        rcases oasProps_mem hps h1 with h3 | ⟨f, h3, rfl, h4⟩
        · cases h3
        · have hi := hin f h3
          refine (ih f h3 x h2 (ascii_member ha h2) (whole_member hw h2)).1 k "" i (inline_safe hs hi) (.inl ⟨rfl, ?_⟩) (.inr (.inline hi)) h4
          exact inline_not_enum hb hs hi
      · intro key x h1
        obtain ⟨f, h2, h3⟩ := hknown key x h1
        exact oasProps_has hps key (.inr ⟨f, h2, h3⟩)
    have comp : ∀ td ∈ s.types, td.ts = ts → ∀ c, exportTypeDefN n olib m td = .ok c → Fits lib strict schemas c (.obj kvs) := by
      intro td htd e c h
      subst e
      simp only [exportTypeDefN, ht, if_true] at h
      unfold exportStruct at h
      obtain ⟨ps, h1, h⟩ := Ran.bind_eq_ok.1 h
      cases h
      obtain ⟨p1, p2⟩ := props n ps (fun f hf => .field htd ht hf) h1
      refine fits_struct ?_ p1 p2 _
      intro key hkey
      obtain ⟨f, h2, rfl⟩ := List.mem_map.1 hkey
      obtain ⟨h3, h4⟩ := List.mem_filter.1 h2
      exact hreq f h3 (by simpa using h4)
    refine ⟨fun k name sch hsafe hd hu h => ?_, comp⟩
    obtain ⟨k, h⟩ := step_ok h
    obtain ⟨s1, s2⟩ := safe_struct hb hsafe ht
    by_cases hne : name = ""
    · simp [oasSchemaStep, ht, hne] at h
      obtain ⟨ps, h1, h⟩ := Ran.bind_eq_ok.1 h
      cases h
      obtain ⟨p1, p2⟩ := props k ps (s1 hne) h1
      exact fits_struct (by simp) p1 p2 ""
    · simp [oasSchemaStep, ht, hne] at h
      subst h
      rcases hd with hd | hd
      · exact absurd hd.1 hne
      · obtain ⟨td, h2, rfl, h3⟩ := defines_named hb hd (s2 hne)
        exact byRef h2 (comp td h2 h3)
  | @arrayAny ts v xs ht hv hany _ =>
    intro _ _
    have no : Written s ts → ¬ ∃ td, m.findType ts.items = some td := by
      rintro hwr ⟨td, hf⟩
      rw [hany] at hf
      have h1 := hs.arrays ts hwr ht _ (by rw [hany]; exact findType_defines hm hf)
      rw [any_def hm hf] at h1
      exact absurd h1 (by decide)
    refine ⟨fun k name sch hsafe hd hu h => ?_, fun td htd e c h => ?_⟩
    · obtain ⟨k, h⟩ := step_ok h
      simp only [oasSchemaStep, ht] at h
      simp at h
      split at h
      · cases h
      · next itd hf => exact absurd ⟨itd, hf⟩ (no (safe_collection hb hsafe (.inl ht)))
    · subst e
      simp only [exportTypeDefN, ht] at h
      simp at h
      unfold exportArray at h
      split at h
      · cases h
      · next itd hf => exact absurd ⟨itd, hf⟩ (no (.inl ⟨td, htd, rfl⟩))
  | @arrayOf ts v xs ti ht hv hany hdef _ _ ih =>
    intro ha hw
    subst hv
    have item : Written s ts → ∀ (k : Nat) (itd : TypeDef) (i : OSchema), m.findType ts.items = some itd →
        oasSchemaN k olib m itd.ts ts.items = .ok i → ∀ x ∈ xs, Fits lib strict schemas i x := by
      intro hwr k itd i hf hi x hxm
      have e := findType_eq hm hf hdef
      subst e
      refine (ih x hxm (ascii_item ha hxm) (whole_item hw hxm)).1 k ts.items i (arrayItem_safe hm hs hwr ht hf) (.inr hdef) ?_ hi
      exact used_item hwr ht hdef (hs.collections ts hwr (by simp [ht]))
    refine ⟨fun k name sch hsafe hd hu h => ?_, fun td htd e c h => ?_⟩
    · obtain ⟨k, h⟩ := step_ok h
      simp only [oasSchemaStep, ht] at h
      simp at h
      split at h
      · cases h
      · next itd hf =>
        obtain ⟨i, h1, h⟩ := Ran.bind_eq_ok.1 h
        cases h
        exact fits_array (item (safe_collection hb hsafe (.inl ht)) k itd i hf h1) ""
    · subst e
      simp only [exportTypeDefN, ht] at h
      simp at h
      unfold exportArray at h
      split at h
      · cases h
      · next itd hf =>
        obtain ⟨i, h1, h⟩ := Ran.bind_eq_ok.1 h
        cases h
        exact fits_array (item (.inl ⟨td, htd, rfl⟩) n itd i hf h1) _
  | @mapAny ts v xs ht hv hany _ =>
    intro _ _
    have no : Written s ts → ¬ ∃ td, m.findType ts.items = some td := by
      rintro hwr ⟨td, hf⟩
      rw [hany] at hf
      have h1 := hs.maps ts hwr ht _ (by rw [hany]; exact findType_defines hm hf)
      rw [any_def hm hf] at h1
      exact absurd h1 (by decide)
    refine ⟨fun k name sch hsafe hd hu h => ?_, fun td htd e c h => ?_⟩
    · obtain ⟨k, h⟩ := step_ok h
      simp only [oasSchemaStep, ht] at h
      simp at h
      split at h
      · cases h
      · next itd hf => exact absurd ⟨itd, hf⟩ (no (safe_collection hb hsafe (.inr ht)))
    · subst e
      simp only [exportTypeDefN, ht] at h
      simp at h
      unfold exportMap at h
      split at h
      · cases h
      · next itd hf => exact absurd ⟨itd, hf⟩ (no (.inl ⟨td, htd, rfl⟩))
  | @mapOf ts v kvs ti ht hv hany hdef _ _ ih =>
    intro ha hw
    subst hv
    have item : Written s ts → ∀ (k : Nat) (itd : TypeDef) (i : OSchema), m.findType ts.items = some itd →
        oasSchemaN k olib m itd.ts "" = .ok i → ∀ key x, (key, x) ∈ kvs → Fits lib strict schemas i x := by
      intro hwr k itd i hf hi key x hxm
      have e := findType_eq hm hf hdef
      subst e
      refine (ih key x hxm (ascii_member ha hxm) (whole_member hw hxm)).1 k "" i (mapItem_safe hm hs hwr ht hf) (.inl ⟨rfl, ?_⟩)
        (.inr (.mapItem hwr ht hdef)) hi
      intro he
      have := hs.maps ts hwr ht _ hdef
      rw [he] at this
      exact absurd this (by decide)
    refine ⟨fun k name sch hsafe hd hu h => ?_, fun td htd e c h => ?_⟩
    · obtain ⟨k, h⟩ := step_ok h
      simp only [oasSchemaStep, ht] at h
      simp at h
      split at h
      · cases h
      · next itd hf =>
        obtain ⟨i, h1, h⟩ := Ran.bind_eq_ok.1 h
        cases h
        exact fits_map (item (safe_collection hb hsafe (.inr ht)) k itd i hf h1) ""
    · subst e
      simp only [exportTypeDefN, ht] at h
      simp at h
      unfold exportMap at h
      split at h
      · cases h
      · next itd hf =>
        obtain ⟨i, h1, h⟩ := Ran.bind_eq_ok.1 h
        cases h
        exact fits_map (item (.inl ⟨td, htd, rfl⟩) n itd i hf h1) _
  | @bytes ts v ht =>
    intro _ _
    refine ⟨fun k name sch _ _ hu h => absurd ht (hbytes ts hu), fun td htd e c h => ?_⟩
    subst e
    exact absurd ht (hbytes _ (.inl (.inl ⟨td, htd, rfl⟩)))
  | @any ts v ht =>
    intro _ _
    refine ⟨fun k name sch hsafe _ _ h => ?_, fun td htd e c h => ?_⟩
    · rcases hsafe with h1 | h1 | h1 | h1 | ⟨td, h1, h2⟩
      · rw [ht] at h1; exact absurd h1 (by decide)
      · rw [ht] at h1; exact absurd h1.1 (by decide)
      · rw [ht] at h1; exact absurd h1.1 (by decide)
      · rw [ht] at h1; exact absurd h1.1 (by decide)
      · exact absurd (by rw [h2, ht]; decide) (hb td h1)
    · subst e
      simp [exportTypeDefN, ht] at h
  | @named ts v t ht hdef hcf ih =>
    intro ha hw
    have hnm : ∀ x ∈ MeaningfulNames, ts.type ≠ x := fun x hx e => ht (e ▸ hx)
    refine ⟨fun k name sch hsafe _ _ h => ?_, fun td htd e c h => ?_⟩
    · obtain ⟨k, h⟩ := step_ok h
      have hst : oasSchemaStep olib m (oasSchemaN k olib m) ts name = .ok { ref := refPrefix ++ ts.type } := by
        simp [oasSchemaStep, hnm "Bool" (by decide), hnm "Int32" (by decide), hnm "Int16" (by decide), hnm "Int8" (by decide),
          hnm "Int64" (by decide), hnm "Float32" (by decide), hnm "Float64" (by decide), hnm "Decimal" (by decide),
          hnm "Bytes" (by decide), hnm "String" (by decide), hnm "Timestamp" (by decide), hnm "UnitValue" (by decide),
          hnm "UUID" (by decide), hnm "Enum" (by decide), hnm "Array" (by decide), hnm "Map" (by decide), hnm "Struct" (by decide)]
      rw [hst] at h
      cases h
      have hnamed : Named s ts.type := by
        rcases hsafe with h1 | h1 | h1 | h1 | h1
        · exact absurd (plain_meaningful h1) ht
        · rcases h1 with ⟨h1, _⟩
          simp only [List.mem_cons, List.not_mem_nil, or_false] at h1
          rcases h1 with h1 | h1
          · exact absurd h1 (hnm _ (by decide))
          · exact absurd h1 (hnm _ (by decide))
        · exact absurd h1.1 (hnm _ (by decide))
        · exact absurd h1.1 (hnm _ (by decide))
        · exact h1
      obtain ⟨td, h2, h3, h4⟩ := defines_named hb hdef hnamed
      rw [← h3]
      exact byRef h2 ((ih ha hw).2 td h2 h4)
    · subst e
      have hu := no_union hb (.named t ht hdef hcf)
      simp [exportTypeDefN, hnm "Bool" (by decide), hnm "Int32" (by decide), hnm "Int16" (by decide), hnm "Int8" (by decide),
          hnm "Int64" (by decide), hnm "Float32" (by decide), hnm "Float64" (by decide), hnm "Decimal" (by decide),
          hnm "String" (by decide), hnm "Timestamp" (by decide), hu,
          hnm "UUID" (by decide), hnm "Enum" (by decide), hnm "Array" (by decide), hnm "Map" (by decide), hnm "Struct" (by decide)] at h

/-! ### The schemas admit no other values -/

theorem mem_mset_other {α : Type} {l : GoMap α} {k k' : String} {v v' : α} (h : (k', v') ∈ l) (hn : k ≠ k') : (k', v') ∈ mset l k v := by
  induction l with
  | nil => cases h
  | cons e r ih =>
    unfold mset
    rcases List.mem_cons.1 h with rfl | h
    · simp [Ne.symm hn]
    · split
      · exact List.mem_cons_of_mem _ h
      · exact List.mem_cons_of_mem _ (ih h)

theorem mem_mset_self {α : Type} (l : GoMap α) (k : String) (v : α) : (k, v) ∈ mset l k v := by
  induction l with
  | nil => simp [mset]
  | cons e r ih =>
    unfold mset
    split
    · next e' => simp [e']
    · exact List.mem_cons_of_mem _ ih

theorem oasProps_old {conv : TypeSpec → Ran OSchema} {fs : List StructFieldDef} {acc ps : GoMap OSchema}
    (h : oasProps conv fs acc = .ok ps) {k : String} {i : OSchema} (hk : (k, i) ∈ acc) (hn : ∀ f ∈ fs, f.name ≠ k) : (k, i) ∈ ps := by
  induction fs generalizing acc with
  | nil => cases h; exact hk
  | cons f rest ih =>
    unfold oasProps at h
    obtain ⟨s1, h1, h⟩ := Ran.bind_eq_ok.1 h
    exact ih h (mem_mset_other hk (hn f (by simp))) (fun g hg => hn g (by simp [hg]))

theorem oasProps_field {conv : TypeSpec → Ran OSchema} {fs : List StructFieldDef} {acc ps : GoMap OSchema}
    (h : oasProps conv fs acc = .ok ps) (hn : (fs.map (·.name)).Nodup) {f : StructFieldDef} (hf : f ∈ fs) :
    ∃ i, (f.name, i) ∈ ps ∧ conv f.ts = .ok i := by
  induction fs generalizing acc with
  | nil => cases hf
  | cons g rest ih =>
    unfold oasProps at h
    obtain ⟨s1, h1, h⟩ := Ran.bind_eq_ok.1 h
    rw [List.map_cons, List.nodup_cons] at hn
    rcases List.mem_cons.1 hf with rfl | hf
    · refine ⟨s1, oasProps_old h (mem_mset_self _ _ _) ?_, h1⟩
      intro g hg e
      exact hn.1 (List.mem_map.2 ⟨g, hg, e⟩)
    · exact ih h hn.2 hf

theorem text_of_kind {v : Value} (h : HasKind "string" v) (hp : PlainOnly v) : ∃ t, IsText v t := by
  rcases h.2.1 rfl with h | ⟨t, rfl⟩ | rfl
  · exact h
  · exact absurd .refl (hp t).1
  · exact absurd .refl (hp "").2

theorem conforms_numeric {olib : OLib} {lib : Lib} {s : Schema} (hx : Expressible olib s) {ts : TypeSpec} (hu : Used s ts)
    (ht : ts.type ∈ NumericNames) {v : Value} (hk : HasKind (oasNumeric olib ts).type v)
    (hw : ∀ d, v = .dec d → NumWithin (oasNumeric olib ts).min (oasNumeric olib ts).max d) : Conforms lib (Defines s) ts v := by
  obtain ⟨b1, b2⟩ := used_bounds hx hu ht
  obtain ⟨c1, _, _⟩ := numericEquivalent_cases ht
  have e1 : (oasNumeric olib ts).min = ts.min.map olib.asFloat64 := rfl
  have e2 : (oasNumeric olib ts).max = ts.max.map olib.asFloat64 := rfl
  have e3 : (oasNumeric olib ts).type = (oasNumericEquivalent ts.type).1 := rfl
  rw [e1, e2, b1, b2] at hw
  rw [e3] at hk
  have : ∃ d, v = .dec d := by
    rcases c1 with ⟨c1, _⟩ | c1
    · obtain ⟨d, h, _⟩ := hk.2.2.2.1 c1; exact ⟨d, h⟩
    · exact hk.2.2.1 c1
  obtain ⟨d, rfl⟩ := this
  exact .number d ht rfl (hw d rfl)

theorem stringOk_of {olib : OLib} {lib : Lib} {s : Schema} (hx : Expressible olib s) {ts : TypeSpec} (hu : Used s ts)
    (ht : ts.type = "String") {t : String} (ha : ∀ c ∈ t.toList, c.toNat < 128)
    (hl : (oasString ts).minLength ≤ t.length ∧ (∀ n, (oasString ts).maxLength = some n → t.length ≤ n) ∧
        ((oasString ts).pattern ≠ "" → lib.regexMatch (oasString ts).pattern t = some true))
    (hv : ∀ vals, ts.values = some vals → t ∈ vals) : StringOk lib ts t := by
  obtain ⟨z1, z2⟩ := used_sizes hx hu ht
  obtain ⟨l1, l2, l3⟩ := hl
  refine ⟨⟨fun n hn => ?_, fun n hn => ?_⟩, hv, fun _ hp => l3 hp⟩
  · rw [bytes_ascii ha]; exact (minLength_iff z1 _).1 l1 n hn
  · rw [bytes_ascii ha]; exact (maxLength_iff z2 _).1 l2 n hn

theorem ref_ne (n : String) : refPrefix ++ n ≠ "" := by
  intro h
  have := congrArg String.length h
  simp [refPrefix] at this

theorem ref_inj {a b : String} (h : refPrefix ++ a = "#/components/schemas/" ++ b) : a = b := by
  have := congrArg String.toList h
  simp only [refPrefix, String.toList_append] at this
  exact String.ext (by simpa using List.append_cancel_left this)

/-- A component is no reference. -/
theorem component_ref {n : Nat} {olib : OLib} {m : Model} {td : TypeDef} {c : OSchema} (h : exportTypeDefN n olib m td = .ok c) :
    c.ref = "" := by
  have str : td.ts.type ∈ ["String", "UUID", "Timestamp"] → ∀ c, exportString (oasSchemaN n olib m) td = .ok c → c.ref = "" := by
    intro ht c h
    unfold exportString at h
    obtain ⟨b, h2, h1⟩ := Ran.bind_eq_ok.1 h
    cases h1
    obtain ⟨k, h2⟩ := step_ok h2
    simp only [List.mem_cons, List.not_mem_nil, or_false] at ht
    rcases ht with ht | ht | ht <;> simp [oasSchemaStep, ht] at h2 <;> subst h2 <;> rfl
  unfold exportTypeDefN at h
  simp only at h
  split at h
  · unfold exportStruct at h
    obtain ⟨ps, h1, h⟩ := Ran.bind_eq_ok.1 h
    cases h; rfl
  split at h
  · unfold exportArray at h
    split at h
    · cases h
    · obtain ⟨ps, h1, h⟩ := Ran.bind_eq_ok.1 h
      cases h; rfl
  split at h
  · unfold exportMap at h
    split at h
    · cases h
    · obtain ⟨ps, h1, h⟩ := Ran.bind_eq_ok.1 h
      cases h; rfl
  split at h
  · next ht => exact str (by simp [ht]) c h
  split at h
  · cases h; rfl
  split at h
  · cases h; rfl
  split at h
  · cases h; rfl
  split at h
  · next ht =>
    obtain ⟨b, h1, h⟩ := Ran.bind_eq_ok.1 h
    cases h
    exact str (by simp [ht]) b h1
  split at h
  · cases h; rfl
  split at h
  · next ht =>
    obtain ⟨b, h1, h⟩ := Ran.bind_eq_ok.1 h
    cases h
    exact str (by simp [ht]) b h1
  · cases h

theorem meaningful_base {t : String} (h : t ∈ MeaningfulNames) : t ∈ BaseTypes := by
  exact (by decide : ∀ x ∈ MeaningfulNames, x ∈ BaseTypes) t h

/-- The ways to write a schema for a type. -/
theorem step_cases {olib : OLib} {m : Model} {rec : TypeSpec → String → Ran OSchema} {ts : TypeSpec} {name : String} {sch : OSchema}
    (h : oasSchemaStep olib m rec ts name = .ok sch) :
    (ts.type = "Bool" ∧ sch = { type := "boolean" }) ∨ (ts.type ∈ NumericNames ∧ sch = oasNumeric olib ts) ∨
    (ts.type = "Bytes" ∧ sch = { type := "string", format := "byte" }) ∨ (ts.type = "String" ∧ sch = oasString ts) ∨
    (ts.type = "Timestamp" ∧ sch = { type := "string", format := "date-time" }) ∨
    (ts.type = "UnitValue" ∧ sch = { type := "string", description := "UnitValue" }) ∨
    (ts.type = "UUID" ∧ sch = { type := "string", description := "UUID" }) ∨
    (ts.type = "Enum" ∧ sch = { ref := refPrefix ++ name }) ∨
    (ts.type = "Array" ∧ ∃ itd i, m.findType ts.items = some itd ∧ rec itd.ts ts.items = .ok i ∧
      sch = { type := "array", items := some i }) ∨
    (ts.type = "Map" ∧ ∃ itd i, m.findType ts.items = some itd ∧ rec itd.ts "" = .ok i ∧
      sch = { type := "object", additionalProperties := some i }) ∨
    (ts.type = "Struct" ∧ name ≠ "" ∧ sch = { ref := refPrefix ++ name }) ∨
    (ts.type = "Struct" ∧ name = "" ∧ ∃ ps, oasProps (fun ts => rec ts "") ts.fields [] = .ok ps ∧
      sch = { type := "object", properties := some ps }) ∨
    (ts.type ∉ PlainTypes ∧ ts.type ∉ ["Enum", "Array", "Map", "Struct"] ∧ sch = { ref := refPrefix ++ ts.type }) := by
  unfold oasSchemaStep at h
  by_cases c1 : ts.type = "Bool"
  · rw [if_pos c1] at h; cases h; exact .inl ⟨c1, rfl⟩
  rw [if_neg c1] at h
  right
  by_cases c2 : ts.type ∈ ["Int32", "Int16", "Int8", "Int64", "Float32", "Float64", "Decimal"]
  · rw [if_pos c2] at h
    by_cases c3 : ts.type = "Float64" ∧ name ≠ ""
    · rw [if_pos c3] at h; cases h
    · rw [if_neg c3] at h
      cases h
      refine .inl ⟨?_, rfl⟩
      exact (by decide : ∀ x ∈ ["Int32", "Int16", "Int8", "Int64", "Float32", "Float64", "Decimal"], x ∈ NumericNames) _ c2
  rw [if_neg c2] at h
  right
  by_cases c3 : ts.type = "Bytes"
  · rw [if_pos c3] at h; cases h; exact .inl ⟨c3, rfl⟩
  rw [if_neg c3] at h
  right
  by_cases c4 : ts.type = "String"
  · rw [if_pos c4] at h; cases h; exact .inl ⟨c4, rfl⟩
  rw [if_neg c4] at h
  right
  by_cases c5 : ts.type = "Timestamp"
  · rw [if_pos c5] at h; cases h; exact .inl ⟨c5, rfl⟩
  rw [if_neg c5] at h
  right
  by_cases c6 : ts.type = "UnitValue"
  · rw [if_pos c6] at h; cases h; exact .inl ⟨c6, rfl⟩
  rw [if_neg c6] at h
  right
  by_cases c7 : ts.type = "UUID"
  · rw [if_pos c7] at h; cases h; exact .inl ⟨c7, rfl⟩
  rw [if_neg c7] at h
  right
  by_cases c8 : ts.type = "Enum"
  · rw [if_pos c8] at h; cases h; exact .inl ⟨c8, rfl⟩
  rw [if_neg c8] at h
  right
  by_cases c9 : ts.type = "Array"
  · rw [if_pos c9] at h
    left
    cases hf : m.findType ts.items with
    | none => rw [hf] at h; cases h
    | some itd =>
      rw [hf] at h
      obtain ⟨i, h1, h⟩ := Ran.bind_eq_ok.1 h
      cases h
      exact ⟨c9, itd, i, rfl, h1, rfl⟩
  rw [if_neg c9] at h
  right
  by_cases c10 : ts.type = "Map"
  · rw [if_pos c10] at h
    left
    cases hf : m.findType ts.items with
    | none => rw [hf] at h; cases h
    | some itd =>
      rw [hf] at h
      obtain ⟨i, h1, h⟩ := Ran.bind_eq_ok.1 h
      cases h
      exact ⟨c10, itd, i, rfl, h1, rfl⟩
  rw [if_neg c10] at h
  right
  by_cases c11 : ts.type = "Struct"
  · rw [if_pos c11] at h
    by_cases hn : name ≠ ""
    · rw [if_pos hn] at h; cases h; exact .inl ⟨c11, hn, rfl⟩
    · rw [if_neg hn] at h
      obtain ⟨ps, h1, h⟩ := Ran.bind_eq_ok.1 h
      cases h
      exact .inr (.inl ⟨c11, not_not.1 hn, ps, h1, rfl⟩)
  rw [if_neg c11] at h
  cases h
  refine .inr (.inr ⟨?_, ?_, rfl⟩)
  · simp only [List.mem_cons, List.not_mem_nil, or_false, not_or, PlainTypes] at c2 ⊢
    tauto
  · simp [c8, c9, c10, c11]

theorem step_ref {olib : OLib} {m : Model} {rec : TypeSpec → String → Ran OSchema} {ts : TypeSpec} {name : String} {sch : OSchema}
    (h : oasSchemaStep olib m rec ts name = .ok sch) :
    sch.ref = "" ∨ (sch.ref = refPrefix ++ name ∧ (ts.type = "Enum" ∨ (ts.type = "Struct" ∧ name ≠ ""))) ∨
    (sch.ref = refPrefix ++ ts.type ∧ ts.type ∉ PlainTypes ∧ ts.type ∉ ["Enum", "Array", "Map", "Struct"]) := by
  rcases step_cases h with ⟨_, rfl⟩ | ⟨_, rfl⟩ | ⟨_, rfl⟩ | ⟨_, rfl⟩ | ⟨_, rfl⟩ | ⟨_, rfl⟩ | ⟨_, rfl⟩ | ⟨c, rfl⟩ | ⟨_, _, _, _, _, rfl⟩ |
    ⟨_, _, _, _, _, rfl⟩ | ⟨c, c', rfl⟩ | ⟨_, _, _, _, rfl⟩ | ⟨c, c', rfl⟩
  all_goals first
    | exact .inl rfl
    | exact .inr (.inl ⟨rfl, .inl c⟩)
    | exact .inr (.inl ⟨rfl, .inr ⟨c, c'⟩⟩)
    | exact .inr (.inr ⟨rfl, c, c'⟩)

theorem step_oneOf {olib : OLib} {m : Model} {rec : TypeSpec → String → Ran OSchema} {ts : TypeSpec} {name : String} {sch : OSchema}
    (h : oasSchemaStep olib m rec ts name = .ok sch) : sch.oneOf = [] := by
  rcases step_cases h with ⟨_, rfl⟩ | ⟨_, rfl⟩ | ⟨_, rfl⟩ | ⟨_, rfl⟩ | ⟨_, rfl⟩ | ⟨_, rfl⟩ | ⟨_, rfl⟩ | ⟨c, rfl⟩ | ⟨_, _, _, _, _, rfl⟩ |
    ⟨_, _, _, _, _, rfl⟩ | ⟨c, c', rfl⟩ | ⟨_, _, _, _, rfl⟩ | ⟨c, c', rfl⟩ <;> rfl

theorem component_oneOf {n : Nat} {olib : OLib} {m : Model} {td : TypeDef} {c : OSchema} (h : exportTypeDefN n olib m td = .ok c)
    (hu : td.ts.type ≠ "Union") : c.oneOf = [] := by
  have str : ∀ c, exportString (oasSchemaN n olib m) td = .ok c → c.oneOf = [] := by
    intro c h
    unfold exportString at h
    obtain ⟨b, h2, h1⟩ := Ran.bind_eq_ok.1 h
    cases h1
    obtain ⟨k, h2⟩ := step_ok h2
    exact (step_oneOf h2 :)
  unfold exportTypeDefN exportStruct exportArray exportMap at h
  simp only [hu, if_false] at h
  repeat' split at h
  all_goals first
    | (cases h; done)
    | exact str c h
    | (cases h; rfl)
    | (obtain ⟨b, h1, h⟩ := Ran.bind_eq_ok.1 h; cases h; first | exact str b h1 | rfl)

/-- Where a schema is written for a type: in place, or as a reference to the name it is defined by. -/
structure Place (s : Schema) (ts : TypeSpec) (name : String) : Prop where
  safe : SpecSafe s ts name
  defined : name = "" ∧ ts.type ≠ "Enum" ∨ Defines s name ts
  inPlace : InPlace s ts ∨ (name ≠ "" ∧ ts.type ∈ ["Struct", "Enum"])

theorem Place.here {s : Schema} {ts : TypeSpec} {name : String} (h : Place s ts name) (ht : ts.type ∉ ["Struct", "Enum"]) :
    InPlace s ts := by
  rcases h.inPlace with h | h
  · exact h
  · exact absurd h.2 ht

theorem inline_place {s : Schema} (hb : ∀ td ∈ s.types, td.name ∉ BaseTypes) (hs : RefSafe s) {t : TypeSpec} (h : Inline s t) :
    Place s t "" := ⟨inline_safe hs h, .inl ⟨rfl, inline_not_enum hb hs h⟩, .inl (.inline h)⟩

theorem arrayItem_place {s : Schema} {m : Model} (hm : newModel s = .ok m) (hs : RefSafe s) (hx : Exact s) {ts : TypeSpec} (hw : Written s ts)
    (ht : ts.type = "Array") {itd : TypeDef} (hf : m.findType ts.items = some itd) : Place s itd.ts ts.items := by
  obtain ⟨_, hb, _, _⟩ := (newModel_ok_iff s m).1 hm
  have hsafe := arrayItem_safe hm hs hw ht hf
  have hd := findType_defines hm hf
  refine ⟨hsafe, .inr hd, ?_⟩
  by_cases hk : itd.ts.type ∈ ["Struct", "Enum"]
  · right
    refine ⟨?_, hk⟩
    intro e
    rcases hd with ⟨td, h1, h2, _⟩ | ⟨h1, _⟩
    · exact hx.names td h1 (h2.trans e)
    · rw [e] at h1; exact absurd h1 (by decide)
  · exact .inl (.item hw ht hd hk)

theorem mapItem_place {s : Schema} {m : Model} (hm : newModel s = .ok m) (hs : RefSafe s) {ts : TypeSpec} (hw : Written s ts)
    (ht : ts.type = "Map") {itd : TypeDef} (hf : m.findType ts.items = some itd) : Place s itd.ts "" := by
  have hd := findType_defines hm hf
  refine ⟨mapItem_safe hm hs hw ht hf, .inl ⟨rfl, ?_⟩, .inl (.mapItem hw ht hd)⟩
  intro he
  have := hs.maps ts hw ht _ hd
  rw [he] at this
  exact absurd this (by decide)

/-- The schemas of a type admit only its values, in place and as component. -/
theorem conforms_of_fits {s : Schema} {m : Model} (hm : newModel s = .ok m) (hs : RefSafe s) {olib : OLib}
    (hx : Expressible olib s) (he : Exact s) {n : Nat} {schemas : GoMap OSchema}
    (hc : Components s m olib n schemas) (lib : Lib) {sch : OSchema} {v : Value}
    (h : Fits lib true schemas sch v) : AsciiOnly v → PlainOnly v →
    (∀ k ts name, Place s ts name → oasSchemaN k olib m ts name = .ok sch → Conforms lib (Defines s) ts v) ∧
    (∀ td ∈ s.types, ∀ c, exportTypeDefN n olib m td = .ok c → sch.bare = c.bare → Conforms lib (Defines s) td.ts v) := by
  obtain ⟨hn, hb, _, _⟩ := (newModel_ok_iff s m).1 hm
  have noAny : ∀ {ts : TypeSpec}, Written s ts → ts.type = "Array" ∨ ts.type = "Map" → ∀ {itd}, m.findType ts.items = some itd → ts.items ≠ "Any" := by
    intro ts hw ht itd hf e
    have hd := findType_defines hm hf
    have hty : itd.ts.type = "Any" := any_def hm (e ▸ hf)
    rcases ht with ht | ht
    · have := hs.arrays ts hw ht _ hd
      rw [hty] at this; exact absurd this (by decide)
    · have := hs.maps ts hw ht _ hd
      rw [hty] at this; exact absurd this (by decide)
  induction h with
  | @ref sch r t v hr hmem hfit ih =>
    intro ha hp
    refine ⟨fun k ts name hpl h => ?_, fun td _ c h e => ?_⟩
    · obtain ⟨td, h1, h2, c0, h3, h4⟩ := hc.only r t hmem
      have hconf := (ih ha hp).2 td h1 c0 h3 h4
      obtain ⟨k, h⟩ := step_ok h
      rcases step_ref h with h5 | ⟨h5, h6⟩ | ⟨h5, _, _⟩
      · rw [h5] at hr; exact absurd hr.symm (ref_ne r)
      · rw [h5] at hr
        have e := ref_inj hr
        rcases hpl.defined with hd | hd
        · rcases h6 with h6 | h6
          · exact absurd h6 hd.2
          · exact absurd hd.1 h6.2
        · rcases hd with ⟨td', h7, h8, h9⟩ | ⟨h7, _⟩
          · rw [unique_def hn h1 h7 (by rw [h2, h8, e])] at hconf
            rwa [h9] at hconf
          · exact absurd (by rw [h2, ← e]; exact h7) (hb td h1)
      · rw [h5] at hr
        have e := ref_inj hr
        have hnm : ts.type ∉ MeaningfulNames := by
          intro hmn
          exact hb td h1 (by rw [h2, ← e]; exact meaningful_base hmn)
        exact .named td.ts hnm (.inl ⟨td, h1, by rw [h2, e], rfl⟩) hconf
    · have e1 : sch.ref = c.ref := (congrArg OSchema.ref e :)
      rw [component_ref h] at e1
      rw [e1] at hr
      exact absurd hr.symm (ref_ne r)
  | @oneOf sch i v hr hmem hfit ih =>
    intro ha hp
    refine ⟨fun k ts name hpl h => ?_, fun td htd c h e => ?_⟩
    · obtain ⟨k, h⟩ := step_ok h
      rw [step_oneOf h] at hmem
      cases hmem
    · have e1 : sch.oneOf = c.oneOf := (congrArg OSchema.oneOf e :)
      rw [component_oneOf h (fun hu => he.types td.ts (.inl ⟨td, htd, rfl⟩) (by simp [hu]))] at e1
      rw [e1] at hmem
      cases hmem
  | @plain sch v h1 h2 h3 h4 h5 h6 h7 h8 h9 h10 h11 h12 ih8 ih10 ih12 =>
    intro ha hp
    have array : ∀ (k : Nat) (ts : TypeSpec) (itd : TypeDef) (i : OSchema), Written s ts → ts.type = "Array" →
        m.findType ts.items = some itd → oasSchemaN k olib m itd.ts ts.items = .ok i → sch.type = "array" → sch.items = some i →
        Conforms lib (Defines s) ts v := by
      intro k ts itd i hw ht hf hi hty hit
      obtain ⟨xs, rfl⟩ := h3.2.2.2.2.1 hty
      obtain ⟨z1, z2⟩ := he.sizes ts hw (by simp [ht])
      refine .arrayOf xs itd.ts ht rfl (noAny hw (.inl ht) hf) (findType_defines hm hf) ?_ ⟨by simp [z1], by simp [z2]⟩
      intro x hxm
      exact (ih8 i xs x hit rfl hxm (ascii_item ha hxm) (plain_item hp hxm)).1 k itd.ts ts.items
        (arrayItem_place hm hs he hw ht hf) hi
    have map : ∀ (k : Nat) (ts : TypeSpec) (itd : TypeDef) (i : OSchema), Written s ts → ts.type = "Map" →
        m.findType ts.items = some itd → oasSchemaN k olib m itd.ts "" = .ok i → sch.type = "object" → sch.properties = none →
        sch.additionalProperties = some i → Conforms lib (Defines s) ts v := by
      intro k ts itd i hw ht hf hi hty hpr hit
      obtain ⟨kvs, rfl⟩ := h3.2.2.2.2.2 hty
      obtain ⟨z1, z2⟩ := he.sizes ts hw (by simp [ht])
      refine .mapOf kvs itd.ts ht rfl (noAny hw (.inr ht) hf) (findType_defines hm hf) ?_ ⟨by simp [z1], by simp [z2]⟩
      intro key x hxm
      exact (ih12 i kvs key x hit rfl hxm (by simp [hpr]) (ascii_member ha hxm) (plain_member hp hxm)).1 k itd.ts ""
        (mapItem_place hm hs hw ht hf) hi
    have struct : ∀ (k : Nat) (ts : TypeSpec) (ps : GoMap OSchema), ts.type = "Struct" → (ts.fields.map (·.name)).Nodup →
        (∀ f ∈ ts.fields, Inline s f.ts) → oasProps (fun ts => oasSchemaN k olib m ts "") ts.fields [] = .ok ps →
        sch.type = "object" → sch.properties = some ps → sch.additionalProperties = none →
        (∀ f ∈ ts.fields, f.required = true → f.name ∈ sch.required) → Conforms lib (Defines s) ts v := by
      intro k ts ps ht hnd hin hps hty hpr had hreq
      obtain ⟨kvs, rfl⟩ := h3.2.2.2.2.2 hty
      refine .struct kvs ht rfl ?_ ?_ ?_
      · intro key x hxm
        obtain ⟨i, hi⟩ := h11 ps kvs key x rfl hpr had rfl hxm
        rcases oasProps_mem hps hi with h | ⟨f, hf, e, _⟩
        · cases h
        · exact ⟨f, hf, e⟩
      · intro f hf hr
        exact h9 kvs f.name rfl (hreq f hf hr)
      · intro f hf x hxm
        obtain ⟨i, hi, hconv⟩ := oasProps_field hps hnd hf
        exact (ih10 ps kvs f.name i x hpr rfl hi hxm (ascii_member ha hxm) (plain_member hp hxm)).1 k f.ts ""
          (inline_place hb hs (hin f hf)) hconv
    have bool : ∀ ts : TypeSpec, ts.type = "Bool" → sch.type = "boolean" → Conforms lib (Defines s) ts v := by
      intro ts ht hty
      obtain ⟨b, hv⟩ := h3.1 hty
      exact .bool b ht hv
    have number : ∀ ts : TypeSpec, Used s ts → ts.type ∈ NumericNames → sch.type = (oasNumeric olib ts).type →
        sch.min = (oasNumeric olib ts).min → sch.max = (oasNumeric olib ts).max → Conforms lib (Defines s) ts v := by
      intro ts hu ht hty hmin hmax
      exact conforms_numeric hx hu ht (hty ▸ h3) (hmin ▸ hmax ▸ h6)
    have string : ∀ ts : TypeSpec, Used s ts → ts.type = "String" → sch.type = "string" → sch.minLength = (oasString ts).minLength →
        sch.maxLength = (oasString ts).maxLength → sch.pattern = (oasString ts).pattern →
        (ts.values = none ∨ ∃ vals, ts.values = some vals ∧ sch.enum = some (vals.map .str)) → Conforms lib (Defines s) ts v := by
      intro ts hu ht hty e1 e2 e3 hvals
      rw [hty] at h3
      obtain ⟨t, hv⟩ := text_of_kind h3 hp
      have h7' := h7 t hv
      rw [e1, e2, e3] at h7'
      refine .string t ht hv (stringOk_of hx hu ht (ha v t .refl hv) h7' ?_)
      intro vals hvs
      rcases hvals with h | ⟨vals', h, h'⟩
      · rw [h] at hvs; cases hvs
      · rw [h] at hvs
        cases hvs
        obtain ⟨t', ht', hmem⟩ := h5 _ h'
        obtain rfl := isText_unique hv ht'
        obtain ⟨x, hxm, e⟩ := List.mem_map.1 hmem
        cases e
        exact hxm
    refine ⟨fun k ts name hpl h => ?_, fun td htd c h e => ?_⟩
    · obtain ⟨k, h⟩ := step_ok h
      rcases step_cases h with ⟨c, rfl⟩ | ⟨c, rfl⟩ | ⟨c, rfl⟩ | ⟨c, rfl⟩ | ⟨c, rfl⟩ | ⟨c, rfl⟩ | ⟨c, rfl⟩ | ⟨c, rfl⟩ | ⟨c, itd, i, c1, c2, rfl⟩ |
        ⟨c, itd, i, c1, c2, rfl⟩ | ⟨c, c', rfl⟩ | ⟨c, c', ps, c1, rfl⟩ | ⟨c, c', rfl⟩
      · exact bool ts c rfl
      · refine number ts (.inr (hpl.here ?_)) c rfl rfl rfl
        intro h'
        simp only [List.mem_cons, List.not_mem_nil, or_false] at h'
        rcases h' with h' | h' <;> rw [h'] at c <;> exact absurd c (by decide)
      · exact .bytes c
      · have hin := hpl.here (by simp [c])
        exact string ts (.inr hin) c rfl rfl rfl rfl (.inl (he.inPlaceValues ts hin c))
      · exact absurd (by simp [c]) (he.items ts (hpl.here (by simp [c])))
      · exact absurd (by simp [c]) (he.items ts (hpl.here (by simp [c])))
      · exact absurd (by simp [c]) (he.items ts (hpl.here (by simp [c])))
      · exact absurd h1 (ref_ne _)
      · exact array k ts itd i (safe_collection hb hpl.safe (.inl c)) c c1 c2 rfl rfl
      · exact map k ts itd i (safe_collection hb hpl.safe (.inr c)) c c1 c2 rfl rfl rfl
      · exact absurd h1 (ref_ne _)
      · have hin : InPlace s ts := by
          rcases hpl.inPlace with h' | h'
          · exact h'
          · exact absurd c' h'.1
        refine struct k ts ps c ?_ ((safe_struct hb hpl.safe c).1 c') c1 rfl rfl rfl ?_
        · rcases used_cases (.inr hin) with h' | ⟨b, _, rfl⟩
          · exact he.fields ts h' c
          · exact List.nodup_nil
        · intro f hf hr
          rw [he.inPlaceRequired ts hin c f hf] at hr
          cases hr
      · exact absurd h1 (ref_ne _)
    · have hw : Written s td.ts := .inl ⟨td, htd, rfl⟩
      have e3 : sch.type = c.type := (congrArg OSchema.type e :)
      have e4 : sch.format = c.format := (congrArg OSchema.format e :)
      have e5 : sch.enum = c.enum := (congrArg OSchema.enum e :)
      have e6 : sch.min = c.min := (congrArg OSchema.min e :)
      have e7 : sch.max = c.max := (congrArg OSchema.max e :)
      have e8 : sch.minLength = c.minLength := (congrArg OSchema.minLength e :)
      have e9 : sch.maxLength = c.maxLength := (congrArg OSchema.maxLength e :)
      have e10 : sch.pattern = c.pattern := (congrArg OSchema.pattern e :)
      have e11 : sch.items = c.items := (congrArg OSchema.items e :)
      have e12 : sch.required = c.required := (congrArg OSchema.required e :)
      have e13 : sch.properties = c.properties := (congrArg OSchema.properties e :)
      have e14 : sch.additionalProperties = c.additionalProperties := (congrArg OSchema.additionalProperties e :)
      unfold exportTypeDefN at h
      simp only at h
      by_cases c1 : td.ts.type = "Struct"
      · rw [if_pos c1] at h
        unfold exportStruct at h
        obtain ⟨ps, h', h⟩ := Ran.bind_eq_ok.1 h
        cases h
        refine struct n td.ts ps c1 (he.fields _ hw c1) (fun f hf => .field htd c1 hf) h' e3 e13 e14 ?_
        intro f hf hr
        rw [e12]
        exact List.mem_map.2 ⟨f, List.mem_filter.2 ⟨hf, hr⟩, rfl⟩
      rw [if_neg c1] at h
      by_cases c2 : td.ts.type = "Array"
      · rw [if_pos c2] at h
        unfold exportArray at h
        cases hf : m.findType td.ts.items with
        | none => rw [hf] at h; cases h
        | some itd =>
          rw [hf] at h
          obtain ⟨i, h', h⟩ := Ran.bind_eq_ok.1 h
          cases h
          exact array n td.ts itd i hw c2 hf h' e3 e11
      rw [if_neg c2] at h
      by_cases c3 : td.ts.type = "Map"
      · rw [if_pos c3] at h
        unfold exportMap at h
        cases hf : m.findType td.ts.items with
        | none => rw [hf] at h; cases h
        | some itd =>
          rw [hf] at h
          obtain ⟨i, h', h⟩ := Ran.bind_eq_ok.1 h
          cases h
          exact map n td.ts itd i hw c3 hf h' e3 e13 e14
      rw [if_neg c3] at h
      by_cases c4 : td.ts.type = "String"
      · rw [if_pos c4] at h
        unfold exportString at h
        obtain ⟨a, h', h⟩ := Ran.bind_eq_ok.1 h
        obtain ⟨k, h'⟩ := step_ok h'
        simp [oasSchemaStep, c4] at h'
        subst h'
        cases h
        refine string td.ts (.inl hw) c4 e3 e8 e9 e10 ?_
        cases hv : td.ts.values with
        | none => exact .inl rfl
        | some vals =>
          right
          refine ⟨vals, rfl, ?_⟩
          rw [e5]
          cases vals with
          | nil => exact absurd hv (he.values td.ts hw)
          | cons x xs => simp [enumOfValues, hv]
      rw [if_neg c4] at h
      by_cases c5 : td.ts.type = "Bool"
      · rw [if_pos c5] at h
        cases h
        exact bool td.ts c5 e3
      rw [if_neg c5] at h
      by_cases c6 : td.ts.type = "Enum"
      · rw [if_pos c6] at h
        cases h
        have e3' : sch.type = "string" := e3
        rw [e3'] at h3
        obtain ⟨t, hv⟩ := text_of_kind h3 hp
        obtain ⟨t', ht', hmem⟩ := h5 _ e5
        obtain rfl := isText_unique hv ht'
        obtain ⟨el, hel, e'⟩ := List.mem_map.1 hmem
        cases e'
        exact .enum _ c6 hv (he.symbols td.ts hw c6 el hel) ⟨el, hel, rfl⟩
      rw [if_neg c6] at h
      by_cases c7 : td.ts.type ∈ ["Int8", "Int16", "Int32", "Int64", "Float32", "Float64", "Decimal"]
      · rw [if_pos c7] at h
        cases h
        exact number td.ts (.inl hw)
          ((by decide : ∀ x ∈ ["Int8", "Int16", "Int32", "Int64", "Float32", "Float64", "Decimal"], x ∈ NumericNames) _ c7) e3 e6 e7
      rw [if_neg c7] at h
      by_cases c8 : td.ts.type = "UUID"
      · rw [if_pos c8] at h
        obtain ⟨a, h', h⟩ := Ran.bind_eq_ok.1 h
        cases h
        unfold exportString at h'
        obtain ⟨b, h'', h'⟩ := Ran.bind_eq_ok.1 h'
        obtain ⟨k, h''⟩ := step_ok h''
        simp [oasSchemaStep, c8] at h''
        subst h''
        cases h'
        have e3' : sch.type = "string" := e3
        rw [e3'] at h3
        obtain ⟨t, hv⟩ := text_of_kind h3 hp
        rcases h4.2 e4 with ⟨t', rfl⟩ | ⟨t', ht', hsh⟩
        · rcases hv with hv | hv <;> cases hv
        · exact .uuidText t' c8 ht' hsh
      rw [if_neg c8] at h
      by_cases c9 : td.ts.type = "Union"
      · exact absurd (by simp [c9]) (he.types td.ts hw)
      rw [if_neg c9] at h
      by_cases c10 : td.ts.type = "Timestamp"
      · exact absurd (by simp [c10]) (he.types td.ts hw)
      rw [if_neg c10] at h
      cases h

/-! ### The schemas of operations -/

theorem exportInputs_carries {conv : TypeSpec → String → Ran OSchema} {ins : List HttpParamSpec} {op op' : OOperation}
    (h : exportInputs conv ins op = .ok op') :
    (∃ qs, op'.parameters = op.parameters ++ qs ∧
      List.Forall₂ (fun p q => ∃ s, OParam.schema q = some s ∧ conv p.field.ts "" = .ok s) (ins.filter (fun p => !BodyInput p)) qs) ∧
    (ins.filter BodyInput = [] → op'.requestBody = op.requestBody) ∧
    (∀ p, ins.filter BodyInput = [p] →
      ∃ b, op'.requestBody = some b ∧ JsonBody (fun t s => conv t "" = .ok s) p.field.ts b.content) := by
  induction ins generalizing op with
  | nil => cases h; exact ⟨⟨[], by simp, by simp⟩, fun _ => rfl, by simp⟩
  | cons p rest ih =>
    unfold exportInputs at h
    obtain ⟨s, hs, h⟩ := Ran.bind_eq_ok.1 h
    obtain ⟨⟨qs, h1, h2⟩, h3, h4⟩ := ih h
    by_cases hb : BodyInput p = true
    · have hb' := hb
      simp only [BodyInput, decide_eq_true_eq] at hb'
      obtain ⟨b1, b2, b3⟩ := hb'
      simp only [exportInput, b1, b2, b3, Bool.false_eq_true, ne_eq, not_true_eq_false, not_false_eq_true, if_false, if_true] at h1 h3
      refine ⟨⟨qs, h1, ?_⟩, ?_, ?_⟩
      · simpa [List.filter_cons, hb] using h2
      · simp [List.filter_cons, hb]
      · intro p' hp'
        simp only [List.filter_cons, hb, if_true, List.cons.injEq] at hp'
        obtain ⟨rfl, hr⟩ := hp'
        refine ⟨_, h3 hr, { schema := some s }, s, ?_, rfl, hs⟩
        simp [jsonContent, mget]
    · have hb' : BodyInput p = false := by simpa using hb
      have e : ∃ q : OParam, q.schema = some s ∧ exportInput p s op = { op with parameters := op.parameters ++ [q] } := by
        simp only [BodyInput, decide_eq_false_iff_not, not_and] at hb'
        unfold exportInput
        by_cases c1 : p.path = true
        · simp only [c1, if_true]; exact ⟨_, rfl, rfl⟩
        · by_cases c2 : p.query = ""
          · have c3 := hb' (by simpa using c1) c2
            simp only [c1, c2, c3, ne_eq, not_true_eq_false, not_false_eq_true, if_false, if_true]; exact ⟨_, rfl, rfl⟩
          · simp only [c1, c2, ne_eq, not_true_eq_false, not_false_eq_true, if_false, if_true]; exact ⟨_, rfl, rfl⟩
      obtain ⟨q, e1, e2⟩ := e
      rw [e2] at h1 h3
      refine ⟨⟨q :: qs, by rw [h1]; simp, ?_⟩, ?_, ?_⟩
      · simp only [List.filter_cons, hb', Bool.not_false, if_true]
        exact .cons ⟨s, e1, hs⟩ h2
      · simpa [List.filter_cons, hb'] using h3
      · simpa [List.filter_cons, hb'] using h4

theorem exportOutputs_carries {conv : TypeSpec → String → Ran OSchema} {outs : List HttpParamSpec} {r r' : OResponse}
    (h : exportOutputs conv outs r = .ok r') :
    (outs.filter BodyOutput = [] → r'.content = r.content) ∧
    (∀ p, outs.filter BodyOutput = [p] → JsonBody (fun t s => conv t "" = .ok s) p.field.ts r'.content) ∧
    (∀ k, k ≠ "" → outs.filter (fun p => p.header == k) = [] → mget r'.headers k = mget r.headers k) ∧
    (∀ k p, k ≠ "" → outs.filter (fun p => p.header == k) = [p] →
      ∃ hd s, mget r'.headers k = some hd ∧ hd.schema = some s ∧ conv p.field.ts "" = .ok s) := by
  induction outs generalizing r with
  | nil => cases h; simp
  | cons p rest ih =>
    unfold exportOutputs at h
    obtain ⟨s, hs, h⟩ := Ran.bind_eq_ok.1 h
    obtain ⟨h1, h2, h3, h4⟩ := ih h
    by_cases hh : p.header = ""
    · have hb : BodyOutput p = true := by simp [BodyOutput, hh]
      simp only [exportOutput, hh, ne_eq, not_true_eq_false, if_false] at h1 h3
      refine ⟨by simp [List.filter_cons, hb], ?_, ?_, ?_⟩
      · intro p' hp'
        simp only [List.filter_cons, hb, if_true, List.cons.injEq] at hp'
        obtain ⟨rfl, hr⟩ := hp'
        rw [h1 hr]
        exact ⟨{ schema := some s }, s, mget_mset_same _ _ _, rfl, hs⟩
      · intro k hk hf
        have hne : (p.header == k) = false := by rw [hh]; simpa using Ne.symm hk
        exact h3 k hk (by simpa [List.filter_cons, hne] using hf)
      · intro k p' hk hf
        have hne : (p.header == k) = false := by rw [hh]; simpa using Ne.symm hk
        exact h4 k p' hk (by simpa [List.filter_cons, hne] using hf)
    · have hb : BodyOutput p = false := by simp [BodyOutput, hh]
      simp only [exportOutput, hh, ne_eq, not_false_eq_true, if_true] at h1 h3
      refine ⟨?_, ?_, ?_, ?_⟩
      · simpa [List.filter_cons, hb] using h1
      · simpa [List.filter_cons, hb] using h2
      · intro k hk hf
        by_cases he : p.header = k
        · simp [List.filter_cons, he] at hf
        · have hne : (p.header == k) = false := by simpa using he
          rw [h3 k hk (by simpa [List.filter_cons, hne] using hf), mget_mset_other _ _ _ _ (Ne.symm he)]
      · intro k p' hk hf
        by_cases he : p.header = k
        · subst he
          simp only [List.filter_cons, beq_self_eq_true, if_true, List.cons.injEq] at hf
          obtain ⟨rfl, hr⟩ := hf
          refine ⟨{ description := p.field.comment, schema := some s }, s, ?_, rfl, hs⟩
          rw [h3 _ hk hr, mget_mset_same]
        · have hne : (p.header == k) = false := by simpa using he
          exact h4 k p' hk (by simpa [List.filter_cons, hne] using hf)

theorem exportOp_carries {conv : TypeSpec → String → Ran OSchema} {h : HttpDef} {op : OOperation}
    (ho : exportOp conv h = .ok op) : Carries (fun t s => conv t "" = .ok s) h op := by
  unfold exportOp at ho
  obtain ⟨op1, h1, ho⟩ := Ran.bind_eq_ok.1 ho
  obtain ⟨⟨qs, a1, a2⟩, _, a3⟩ := exportInputs_carries h1
  cases he : h.expected with
  | none => rw [he] at ho; simp at ho
  | some e =>
    rw [he] at ho
    obtain ⟨r, h2, ho⟩ := Ran.bind_eq_ok.1 ho
    cases ho
    obtain ⟨_, b1, _, b2⟩ := exportOutputs_carries h2
    refine ⟨?_, a3, ⟨e, he, ?_⟩⟩
    · simp only [List.nil_append] at a1; rw [a1]; exact a2
    · intro hx
      refine ⟨r, ?_, b1, b2⟩
      simp only
      rw [exportExceptions_other _ _ _ hx]
      simp [mget, sprintInt]

theorem carries_mono {R R' : TypeSpec → OSchema → Prop} {h : HttpDef} {op : OOperation} (hc : Carries R h op)
    (hr : ∀ t s, (∃ p ∈ h.inputs, p.field.ts = t) ∨ (∃ e p, h.expected = some e ∧ p ∈ e.outputs ∧ p.field.ts = t) → R t s → R' t s) :
    Carries R' h op := by
  obtain ⟨h1, h2, e, h3, h4⟩ := hc
  refine ⟨?_, ?_, e, h3, fun hx => ?_⟩
  · have key : ∀ (ps : List HttpParamSpec) (qs : List OParam), (∀ p ∈ ps, p ∈ h.inputs) →
        List.Forall₂ (fun p q => ∃ s, OParam.schema q = some s ∧ R p.field.ts s) ps qs →
        List.Forall₂ (fun p q => ∃ s, OParam.schema q = some s ∧ R' p.field.ts s) ps qs := by
      intro ps qs hps hf
      induction hf with
      | nil => exact .nil
      | cons hd _ ih =>
        obtain ⟨s, e1, e2⟩ := hd
        exact .cons ⟨s, e1, hr _ _ (.inl ⟨_, hps _ (by simp), rfl⟩) e2⟩ (ih (fun p hp => hps p (by simp [hp])))
    exact key _ _ (fun p hp => (List.mem_filter.1 hp).1) h1
  · intro p hp
    obtain ⟨b, h5, mt, s, h6, h7, h8⟩ := h2 p hp
    have hm : p ∈ h.inputs := (List.mem_filter.1 (by rw [hp]; simp : p ∈ h.inputs.filter BodyInput)).1
    exact ⟨b, h5, mt, s, h6, h7, hr _ _ (.inl ⟨p, hm, rfl⟩) h8⟩
  · obtain ⟨r, h5, h6, h7⟩ := h4 hx
    refine ⟨r, h5, ?_, ?_⟩
    · intro p hp
      obtain ⟨mt, s, h8, h9, h10⟩ := h6 p hp
      have hm : p ∈ e.outputs := (List.mem_filter.1 (by rw [hp]; simp : p ∈ e.outputs.filter BodyOutput)).1
      exact ⟨mt, s, h8, h9, hr _ _ (.inr ⟨e, p, h3, hm, rfl⟩) h10⟩
    · intro k p hk hp
      obtain ⟨hd, s, h8, h9, h10⟩ := h7 k p hk hp
      have hm : p ∈ e.outputs := (List.mem_filter.1 (by rw [hp]; simp : p ∈ e.outputs.filter (fun p => p.header == k))).1
      exact ⟨hd, s, h8, h9, hr _ _ (.inr ⟨e, p, h3, hm, rfl⟩) h10⟩

theorem carries_of_bare {R : TypeSpec → OSchema → Prop} {h : HttpDef} {op op0 : OOperation} (e : op.bare = op0.bare)
    (hc : Carries R h op0) : Carries R h op := by
  have content : ∀ {c c0 : GoMap OMedia}, bareContent c = bareContent c0 → ∀ t, JsonBody R t c0 → JsonBody R t c := by
    rintro c c0 e t ⟨mt, s, h1, h2, h3⟩
    have h4 : mget (bareContent c) "application/json" = (mget c "application/json").map OMedia.bare := mget_map OMedia.bare _ _
    have h5 : mget (bareContent c0) "application/json" = (mget c0 "application/json").map OMedia.bare := mget_map OMedia.bare _ _
    rw [e, h5, h1] at h4
    obtain ⟨mt', h6, h7⟩ := Option.map_eq_some_iff.1 h4.symm
    exact ⟨mt', s, h6, by rw [← h2]; exact (congrArg OMedia.schema h7 :), h3⟩
  obtain ⟨h1, h2, ex, h3, h4⟩ := hc
  refine ⟨?_, ?_, ex, h3, fun hx => ?_⟩
  · have e1 : op.parameters.map OParam.bare = op0.parameters.map OParam.bare := (congrArg OOperation.parameters e :)
    have key : ∀ (ps : List HttpParamSpec) (qs qs0 : List OParam), qs.map OParam.bare = qs0.map OParam.bare →
        List.Forall₂ (fun p q => ∃ s, OParam.schema q = some s ∧ R p.field.ts s) ps qs0 →
        List.Forall₂ (fun p q => ∃ s, OParam.schema q = some s ∧ R p.field.ts s) ps qs := by
      intro ps qs qs0 eq hf
      induction hf generalizing qs with
      | nil => cases qs with
        | nil => exact .nil
        | cons => simp at eq
      | cons hd _ ih =>
        cases qs with
        | nil => simp at eq
        | cons q qs =>
          simp only [List.map_cons, List.cons.injEq] at eq
          obtain ⟨s, e1, e2⟩ := hd
          exact .cons ⟨s, by rw [← e1]; exact (congrArg OParam.schema eq.1 :), e2⟩ (ih qs eq.2)
    exact key _ _ _ e1 h1
  · intro p hp
    obtain ⟨b0, h5, h6⟩ := h2 p hp
    have e1 : op.requestBody.map OBody.bare = op0.requestBody.map OBody.bare := (congrArg OOperation.requestBody e :)
    rw [h5] at e1
    obtain ⟨b, h7, h8⟩ := Option.map_eq_some_iff.1 e1
    exact ⟨b, h7, content (congrArg OBody.content h8 :) _ h6⟩
  · obtain ⟨r0, h5, h6, h7⟩ := h4 hx
    have e1 : op.bare.responses = op0.bare.responses := by rw [e]
    have e2 : mget op.bare.responses (String.ofList (showInt ex.status)) = (mget op.responses _).map OResponse.bare := mget_map OResponse.bare _ _
    have e3 : mget op0.bare.responses (String.ofList (showInt ex.status)) = (mget op0.responses _).map OResponse.bare := mget_map OResponse.bare _ _
    rw [e1, e3, h5] at e2
    obtain ⟨r, h8, h9⟩ := Option.map_eq_some_iff.1 e2.symm
    refine ⟨r, h8, fun p hp => content (congrArg OResponse.content h9 :) _ (h6 p hp), fun k p hk hp => ?_⟩
    have e4 : r.headers = r0.headers := (congrArg OResponse.headers h9 :)
    rw [e4]
    exact h7 k p hk hp

/-! ### The exported document -/

theorem export_components {s : Schema} {m : Model} (hm : newModel s = .ok m) {olib : OLib} (hord : ∀ l, (olib.order l).Perm l)
    {n : Nat} {d : ODoc} (h : exportOasN n olib m = .ok d) : Components s m olib n d.schemas := by
  have hms : m.schema = s := by
    obtain ⟨_, _, _, rfl⟩ := (newModel_ok_iff s m).1 hm; rfl
  obtain ⟨hn, _, _, _⟩ := (newModel_ok_iff s m).1 hm
  obtain ⟨schemas, paths, h1, h2, h3, h4⟩ := exportOas_ok hord h
  rw [hms] at h1
  obtain ⟨t1, t2, _, t4⟩ := exportTypes_ok h1
  have only : ∀ k c, (k, c) ∈ d.schemas → ∃ td ∈ s.types, td.name = k ∧ ∃ c0, exportTypeDefN n olib m td = .ok c0 ∧ c.bare = c0.bare := by
    intro k c hk
    have h6 : (k, c.bare) ∈ d.schemas.map (fun e => (e.1, e.2.bare)) := List.mem_map.2 ⟨_, hk, rfl⟩
    rw [h4.schemas] at h6
    obtain ⟨⟨k', c'⟩, h7, h8⟩ := List.mem_map.1 h6
    simp only [Prod.mk.injEq] at h8
    rcases t2 k' c' h7 with h9 | ⟨td, h9, h10, h11⟩
    · cases h9
    · exact ⟨td, h9, h10.trans h8.1, c', h11, h8.2.symm⟩
  refine ⟨fun td htd => ?_, only⟩
  have h8 : td.name ∈ schemas.map Prod.fst := (t1 td.name).2 (.inr ⟨td, htd, rfl⟩)
  have h9 := congrArg (List.map Prod.fst) h4.schemas
  simp only [List.map_map] at h9
  have h10 : td.name ∈ d.schemas.map Prod.fst := by
    have e1 : (Prod.fst ∘ fun e : String × OSchema => (e.1, e.2.bare)) = Prod.fst := rfl
    rw [e1] at h9
    rw [h9]; exact h8
  obtain ⟨⟨k, c⟩, h11, h12⟩ := List.mem_map.1 h10
  simp only at h12
  subst h12
  obtain ⟨td', h13, h14, c0, h15, h16⟩ := only _ _ h11
  rw [unique_def hn h13 htd h14] at h15
  exact ⟨c, c0, h11, h15, h16⟩

theorem export_carries {m : Model} {olib : OLib} (hord : ∀ l, (olib.order l).Perm l)
    {n : Nat} {d : ODoc} (h : exportOasN n olib m = .ok d) {a : HttpDef} (ha : a ∈ m.schema.http) {k : OMethod}
    (hk : oasMethod a.method = some k) :
    ∃ op, pathOp d.paths (oasPath m.schema.base a) k = some op ∧ d.paths.Distinct ∧ Describes a op ∧
      Carries (fun t s => oasSchemaN n olib m t "" = .ok s) a op := by
  obtain ⟨schemas, paths, _, h2, h3, h4⟩ := exportOas_ok hord h
  obtain ⟨op, h5, h6⟩ := (exportHttp_ok h2).2.1 a ha k hk
  have h7 := h4.ops (oasPath m.schema.base a) k
  simp only [h5, Option.map_some] at h7
  obtain ⟨op', h8, h9⟩ := Option.map_eq_some_iff.1 h7
  refine ⟨op', h8, h4.distinct, ?_, carries_of_bare h9 (exportOp_carries h6)⟩
  rw [← describes_bare, h9, describes_bare]
  exact exportOp_ok h6

end Sadl
