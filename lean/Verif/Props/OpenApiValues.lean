import Verif.Lemmas.OpenApiValues
import Verif.Props.OpenApiTypes
/-
C56, C57: the values admitted by an exported OpenAPI document.
-/
namespace Sadl.Props
open Sadl Sadl.Spec

/-! ### C56 -/

/-- The schema of the document admits the values of the type. -/
def Admits (m : Model) (d : ODoc) (t : TypeSpec) (c : OSchema) : Prop :=
  ∀ lib strict v, Conforms lib (Defines m.schema) t v → AsciiOnly v → Integral m.schema v → Fits lib strict d.schemas c v

/-- C56 (part): the component schema of a type admits all values that conform to the type, for
schemas whose references and limits OpenAPI can express, and that have no `Bytes`.  Missing:
strings that are not ASCII, and fractional numbers in schemas with integer types, for which it is
false. -/
theorem C56_types_partial (lib : OLib) (hord : ∀ l, (lib.order l).Perm l) (m : Model) (hm : newModel m.schema = .ok m)
    (hs : RefSafe m.schema) (hx : Expressible lib m.schema) (hb : ∀ t, Used m.schema t → t.type ≠ "Bytes")
    (d : ODoc) (hd : Exports lib m (.ok d)) (td : TypeDef) (htd : td ∈ m.schema.types) :
    (∃ c, (td.name, c) ∈ d.schemas) ∧ ∀ c, (td.name, c) ∈ d.schemas → Admits m d td.ts c := by
  obtain ⟨n, hn⟩ := exports_run hd
  have hc := export_components hm hord hn
  obtain ⟨hnd, _, _, _⟩ := (newModel_ok_iff _ _).1 hm
  refine ⟨?_, ?_⟩
  · obtain ⟨c, _, h, _⟩ := hc.all td htd
    exact ⟨c, h⟩
  · intro c hmem vlib strict v hv ha hi
    obtain ⟨td', h1, h2, c0, h3, h4⟩ := hc.only _ _ hmem
    rw [unique_def hnd h1 htd h2] at h3
    exact fits_bare ((fits_of_conforms hm hs hx hb hc vlib strict hv ha hi).2 td htd rfl c0 h3) h4

/-- C56 (part): the schemas of the parameters, the body and the expected response of an operation
admit the values of the inputs and outputs of the action, under the same conditions. -/
theorem C56_operations_partial (lib : OLib) (hord : ∀ l, (lib.order l).Perm l) (m : Model) (hm : newModel m.schema = .ok m)
    (hs : RefSafe m.schema) (hx : Expressible lib m.schema) (hb : ∀ t, Used m.schema t → t.type ≠ "Bytes")
    (d : ODoc) (hd : Exports lib m (.ok d)) (h : HttpDef) (hh : h ∈ m.schema.http) (hmt : h.method ∈ ExportedMethods)
    (path : String) (hp : LivesAt m.schema.base h path) :
    ∃ k op, h.method = methodName k ∧ OperationAt d path k op ∧ Describes h op ∧ Carries (Admits m d) h op := by
  obtain ⟨n, hn⟩ := exports_run hd
  obtain ⟨k, hk⟩ : ∃ k, oasMethod h.method = some k := by
    cases ho : oasMethod h.method with
    | none => exact absurd hmt ((oasMethod_none_iff _).1 ho)
    | some k => exact ⟨k, rfl⟩
  obtain ⟨op, h1, h2, h3, h4⟩ := export_carries hord hn hh hk
  rw [(livesAt_iff _ _ _).1 hp]
  refine ⟨k, op, ((oasMethod_iff _ _).1 hk).1, (operationAt_iff h2 _ _ _).2 h1, h3, carries_mono h4 ?_⟩
  have hc := export_components hm hord hn
  obtain ⟨_, hbt, _, _⟩ := (newModel_ok_iff _ _).1 hm
  intro t c ht hcv vlib strict v hv ha hi
  have hin : Inline m.schema t := by
    rcases ht with ⟨p, hp, rfl⟩ | ⟨e, p, he, hp, rfl⟩
    · exact .input hh hp
    · exact .output hh he hp
  exact (fits_of_conforms hm hs hx hb hc vlib strict hv ha hi).1 n "" c (inline_safe hs hin)
    (.inl ⟨rfl, inline_not_enum hbt hs hin⟩) (.inr (.inline hin)) hcv

/-! ### C57 -/

/-- The schema of the document admits only values of the type. -/
def AdmitsOnly (m : Model) (d : ODoc) (t : TypeSpec) (c : OSchema) : Prop :=
  ∀ lib v, Fits lib true d.schemas c v → AsciiOnly v → PlainOnly v → Conforms lib (Defines m.schema) t v

/-- C57 (part): every value that the component schema of a type admits conforms to the type, for
schemas that avoid what the export weakens.  Missing: the other schemas, for which it is false. -/
theorem C57_types_partial (lib : OLib) (hord : ∀ l, (lib.order l).Perm l) (m : Model) (hm : newModel m.schema = .ok m)
    (hs : RefSafe m.schema) (hx : Expressible lib m.schema) (he : Exact m.schema)
    (d : ODoc) (hd : Exports lib m (.ok d)) (td : TypeDef) (htd : td ∈ m.schema.types) (c : OSchema) (hmem : (td.name, c) ∈ d.schemas) :
    AdmitsOnly m d td.ts c := by
  obtain ⟨n, hn⟩ := exports_run hd
  have hc := export_components hm hord hn
  obtain ⟨hnd, _, _, _⟩ := (newModel_ok_iff _ _).1 hm
  intro vlib v hf ha hp
  obtain ⟨td', h1, h2, c0, h3, h4⟩ := hc.only _ _ hmem
  rw [unique_def hnd h1 htd h2] at h3
  exact (conforms_of_fits hm hs hx he hc vlib hf ha hp).2 td htd c0 h3 h4

/-- C57 (part): the same for the parameters, the body and the expected response of an operation. -/
theorem C57_operations_partial (lib : OLib) (hord : ∀ l, (lib.order l).Perm l) (m : Model) (hm : newModel m.schema = .ok m)
    (hs : RefSafe m.schema) (hx : Expressible lib m.schema) (he : Exact m.schema)
    (d : ODoc) (hd : Exports lib m (.ok d)) (h : HttpDef) (hh : h ∈ m.schema.http) (hmt : h.method ∈ ExportedMethods)
    (path : String) (hp : LivesAt m.schema.base h path) :
    ∃ k op, h.method = methodName k ∧ OperationAt d path k op ∧ Describes h op ∧ Carries (AdmitsOnly m d) h op := by
  obtain ⟨n, hn⟩ := exports_run hd
  obtain ⟨k, hk⟩ : ∃ k, oasMethod h.method = some k := by
    cases ho : oasMethod h.method with
    | none => exact absurd hmt ((oasMethod_none_iff _).1 ho)
    | some k => exact ⟨k, rfl⟩
  obtain ⟨op, h1, h2, h3, h4⟩ := export_carries hord hn hh hk
  rw [(livesAt_iff _ _ _).1 hp]
  refine ⟨k, op, ((oasMethod_iff _ _).1 hk).1, (operationAt_iff h2 _ _ _).2 h1, h3, carries_mono h4 ?_⟩
  have hc := export_components hm hord hn
  obtain ⟨_, hbt, _, _⟩ := (newModel_ok_iff _ _).1 hm
  intro t c ht hcv vlib v hf ha hp'
  have hin : Inline m.schema t := by
    rcases ht with ⟨p, hp, rfl⟩ | ⟨e, p, he, hp, rfl⟩
    · exact .input hh hp
    · exact .output hh he hp
  exact (conforms_of_fits hm hs hx he hc vlib hf ha hp').1 n t "" (inline_place hbt hs hin) hcv

/-! ### An example -/

theorem shop_inPlace {t : TypeSpec} (h : InPlace shop t) : Inline shop t ∨ t = { type := "Decimal" } := by
  cases h with
  | inline h => exact .inl h
  | item hw ht hd hn =>
    rcases shop_written hw (by simp [ht]) with rfl | rfl | rfl
    · exact absurd (by simp [(shop_tag.1 hd).1]) hn
    · exact absurd (by simp [(shop_item.1 hd).1]) hn
    · simp at ht
  | mapItem hw ht hd =>
    rcases shop_written hw (by simp [ht]) with rfl | rfl | rfl
    · simp at ht
    · simp at ht
    · exact .inr (shop_decimal.1 hd)

theorem shop_types {t : TypeSpec} (h : Written shop t) : t ∈ shop.types.map TypeDef.ts ∨ Inline shop t := by
  rcases h with ⟨td, h1, rfl⟩ | h
  · exact .inl (List.mem_map.2 ⟨td, h1, rfl⟩)
  · exact .inr h

theorem shop_expressible : Expressible plainO shop where
  bounds t h ht := by exact ⟨fun b _ => rfl, fun b _ => rfl⟩
  sizes t h ht := by
    rcases shop_types h with h | h
    · simp only [shop, List.map_cons, List.map_nil, List.mem_cons, List.not_mem_nil, or_false] at h
      rcases h with rfl | rfl | rfl <;> simp
    · rcases shop_inline h with rfl | rfl | rfl | rfl | rfl | rfl <;> simp
  values t h ht := by
    rcases shop_types h with h | h
    · simp only [shop, List.map_cons, List.map_nil, List.mem_cons, List.not_mem_nil, or_false] at h
      rcases h with rfl | rfl | rfl <;> simp
    · rcases shop_inline h with rfl | rfl | rfl | rfl | rfl | rfl <;> exact .inl rfl
  strings t h ht := by
    rcases shop_types h with h | h
    · simp only [shop, List.map_cons, List.map_nil, List.mem_cons, List.not_mem_nil, or_false] at h
      rcases h with rfl | rfl | rfl <;> simp
    · rcases shop_inline h with rfl | rfl | rfl | rfl | rfl | rfl <;> simp

theorem shop_exact : Exact shop where
  names td h := by
    simp only [shop, List.mem_cons, List.not_mem_nil, or_false] at h
    rcases h with rfl | rfl | rfl <;> simp
  types t h := by
    rcases shop_types h with h | h
    · simp only [shop, List.map_cons, List.map_nil, List.mem_cons, List.not_mem_nil, or_false] at h
      rcases h with rfl | rfl | rfl <;> simp
    · rcases shop_inline h with rfl | rfl | rfl | rfl | rfl | rfl <;> simp
  items t h := by
    rcases shop_inPlace h with h | rfl
    · rcases shop_inline h with rfl | rfl | rfl | rfl | rfl | rfl <;> simp
    · simp
  sizes t h ht := by
    rcases shop_written h ht with rfl | rfl | rfl <;> simp
  values t h := by
    rcases shop_types h with h | h
    · simp only [shop, List.map_cons, List.map_nil, List.mem_cons, List.not_mem_nil, or_false] at h
      rcases h with rfl | rfl | rfl <;> simp
    · rcases shop_inline h with rfl | rfl | rfl | rfl | rfl | rfl <;> simp
  inPlaceValues t h ht := by
    rcases shop_inPlace h with h | rfl
    · rcases shop_inline h with rfl | rfl | rfl | rfl | rfl | rfl <;> simp
    · simp
  inPlaceRequired t h ht := by
    rcases shop_inPlace h with h | rfl
    · rcases shop_inline h with rfl | rfl | rfl | rfl | rfl | rfl <;> simp at ht
    · simp at ht
  symbols t h ht := by
    rcases shop_types h with h | h
    · simp only [shop, List.map_cons, List.map_nil, List.mem_cons, List.not_mem_nil, or_false] at h
      rcases h with rfl | rfl | rfl <;> simp
    · rcases shop_inline h with rfl | rfl | rfl | rfl | rfl | rfl <;> simp
  fields t h ht := by
    rcases shop_types h with h | h
    · simp only [shop, List.map_cons, List.map_nil, List.mem_cons, List.not_mem_nil, or_false] at h
      rcases h with rfl | rfl | rfl <;> simp
    · rcases shop_inline h with rfl | rfl | rfl | rfl | rfl | rfl <;> simp

/-- In the document of the example the schema of an item admits exactly the items. -/
example : ∃ m d c, m.schema = shop ∧ Exports plainO m (.ok d) ∧ ("Item", c) ∈ d.schemas ∧
    (∀ lib v, AsciiOnly v → PlainOnly v → (Fits lib true d.schemas c v ↔ Conforms lib (Defines shop) shop.types[1].ts v)) ∧
    ∀ lib, Fits lib true d.schemas c (.obj [("id", .str "x"), ("tags", .arr [.str "RED"]), ("prices", .obj [("a", .dec (.fin 3 (-1)))])]) := by
  have h : exportsB plainO shop 5 (fun _ => true) = true := by decide +kernel
  unfold exportsB at h
  split at h
  · next m hm =>
    have hs : m.schema = shop := by obtain ⟨_, _, _, rfl⟩ := (newModel_ok_iff _ _).1 hm; rfl
    split at h
    · next d hd =>
      have hd' : Exports plainO m (.ok d) := ⟨by simp, 5, hd⟩
      have hint : ∀ v, Integral shop v := by
        rintro v ⟨t, hu, ht⟩
        exfalso
        rcases hu with hu | hu
        · rcases shop_types hu with h | h
          · simp only [shop, List.map_cons, List.map_nil, List.mem_cons, List.not_mem_nil, or_false] at h
            rcases h with rfl | rfl | rfl <;> simp at ht
          · rcases shop_inline h with rfl | rfl | rfl | rfl | rfl | rfl <;> simp at ht
        · rcases shop_inPlace hu with h | rfl
          · rcases shop_inline h with rfl | rfl | rfl | rfl | rfl | rfl <;> simp at ht
          · simp at ht
      have hbytes : ∀ t, Used shop t → t.type ≠ "Bytes" := by
        rintro t (hu | hu)
        · rcases shop_types hu with h | h
          · simp only [shop, List.map_cons, List.map_nil, List.mem_cons, List.not_mem_nil, or_false] at h
            rcases h with rfl | rfl | rfl <;> simp
          · rcases shop_inline h with rfl | rfl | rfl | rfl | rfl | rfl <;> simp
        · rcases shop_inPlace hu with h | rfl
          · rcases shop_inline h with rfl | rfl | rfl | rfl | rfl | rfl <;> simp
          · simp
      have hmem : shop.types[1] ∈ m.schema.types := by rw [hs]; simp [shop]
      obtain ⟨⟨c, hc⟩, h1⟩ := C56_types_partial plainO (fun _ => .rfl) m (hs ▸ hm) (hs ▸ shop_refSafe) (hs ▸ shop_expressible)
        (hs ▸ hbytes) d hd' _ hmem
      have h2 := C57_types_partial plainO (fun _ => .rfl) m (hs ▸ hm) (hs ▸ shop_refSafe) (hs ▸ shop_expressible) (hs ▸ shop_exact)
        d hd' _ hmem c hc
      refine ⟨m, d, c, hs, hd', hc, fun lib v ha hp => ⟨fun hf => ?_, fun hv => ?_⟩, fun lib => ?_⟩
      · have := h2 lib v hf ha hp
        rw [hs] at this
        exact this
      · exact h1 c hc lib true v (by rw [hs]; exact hv) ha (by rw [hs]; exact hint v)
      · refine h1 c hc lib true _ ?_ ?_ (by rw [hs]; exact hint _)
        · rw [hs]
          refine .struct _ rfl rfl ?_ ?_ ?_
          · intro k x hk
            simp only [List.mem_cons, Prod.mk.injEq, List.not_mem_nil, or_false] at hk
            rcases hk with ⟨rfl, _⟩ | ⟨rfl, _⟩ | ⟨rfl, _⟩ <;> simp [shop]
          · simp [shop]
          · intro f hf x hx
            simp only [shop, List.getElem_cons_succ, List.getElem_cons_zero, List.mem_cons, List.not_mem_nil, or_false] at hf
            rcases hf with rfl | rfl | rfl | rfl <;> simp at hx <;> subst hx
            · exact .string "x" rfl (.inl rfl) ⟨⟨by simp, by simp⟩, by simp, by simp⟩
            · refine .arrayOf [.str "RED"] shop.types[0].ts rfl rfl (by simp) (shop_tag.2 ⟨rfl, rfl⟩) ?_ ⟨by simp, by simp⟩
              intro y hy
              simp only [List.mem_singleton] at hy
              subst hy
              exact .enum "RED" rfl (.inl rfl) (by decide) (by simp [shop])
            · refine .mapOf _ { type := "Decimal" } rfl rfl (by simp) (shop_decimal.2 rfl) ?_ ⟨by simp, by simp⟩
              intro k y hy
              simp only [List.mem_singleton, Prod.mk.injEq] at hy
              obtain ⟨rfl, rfl⟩ := hy
              exact .number _ (by decide) rfl ⟨by simp, by simp⟩
        · have hx : ∀ {v w : Value} {s : String}, Part v w → IsText w s → (∀ xs, v ≠ .arr xs) → (∀ kvs, v ≠ .obj kvs) → IsText v s := by
            intro v w s h ht h1 h2
            cases h with
            | refl => exact ht
            | item => exact absurd rfl (h1 _)
            | member => exact absurd rfl (h2 _)
          intro x s hpart htext
          rcases hpart with _ | _ | ⟨hm, hpart⟩
          · rcases htext with h | h <;> cases h
          · simp only [List.mem_cons, Prod.mk.injEq, List.not_mem_nil, or_false] at hm
            rcases hm with ⟨rfl, rfl⟩ | ⟨rfl, rfl⟩ | ⟨rfl, rfl⟩
            · rcases hx hpart htext (by simp) (by simp) with h | h <;> cases h
              decide
            · rcases hpart with _ | ⟨hm, hpart⟩ | _
              · rcases htext with h | h <;> cases h
              · simp only [List.mem_singleton] at hm
                subst hm
                rcases hx hpart htext (by simp) (by simp) with h | h <;> cases h
                decide
            · rcases hpart with _ | _ | ⟨hm, hpart⟩
              · rcases htext with h | h <;> cases h
              · simp only [List.mem_singleton, Prod.mk.injEq] at hm
                obtain ⟨rfl, rfl⟩ := hm
                rcases hx hpart htext (by simp) (by simp) with h | h <;> cases h
    · simp at h
  · simp at h

/-! ### What is false -/

/-- The type named `Foo` of an accepted source, its component schemas, and a look at both. -/
theorem foo_of (toks : List Token) (p : TypeSpec → Bool) (q : OSchema → Bool)
    (h1 : toks.all (fun t => decide (t.type = .symbol → t.text ≠ "")) = true)
    (h : accepts noLib toks (fun m => (m.schema.types.any fun td => td.name == "Foo" && p td.ts) &&
      docB plainO 9 (fun d => d.schemas.all fun e => e.1 != "Foo" || q e.2) m) = true) :
    ∃ m d td, Accepted noLib m ∧ Exports plainO m (.ok d) ∧ td ∈ m.schema.types ∧ p td.ts = true ∧
      ∀ c, (td.name, c) ∈ d.schemas → q c = true := by
  obtain ⟨m, d, h2, h3, h4, h5⟩ := exported_of toks _ _ h1 h
  obtain ⟨td, h6, h7⟩ := List.any_eq_true.1 h4
  rw [Bool.and_eq_true, beq_iff_eq] at h7
  refine ⟨m, d, td, h2, h3, h6, h7.2, fun c hc => ?_⟩
  have := List.all_eq_true.1 h5 _ hc
  simpa [h7.1] using this

/-- A schema without references and alternatives, of a type. -/
def kindB (kind : String) (c : OSchema) : Bool := c.ref == "" && c.oneOf.isEmpty && c.type == kind

theorem plain_of_fits {lib : Lib} {strict : Bool} {schemas : GoMap OSchema} {c : OSchema} {v : Value} {kind : String}
    (hk : kindB kind c = true) (h : Fits lib strict schemas c v) :
    HasKind kind v ∧ ∀ t, IsText v t → c.minLength ≤ t.length := by
  simp only [kindB, Bool.and_eq_true, beq_iff_eq, List.isEmpty_iff] at hk
  obtain ⟨⟨h1, h2⟩, h3⟩ := hk
  cases h with
  | ref h4 => rw [h1] at h4; exact absurd h4.symm (ref_ne _)
  | oneOf _ h4 => rw [h2] at h4; cases h4
  | plain _ _ h4 _ _ _ h5 => exact ⟨h3 ▸ h4, fun t ht => (h5 t ht).1⟩

/-- C56 is false: `1.5` conforms to `type Foo Int32`, but its schema admits integers only. -/
theorem C56_refuted_fractions : ∃ m d td v, Accepted noLib m ∧ Exports plainO m (.ok d) ∧ td ∈ m.schema.types ∧
    ∀ lib, Conforms lib (Defines m.schema) td.ts v ∧ ∀ c, (td.name, c) ∈ d.schemas → ∀ strict, ¬ Fits lib strict d.schemas c v := by
  obtain ⟨m, d, td, h1, h2, h3, h4, h5⟩ := foo_of (typeFoo [sym "Int32"])
    (fun t => t.type == "Int32" && t.min.isNone && t.max.isNone) (kindB "integer") (by decide +kernel) (by decide +kernel)
  simp only [Bool.and_eq_true, beq_iff_eq, Option.isNone_iff_eq_none] at h4
  obtain ⟨⟨h6, h7⟩, h8⟩ := h4
  refine ⟨m, d, td, .dec (.fin 3 (-1)), h1, h2, h3, fun lib => ⟨?_, fun c hc strict hf => ?_⟩⟩
  · exact .number _ (by rw [h6]; decide) rfl (by rw [h7, h8]; exact ⟨by simp, by simp⟩)
  · obtain ⟨e, he, hw⟩ := (plain_of_fits (h5 c hc) hf).1.2.2.2.1 rfl
    cases he
    obtain ⟨n, hn⟩ := hw
    have : (3 : ℚ) = 2 * n := by rw [← hn]; norm_num
    have h : (3 : ℤ) = 2 * n := by exact_mod_cast this
    omega

/-- C56 is false: `é`, which has two bytes, conforms to `type Foo String (minsize=2)`, but its schema asks for
two characters. -/
theorem C56_refuted_lengths : ∃ m d td v, Accepted noLib m ∧ Exports plainO m (.ok d) ∧ td ∈ m.schema.types ∧
    ∀ lib, Conforms lib (Defines m.schema) td.ts v ∧ ∀ c, (td.name, c) ∈ d.schemas → ∀ strict, ¬ Fits lib strict d.schemas c v := by
  obtain ⟨m, d, td, h1, h2, h3, h4, h5⟩ := foo_of
    (typeFoo [sym "String", punct .openParen, sym "minsize", punct .equals, num "2", punct .closeParen])
    (fun t => t.type == "String" && t.minSize == some 2 && t.maxSize.isNone && t.values.isNone && t.pattern == "")
    (fun c => kindB "string" c && c.minLength == 2) (by decide +kernel) (by decide +kernel)
  simp only [Bool.and_eq_true, beq_iff_eq, Option.isNone_iff_eq_none] at h4
  obtain ⟨⟨⟨⟨h6, h7⟩, h8⟩, h9⟩, h10⟩ := h4
  refine ⟨m, d, td, .str "é", h1, h2, h3, fun lib => ⟨?_, fun c hc strict hf => ?_⟩⟩
  · refine .string "é" h6 (.inl rfl) ⟨⟨?_, by simp [h8]⟩, by simp [h9], by simp [h10]⟩
    intro n hn
    rw [h7] at hn
    cases hn
    decide
  · have h := h5 c hc
    rw [Bool.and_eq_true, beq_iff_eq] at h
    have := (plain_of_fits h.1 hf).2 "é" (.inl rfl)
    rw [h.2] at this
    exact absurd this (by decide)

/-- C57 is false: the empty list is admitted by the schema of `type Foo Array<String> (minsize=2)`. -/
theorem C57_refuted_sizes : ∃ m d td c v, Accepted noLib m ∧ Exports plainO m (.ok d) ∧ td ∈ m.schema.types ∧ (td.name, c) ∈ d.schemas ∧
    ∀ lib, Fits lib true d.schemas c v ∧ ¬ Conforms lib (Defines m.schema) td.ts v := by
  obtain ⟨m, d, h1, h2, h3, h4⟩ := exported_of
    (typeFoo [sym "Array", punct .openAngle, sym "String", punct .closeAngle, punct .openParen, sym "minsize", punct .equals, num "2", punct .closeParen])
    (fun m => m.schema.types.any fun td => td.name == "Foo" && td.ts.type == "Array" && td.ts.minSize == some 2)
    (fun d => d.schemas.any fun e => e.1 == "Foo" && kindB "array" e.2 && e.2.format == "" && e.2.enum.isNone) (by decide +kernel) (by decide +kernel)
  obtain ⟨td, h5, h6⟩ := List.any_eq_true.1 h3
  obtain ⟨⟨k, c⟩, h7, h8⟩ := List.any_eq_true.1 h4
  simp only [kindB, Bool.and_eq_true, beq_iff_eq, List.isEmpty_iff, Option.isNone_iff_eq_none] at h6 h8
  obtain ⟨⟨e1, e2⟩, e3⟩ := h6
  obtain ⟨⟨⟨rfl, ⟨g1, g2⟩, g3⟩, g4⟩, g5⟩ := h8
  refine ⟨m, d, td, c, .arr [], h1, h2, h5, by rw [e1]; exact h7, fun lib => ⟨?_, fun hc => ?_⟩⟩
  · refine .plain g1 g2 ?_ (hasFormat_none (by simp [g4]) (by simp [g4])) (by simp [g5]) (by simp) ?_ ?_ (by simp) (by simp) (by simp) (by simp)
    · rw [g3]
      refine ⟨?_, ?_, ?_, ?_, fun _ => ⟨[], rfl⟩, ?_⟩ <;> intro e <;> exact absurd e (by decide)
    · intro t ht; rcases ht with ht | ht <;> cases ht
    · rintro i xs x _ e hx; cases e; cases hx
  · have key : ∀ {ts v}, Conforms lib (Defines m.schema) ts v → ts.type = "Array" → ∀ xs, v = .arr xs → ts.minSize = some 2 → 2 ≤ xs.length := by
      intro ts v hc ht xs hv hm
      cases hc with
      | arrayAny ys _ hv' _ hw => rw [hv] at hv'; cases hv'; exact_mod_cast hw.1 2 hm
      | arrayOf ys _ _ hv' _ _ _ hw => rw [hv] at hv'; cases hv'; exact_mod_cast hw.1 2 hm
      | number _ hn => rw [ht] at hn; exact absurd hn (by decide)
      | named _ hn => rw [ht] at hn; exact absurd (by decide) hn
      | _ => simp_all
    exact absurd (key hc e2 [] rfl e3) (by decide)

/-- C57 is false: the text `x` is admitted by the schema of the field `a` in `type Foo Struct { a UUID }`. -/
theorem C57_refuted_uuid : ∃ m d td c v, Accepted noLib m ∧ Exports plainO m (.ok d) ∧ td ∈ m.schema.types ∧ (td.name, c) ∈ d.schemas ∧
    ∀ lib, Fits lib true d.schemas c v ∧ ¬ Conforms lib (Defines m.schema) td.ts v := by
  obtain ⟨m, d, h1, h2, h3, h4⟩ := exported_of (fooWith [] [sym "UUID"])
    (fun m => m.schema.types.any fun td => td.name == "Foo" && td.ts.type == "Struct" && (td.ts.fields.any fun f => f.name == "a" && f.ts.type == "UUID"))
    (fun d => d.schemas.any fun e => e.1 == "Foo" && kindB "object" e.2 && e.2.format == "" && e.2.enum.isNone && e.2.required.isEmpty &&
      e.2.additionalProperties.isNone && (match e.2.properties with
        | some [(k, i)] => k == "a" && kindB "string" i && i.format == "" && i.enum.isNone && i.minLength == 0 && i.maxLength.isNone && i.pattern == ""
        | _ => false)) (by decide +kernel) (by decide +kernel)
  obtain ⟨td, h5, h6⟩ := List.any_eq_true.1 h3
  obtain ⟨⟨k, c⟩, h7, h8⟩ := List.any_eq_true.1 h4
  simp only [kindB, Bool.and_eq_true, beq_iff_eq, List.isEmpty_iff, Option.isNone_iff_eq_none, List.any_eq_true] at h6 h8
  obtain ⟨⟨e1, e2⟩, f, e3, e4, e5⟩ := h6
  obtain ⟨⟨⟨⟨⟨⟨rfl, ⟨g1, g2⟩, g3⟩, g4⟩, g5⟩, g6⟩, g7⟩, g8⟩ := h8
  split at g8
  · next k i hp =>
    simp only [Bool.and_eq_true, beq_iff_eq, List.isEmpty_iff, Option.isNone_iff_eq_none] at g8
    obtain ⟨⟨⟨⟨⟨⟨rfl, ⟨i1, i2⟩, i3⟩, i4⟩, i5⟩, i6⟩, i7⟩, i8⟩ := g8
    refine ⟨m, d, td, c, .obj [("a", .str "x")], h1, h2, h5, by rw [e1]; exact h7, fun lib => ⟨?_, fun hc => ?_⟩⟩
    · refine .plain g1 g2 ?_ (hasFormat_none (by simp [g4]) (by simp [g4])) (by simp [g5]) (by simp) ?_ (by simp) (by simp [g6]) ?_ ?_ (by simp [g7])
      · rw [g3]
        refine ⟨?_, ?_, ?_, ?_, ?_, fun _ => ⟨_, rfl⟩⟩ <;> intro e <;> exact absurd e (by decide)
      · intro t ht; rcases ht with ht | ht <;> cases ht
      · rintro ps kvs k j x hps hv hj hx
        rw [hp] at hps
        cases hps; cases hv
        simp only [List.mem_singleton, Prod.mk.injEq] at hj hx
        obtain ⟨rfl, rfl⟩ := hj
        obtain ⟨_, rfl⟩ := hx
        refine fits_scalar ⟨by simp, by simp⟩ i1 i2 ?_ (hasFormat_none (by simp [i4]) (by simp [i4])) (by simp [i5]) (by simp) (by simp [i6, i7, i8])
        rw [i3]
        exact kind_string (.inl rfl)
      · rintro ps kvs k x _ hps _ hv hx
        rw [hp] at hps
        cases hps; cases hv
        simp only [List.mem_singleton, Prod.mk.injEq] at hx
        obtain ⟨rfl, rfl⟩ := hx
        exact ⟨i, by simp⟩
    · have field : ∀ {ts v}, Conforms lib (Defines m.schema) ts v → ts.type = "Struct" → v = .obj [("a", .str "x")] →
          ∀ f ∈ ts.fields, f.name = "a" → Conforms lib (Defines m.schema) f.ts (.str "x") := by
        intro ts v hc ht hv f hf hn
        cases hc with
        | struct kvs _ hv' _ _ h => rw [hv] at hv'; cases hv'; exact h f hf _ (by simp [hn])
        | number _ hn => rw [ht] at hn; exact absurd hn (by decide)
        | named _ hn => rw [ht] at hn; exact absurd (by decide) hn
        | _ => simp_all
      have uuid : ∀ {ts v}, Conforms lib (Defines m.schema) ts v → ts.type = "UUID" → v = .str "x" → False := by
        intro ts v hc ht hv
        cases hc with
        | uuidText t _ htext hs =>
          rw [hv] at htext
          rcases htext with h | h <;> cases h
          obtain ⟨a, b, c, d, e, l1, l2, l3, l4, l5, h⟩ := hs
          have := congrArg List.length h
          simp only [List.length_append, List.length_cons, l1, l2, l3, l4, l5] at this
          exact absurd this (by decide)
        | number _ hn => rw [ht] at hn; exact absurd hn (by decide)
        | named _ hn => rw [ht] at hn; exact absurd (by decide) hn
        | _ => simp_all
      exact uuid (field hc e2 rfl f e3 e4) e5 rfl
  · cases g8

end Sadl.Props
