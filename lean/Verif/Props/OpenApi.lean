import Verif.Lemmas.OpenApiReady
import Verif.Lemmas.OpenApiMono
import Verif.Props.Golang
/-
C44, C45, C46: the export to OpenAPI.
-/
namespace Sadl.Props
open Sadl Sadl.Spec

/-- The export of the model ends with `r`. -/
def Exports (lib : OLib) (m : Model) (r : Ran ODoc) : Prop :=
  r ≠ .hang ∧ ∃ n, exportOasN n lib m = r

/-- The export ends in at most one way: the bound on the depth of the recursion does not matter. -/
theorem exports_unique {lib : OLib} {m : Model} {r r' : Ran ODoc} (h : Exports lib m r) (h' : Exports lib m r') : r = r' := by
  obtain ⟨h1, n, h2⟩ := h
  obtain ⟨h3, k, h4⟩ := h'
  rw [← exportOas_mono h2 h1 (le_max_left n k), ← exportOas_mono h4 h3 (le_max_right n k)]

/-- The operation at a path and method of a document. -/
def OperationAt (d : ODoc) (path : String) (k : OMethod) (op : OOperation) : Prop :=
  ∃ pi, (path, pi) ∈ d.paths ∧ pi.op k = some op

theorem exports_run {lib : OLib} {m : Model} {r : Ran ODoc} (h : Exports lib m r) : ∃ n, exportOasN n lib m = r := h.2

theorem operationAt_iff {d : ODoc} (hd : d.paths.Distinct) (path : String) (k : OMethod) (op : OOperation) :
    OperationAt d path k op ↔ pathOp d.paths path k = some op := by
  unfold OperationAt pathOp
  constructor
  · rintro ⟨pi, h1, h2⟩
    rw [mget_of_mem hd h1]
    exact h2
  · intro h
    cases hg : mget d.paths path with
    | none => rw [hg] at h; cases k <;> simp [OPathItem.op] at h
    | some pi => rw [hg] at h; exact ⟨pi, mget_mem hg, h⟩

/-! ### C44 -/

/-- C44 (part): in the exported document every `GET`, `PUT`, `POST` and `DELETE` action has an
operation under its path and method that describes it.  Missing: actions with other methods,
for which it is false. -/
theorem C44_operations_partial (lib : OLib) (hord : ∀ l, (lib.order l).Perm l) (m : Model) (d : ODoc) (hd : Exports lib m (.ok d))
    (h : HttpDef) (hh : h ∈ m.schema.http) (hm : h.method ∈ ExportedMethods) (path : String) (hp : LivesAt m.schema.base h path) :
    ∃ k op, h.method = methodName k ∧ OperationAt d path k op ∧ Describes h op := by
  obtain ⟨n, hn⟩ := exports_run hd
  obtain ⟨schemas, paths, _, h2, h3, h4⟩ := exportOas_ok hord hn
  obtain ⟨k, hk⟩ : ∃ k, oasMethod h.method = some k := by
    cases ho : oasMethod h.method with
    | none => exact absurd hm ((oasMethod_none_iff _).1 ho)
    | some k => exact ⟨k, rfl⟩
  obtain ⟨op, h5, h6⟩ := (exportHttp_ok h2).2.1 h hh k hk
  have h7 := h4.ops path k
  rw [(livesAt_iff _ _ _).1 hp] at h7 ⊢
  simp only [h5, Option.map_some] at h7
  obtain ⟨op', h8, h9⟩ := Option.map_eq_some_iff.1 h7
  refine ⟨k, op', ((oasMethod_iff _ _).1 hk).1, (operationAt_iff h4.distinct _ _ _).2 h8, ?_⟩
  rw [← describes_bare, h9, describes_bare]
  exact exportOp_ok h6

/-- C44: the exported document has no other operations. -/
theorem C44_no_other_operations (lib : OLib) (hord : ∀ l, (lib.order l).Perm l) (m : Model) (d : ODoc) (hd : Exports lib m (.ok d))
    (path : String) (k : OMethod) (op : OOperation) (ho : OperationAt d path k op) :
    ∃ h ∈ m.schema.http, h.method = methodName k ∧ LivesAt m.schema.base h path ∧ Describes h op := by
  obtain ⟨n, hn⟩ := exports_run hd
  obtain ⟨schemas, paths, _, h2, h3, h4⟩ := exportOas_ok hord hn
  have h5 := h4.ops path k
  rw [(operationAt_iff h4.distinct _ _ _).1 ho] at h5
  obtain ⟨op', h6, h7⟩ := Option.map_eq_some_iff.1 h5.symm
  rcases (exportHttp_ok h2).2.2.1 path k op' h6 with h | ⟨a, ha, hp, hk, hop⟩
  · cases k <;> simp [pathOp, mget, OPathItem.op] at h
  · refine ⟨a, ha, ((oasMethod_iff _ _).1 hk).1, (livesAt_iff _ _ _).2 hp, ?_⟩
    rw [← describes_bare, ← h7, describes_bare]
    exact exportOp_ok hop

/-- C44: when two actions share path and method there is no document. -/
theorem C44_duplicates (lib : OLib) (hord : ∀ l, (lib.order l).Perm l) (m : Model) (before between after : List HttpDef) (a b : HttpDef)
    (hs : m.schema.http = before ++ a :: between ++ b :: after) (hm : a.method ∈ ExportedMethods) (hab : a.method = b.method)
    (path : String) (ha : LivesAt m.schema.base a path) (hb : LivesAt m.schema.base b path) (d : ODoc) : ¬ Exports lib m (.ok d) := by
  intro hd
  obtain ⟨n, hn⟩ := exports_run hd
  obtain ⟨schemas, paths, _, h2, h3, h4⟩ := exportOas_ok hord hn
  have h5 := (exportHttp_ok h2).2.2.2.2.1
  rw [hs, List.append_assoc, List.pairwise_append] at h5
  obtain ⟨_, h6, _⟩ := h5
  rw [List.cons_append, List.pairwise_cons] at h6
  refine h6.1 b (by simp) (fun h => (oasMethod_none_iff _).1 h hm) (by rw [hab]) ?_
  rw [← (livesAt_iff _ _ _).1 ha, ← (livesAt_iff _ _ _).1 hb]

/-! ### C45 -/

/-- C45 (part): all references of the exported document resolve, for the schemas that avoid what
the export gets wrong. -/
theorem C45_refs_partial (lib : OLib) (hord : ∀ l, (lib.order l).Perm l) (m : Model) (hm : newModel m.schema = .ok m)
    (hs : RefSafe m.schema) (d : ODoc) (hd : Exports lib m (.ok d)) : RefsResolve d := by
  obtain ⟨n, hn⟩ := exports_run hd
  exact exportOas_refs hm hs hord hn

/-! ### C46 -/

/-- C46 (part): the export of a schema that avoids what the export cannot do returns a document or an error. -/
theorem C46_returns_partial (lib : OLib) (hord : ∀ l, (lib.order l).Perm l) (m : Model) (hm : newModel m.schema = .ok m)
    (hs : OasSafe m.schema) : (∃ d, Exports lib m (.ok d)) ∨ ∃ e, Exports lib m (.err e) := by
  obtain ⟨N, r, hr, h⟩ := settles_exportOas hm hs lib hord
  rcases hr with ⟨d, rfl⟩ | ⟨e, rfl⟩
  · exact .inl ⟨d, by simp, N, h N (le_refl _)⟩
  · exact .inr ⟨e, by simp, N, h N (le_refl _)⟩

/-- C46: exactly which schemas are exported to a document, whatever the order in which the runtime walks the map of paths. -/
theorem C46_document_iff (m : Model) (hm : newModel m.schema = .ok m) (hne : ∀ td ∈ m.schema.types, td.name ≠ "") :
    (∀ lib : OLib, (∀ l, (lib.order l).Perm l) → ∃ d, Exports lib m (.ok d)) ↔ OasReady m.schema := by
  rw [← exportOas_ready hm hne]
  constructor
  · intro h lib hord
    obtain ⟨d, _, n, hn⟩ := h lib hord
    exact ⟨n, d, hn⟩
  · intro h lib hord
    obtain ⟨n, d, hn⟩ := h lib hord
    exact ⟨d, by simp, n, hn⟩

/-- C46: exactly which accepted sources are exported to a document. -/
theorem C46_accepted_iff (plib : PLib) (m : Model) (hm : Accepted plib m) :
    (∀ lib : OLib, (∀ l, (lib.order l).Perm l) → ∃ d, Exports lib m (.ok d)) ↔ OasReady m.schema :=
  C46_document_iff m (accepted_newModel hm) (accepted_named hm)

/-- C44: so an export in which two actions share path and method ends with an error. -/
theorem C44_duplicates_error (lib : OLib) (hord : ∀ l, (lib.order l).Perm l) (m : Model) (hm : newModel m.schema = .ok m)
    (hs : OasSafe m.schema) (before between after : List HttpDef) (a b : HttpDef)
    (hh : m.schema.http = before ++ a :: between ++ b :: after) (ha : a.method ∈ ExportedMethods) (hab : a.method = b.method)
    (path : String) (hp : LivesAt m.schema.base a path) (hq : LivesAt m.schema.base b path) : ∃ e, Exports lib m (.err e) := by
  rcases C46_returns_partial lib hord m hm hs with ⟨d, hd⟩ | h
  · exact absurd hd (C44_duplicates lib hord m before between after a b hh ha hab path hp hq d)
  · exact h

/-! ### An example -/

/-- A library whose maps are walked in the order of insertion and whose numbers are exact. -/
def plainO : OLib := { asFloat64 := id, order := id }

/-- A schema with a recursive type, collections, an action and an example. -/
def shop : Schema :=
  { name := "shop", base := "/v1",
    types :=
      [{ name := "Tag", ts := { type := "Enum", elements := [{ symbol := "RED" }, { symbol := "BLUE" }] } },
       { name := "Item",
         ts := { type := "Struct",
                 fields := [{ name := "id", required := true, ts := { type := "String" } },
                            { name := "tags", ts := { type := "Array", items := "Tag" } },
                            { name := "parts", ts := { type := "Array", items := "Item" } },
                            { name := "prices", ts := { type := "Map", keys := "String", items := "Decimal" } }] } },
       { name := "NotFound", ts := { type := "Struct", fields := [{ name := "message", ts := { type := "String" } }] } }],
    http :=
      [{ method := "GET", path := "/items/{id}?full={full}", name := "getItem", resource := "Item",
         inputs := [{ field := { name := "id", ts := { type := "String" } }, path := true }, { field := { name := "full", ts := { type := "Bool" } }, query := "full" }],
         expected := some { status := 200, outputs := [{ field := { name := "body", ts := { type := "Item" } } }] },
         exceptions := [{ type := "NotFound", status := 404, comment := "not there" }] },
       { method := "PUT", path := "/items/{id}", name := "putItem",
         inputs := [{ field := { name := "id", ts := { type := "String" } }, path := true }, { field := { name := "body", ts := { type := "Item" } } }],
         expected := some { status := 204 } }],
    examples := [{ target := "Tag", «example» := .str "RED" },
      { target := "GetItemRequest", «example» := .obj [("id", .str "a1"), ("full", .bool true)] },
      { target := "GetItemResponse", name := "small", «example» := .obj [("body", .obj [("id", .str "a1")])] }] }

theorem shop_model : ∃ m, newModel m.schema = .ok m ∧ m.schema = shop := by
  obtain ⟨m, hm, hs⟩ : ∃ m, newModel shop = .ok m ∧ m.schema = shop :=
    ⟨_, (newModel_ok_iff _ _).2 ⟨by decide, by decide, by decide, rfl⟩, rfl⟩
  exact ⟨m, hs ▸ hm, hs⟩

theorem shop_inline {t : TypeSpec} (h : Inline shop t) :
    t = { type := "String" } ∨ t = { type := "Array", items := "Tag" } ∨ t = { type := "Array", items := "Item" } ∨
    t = { type := "Map", keys := "String", items := "Decimal" } ∨ t = { type := "Bool" } ∨ t = { type := "Item" } := by
  induction h with
  | field h1 h2 h3 =>
    simp only [shop, List.mem_cons, List.not_mem_nil, or_false] at h1
    rcases h1 with rfl | rfl | rfl
    · simp at h2
    all_goals simp only [List.mem_cons, List.not_mem_nil, or_false] at h3
    · rcases h3 with rfl | rfl | rfl | rfl <;> simp
    · subst h3; simp
  | input h1 h2 =>
    simp only [shop, List.mem_cons, List.not_mem_nil, or_false] at h1
    rcases h1 with rfl | rfl
    all_goals
      simp only [List.mem_cons, List.not_mem_nil, or_false] at h2
      rcases h2 with rfl | rfl <;> simp
  | output h1 h2 h3 =>
    simp only [shop, List.mem_cons, List.not_mem_nil, or_false] at h1
    rcases h1 with rfl | rfl
    all_goals
      simp only [Option.some.injEq] at h2
      subst h2
      simp only [List.mem_cons, List.not_mem_nil, or_false] at h3
    subst h3; simp
  | nested _ h2 h3 ih =>
    rcases ih with rfl | rfl | rfl | rfl | rfl | rfl <;> simp at h2

/-- Its types: those written in place, and the named ones, of which none is a collection. -/
theorem shop_written {t : TypeSpec} (h : Written shop t) (hc : t.type ∈ ["Array", "Map"]) :
    t = { type := "Array", items := "Tag" } ∨ t = { type := "Array", items := "Item" } ∨
    t = { type := "Map", keys := "String", items := "Decimal" } := by
  rcases h with ⟨td, h1, rfl⟩ | h
  · simp only [shop, List.mem_cons, List.not_mem_nil, or_false] at h1
    rcases h1 with rfl | rfl | rfl <;> simp at hc
  · rcases shop_inline h with rfl | rfl | rfl | rfl | rfl | rfl <;> simp at hc ⊢

theorem shop_defines {n : String} {t : TypeSpec} (h : Defines shop n t) : (∃ td ∈ shop.types, td.name = n ∧ td.ts = t) ∨ (n ∈ BaseTypes ∧ t = { type := n }) := h

theorem shop_named (n : String) (h : n ∈ ["Tag", "Item", "NotFound"]) : Named shop n := by
  simp only [List.mem_cons, List.not_mem_nil, or_false] at h
  rcases h with rfl | rfl | rfl <;> simp [Named, shop]

theorem shop_tag {t : TypeSpec} : Defines shop "Tag" t ↔ t.type = "Enum" ∧ t = (shop.types[0]).ts := by
  simp [Defines, shop, BaseTypes]
  constructor
  · rintro rfl; simp
  · rintro ⟨_, rfl⟩; rfl

theorem shop_item {t : TypeSpec} : Defines shop "Item" t ↔ t.type = "Struct" ∧ t = (shop.types[1]).ts := by
  simp [Defines, shop, BaseTypes]
  constructor
  · rintro rfl; simp
  · rintro ⟨_, rfl⟩; rfl

theorem shop_decimal {t : TypeSpec} : Defines shop "Decimal" t ↔ t = { type := "Decimal" } := by
  simp [Defines, shop, BaseTypes]

/-- The example meets the conditions of `C45_refs_partial`. -/
theorem shop_refSafe : RefSafe shop where
  inline t h := by
    rcases shop_inline h with rfl | rfl | rfl | rfl | rfl | rfl <;> simp [PlainTypes, shop_named]
  arrays t h ht u hu := by
    rcases shop_written h (by simp [ht]) with rfl | rfl | rfl
    · simp [(shop_tag.1 hu).1]
    · simp [(shop_item.1 hu).1]
    · simp at ht
  maps t h ht u hu := by
    rcases shop_written h (by simp [ht]) with rfl | rfl | rfl
    · simp at ht
    · simp at ht
    · simp [shop_decimal.1 hu, PlainTypes]
  collections t h ht := by
    rcases shop_written h ht with rfl | rfl | rfl <;> simp
  variants td h ht := by
    simp only [shop, List.mem_cons, List.not_mem_nil, or_false] at h
    rcases h with rfl | rfl | rfl <;> simp at ht
  exceptions h h1 x hx := by
    simp only [shop, List.mem_cons, List.not_mem_nil, or_false] at h1
    rcases h1 with rfl | rfl
    · simp only [List.mem_cons, List.not_mem_nil, or_false] at hx
      subst hx; exact shop_named _ (by simp)
    · simp at hx

theorem shop_expands {a b : String} (h : Expands shop a b) : a = "Item" ∧ b ≠ "Item" := by
  obtain ⟨ta, t, tb, h1, h2, rfl, h4, h5⟩ := h
  rcases h1 with ⟨td, h1, rfl, rfl⟩ | ⟨h1, rfl⟩
  · have hw : Written shop t := writtenIn_written (.inl ⟨td, h1, rfl⟩) h2
    have ht : t.type ∈ ["Array", "Map"] := by rcases h5 with h | h <;> simp [h]
    have hb : t.items ≠ "Item" := by
      rcases shop_written hw ht with rfl | rfl | rfl
      · simp
      · rcases h5 with h | h
        · simp at h
        · exact absurd (shop_item.1 h4).1 h.2
      · simp
    refine ⟨?_, hb⟩
    simp only [shop, List.mem_cons, List.not_mem_nil, or_false] at h1
    rcases h1 with rfl | rfl | rfl
    · cases h2 with
      | refl => simp at ht
      | field k1 => simp at k1
    · rfl
    · cases h2 with
      | refl => simp at ht
      | field _ k2 k3 =>
        simp only [List.mem_cons, List.not_mem_nil, or_false] at k2
        subst k2
        cases k3 with
        | refl => simp at ht
        | field k1 => simp at k1
  · cases h2 with
    | refl => rcases h4 with ⟨td, k1, k2, _⟩ | ⟨k1, _⟩
              · simp only [shop, List.mem_cons, List.not_mem_nil, or_false] at k1
                rcases k1 with rfl | rfl | rfl <;> simp at k2
              · simp [BaseTypes] at k1
    | field _ k2 => simp at k2

theorem shop_inUse : PathsInUse shop := by
  intro h h1
  simp only [shop, List.mem_cons, List.not_mem_nil, or_false] at h1
  rcases h1 with rfl | rfl
  · exact ⟨shop.http[0], by simp [shop], by simp [shop, ExportedMethods], _, (livesAt_iff _ _ _).2 rfl, (livesAt_iff _ _ _).2 rfl⟩
  · exact ⟨shop.http[1], by simp [shop], by simp [shop, ExportedMethods], _, (livesAt_iff _ _ _).2 rfl, (livesAt_iff _ _ _).2 rfl⟩

/-- The example meets the conditions of `C46_returns_partial`. -/
theorem shop_oasSafe : OasSafe shop where
  arrays t h ht := by
    rcases shop_written h (by simp [ht]) with rfl | rfl | rfl
    · exact ⟨by simp, _, shop_tag.2 ⟨rfl, rfl⟩, by simp [shop]⟩
    · exact ⟨by simp, _, shop_item.2 ⟨rfl, rfl⟩, by simp [shop]⟩
    · simp at ht
  maps t h ht := by
    rcases shop_written h (by simp [ht]) with rfl | rfl | rfl
    · simp at ht
    · simp at ht
    · exact ⟨by simp, _, shop_decimal.2 rfl⟩
  acyclic a h := by
    have h1 : a = "Item" := by
      rcases Relation.TransGen.head'_iff.1 h with ⟨b, hb, _⟩
      exact (shop_expands hb).1
    rcases Relation.TransGen.tail'_iff.1 h with ⟨b, _, hb⟩
    exact (shop_expands hb).2 h1
  expected h h1 := by
    simp only [shop, List.mem_cons, List.not_mem_nil, or_false] at h1
    rcases h1 with rfl | rfl <;> simp
  examples ex h := by
    simp only [shop, List.mem_cons, List.not_mem_nil, or_false] at h
    rcases h with rfl | rfl | rfl
    · exact .type (shop_named _ (by simp))
    · exact .request (base := "GetItem") rfl shop_inUse fun h _ _ _ => ⟨_, rfl, fun ⟨b, hb⟩ => by simp at hb⟩
    · refine .response (base := "GetItem") (h := shop.http[0]) rfl shop_inUse (by simp [shop]) (by decide) ?_ rfl ⟨_, rfl, fun _ => .inl ?_⟩
      · exact ⟨[], ["PUT", "DELETE", "POST"], rfl, by simp⟩
      · exact ⟨{ field := { name := "body", ts := { type := "Item" } } }, by simp, by decide⟩

/-- The example meets the conditions of `C46_document_iff`. -/
theorem shop_oasReady : OasReady shop where
  safe := shop_oasSafe
  bases td h := by
    simp only [shop, List.mem_cons, List.not_mem_nil, or_false] at h
    rcases h with rfl | rfl | rfl <;> simp [ExportedBases]
  actions := by simp [shop]

/-- Exports a schema, and looks at the document. -/
def exportsB (lib : OLib) (s : Schema) (n : Nat) (p : ODoc → Bool) : Bool :=
  match newModel s with
  | .ok m => match exportOasN n lib m with
    | .ok d => p d
    | _ => false
  | _ => false

/-- The example has a document, whose references resolve and which has its actions. -/
example : ∃ m d, m.schema = shop ∧ Exports plainO m (.ok d) ∧ RefsResolve d ∧
    ∃ op, OperationAt d "/v1/items/{id}" .get op ∧ op.operationId = "getItem" := by
  have h : exportsB plainO shop 5 (fun _ => true) = true := by decide +kernel
  unfold exportsB at h
  split at h
  · next m hm =>
    have hs : m.schema = shop := by obtain ⟨_, _, _, rfl⟩ := (newModel_ok_iff _ _).1 hm; rfl
    split at h
    · next d hd =>
      have hd' : Exports plainO m (.ok d) := ⟨by simp, 5, hd⟩
      refine ⟨m, d, hs, hd', C45_refs_partial plainO (fun _ => .rfl) m (hs ▸ hm) (hs ▸ shop_refSafe) d hd', ?_⟩
      obtain ⟨k, op, h1, h2, h3⟩ := C44_operations_partial plainO (fun _ => .rfl) m d hd' shop.http[0] (by rw [hs]; simp [shop])
        (by simp [shop, ExportedMethods]) "/v1/items/{id}" ⟨"full={full}".toList, by rw [hs]; unfold PathAndQuery; decide⟩
      have : k = .get := by cases k <;> first | rfl | (simp [shop, methodName] at h1)
      subst this
      exact ⟨op, h2, h3.name⟩
    · simp at h
  · simp at h

/-! ### What is false -/

/-- Looks at the document exported from a model. -/
def docB (lib : OLib) (n : Nat) (p : ODoc → Bool) (m : Model) : Bool :=
  match exportOasN n lib m with
  | .ok d => p d
  | _ => false

/-- The export of the model panics. -/
def panicsB (lib : OLib) (n : Nat) (m : Model) : Bool :=
  match exportOasN n lib m with
  | .panic _ => true
  | _ => false

/-- No operation in the document. -/
def noOpsB (d : ODoc) : Bool :=
  d.paths.all fun e => e.2.get.isNone && e.2.put.isNone && e.2.post.isNone && e.2.delete.isNone && e.2.head.isNone && e.2.patch.isNone

theorem exported_of (toks : List Token) (p : Model → Bool) (q : ODoc → Bool)
    (h1 : toks.all (fun t => decide (t.type = .symbol → t.text ≠ "")) = true)
    (h : accepts noLib toks (fun m => p m && docB plainO 9 q m) = true) :
    ∃ m d, Accepted noLib m ∧ Exports plainO m (.ok d) ∧ p m = true ∧ q d = true := by
  obtain ⟨m, hm, h⟩ := accepted_of noLib toks _ h1 h
  rw [Bool.and_eq_true] at h
  obtain ⟨h2, h3⟩ := h
  unfold docB at h3
  split at h3
  · next d hd => exact ⟨m, d, hm, ⟨by simp, 9, hd⟩, h2, h3⟩
  · simp at h3

/-- C44 is false: an action with the method `PATCH` is dropped. -/
theorem C44_refuted_patch : ∃ m d h, Accepted noLib m ∧ Exports plainO m (.ok d) ∧ h ∈ m.schema.http ∧ h.method = "PATCH" ∧
    ∀ path k op, ¬ OperationAt d path k op := by
  obtain ⟨m, d, h1, h2, h3, h4⟩ := exported_of
    [sym "http", sym "PATCH", str "/foo", punct .openParen, sym "operation", punct .equals, sym "patchFoo", punct .closeParen, punct .openBrace, nl,
     sym "expect", num "204", punct .openBrace, nl, punct .closeBrace, nl, punct .closeBrace, nl]
    (fun m => m.schema.http.any (fun h => h.method == "PATCH")) noOpsB (by decide +kernel) (by decide +kernel)
  obtain ⟨h, h5, h6⟩ := List.any_eq_true.1 h3
  refine ⟨m, d, h, h1, h2, h5, beq_iff_eq.1 h6, ?_⟩
  rintro path k op ⟨pi, k1, k2⟩
  have := List.all_eq_true.1 h4 _ k1
  simp only [Bool.and_eq_true, Option.isNone_iff_eq_none] at this
  obtain ⟨⟨⟨⟨⟨e1, e2⟩, e3⟩, e4⟩, e5⟩, e6⟩ := this
  cases k <;> simp_all [OPathItem.op]

/-- A property of a schema of the document holds a reference that leads nowhere. -/
def danglingB (d : ODoc) : Bool :=
  d.schemas.any fun e => (e.2.properties.getD []).any fun f =>
    [some f.2, f.2.items, f.2.additionalProperties].any fun s? => match s? with
      | some s => s.ref != "" && d.schemas.all (fun g => "#/components/schemas/" ++ g.1 != s.ref)
      | none => false

theorem dangling {d : ODoc} (h : danglingB d = true) : ¬ RefsResolve d := by
  intro hr
  unfold danglingB at h
  obtain ⟨e, h1, h⟩ := List.any_eq_true.1 h
  obtain ⟨f, h2, h⟩ := List.any_eq_true.1 h
  obtain ⟨s?, h3, h⟩ := List.any_eq_true.1 h
  cases s? with
  | none => simp at h
  | some s =>
    simp only [Bool.and_eq_true, bne_iff_ne, List.all_eq_true] at h
    obtain ⟨h4, h5⟩ := h
    have hin : HasRef f.2 s.ref := by
      simp only [List.mem_cons, List.not_mem_nil, or_false] at h3
      rcases h3 with h3 | h3 | h3
      · cases h3; exact .here h4
      · exact .items h3.symm (.here h4)
      · exact .additional h3.symm (.here h4)
    cases hp : e.2.properties with
    | none => rw [hp] at h2; simp at h2
    | some ps =>
      rw [hp] at h2
      obtain ⟨name, target, k1, k2⟩ := hr e.2 s.ref (.component h1) (.property hp h2 hin)
      exact h5 _ k2 k1.symm

/-- The source `type Foo Struct { a T }`, for the tokens `T` of a type, after some other definitions. -/
def fooWith (before t : List Token) : List Token :=
  before ++ [sym "type", sym "Foo", sym "Struct", punct .openBrace, nl, sym "a"] ++ t ++ [nl, punct .closeBrace, nl]

def colorDef : List Token := [sym "type", sym "Color", sym "Enum", punct .openBrace, nl, sym "RED", nl, punct .closeBrace, nl]

/-- C45 is false: for an enumeration written in place, for `Any`, and for a map of enumerations. -/
theorem C45_refuted (t : List Token)
    (ht : t ∈ [[sym "Enum", punct .openBrace, nl, sym "RED", nl, punct .closeBrace], [sym "Any"],
      [sym "Map", punct .openAngle, sym "String", punct .comma, sym "Color", punct .closeAngle]]) :
    ∃ m d, Parses noLib (parseFileN noLib (fun _ => none) 0) (initialSchema "" "") (fooWith colorDef t) m ∧ Exports plainO m (.ok d) ∧ ¬ RefsResolve d := by
  have key : ∀ toks, accepts noLib toks (docB plainO 9 danglingB) = true →
      ∃ m d, Parses noLib (parseFileN noLib (fun _ => none) 0) (initialSchema "" "") toks m ∧ Exports plainO m (.ok d) ∧ ¬ RefsResolve d := by
    intro toks h
    unfold accepts at h
    split at h
    · next m hm =>
      unfold docB at h
      split at h
      · next d hd => exact ⟨m, d, ⟨5, hm⟩, ⟨by simp, 9, hd⟩, dangling h⟩
      · simp at h
    · simp at h
  simp only [List.mem_cons, List.not_mem_nil, or_false] at ht
  rcases ht with rfl | rfl | rfl
  all_goals exact key _ (by decide +kernel)

theorem panicked_of (lib : PLib) (toks : List Token) (h1 : toks.all (fun t => decide (t.type = .symbol → t.text ≠ "")) = true)
    (h : accepts lib toks (panicsB plainO 9) = true) : ∃ m e, Accepted lib m ∧ Exports plainO m (.panic e) := by
  obtain ⟨m, hm, h⟩ := accepted_of lib toks _ h1 h
  unfold panicsB at h
  split at h
  · next e he => exact ⟨m, e, hm, by simp, 9, he⟩
  · simp at h

/-- C46 is false: the export of an array of `Float64` panics. -/
theorem C46_refuted_float : ∃ m e, Accepted noLib m ∧ Exports plainO m (.panic e) :=
  panicked_of noLib (fooWith [] [sym "Array", punct .openAngle, sym "Float64", punct .closeAngle]) (by decide +kernel) (by decide +kernel)

/-- C46 is false: the export of an action without expected response panics. -/
theorem C46_refuted_expect : ∃ m e, Accepted noLib m ∧ Exports plainO m (.panic e) :=
  panicked_of noLib
    [sym "http", sym "GET", str "/foo", punct .openParen, sym "operation", punct .equals, sym "getFoo", punct .closeParen, punct .openBrace, nl,
     punct .closeBrace, nl] (by decide +kernel) (by decide +kernel)

/-- Two actions on the same path, and an example of the response of the second. -/
def secondExample : List Token :=
  [sym "http", sym "GET", str "/foo", punct .openParen, sym "operation", punct .equals, sym "getFoo", punct .closeParen, punct .openBrace, nl,
   sym "expect", num "204", punct .openBrace, nl, punct .closeBrace, nl, punct .closeBrace, nl,
   sym "http", sym "DELETE", str "/foo", punct .openParen, sym "operation", punct .equals, sym "deleteFoo", punct .closeParen, punct .openBrace, nl,
   sym "expect", num "204", punct .openBrace, nl, punct .closeBrace, nl, punct .closeBrace, nl,
   sym "example", sym "DeleteFooResponse", punct .openBrace, punct .closeBrace, nl]

/-- C46 is false: the export panics on the example of a response, unless the action is the first one on its path. -/
theorem C46_refuted_example : ∃ m e, Accepted noLib m ∧ Exports plainO m (.panic e) :=
  panicked_of noLib secondExample (by decide +kernel) (by decide +kernel)

/-- The type `Foo` is a struct with a map of `Foo` in it. -/
def loopB (m : Model) : Bool :=
  match m.schema.types, m.findType "Foo" with
  | [td], some td' => td.ts.type == "Struct" && td'.ts.type == "Struct" &&
      (match td.ts.fields, td'.ts.fields with
       | [f], [f'] => f.ts.type == "Map" && f.ts.items == "Foo" && f'.ts.type == "Map" && f'.ts.items == "Foo"
       | _, _ => false)
  | _, _ => false

/-- C46 is false: the export of a type that contains a map of itself does not end. -/
theorem C46_refuted_recursion : ∃ m, Accepted noLib m ∧ ∀ r, ¬ Exports plainO m r := by
  obtain ⟨m, hm, h⟩ := accepted_of noLib
    (fooWith [] [sym "Map", punct .openAngle, sym "String", punct .comma, sym "Foo", punct .closeAngle]) loopB (by decide +kernel) (by decide +kernel)
  refine ⟨m, hm, ?_⟩
  unfold loopB at h
  split at h
  · next td td' h1 h2 =>
    simp only [Bool.and_eq_true, beq_iff_eq] at h
    obtain ⟨⟨h3, h4⟩, h⟩ := h
    split at h
    · next f f' h5 h6 =>
      simp only [Bool.and_eq_true, beq_iff_eq] at h
      obtain ⟨⟨⟨h7, h8⟩, h9⟩, h10⟩ := h
      have map : ∀ n (t : TypeSpec), t.type = "Map" → t.items = "Foo" → oasSchemaN n plainO m td'.ts "" = .hang → oasSchemaN (n + 1) plainO m t "" = .hang := by
        intro n t k1 k2 k3
        rw [oasSchemaN_succ]
        have : oasSchemaStep plainO m (oasSchemaN n plainO m) t "" = (oasSchemaN n plainO m td'.ts "" >>= fun s => pure { type := "object", additionalProperties := some s }) := by
          unfold oasSchemaStep
          simp [k1, k2, h2]
        rw [this, k3]
        rfl
      have hang : ∀ n, oasSchemaN n plainO m td'.ts "" = .hang ∧ oasSchemaN (n + 1) plainO m td'.ts "" = .hang := by
        intro n
        have st : ∀ n, oasSchemaN (n + 1) plainO m td'.ts "" =
            (oasProps (fun ts => oasSchemaN n plainO m ts "") [f'] [] >>= fun ps => pure { type := "object", properties := some ps }) := by
          intro n
          rw [oasSchemaN_succ]
          unfold oasSchemaStep
          simp [h4, h6]
        induction n with
        | zero => exact ⟨rfl, by rw [st]; rfl⟩
        | succ n ih =>
          refine ⟨ih.2, ?_⟩
          rw [st]
          unfold oasProps
          rw [map n f'.ts h9 h10 ih.1]
          rfl
      rintro r ⟨hr, n, hn⟩
      apply hr
      rw [← hn]
      unfold exportOasN exportTypesN exportTypeDefN exportStruct
      rw [h1]
      simp only [h3, if_true, h5]
      unfold oasProps
      have : oasSchemaN n plainO m f.ts "" = .hang := by
        cases n with
        | zero => rfl
        | succ n => exact map n f.ts h7 h8 (hang n).1
      rw [this]
      rfl
    · simp at h
  · simp at h

end Sadl.Props
