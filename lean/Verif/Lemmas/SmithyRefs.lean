import Verif.Lemmas.SmithyLayout
import Verif.Props.Smithy
/-
Lemmas about the Smithy export: the references between the shapes.
-/
namespace Sadl
open Smithy Spec
namespace Smithy

theorem mem_mset {α : Type} {m : GoMap α} {k : String} {v : α} {kv : String × α} (h : kv ∈ mset m k v) : kv ∈ m ∨ kv = (k, v) := by
  induction m with
  | nil => simpa [mset] using h
  | cons p r ih =>
    obtain ⟨a, b⟩ := p
    simp only [mset] at h
    split at h
    · rename_i he
      rcases List.mem_cons.1 h with h | h
      · exact .inr (by rw [h, he])
      · exact .inl (by simp [h])
    · rcases List.mem_cons.1 h with h | h
      · exact .inl (by simp [h])
      · rcases ih h with h | h
        · exact .inl (by simp [h])
        · exact .inr h

theorem mget_mem {α : Type} {m : GoMap α} {k : String} {v : α} (h : mget m k = some v) : (k, v) ∈ m := by
  induction m with
  | nil => simp [mget] at h
  | cons p r ih =>
    obtain ⟨a, b⟩ := p
    simp only [mget] at h
    split at h
    · rename_i he
      cases h; simp [he]
    · simp [ih h]

/-- All references of the shape lead to Smithy's shapes or to shapes with a name. -/
def RefsIn (ns : String) (K : String → Prop) (sh : Shape) : Prop :=
  ∀ r, Refers sh r → r ∈ PreludeShapes ∨ ∃ n, K n ∧ r = q ns n

/-- All shapes of a map. -/
def AllIn (ns : String) (K : String → Prop) (shapes : GoMap Shape) : Prop := ∀ k sh, (k, sh) ∈ shapes → RefsIn ns K sh

theorem AllIn.mset {ns : String} {K : String → Prop} {shapes : GoMap Shape} (h : AllIn ns K shapes) {k : String} {sh : Shape}
    (hs : RefsIn ns K sh) : AllIn ns K (Sadl.mset shapes k sh) := by
  intro k' sh' hm
  rcases mem_mset hm with hm | hm
  · exact h _ _ hm
  · cases hm; exact hs

theorem RefsIn.put {ns : String} {K : String → Prop} {sh : Shape} (h : RefsIn ns K sh) (k : String) (v : Value) : RefsIn ns K (sh.put k v) := by
  intro r hr
  refine h r ?_
  cases hr with
  | member e => exact .member e
  | key e => exact .key e
  | value e => exact .value e
  | members e => exact .members e
  | input e => exact .input e
  | output e => exact .output e
  | error e => exact .error e
  | operation e => exact .operation e

theorem RefsIn.putOpt {ns : String} {K : String → Prop} {sh : Shape} (h : RefsIn ns K sh) (k : String) (v : Option Value) :
    RefsIn ns K (sh.putOpt k v) := by
  cases v with
  | none => exact h
  | some v => exact h.put k v

/-- A shape all of whose references are those of its members. -/
theorem refsIn_members {ns : String} {K : String → Prop} (t : String) (ms : GoMap Member)
    (h : ∀ k mem, (k, mem) ∈ ms → mem.target ∈ PreludeShapes ∨ ∃ n, K n ∧ mem.target = q ns n) :
    RefsIn ns K { type := t, members := ms } := by
  intro r hr
  cases hr with
  | member e => cases e
  | key e => cases e
  | value e => cases e
  | members e => exact h _ _ e
  | input e => cases e
  | output e => cases e
  | error e => cases e
  | operation e => cases e

theorem refsIn_plain (ns : String) (K : String → Prop) (t : String) : RefsIn ns K { type := t } :=
  refsIn_members t [] (by simp)

/-- The reference to a type that the export can express. -/
theorem typeReference_in {ns : String} {K : String → Prop} {n : String} (h : n ∈ ScalarTypes ∨ (K n ∧ n ∉ BaseTypes)) :
    typeReferenceByName ns n ∈ PreludeShapes ∨ ∃ n', K n' ∧ typeReferenceByName ns n = q ns n' := by
  rcases h with h | ⟨h1, h2⟩
  · left
    simp only [ScalarTypes, List.mem_cons, List.not_mem_nil, or_false] at h
    rcases h with h | h | h | h | h | h | h | h | h | h | h | h | h <;> subst h <;> simp [typeReferenceByName, PreludeShapes]
  · right
    refine ⟨n, h1, typeReference_user ns n ?_ ?_ ?_⟩
    · exact fun hc => h2 ((by decide : ∀ x ∈ smithyBuiltins, x ∈ BaseTypes) _ hc)
    · rintro rfl; exact h2 (by decide)
    · rintro rfl; exact h2 (by decide)

theorem fieldMembers_mem {ns : String} {fds : List StructFieldDef} {ms : GoMap Member} {k : String} {mem : Member}
    (h : (k, mem) ∈ fieldMembers ns fds ms) : (k, mem) ∈ ms ∨ ∃ f ∈ fds, mem.target = typeReferenceByName ns f.ts.type := by
  induction fds generalizing ms with
  | nil => exact .inl h
  | cons f rest ih =>
    rcases ih h with h | ⟨f', h1, h2⟩
    · rcases mem_mset h with h | h
      · exact .inl h
      · refine .inr ⟨f, by simp, ?_⟩
        cases h
        split <;> rfl
    · exact .inr ⟨f', by simp [h1], h2⟩

theorem enumMembers_mem {els : List EnumElementDef} {ms : GoMap Member} {k : String} {mem : Member}
    (h : (k, mem) ∈ enumMembers els ms) : (k, mem) ∈ ms ∨ mem.target = "smithy.api#Unit" := by
  induction els generalizing ms with
  | nil => exact .inl h
  | cons e rest ih =>
    rcases ih h with h | h
    · rcases mem_mset h with h | h
      · exact .inl h
      · cases h
        right
        split <;> rfl
    · exact .inr h

theorem unionMembers_mem {ns : String} {vs : List UnionVariantDef} {ms : GoMap Member} {k : String} {mem : Member}
    (h : (k, mem) ∈ unionMembers ns vs ms) : (k, mem) ∈ ms ∨ ∃ v ∈ vs, mem.target = ensureNamespaced ns v.ts.type := by
  induction vs generalizing ms with
  | nil => exact .inl h
  | cons v rest ih =>
    rcases ih h with h | ⟨f', h1, h2⟩
    · rcases mem_mset h with h | h
      · exact .inl h
      · cases h
        exact .inr ⟨v, by simp, rfl⟩
    · exact .inr ⟨f', by simp [h1], h2⟩

theorem paramMembers_mem {f : HttpParamSpec → Member} {ps : List HttpParamSpec} {ms : GoMap Member} {k : String} {mem : Member}
    (h : (k, mem) ∈ paramMembers f ps ms) : (k, mem) ∈ ms ∨ ∃ p ∈ ps, mem = f p := by
  induction ps generalizing ms with
  | nil => exact .inl h
  | cons v rest ih =>
    rcases ih h with h | ⟨f', h1, h2⟩
    · rcases mem_mset h with h | h
      · exact .inl h
      · cases h
        exact .inr ⟨v, by simp, rfl⟩
    · exact .inr ⟨f', by simp [h1], h2⟩

theorem plainMembers_mem {ns : String} {ps : List (String × String)} {ms : GoMap Member} {k : String} {mem : Member}
    (h : (k, mem) ∈ plainMembers ns ps ms) : (k, mem) ∈ ms ∨ ∃ p ∈ ps, mem.target = typeReferenceByName ns p.2 := by
  induction ps generalizing ms with
  | nil => exact .inl h
  | cons v rest ih =>
    rcases ih h with h | ⟨f', h1, h2⟩
    · rcases mem_mset h with h | h
      · exact .inl h
      · cases h
        exact .inr ⟨v, by simp, rfl⟩
    · exact .inr ⟨f', by simp [h1], h2⟩

theorem inputMember_target (ns : String) (p : HttpParamSpec) : (inputMember ns p).target = typeReferenceByName ns p.field.ts.type := by
  unfold inputMember
  split
  · rfl
  · split
    · rfl
    · split <;> rfl

theorem outputMember_target (ns : String) (p : HttpParamSpec) : (outputMember ns p).target = typeReferenceByName ns p.field.ts.type := by
  unfold outputMember
  split <;> rfl

theorem ensureNamespaced_typeReference (ns n : String) : ensureNamespaced ns (typeReferenceByName ns n) = typeReferenceByName ns n := by
  have h := typeReference_hash ns n
  unfold ensureNamespaced
  rw [if_neg, if_pos h]
  intro hc
  exact (by decide : ∀ x ∈ ["Boolean", "Byte", "Short", "Integer", "Long", "Float", "Double", "BigInteger", "BigDecimal",
      "Blob", "String", "Timestamp", "UUID", "Enum", "List", "Map", "Set", "Document", "Structure", "Union"], '#' ∉ x.toList) _ hc h

/-- The names that the export of unions leaves alone are built-in types or names of Smithy. -/
theorem ensureNamespaced_user {ns n : String} (h1 : '#' ∉ n.toList) (h2 : n ∉ BaseTypes)
    (h3 : n ∉ ["Boolean", "Byte", "Short", "Integer",
      "Long", "Float", "Double", "BigInteger", "BigDecimal", "Blob", "List", "Set", "Document", "Structure"]) :
    ensureNamespaced ns n = q ns n := by
  unfold ensureNamespaced
  rw [if_neg, if_neg h1]
  · rfl
  · intro hc
    have : ∀ x ∈ ["Boolean", "Byte", "Short", "Integer", "Long", "Float", "Double", "BigInteger", "BigDecimal",
      "Blob", "String", "Timestamp", "UUID", "Enum", "List", "Map", "Set", "Document", "Structure", "Union"],
      x ∈ BaseTypes ∨ x ∈ ["Boolean", "Byte", "Short", "Integer",
        "Long", "Float", "Double", "BigInteger", "BigDecimal", "Blob", "List", "Set", "Document", "Structure"] := by decide
    rcases this _ hc with h | h
    · exact h2 h
    · exact h3 h

theorem annotationTraits_refs {ns : String} {K : String → Prop} (annos : GoMap String) {sh : Shape} (h : RefsIn ns K sh) :
    RefsIn ns K (annotationTraits annos sh) := by
  induction annos generalizing sh with
  | nil => exact h
  | cons kv rest ih =>
    obtain ⟨k, v⟩ := kv
    simp only [annotationTraits]
    refine ih ?_
    split
    · exact h.put _ _
    · split
      · exact h.put _ _
      · split
        · exact h.put _ _
        · exact h

theorem typeShape_refs {ns : String} {s : Schema} (hs : SmithyRefsOk s) {K : String → Prop} (hK : ∀ n, Named s n → K n) {td : TypeDef}
    (htd : td ∈ s.types) (hb : td.ts.type ∈ SmithyBases) : RefsIn ns K (typeShape ns td) := by
  have user : ∀ {n}, Named s n → n ∉ BaseTypes := by
    rintro n ⟨t, h1, rfl⟩
    exact (hs.names t h1).2.1
  have ref : ∀ {n}, (n ∈ ScalarTypes ∨ Named s n) → n ∈ ScalarTypes ∨ (K n ∧ n ∉ BaseTypes) := by
    rintro n (h | h)
    · exact .inl h
    · exact .inr ⟨hK n h, user h⟩
  have bare : RefsIn ns K (bareShape ns td) := by
    unfold bareShape
    simp only
    split
    · exact (refsIn_plain _ _ _).putOpt _ _
    split
    · unfold shapeFromString
      simp only
      split
      · refine RefsIn.put ?_ _ _
        split
        · exact ((refsIn_plain _ _ _).putOpt _ _).put _ _
        · exact (refsIn_plain _ _ _).putOpt _ _
      · split
        · exact ((refsIn_plain _ _ _).putOpt _ _).put _ _
        · exact (refsIn_plain _ _ _).putOpt _ _
    split
    · refine refsIn_members _ _ fun k mem hm => ?_
      rcases enumMembers_mem hm with h | h
      · simp at h
      · exact .inl (by rw [h]; decide)
    split
    · refine refsIn_members _ _ fun k mem hm => ?_
      rcases fieldMembers_mem hm with h | ⟨f, h1, h2⟩
      · simp at h
      · rw [h2]
        exact typeReference_in (ref (hs.fields td htd ‹_› f h1))
    split
    · refine RefsIn.putOpt ?_ _ _
      intro r hr
      cases hr with
      | member e =>
        cases e
        simp only [ensureNamespaced_typeReference]
        exact typeReference_in (ref (hs.arrays td htd ‹_›))
      | key e => cases e
      | value e => cases e
      | members e => simp at e
      | input e => cases e
      | output e => cases e
      | error e => cases e
      | operation e => cases e
    split
    · refine refsIn_members _ _ fun k mem hm => ?_
      rcases unionMembers_mem hm with h | ⟨v, h1, h2⟩
      · simp at h
      · have hn := hs.unions td htd ‹_› v h1
        obtain ⟨t, h3, h4⟩ := hn
        have h5 := hs.names t h3
        rw [h4] at h5
        rw [h2, ensureNamespaced_user h5.1 h5.2.1 h5.2.2]
        exact .inr ⟨_, hK _ ⟨t, h3, h4⟩, rfl⟩
    split
    · intro r hr
      have hm := hs.maps td htd ‹_›
      cases hr with
      | member e => cases e
      | key e =>
        cases e
        simp only [ensureNamespaced_typeReference]
        exact typeReference_in (ref hm.1)
      | value e =>
        cases e
        simp only [ensureNamespaced_typeReference]
        exact typeReference_in (ref hm.2)
      | members e => simp [shapeFromMap] at e
      | input e => cases e
      | output e => cases e
      | error e => cases e
      | operation e => cases e
    · exact (refsIn_plain _ _ _).put _ _
  unfold typeShape
  refine annotationTraits_refs _ ?_
  split
  · exact bare.put _ _
  · exact bare

theorem typeShapes_refs {ns : String} {K : String → Prop} (tds : List TypeDef) {shapes : GoMap Shape} (h : AllIn ns K shapes)
    (ht : ∀ td ∈ tds, RefsIn ns K (typeShape ns td)) : AllIn ns K (typeShapes ns tds shapes) := by
  induction tds generalizing shapes with
  | nil => exact h
  | cons td rest ih => exact ih (h.mset (ht td (by simp))) fun t h => ht t (by simp [h])

theorem markError_refs {ns : String} {K : String → Prop} {sh : Shape} (h : RefsIn ns K sh) (x : HttpExceptionSpec) :
    RefsIn ns K (markError x sh) := by
  have h1 := (h.put "smithy.api#httpError" (.int x.status)).put "smithy.api#error" (.str (httpErrorCategory x.status))
  unfold markError
  simp only
  split
  · rename_i k mem he
    intro r hr
    refine h1 r ?_
    cases hr with
    | member e => exact .member e
    | key e => exact .key e
    | value e => exact .value e
    | members e =>
      simp only [List.mem_singleton, Prod.mk.injEq] at e
      obtain ⟨_, rfl⟩ := e
      exact .members (k := k) (mem := mem) (by rw [he]; simp)
    | input e => exact .input e
    | output e => exact .output e
    | error e => exact .error e
    | operation e => exact .operation e
  · exact h1

theorem actionErrors_refs {ns : String} {K : String → Prop} {xs : List HttpExceptionSpec} {shapes r : GoMap Shape}
    (h : AllIn ns K shapes) (hr : actionErrors ns xs shapes = .ok r) : AllIn ns K r := by
  induction xs generalizing shapes with
  | nil => simp only [actionErrors, Out.ok.injEq] at hr; exact hr ▸ h
  | cons x rest ih =>
    simp only [actionErrors] at hr
    split at hr
    · rename_i s hs
      exact ih (h.mset (markError_refs (h _ _ (mget_mem hs)) x)) hr
    · cases hr

theorem params_refs {ns : String} {K : String → Prop} {f : HttpParamSpec → Member} (hf : ∀ p, (f p).target = typeReferenceByName ns p.field.ts.type)
    {ps : List HttpParamSpec} (h : ∀ p ∈ ps, p.field.ts.type ∈ ScalarTypes ∨ (K p.field.ts.type ∧ p.field.ts.type ∉ BaseTypes)) :
    RefsIn ns K { type := "structure", members := paramMembers f ps [] } := by
  refine refsIn_members _ _ fun k mem hm => ?_
  rcases paramMembers_mem hm with h1 | ⟨p, h1, rfl⟩
  · simp at h1
  · rw [hf]
    exact typeReference_in (h p h1)

theorem actionShape_refs {base : String} {h : HttpDef} {shape : Shape} (hs : actionShape base h = .ok shape) (r : String) :
    ¬ Refers shape r ∧ shape.type = "operation" ∧ shape.input = none ∧ shape.output = none := by
  have bare : ∀ r, ¬ Refers ({ type := "operation" } : Shape) r := by
    intro r hr
    cases hr with
    | member e => cases e
    | key e => cases e
    | value e => cases e
    | members e => simp at e
    | input e => cases e
    | output e => cases e
    | error e => cases e
    | operation e => cases e
  have step : ∀ (P : Shape → Prop), (∀ sh k v, P sh → P (sh.put k v)) → P { type := "operation" } → P shape := by
    intro P hP h0
    unfold actionShape at hs
    simp only at hs
    cases hp : mget h.annotations "x_paginated" with
    | none =>
      simp only [hp, Out.bind_ok, Out.ok.injEq] at hs
      subst hs
      cases mget h.annotations "x_tags" <;> simp only <;> split_ifs <;> repeat (first | exact h0 | apply hP)
    | some v =>
      cases ht : paginatedTrait v with
      | ok t =>
        simp only [hp, ht, Out.bind_ok, Out.ok.injEq] at hs
        subst hs
        cases mget h.annotations "x_tags" <;> simp only <;> split_ifs <;> repeat (first | exact h0 | apply hP)
      | err e => simp [hp, ht] at hs
      | panic e => simp [hp, ht] at hs
  have hput : ∀ (sh : Shape) (k : String) (v : Value) (r : String), ¬ Refers sh r → ¬ Refers (sh.put k v) r := by
    intro sh k v r h hr
    refine h ?_
    cases hr with
    | member e => exact .member e
    | key e => exact .key e
    | value e => exact .value e
    | members e => exact .members e
    | input e => exact .input e
    | output e => exact .output e
    | error e => exact .error e
    | operation e => exact .operation e
  exact ⟨step (fun sh => ¬ Refers sh r) (fun sh k v h => hput sh k v r h) (bare r),
    step (fun sh => sh.type = "operation") (fun sh k v h => h) rfl,
    step (fun sh => sh.input = none) (fun sh k v h => h) rfl, step (fun sh => sh.output = none) (fun sh k v h => h) rfl⟩

theorem withIo_refs {suf : Suffixes} {ns base : String} {K : String → Prop} {h : HttpDef} {shape : Shape} (hs : actionShape base h = .ok shape)
    (hio : ∀ n ∈ IoNames suf h, K n) (hx : ∀ x ∈ h.exceptions, K x.type) : RefsIn ns K (withIo suf ns h shape) := by
  intro r hr
  have h0 := actionShape_refs hs
  cases hr with
  | member e => exact absurd (.member e) (h0 _).1
  | key e => exact absurd (.key e) (h0 _).1
  | value e => exact absurd (.value e) (h0 _).1
  | members e => exact absurd (.members e) (h0 _).1
  | operation e => exact absurd (.operation e) (h0 _).1
  | input e =>
    simp only [withIo] at e
    split at e
    · cases e
      exact .inr ⟨_, hio _ (by simp [IoNames, *]), rfl⟩
    · exact absurd (.input e) (h0 _).1
  | output e =>
    simp only [withIo] at e
    split at e
    · cases e
      exact .inr ⟨_, hio _ (by simp [IoNames, *]), rfl⟩
    · exact absurd (.output e) (h0 _).1
  | error e =>
    simp only [withIo, List.mem_map] at e
    obtain ⟨x, h1, rfl⟩ := e
    exact .inr ⟨_, hx x h1, rfl⟩

theorem exportAction_refs {suf : Suffixes} {ns base : String} {K : String → Prop} {h : HttpDef} {shapes r : GoMap Shape}
    (hr : exportAction suf ns base h shapes = .ok r) (ha : AllIn ns K shapes)
    (hin : ∀ p ∈ h.inputs, p.field.ts.type ∈ ScalarTypes ∨ (K p.field.ts.type ∧ p.field.ts.type ∉ BaseTypes))
    (hout : ∀ p ∈ ActionOutputs h, p.field.ts.type ∈ ScalarTypes ∨ (K p.field.ts.type ∧ p.field.ts.type ∉ BaseTypes))
    (hio : ∀ n ∈ IoNames suf h, K n) (hx : ∀ x ∈ h.exceptions, K x.type) : AllIn ns K r := by
  obtain ⟨_, shape, sh1, h1, h2, rfl⟩ := exportAction_ok.1 hr
  refine (actionErrors_refs ?_ h2).mset (withIo_refs h1 hio hx)
  have hi : RefsIn ns K (inputShape ns h) := (params_refs (inputMember_target ns) hin).put _ _
  have ho : RefsIn ns K (outputShape ns h) := (params_refs (outputMember_target ns) hout).put _ _
  unfold ioShapes
  simp only
  split <;> split
  · exact (ha.mset hi).mset ho
  · exact ha.mset ho
  · exact ha.mset hi
  · exact ha

theorem exportActions_refs {suf : Suffixes} {ns base : String} {K : String → Prop} {hs : List HttpDef} {shapes r : GoMap Shape}
    (hr : exportActions suf ns base hs shapes = .ok r) (ha : AllIn ns K shapes)
    (hin : ∀ h ∈ hs, ∀ p ∈ h.inputs, p.field.ts.type ∈ ScalarTypes ∨ (K p.field.ts.type ∧ p.field.ts.type ∉ BaseTypes))
    (hout : ∀ h ∈ hs, ∀ p ∈ ActionOutputs h, p.field.ts.type ∈ ScalarTypes ∨ (K p.field.ts.type ∧ p.field.ts.type ∉ BaseTypes))
    (hio : ∀ h ∈ hs, ∀ n ∈ IoNames suf h, K n) (hx : ∀ h ∈ hs, ∀ x ∈ h.exceptions, K x.type) : AllIn ns K r := by
  induction hs generalizing shapes with
  | nil => simp only [exportActions, Out.ok.injEq] at hr; exact hr ▸ ha
  | cons h rest ih =>
    simp only [exportActions, Out.bind_eq_ok] at hr
    obtain ⟨sh, h1, h2⟩ := hr
    simp only [List.forall_mem_cons] at hin hout hio hx
    exact ih h2 (exportAction_refs h1 ha hin.1 hout.1 hio.1 hx.1) hin.2 hout.2 hio.2 hx.2

theorem plain_refs {ns : String} {K : String → Prop} {ps : List (String × String)}
    (h : ∀ p ∈ ps, p.2 ∈ ScalarTypes ∨ (K p.2 ∧ p.2 ∉ BaseTypes)) :
    RefsIn ns K { type := "structure", members := plainMembers ns ps [] } := by
  refine refsIn_members _ _ fun k mem hm => ?_
  rcases plainMembers_mem hm with h1 | ⟨p, h1, h2⟩
  · simp at h1
  · rw [h2]
    exact typeReference_in (h p h1)

/-- The operation without HTTP binding, in one step. -/
theorem exportOperation_eq (suf : Suffixes) (ns : String) (od : OperationDef) (shapes : GoMap Shape) :
    exportOperation suf ns od shapes =
      (let shapes := if od.inputs = [] then shapes else mset shapes (q ns (capitalize od.name ++ suf.input))
        (plainShape ns (od.inputs.map fun p => (p.name, p.ts.type)))
       let shapes := if od.outputs = [] then shapes else mset shapes (q ns (capitalize od.name ++ suf.output))
        (plainShape ns (od.outputs.map fun p => (p.name, p.ts.type)))
       mset shapes (q ns (capitalize od.name)) (plainOpShape suf ns od)) := by
  unfold exportOperation plainShape plainOpShape q
  by_cases h1 : od.inputs = [] <;> by_cases h2 : od.outputs = [] <;> simp [h1, h2, String.append_assoc]

theorem exportOperation_refs {suf : Suffixes} {ns : String} {K : String → Prop} {od : OperationDef} {shapes : GoMap Shape}
    (ha : AllIn ns K shapes) (hin : ∀ p ∈ od.inputs, p.ts.type ∈ ScalarTypes ∨ (K p.ts.type ∧ p.ts.type ∉ BaseTypes))
    (hout : ∀ p ∈ od.outputs, p.ts.type ∈ ScalarTypes ∨ (K p.ts.type ∧ p.ts.type ∉ BaseTypes))
    (hio : ∀ n ∈ PlainIoNames suf od, K n) : AllIn ns K (exportOperation suf ns od shapes) := by
  have hi : RefsIn ns K (plainShape ns (od.inputs.map fun p => (p.name, p.ts.type))) := plain_refs (by simpa using hin)
  have ho : RefsIn ns K (plainShape ns (od.outputs.map fun p => (p.name, p.ts.type))) := plain_refs (by simpa using hout)
  have hop : RefsIn ns K (plainOpShape suf ns od) := by
    refine RefsIn.put ?_ _ _
    intro r hr
    cases hr with
    | member e => cases e
    | key e => cases e
    | value e => cases e
    | members e => simp at e
    | input e =>
      simp only at e
      split at e
      · cases e
      · cases e
        exact .inr ⟨_, hio _ (by simp [PlainIoNames, *]), rfl⟩
    | output e =>
      simp only at e
      split at e
      · cases e
      · cases e
        exact .inr ⟨_, hio _ (by simp [PlainIoNames, *]), rfl⟩
    | error e => simp at e
    | operation e => simp at e
  rw [exportOperation_eq]
  simp only
  refine AllIn.mset ?_ hop
  split <;> split
  · exact ha
  · exact ha.mset hi
  · exact ha.mset ho
  · exact (ha.mset hi).mset ho

theorem exportOperations_refs {suf : Suffixes} {ns : String} {K : String → Prop} {ods : List OperationDef} {shapes : GoMap Shape}
    (ha : AllIn ns K shapes) (hin : ∀ od ∈ ods, ∀ p ∈ od.inputs, p.ts.type ∈ ScalarTypes ∨ (K p.ts.type ∧ p.ts.type ∉ BaseTypes))
    (hout : ∀ od ∈ ods, ∀ p ∈ od.outputs, p.ts.type ∈ ScalarTypes ∨ (K p.ts.type ∧ p.ts.type ∉ BaseTypes))
    (hio : ∀ od ∈ ods, ∀ n ∈ PlainIoNames suf od, K n) : AllIn ns K (exportOperations suf ns ods shapes) := by
  induction ods generalizing shapes with
  | nil => exact ha
  | cons od rest ih =>
    simp only [List.forall_mem_cons] at hin hout hio
    exact ih (exportOperation_refs ha hin.1 hout.1 hio.1) hin.2 hout.2 hio.2

theorem examplesFromSadl_refs {order : GoMap (GoMap Value) → GoMap (GoMap Value)} {ns ns' : String} {K : String → Prop} {s : Schema}
    {hs : List HttpDef} {shapes r : GoMap Shape} (ha : AllIn ns K shapes) (hr : examplesFromSADL order ns' s hs shapes = .ok r) :
    AllIn ns K r := by
  induction hs generalizing shapes with
  | nil => simp only [examplesFromSADL, Out.ok.injEq] at hr; exact hr ▸ ha
  | cons h rest ih =>
    simp only [examplesFromSADL, Out.bind_eq_ok] at hr
    obtain ⟨exs, _, hr⟩ := hr
    split at hr
    · exact ih ha hr
    · rename_i shape hs
      split at hr
      · exact ih (ha.mset ((ha _ _ (mget_mem hs)).put _ _)) hr
      · exact ih ha hr

theorem examplesFromSadl_keys {order : GoMap (GoMap Value) → GoMap (GoMap Value)} {ns k : String} {s : Schema}
    {hs : List HttpDef} {shapes r : GoMap Shape} (hr : examplesFromSADL order ns s hs shapes = .ok r) (hk : k ∈ shapes.map Prod.fst) :
    k ∈ r.map Prod.fst := by
  induction hs generalizing shapes with
  | nil => simp only [examplesFromSADL, Out.ok.injEq] at hr; exact hr ▸ hk
  | cons h rest ih =>
    simp only [examplesFromSADL, Out.bind_eq_ok] at hr
    obtain ⟨exs, _, hr⟩ := hr
    split at hr
    · exact ih hr hk
    · split at hr
      · exact ih hr (by rw [mem_keys_mset]; exact .inr hk)
      · exact ih hr hk

/-! ### Names of the shapes -/

theorem exportActions_keys {suf : Suffixes} {ns base : String} {hs : List HttpDef} {shapes r : GoMap Shape}
    (hr : exportActions suf ns base hs shapes = .ok r) (n : String) :
    q ns n ∈ r.map Prod.fst ↔ n ∈ hs.flatMap (fun h => IoNames suf h ++ [OpName h]) ∨ q ns n ∈ shapes.map Prod.fst := by
  induction hs generalizing shapes with
  | nil => simp only [exportActions, Out.ok.injEq] at hr; simp [hr]
  | cons h rest ih =>
    simp only [exportActions, Out.bind_eq_ok] at hr
    obtain ⟨sh, h1, h2⟩ := hr
    rw [ih h2, q, exportAction_keys h1]
    simp only [List.flatMap_cons, List.mem_append, List.mem_singleton, q]
    tauto

theorem exportOperations_keys (suf : Suffixes) (ns : String) (ods : List OperationDef) (shapes : GoMap Shape) (n : String) :
    q ns n ∈ (exportOperations suf ns ods shapes).map Prod.fst ↔
      n ∈ ods.flatMap (fun od => PlainIoNames suf od ++ [capitalize od.name]) ∨ q ns n ∈ shapes.map Prod.fst := by
  induction ods generalizing shapes with
  | nil => simp [exportOperations]
  | cons od rest ih =>
    simp only [exportOperations, ih, exportOperation_eq, PlainIoNames]
    by_cases h1 : od.inputs = [] <;> by_cases h2 : od.outputs = [] <;>
      simp only [h1, h2, if_true, if_false, mem_keys_mset, q_inj, List.flatMap_cons, List.mem_append, List.mem_singleton,
        List.not_mem_nil, false_or] <;> tauto

/-- Every name that the schema needs has a shape. -/
theorem fromSadl_has {order : GoMap (GoMap Value) → GoMap (GoMap Value)} {suf : Suffixes} {m : Model} {ns : String} {ast : Ast}
    (hr : fromSadl order suf m ns = .ok ast) {n : String} (hn : n ∈ ShapeNames suf m.schema) :
    q ns n ∈ ast.shapes.map Prod.fst := by
  obtain ⟨_, sh1, sh2, h1, h2, rfl⟩ := fromSadl_steps.1 hr
  have hsv : q ns n ∈ (serviceShapes suf ns m.schema sh1).map Prod.fst := by
    unfold serviceShapes
    have ho : opTargets ns m.schema = [] ↔ m.schema.http = [] ∧ m.schema.operations = [] := by simp [opTargets]
    simp only [ShapeNames, List.mem_append] at hn
    have h3 : n ∈ m.schema.types.map (·.name) ∨ n ∈ m.schema.http.flatMap (fun h => IoNames suf h ++ [OpName h]) ∨
        n ∈ m.schema.operations.flatMap (fun od => PlainIoNames suf od ++ [capitalize od.name]) →
        q ns n ∈ (exportOperations suf ns m.schema.operations sh1).map Prod.fst := by
      intro h
      rw [exportOperations_keys, exportActions_keys h1, q, typeShapes_keys]
      rcases h with h | h | h
      · obtain ⟨td, h4, rfl⟩ := List.mem_map.1 h
        exact .inr (.inr (.inl ⟨td, h4, rfl⟩))
      · exact .inr (.inl h)
      · exact .inl h
    by_cases h4 : m.schema.http = [] ∧ m.schema.operations = []
    · rw [if_neg (by simp [ho.2 h4])]
      rw [if_pos h4] at hn
      refine h3 ?_
      simpa [or_assoc] using hn
    · rw [if_pos (fun hc => h4 (ho.1 hc)), mem_keys_mset]
      rw [if_neg h4] at hn
      rcases hn with hn | hn
      · exact .inr (h3 (by simpa [or_assoc] using hn))
      · simp only [List.mem_singleton] at hn
        exact .inl (by rw [hn, q])
  unfold withExamples at h2
  split at h2
  · exact examplesFromSadl_keys h2 hsv
  · cases h2; exact hsv

/-- The references of the exported AST lead to shapes. -/
theorem fromSadl_refs {order : GoMap (GoMap Value) → GoMap (GoMap Value)} {suf : Suffixes} {m : Model} {ns : String} {ast : Ast}
    (hr : fromSadl order suf m ns = .ok ast) (hs : SmithyRefsOk m.schema) : ShapesResolve ast := by
  have ready := (fromSadl_ok order suf m ns).1 ⟨_, hr⟩
  have has := fun n hn => @fromSadl_has order suf m ns ast hr n hn
  obtain ⟨ht, sh1, sh2, h1, h2, he⟩ := fromSadl_steps.1 hr
  have named : ∀ n, Named m.schema n → n ∈ ShapeNames suf m.schema := by
    rintro n ⟨td, h3, rfl⟩
    simp only [ShapeNames, List.mem_append]
    exact .inl (.inl (.inl (List.mem_map.2 ⟨td, h3, rfl⟩)))
  have user : ∀ {n}, Named m.schema n → n ∉ BaseTypes := by
    rintro n ⟨t, h1, rfl⟩
    exact (hs.names t h1).2.1
  have ref : ∀ {n}, (n ∈ ScalarTypes ∨ Named m.schema n) → n ∈ ScalarTypes ∨ (n ∈ ShapeNames suf m.schema ∧ n ∉ BaseTypes) := by
    rintro n (h | h)
    · exact .inl h
    · exact .inr ⟨named n h, user h⟩
  have act : ∀ h ∈ m.schema.http, ∀ n ∈ IoNames suf h ++ [OpName h], n ∈ ShapeNames suf m.schema := by
    intro h hh n hn
    simp only [ShapeNames, List.mem_append]
    exact .inl (.inl (.inr (List.mem_flatMap.2 ⟨h, hh, hn⟩)))
  have plain : ∀ od ∈ m.schema.operations, ∀ n ∈ PlainIoNames suf od ++ [capitalize od.name], n ∈ ShapeNames suf m.schema := by
    intro h hh n hn
    simp only [ShapeNames, List.mem_append]
    exact .inl (.inr (List.mem_flatMap.2 ⟨h, hh, hn⟩))
  have hx : ∀ h ∈ m.schema.http, ∀ x ∈ h.exceptions, x.type ∈ ShapeNames suf m.schema := by
    intro h hh x hxm
    obtain ⟨pre, post, e⟩ := List.append_of_mem hh
    rcases ready.exceptions pre h post e x hxm with h3 | h3 | ⟨h', h3, h4⟩
    · exact named _ h3
    · exact act h hh _ (by simp [h3])
    · refine act h' (by rw [e]; simp [h3]) _ ?_
      rcases h4 with h4 | h4 <;> simp [h4]
  have a0 : AllIn ns (· ∈ ShapeNames suf m.schema) (typeShapes ns m.schema.types []) :=
    typeShapes_refs _ (by intro k sh h; simp at h) fun td h3 => typeShape_refs hs named h3 (ht td h3)
  have a1 := exportActions_refs h1 a0 (fun h hh p hp => ref (hs.inputs h hh p hp)) (fun h hh p hp => ref (hs.outputs h hh p hp))
    (fun h hh n hn => act h hh n (by simp [hn])) hx
  have a2 := exportOperations_refs (suf := suf) (ods := m.schema.operations) a1 (fun h hh p hp => ref (hs.operationInputs h hh p hp))
    (fun h hh p hp => ref (hs.operationOutputs h hh p hp)) (fun od ho n hn => plain od ho n (by simp [hn]))
  have a3 : AllIn ns (· ∈ ShapeNames suf m.schema) (serviceShapes suf ns m.schema sh1) := by
    unfold serviceShapes
    simp only
    split
    · refine a2.mset ?_
      have : RefsIn ns (· ∈ ShapeNames suf m.schema)
          { type := "service", version := if m.schema.version = "" then "0.0" else m.schema.version, operations := opTargets ns m.schema } := by
        intro r hr
        cases hr with
        | member e => cases e
        | key e => cases e
        | value e => cases e
        | members e => simp at e
        | input e => cases e
        | output e => cases e
        | error e => simp at e
        | operation e =>
          simp only [opTargets, List.mem_append, List.mem_map] at e
          rcases e with ⟨h, h3, rfl⟩ | ⟨od, h3, rfl⟩
          · exact .inr ⟨_, act h h3 (OpName h) (by simp), rfl⟩
          · exact .inr ⟨_, plain od h3 (capitalize od.name) (by simp), rfl⟩
      unfold serviceShape
      simp only
      split
      · exact this.put _ _
      · exact this
    · exact a2
  have a4 : AllIn ns (· ∈ ShapeNames suf m.schema) ast.shapes := by
    rw [he]
    unfold withExamples at h2
    split at h2
    · exact examplesFromSadl_refs a3 h2
    · cases h2; exact a3
  intro k sh r hk hrf
  rcases a4 k sh hk r hrf with h | ⟨n, h3, rfl⟩
  · exact .inl h
  · obtain ⟨⟨k', sh'⟩, h5, h6⟩ := List.mem_map.1 (has n h3)
    exact .inr ⟨sh', by rw [← h6]; exact h5⟩

end Smithy
end Sadl
