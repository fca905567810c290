import Verif.Lemmas.OpenApiTerm
/-
What a schema that was exported to OpenAPI must have satisfied, and that the export of such a
schema does not end with an error.
-/
namespace Sadl
open Sadl.Spec

/-! ### Necessity -/

/-- The type is converted within so many steps. -/
def Converts (lib : OLib) (m : Model) (n : Nat) (t : TypeSpec) (nm : String) : Prop := ∃ sc, oasSchemaN n lib m t nm = .ok sc

theorem props_convert {conv : TypeSpec → Ran OSchema} {fs : List StructFieldDef} {acc ps : GoMap OSchema}
    (h : oasProps conv fs acc = .ok ps) : ∀ f ∈ fs, ∃ sc, conv f.ts = .ok sc := by
  induction fs generalizing acc with
  | nil => simp
  | cons f rest ih =>
    obtain ⟨sc, h1, h2⟩ := Ran.bind_eq_ok.1 h
    intro g hg
    rcases List.mem_cons.1 hg with rfl | hg
    · exact ⟨sc, h1⟩
    · exact ih h2 g hg

theorem convert_props {conv : TypeSpec → Ran OSchema} {fs : List StructFieldDef} (h : ∀ f ∈ fs, ∃ sc, conv f.ts = .ok sc)
    (acc : GoMap OSchema) : ∃ ps, oasProps conv fs acc = .ok ps := by
  induction fs generalizing acc with
  | nil => exact ⟨acc, rfl⟩
  | cons f rest ih =>
    obtain ⟨sc, h1⟩ := h f (by simp)
    obtain ⟨ps, h2⟩ := ih (fun g hg => h g (by simp [hg])) (mset acc f.name sc)
    exact ⟨ps, Ran.bind_eq_ok.2 ⟨sc, h1, h2⟩⟩

section
variable {lib : OLib} {m : Model}

theorem converts_array {n : Nat} {t : TypeSpec} {nm : String} (ht : t.type = "Array") :
    Converts lib m (n + 1) t nm ↔ ∃ itd, m.findType t.items = some itd ∧ Converts lib m n itd.ts t.items := by
  have e : oasSchemaN (n + 1) lib m t nm = match m.findType t.items with
      | none => .panic "nil pointer"
      | some itd => oasSchemaN n lib m itd.ts t.items >>= fun s => pure { type := "array", items := some s } := by
    rw [oasSchemaN, oasSchemaStep]
    simp [ht]
    cases m.findType t.items <;> rfl
  unfold Converts
  rw [e]
  cases m.findType t.items with
  | none => simp
  | some itd =>
    simp only [Option.some.injEq, exists_eq_left']
    constructor
    · rintro ⟨sc, h⟩
      obtain ⟨s1, h1, _⟩ := Ran.bind_eq_ok.1 h
      exact ⟨s1, h1⟩
    · rintro ⟨s1, h1⟩
      exact ⟨_, Ran.bind_eq_ok.2 ⟨s1, h1, rfl⟩⟩

theorem converts_map {n : Nat} {t : TypeSpec} {nm : String} (ht : t.type = "Map") :
    Converts lib m (n + 1) t nm ↔ ∃ itd, m.findType t.items = some itd ∧ Converts lib m n itd.ts "" := by
  have e : oasSchemaN (n + 1) lib m t nm = match m.findType t.items with
      | none => .panic "nil pointer"
      | some itd => oasSchemaN n lib m itd.ts "" >>= fun s => pure { type := "object", additionalProperties := some s } := by
    rw [oasSchemaN, oasSchemaStep]
    simp [ht]
    cases m.findType t.items <;> rfl
  unfold Converts
  rw [e]
  cases m.findType t.items with
  | none => simp
  | some itd =>
    simp only [Option.some.injEq, exists_eq_left']
    constructor
    · rintro ⟨sc, h⟩
      obtain ⟨s1, h1, _⟩ := Ran.bind_eq_ok.1 h
      exact ⟨s1, h1⟩
    · rintro ⟨s1, h1⟩
      exact ⟨_, Ran.bind_eq_ok.2 ⟨s1, h1, rfl⟩⟩

theorem converts_struct {n : Nat} {t : TypeSpec} (ht : t.type = "Struct") :
    Converts lib m (n + 1) t "" ↔ ∀ f ∈ t.fields, Converts lib m n f.ts "" := by
  have e : oasSchemaN (n + 1) lib m t "" = (oasProps (fun ts => oasSchemaN n lib m ts "") t.fields [] >>= fun ps =>
      pure { type := "object", properties := some ps }) := by
    rw [oasSchemaN, oasSchemaStep]
    simp [ht]
  constructor
  · rintro ⟨sc, h⟩
    rw [e] at h
    obtain ⟨ps, h1, _⟩ := Ran.bind_eq_ok.1 h
    exact props_convert h1
  · intro h
    obtain ⟨ps, h1⟩ := convert_props (conv := fun ts => oasSchemaN n lib m ts "") h []
    exact ⟨_, e.trans (Ran.bind_eq_ok.2 ⟨ps, h1, rfl⟩)⟩

theorem converts_float {n : Nat} {t : TypeSpec} {nm : String} (ht : t.type = "Float64") (h : Converts lib m n t nm) : nm = "" := by
  cases n with
  | zero => obtain ⟨_, h⟩ := h; cases h
  | succ n =>
    by_contra hn
    obtain ⟨sc, h⟩ := h
    rw [oasSchemaN, oasSchemaStep] at h
    simp [ht, hn] at h

theorem converts_pos {n : Nat} {t : TypeSpec} {nm : String} (h : Converts lib m n t nm) : ∃ k, n = k + 1 := by
  cases n with
  | zero => obtain ⟨_, h⟩ := h; cases h
  | succ n => exact ⟨n, rfl⟩

theorem exportTypeDef_bases {n : Nat} {td : TypeDef} {sc : OSchema} (h : exportTypeDefN n lib m td = .ok sc) :
    td.ts.type ∈ ExportedBases := by
  unfold exportTypeDefN at h
  by_contra hb
  simp only [ExportedBases, List.mem_cons, List.not_mem_nil, or_false, not_or] at hb
  obtain ⟨h1, h2, h3, h4, h5, h6, h7, h8, h9, h10, h11, h12, h13, h14, h15, h16⟩ := hb
  simp [h1, h2, h3, h4, h5, h6, h7, h8, h9, h10, h11, h12, h13, h14, h15, h16] at h

/-- What the export of a definition converts. -/
theorem exportTypeDef_parts {n : Nat} {td : TypeDef} {sc : OSchema} (h : exportTypeDefN n lib m td = .ok sc) :
    (td.ts.type = "Struct" ∨ td.ts.type = "Array" ∨ td.ts.type = "Map") → Converts lib m (n + 1) td.ts "" := by
  unfold exportTypeDefN at h
  rintro (ht | ht | ht)
  · rw [converts_struct ht]
    simp only [ht, if_true] at h
    obtain ⟨ps, h1, _⟩ := Ran.bind_eq_ok.1 h
    exact props_convert h1
  · rw [converts_array ht]
    simp only [ht, if_true, show ("Array" = "Struct") = False by simp, if_false, exportArray] at h
    cases hf : m.findType td.ts.items with
    | none => rw [hf] at h; cases h
    | some itd =>
      rw [hf] at h
      obtain ⟨s1, h1, _⟩ := Ran.bind_eq_ok.1 h
      exact ⟨itd, rfl, s1, h1⟩
  · rw [converts_map ht]
    simp only [ht, if_true, show ("Map" = "Struct") = False by simp, show ("Map" = "Array") = False by simp, if_false, exportMap] at h
    cases hf : m.findType td.ts.items with
    | none => rw [hf] at h; cases h
    | some itd =>
      rw [hf] at h
      obtain ⟨s1, h1, _⟩ := Ran.bind_eq_ok.1 h
      exact ⟨itd, rfl, s1, h1⟩

theorem inputs_convert {conv : TypeSpec → String → Ran OSchema} {ins : List HttpParamSpec} {op op' : OOperation}
    (h : exportInputs conv ins op = .ok op') : ∀ p ∈ ins, ∃ sc, conv p.field.ts "" = .ok sc := by
  induction ins generalizing op with
  | nil => simp
  | cons p rest ih =>
    obtain ⟨sc, h1, h2⟩ := Ran.bind_eq_ok.1 h
    intro q hq
    rcases List.mem_cons.1 hq with rfl | hq
    · exact ⟨sc, h1⟩
    · exact ih h2 q hq

theorem outputs_convert {conv : TypeSpec → String → Ran OSchema} {outs : List HttpParamSpec} {r r' : OResponse}
    (h : exportOutputs conv outs r = .ok r') : ∀ p ∈ outs, ∃ sc, conv p.field.ts "" = .ok sc := by
  induction outs generalizing r with
  | nil => simp
  | cons p rest ih =>
    obtain ⟨sc, h1, h2⟩ := Ran.bind_eq_ok.1 h
    intro q hq
    rcases List.mem_cons.1 hq with rfl | hq
    · exact ⟨sc, h1⟩
    · exact ih h2 q hq

theorem exportOp_parts {conv : TypeSpec → String → Ran OSchema} {h : HttpDef} {op : OOperation} (ho : exportOp conv h = .ok op) :
    (∀ p ∈ h.inputs, ∃ sc, conv p.field.ts "" = .ok sc) ∧
    ∃ e, h.expected = some e ∧ ∀ p ∈ e.outputs, ∃ sc, conv p.field.ts "" = .ok sc := by
  unfold exportOp at ho
  obtain ⟨op1, h1, ho⟩ := Ran.bind_eq_ok.1 ho
  refine ⟨inputs_convert h1, ?_⟩
  cases he : h.expected with
  | none => rw [he] at ho; simp at ho
  | some e =>
    rw [he] at ho
    obtain ⟨r, h2, _⟩ := Ran.bind_eq_ok.1 ho
    exact ⟨e, rfl, outputs_convert h2⟩
end

section
variable {s : Schema} {m : Model} (hm : newModel s = .ok m) (hne : ∀ td ∈ s.types, td.name ≠ "") {lib : OLib} {N : Nat}
  (htypes : ∀ td ∈ s.types, ∃ sc, exportTypeDefN N lib m td = .ok sc)
  (hhttp : ∀ a ∈ s.http, ∃ op, exportOp (oasSchemaN N lib m) a = .ok op)

include hm hne in
theorem find_empty : m.findType "" = none := by
  cases hf : m.findType "" with
  | none => rfl
  | some td =>
    rcases (newModel_findType_iff hm "" td).1 hf with ⟨h1, h2⟩ | ⟨h1, _⟩
    · exact absurd h2 (hne td h1)
    · simp [BaseTypes] at h1

include hm in
theorem find_defines {n : String} {td : TypeDef} (hf : m.findType n = some td) : Defines s n td.ts := by
  rcases (newModel_findType_iff hm n td).1 hf with ⟨h1, h2⟩ | ⟨h1, rfl⟩
  · exact .inl ⟨td, h1, h2, rfl⟩
  · exact .inr ⟨h1, rfl⟩

include hm in
theorem defines_find' {n : String} {t : TypeSpec} (h : Defines s n t) : ∃ td, m.findType n = some td ∧ td.ts = t := by
  rcases h with ⟨td, h1, h2, rfl⟩ | ⟨h1, rfl⟩
  · exact ⟨td, (newModel_findType_iff hm n td).2 (.inl ⟨h1, h2⟩), rfl⟩
  · exact ⟨baseTypeDef n, (newModel_findType_iff hm n _).2 (.inr ⟨h1, rfl⟩), rfl⟩

include htypes hhttp in
theorem inline_converts {t : TypeSpec} (h : Inline s t) : ∃ n, Converts lib m n t "" := by
  induction h with
  | field h1 h2 h3 =>
    obtain ⟨sc, h4⟩ := htypes _ h1
    exact ⟨N, (converts_struct h2).1 (exportTypeDef_parts h4 (.inl h2)) _ h3⟩
  | input h1 h2 =>
    obtain ⟨op, h4⟩ := hhttp _ h1
    exact ⟨N, (exportOp_parts h4).1 _ h2⟩
  | output h1 h2 h3 =>
    obtain ⟨op, h4⟩ := hhttp _ h1
    obtain ⟨e, h5, h6⟩ := (exportOp_parts h4).2
    rw [h2] at h5; cases h5
    exact ⟨N, h6 _ h3⟩
  | nested _ h2 h3 ih =>
    obtain ⟨n, hn⟩ := ih
    obtain ⟨k, rfl⟩ := converts_pos hn
    exact ⟨k, (converts_struct h2).1 hn _ h3⟩

include htypes hhttp in
theorem written_converts {t : TypeSpec} (h : Written s t) (ht : t.type = "Struct" ∨ t.type = "Array" ∨ t.type = "Map") :
    ∃ n, Converts lib m n t "" := by
  rcases h with ⟨td, h1, rfl⟩ | h
  · obtain ⟨sc, h4⟩ := htypes td h1
    exact ⟨N + 1, exportTypeDef_parts h4 ht⟩
  · exact inline_converts htypes hhttp h

include hm hne in
/-- No collection of the bare types `Array` and `Map` is converted. -/
theorem bare_fails {n : Nat} {a nm : String} {itd : TypeDef} (ha : a = "Array" ∨ a = "Map") (hf : m.findType a = some itd)
    (h : Converts lib m n itd.ts nm) : False := by
  have hb : itd = baseTypeDef a := by
    rcases (newModel_findType_iff hm a itd).1 hf with ⟨h1, h2⟩ | ⟨_, h2⟩
    · obtain ⟨_, hb, _⟩ := (newModel_ok_iff s m).1 hm
      exact absurd (by rcases ha with rfl | rfl <;> rw [h2] <;> decide) (hb itd h1)
    · exact h2
  subst hb
  obtain ⟨k, rfl⟩ := converts_pos h
  rcases ha with rfl | rfl
  · obtain ⟨itd, h1, _⟩ := (converts_array (t := (baseTypeDef "Array").ts) rfl).1 h
    have : m.findType "" = some itd := h1
    rw [find_empty hm hne] at this; cases this
  · obtain ⟨itd, h1, _⟩ := (converts_map (t := (baseTypeDef "Map").ts) rfl).1 h
    have : m.findType "" = some itd := h1
    rw [find_empty hm hne] at this; cases this

/-- The definition of the name is converted in full within so many steps. -/
def FullyConverts (s : Schema) (lib : OLib) (m : Model) (n : Nat) (a : String) : Prop :=
  ∃ t nm, Defines s a t ∧ (t.type = "Struct" → nm = "") ∧ Converts lib m n t nm

theorem writtenIn_converts {n : Nat} {t u : TypeSpec} {nm : String} (hw : WrittenIn t u) (hs : t.type = "Struct" → nm = "")
    (h : Converts lib m n t nm) : ∃ k nm', k ≤ n ∧ (u.type = "Struct" → nm' = "") ∧ Converts lib m k u nm' := by
  induction hw generalizing n nm with
  | refl => exact ⟨n, nm, le_refl _, hs, h⟩
  | field h1 h2 _ ih =>
    obtain ⟨k, rfl⟩ := converts_pos h
    rw [hs h1] at h
    obtain ⟨k', nm', h3, h4⟩ := ih (nm := "") (fun _ => rfl) ((converts_struct h1).1 h _ h2)
    exact ⟨k', nm', by omega, h4⟩

include hm in
theorem expands_converts {n : Nat} {a b : String} (he : Expands s a b) (h : FullyConverts s lib m n a) :
    ∃ k < n, FullyConverts s lib m k b := by
  obtain ⟨ta, t, tb, h1, h2, rfl, h4, h5⟩ := he
  obtain ⟨ta', nm, h6, h7, h8⟩ := h
  obtain ⟨d1, e1, rfl⟩ := defines_find' hm h1
  obtain ⟨d2, e2, rfl⟩ := defines_find' hm h6
  rw [e1] at e2; cases e2
  obtain ⟨k, nm', hk, _, hc⟩ := writtenIn_converts h2 h7 h8
  obtain ⟨j, rfl⟩ := converts_pos hc
  obtain ⟨d3, e3, rfl⟩ := defines_find' hm h4
  rcases h5 with ht | ⟨ht, hns⟩
  · obtain ⟨itd, e4, h9⟩ := (converts_map ht).1 hc
    rw [e3] at e4; cases e4
    exact ⟨j, by omega, d3.ts, "", h4, fun _ => rfl, h9⟩
  · obtain ⟨itd, e4, h9⟩ := (converts_array ht).1 hc
    rw [e3] at e4; cases e4
    exact ⟨j, by omega, d3.ts, _, h4, fun h => absurd h hns, h9⟩

include hm in
theorem no_cycle {n : Nat} {a : String} (h : FullyConverts s lib m n a) : ¬ Relation.TransGen (Expands s) a a := by
  have chain : ∀ {a b}, Relation.TransGen (Expands s) a b → ∀ n, FullyConverts s lib m n a → ∃ k < n, FullyConverts s lib m k b := by
    intro a b hab
    induction hab with
    | single h1 => exact fun n h => expands_converts hm h1 h
    | tail _ h2 ih =>
      intro n h
      obtain ⟨k, hk, h3⟩ := ih n h
      obtain ⟨j, hj, h4⟩ := expands_converts hm h2 h3
      exact ⟨j, by omega, h4⟩
  intro hc
  induction n using Nat.strong_induction_on with
  | _ n ih =>
    obtain ⟨k, hk, h'⟩ := chain hc n h
    exact ih k hk h'

include hm hne htypes hhttp in
/-- What must hold of types and actions. -/
theorem ready_types : (∀ t, Written s t → t.type = "Array" → t.items ∉ ["", "Array", "Map"] ∧ ∃ u, Defines s t.items u ∧ u.type ≠ "Float64") ∧
    (∀ t, Written s t → t.type = "Map" → t.items ∉ ["Array", "Map"] ∧ ∃ u, Defines s t.items u) ∧
    (∀ a, ¬ Relation.TransGen (Expands s) a a) ∧ (∀ h ∈ s.http, h.expected ≠ none) ∧ ∀ td ∈ s.types, td.ts.type ∈ ExportedBases := by
  refine ⟨fun t hw ht => ?_, fun t hw ht => ?_, fun a hc => ?_, fun h hh => ?_, fun td h => ?_⟩
  · obtain ⟨n, hn⟩ := written_converts htypes hhttp hw (.inr (.inl ht))
    obtain ⟨k, rfl⟩ := converts_pos hn
    obtain ⟨itd, h1, h2⟩ := (converts_array ht).1 hn
    have hni : t.items ≠ "" := fun e => by rw [e, find_empty hm hne] at h1; cases h1
    refine ⟨?_, itd.ts, find_defines hm h1, fun hf => hni (converts_float hf h2)⟩
    simp only [List.mem_cons, List.not_mem_nil, or_false, not_or]
    exact ⟨hni, fun e => bare_fails hm hne (.inl e) h1 h2, fun e => bare_fails hm hne (.inr e) h1 h2⟩
  · obtain ⟨n, hn⟩ := written_converts htypes hhttp hw (.inr (.inr ht))
    obtain ⟨k, rfl⟩ := converts_pos hn
    obtain ⟨itd, h1, h2⟩ := (converts_map ht).1 hn
    refine ⟨?_, itd.ts, find_defines hm h1⟩
    simp only [List.mem_cons, List.not_mem_nil, or_false, not_or]
    exact ⟨fun e => bare_fails hm hne (.inl e) h1 h2, fun e => bare_fails hm hne (.inr e) h1 h2⟩
  · obtain ⟨b, ⟨ta, t, tb, h1, h2, h3, h4, h5⟩, _⟩ := Relation.TransGen.head'_iff.1 hc
    have hcol : t.type = "Map" ∨ t.type = "Array" := h5.imp id And.left
    rcases id h1 with ⟨td, k1, k2, rfl⟩ | ⟨k1, rfl⟩
    · have ht : td.ts.type = "Struct" ∨ td.ts.type = "Array" ∨ td.ts.type = "Map" := by
        cases h2 with
        | refl => rcases hcol with h | h <;> simp [h]
        | field h _ _ => exact .inl h
      obtain ⟨sc, h6⟩ := htypes td k1
      exact no_cycle hm (lib := lib) (n := N + 1) ⟨td.ts, "", h1, fun _ => rfl, exportTypeDef_parts h6 ht⟩ hc
    · cases h2 with
      | refl =>
        obtain ⟨d, e, _⟩ := defines_find' hm h4
        rw [← h3] at e
        have : m.findType "" = some d := e
        rw [find_empty hm hne] at this; cases this
      | field _ h _ => exact absurd h (by simp)
  · obtain ⟨op, h1⟩ := hhttp h hh
    obtain ⟨e, h2, _⟩ := (exportOp_parts h1).2
    simp [h2]
  · obtain ⟨sc, h1⟩ := htypes td h
    exact exportTypeDef_bases h1
end

/-! ### No errors -/

/-- The computation does not end with an error. -/
def NoError {α : Type} (x : Ran α) : Prop := ∀ e, x ≠ .err e

theorem noErr_ok {α : Type} (a : α) : NoError (Ran.ok a) := fun _ h => by cases h
theorem noErr_panic {α : Type} (e : String) : NoError (Ran.panic e : Ran α) := fun _ h => by cases h
theorem noErr_hang {α : Type} : NoError (Ran.hang : Ran α) := fun _ h => by cases h

theorem noErr_bind {α β : Type} {x : Ran α} {f : α → Ran β} (h : NoError x) (hf : ∀ a, x = .ok a → NoError (f a)) : NoError (x >>= f) := by
  cases x with
  | ok a => exact hf a rfl
  | err e => exact absurd rfl (h e)
  | panic e => exact noErr_panic e
  | hang => exact noErr_hang

theorem noErr_props {conv : TypeSpec → Ran OSchema} (h : ∀ t, NoError (conv t)) (fs : List StructFieldDef) (acc : GoMap OSchema) :
    NoError (oasProps conv fs acc) := by
  induction fs generalizing acc with
  | nil => exact noErr_ok acc
  | cons f rest ih => exact noErr_bind (h f.ts) fun _ _ => ih _

theorem noErr_schema (n : Nat) (lib : OLib) (m : Model) (t : TypeSpec) (nm : String) : NoError (oasSchemaN n lib m t nm) := by
  induction n generalizing t nm with
  | zero => exact noErr_hang
  | succ n ih =>
    rw [oasSchemaN]
    rcases oasStep_cases lib m (oasSchemaN n lib m) t nm with ⟨_, e⟩ | ⟨_, e⟩ | ⟨_, e⟩ | ⟨_, e⟩ | ⟨_, e⟩ | ⟨_, e⟩ |
      ⟨_, e⟩ | ⟨_, e⟩ | ⟨_, _, e⟩ | ⟨_, itd, _, e⟩ | ⟨_, _, e⟩ | ⟨_, itd, _, e⟩ | ⟨_, _, e⟩ | ⟨_, _, e⟩ | ⟨_, _, e⟩
    all_goals rw [e]
    all_goals first
      | exact noErr_ok _
      | exact noErr_panic _
      | exact noErr_bind (ih _ _) fun _ _ => noErr_ok _
      | exact noErr_bind (noErr_props (fun t => ih t "") _ _) fun _ _ => noErr_ok _
      | skip
    split
    · exact noErr_panic _
    · exact noErr_ok _

section
variable {s : Schema} {lib : OLib} {m : Model} {n : Nat}

theorem noErr_typeDef {td : TypeDef} (h : td.ts.type ∈ ExportedBases) : NoError (exportTypeDefN n lib m td) := by
  have str : NoError (exportString (oasSchemaN n lib m) td) := noErr_bind (noErr_schema _ _ _ _ _) fun _ _ => noErr_ok _
  unfold exportTypeDefN
  simp only
  split
  · exact noErr_bind (noErr_props (fun t => noErr_schema n lib m t "") _ _) fun _ _ => noErr_ok _
  next h1 =>
  split
  · unfold exportArray
    split
    · exact noErr_panic _
    · exact noErr_bind (noErr_schema _ _ _ _ _) fun _ _ => noErr_ok _
  next h2 =>
  split
  · unfold exportMap
    split
    · exact noErr_panic _
    · exact noErr_bind (noErr_schema _ _ _ _ _) fun _ _ => noErr_ok _
  next h3 =>
  split
  · exact str
  next h4 =>
  split
  · exact noErr_ok _
  next h5 =>
  split
  · exact noErr_ok _
  next h6 =>
  split
  · exact noErr_ok _
  next h7 =>
  split
  · exact noErr_bind str fun _ _ => noErr_ok _
  next h8 =>
  split
  · exact noErr_ok _
  next h9 =>
  split
  · exact noErr_bind str fun _ _ => noErr_ok _
  next h10 =>
  exfalso
  simp only [List.mem_cons, List.not_mem_nil, or_false, not_or] at h7
  obtain ⟨k1, k2, k3, k4, k5, k6, k7⟩ := h7
  simp [ExportedBases, h1, h2, h3, h4, h5, h6, k1, k2, k3, k4, k5, k6, k7, h8, h9, h10] at h

theorem noErr_types {l : List TypeDef} (h : ∀ td ∈ l, td.ts.type ∈ ExportedBases) (acc : GoMap OSchema) :
    NoError (exportTypesN n lib m l acc) := by
  induction l generalizing acc with
  | nil => exact noErr_ok acc
  | cons td rest ih =>
    exact noErr_bind (noErr_typeDef (h td (by simp))) fun _ _ => ih (fun x hx => h x (by simp [hx])) _

theorem noErr_inputs (l : List HttpParamSpec) (op : OOperation) : NoError (exportInputs (oasSchemaN n lib m) l op) := by
  induction l generalizing op with
  | nil => exact noErr_ok op
  | cons p rest ih => exact noErr_bind (noErr_schema _ _ _ _ _) fun _ _ => ih _

theorem noErr_outputs (l : List HttpParamSpec) (r : OResponse) : NoError (exportOutputs (oasSchemaN n lib m) l r) := by
  induction l generalizing r with
  | nil => exact noErr_ok r
  | cons p rest ih => exact noErr_bind (noErr_schema _ _ _ _ _) fun _ _ => ih _

theorem noErr_op (h : HttpDef) : NoError (exportOp (oasSchemaN n lib m) h) := by
  refine noErr_bind (noErr_inputs _ _) fun op _ => ?_
  cases h.expected with
  | none => exact noErr_panic _
  | some e => exact noErr_bind (noErr_outputs _ _) fun _ _ => noErr_ok _

theorem noErr_http {l : List HttpDef}
    (h : l.Pairwise fun a b => oasMethod a.method ≠ none → oasMethod a.method = oasMethod b.method →
      oasPath m.schema.base a ≠ oasPath m.schema.base b) (paths : GoMap OPathItem)
    (hp : ∀ a ∈ l, ∀ k, oasMethod a.method = some k → pathOp paths (oasPath m.schema.base a) k = none) :
    NoError (exportHttpN n lib m l paths) := by
  induction l generalizing paths with
  | nil => exact noErr_ok paths
  | cons a rest ih =>
    obtain ⟨h1, h2⟩ := List.pairwise_cons.1 h
    unfold exportHttpN
    simp only
    cases hk : oasMethod a.method with
    | none =>
      refine noErr_bind (noErr_op a) fun op _ => ih h2 _ fun b hb k hk' => ?_
      rw [pathOp_mset]
      split
      · next e => have := hp b (by simp [hb]) k hk'; rw [e] at this; exact this
      · exact hp b (by simp [hb]) k hk'
    | some k0 =>
      simp only
      have h0 := hp a (by simp) k0 hk
      unfold pathOp at h0
      rw [h0]
      refine noErr_bind (noErr_op a) fun op _ => ih h2 _ fun b hb k hk' => ?_
      rw [pathOp_mset, op_setOp]
      split
      · next e =>
        split
        · next ek =>
          subst ek
          exact absurd e.symm (h1 b hb (by rw [hk]; simp) (hk.trans hk'.symm))
        · have := hp b (by simp [hb]) k hk'; rw [e] at this; exact this
      · exact hp b (by simp [hb]) k hk'

theorem noErr_find (id : String) (l : GoMap OPathItem) : NoError (findOperation id l) := by
  induction l with
  | nil => exact noErr_ok _
  | cons e rest ih =>
    obtain ⟨p, pi⟩ := e
    unfold findOperation
    split
    · exact noErr_panic _
    · split
      · exact noErr_ok _
      · exact ih

end

theorem pairwise_actions {s : Schema} : (s.http.Pairwise fun a b => a.method ∈ ExportedMethods → a.method = b.method →
      ∀ path, LivesAt s.base a path → ¬ LivesAt s.base b path) ↔
    s.http.Pairwise fun a b => oasMethod a.method ≠ none → oasMethod a.method = oasMethod b.method →
      oasPath s.base a ≠ oasPath s.base b := by
  have : ∀ a b : HttpDef, (a.method ∈ ExportedMethods → a.method = b.method → ∀ path, LivesAt s.base a path → ¬ LivesAt s.base b path) ↔
      (oasMethod a.method ≠ none → oasMethod a.method = oasMethod b.method → oasPath s.base a ≠ oasPath s.base b) := by
    intro a b
    have e1 : a.method ∈ ExportedMethods ↔ oasMethod a.method ≠ none := by rw [Ne, oasMethod_none_iff, not_not]
    rw [e1]
    constructor
    · intro h h1 h2 he
      obtain ⟨k, hk⟩ := Option.ne_none_iff_exists'.1 h1
      have h3 := ((oasMethod_iff _ _).1 hk).1
      rw [hk] at h2
      have h4 := ((oasMethod_iff _ _).1 h2.symm).1
      exact h h1 (h3.trans h4.symm) _ ((livesAt_iff _ _ _).2 rfl) ((livesAt_iff _ _ _).2 he)
    · intro h h1 h2 path h3 h4
      exact h h1 (by rw [h2]) (((livesAt_iff _ _ _).1 h3).symm.trans ((livesAt_iff _ _ _).1 h4))
  exact ⟨fun h => h.imp (fun hab => (this _ _).1 hab), fun h => h.imp (fun hab => (this _ _).2 hab)⟩

/-- Exactly the schemas that are ready have a document, whatever the order of the paths. -/
theorem exportOas_ready {m : Model} (hm : newModel m.schema = .ok m) (hne : ∀ td ∈ m.schema.types, td.name ≠ "") :
    (∀ lib : OLib, (∀ l, (lib.order l).Perm l) → ∃ n d, exportOasN n lib m = .ok d) ↔ OasReady m.schema := by
  constructor
  · intro h
    obtain ⟨N, d, hN⟩ := h { asFloat64 := id, order := id } (fun _ => .refl _)
    unfold exportOasN at hN
    obtain ⟨schemas, h1, hN⟩ := Ran.bind_eq_ok.1 hN
    obtain ⟨paths, h2, hN⟩ := Ran.bind_eq_ok.1 hN
    obtain ⟨r1, r2, r3, r4, r5⟩ := ready_types hm hne (exportTypes_ok h1).2.2.2 (exportHttp_ok h2).2.2.2.2.2.2
    refine ⟨⟨r1, r2, r3, r4, fun ex hex => example_fits hm r4 fun order hord => ?_⟩, r5, ?_⟩
    · obtain ⟨n, d, hn⟩ := h { asFloat64 := id, order := order } hord
      unfold exportOasN at hn
      obtain ⟨schemas, k1, hn⟩ := Ran.bind_eq_ok.1 hn
      obtain ⟨paths, k2, hn⟩ := Ran.bind_eq_ok.1 hn
      have hd : DocFor m.schema { exportHead m.schema with schemas := schemas, paths := paths } := ⟨exportHttp_for k2, fun n => by
        rw [Ne, mget_none_iff, not_not]
        simp only
        rw [(exportTypes_ok k1).1 n]
        simp [Named]⟩
      obtain ⟨d1, d2, h3, h4⟩ := examples_mid hord hd hn hex
      exact ⟨_, d1, d2, rfl, h3, h4⟩
    · exact pairwise_actions.2 (exportHttp_ok h2).2.2.2.2.1
  · intro hr lib hord
    obtain ⟨N, r, h, hN⟩ := settles_exportOas hm hr.safe lib hord
    rcases h with ⟨d, rfl⟩ | ⟨e, rfl⟩
    · exact ⟨N, d, hN N (le_refl _)⟩
    · exfalso
      have hbad := hN N (le_refl _)
      refine noErr_bind (noErr_types hr.bases []) (fun schemas k1 => ?_) e hbad
      refine noErr_bind (noErr_http (pairwise_actions.1 hr.actions) [] ?_) fun paths k2 => ?_
      · intro a _ k _
        cases k <;> rfl
      · obtain ⟨d, hd⟩ := examples_written (d := { exportHead m.schema with schemas := schemas, paths := paths }) hm hord
          ⟨exportHttp_for k2, fun n => by
            rw [Ne, mget_none_iff, not_not]
            simp only
            rw [(exportTypes_ok k1).1 n]
            simp [Named]⟩ m.schema.examples (fun ex h => hr.safe.examples ex h)
        rw [hd]
        exact noErr_ok d

end Sadl
