import Verif.Lemmas.OpenApiKeptDoc
/-
The document of any schema without examples can be printed and read, if its bounds can.
-/
namespace Sadl
open Spec

theorem literal_str (L : JLib) (n : Nat) (s : String) : JLiteralOk L n (.str s) := ⟨.str _, .leaf (by simp) (by simp)⟩
theorem literal_null (L : JLib) (n : Nat) : JLiteralOk L n .null := ⟨.null, .leaf (by simp) (by simp)⟩

theorem ran_ite {α : Type} {c : Prop} [Decidable c] {a b : Ran α} {x : α} (h : (if c then a else b) = .ok x) : (c ∧ a = .ok x) ∨ (¬ c ∧ b = .ok x) := by
  by_cases hc : c
  · rw [if_pos hc] at h; exact .inl ⟨hc, h⟩
  · rw [if_neg hc] at h; exact .inr ⟨hc, h⟩

theorem numeric_limits {L : JLib} {lib : OLib} (n : Nat) {ts : TypeSpec} (hb : LimitsPrint L lib ts) : OSchemaOk L (n + 1) (oasNumeric lib ts) := by
  obtain ⟨b1, b2, _⟩ := hb
  refine leaf_ok n rfl rfl rfl rfl rfl rfl ?_ ?_ (show (0 : Nat) < 2 ^ 64 by decide) (by simp [oasNumeric])
  · show ∀ f ∈ ts.min.map lib.asFloat64, PrintsBack L f
    intro f hf
    obtain ⟨b, h1, rfl⟩ := Option.mem_map.1 hf
    exact b1 b h1
  · show ∀ f ∈ ts.max.map lib.asFloat64, PrintsBack L f
    intro f hf
    obtain ⟨b, h1, rfl⟩ := Option.mem_map.1 hf
    exact b2 b h1

theorem oasProps_okay {L : JLib} {k : Nat} {conv : TypeSpec → Ran OSchema} {fs : List StructFieldDef} {acc ps : GoMap OSchema}
    (hc : ∀ f ∈ fs, ∀ s, conv f.ts = .ok s → OSchemaOk L k s) (ha : (acc.map Prod.fst).Nodup) (hb : ∀ p ∈ acc, OSchemaOk L k p.2)
    (h : oasProps conv fs acc = .ok ps) : (ps.map Prod.fst).Nodup ∧ ∀ p ∈ ps, OSchemaOk L k p.2 := by
  induction fs generalizing acc with
  | nil => cases h; exact ⟨ha, hb⟩
  | cons f r ih =>
    unfold oasProps at h
    obtain ⟨s, h1, h2⟩ := Ran.bind_eq_ok.1 h
    refine ih (fun g hg => hc g (by simp [hg])) (distinct_mset ha _ _) (fun p hp => ?_) h2
    rcases mem_mset_or (k' := p.1) (v' := p.2) hp with ⟨_, e⟩ | e
    · rw [e]; exact hc f (by simp) s h1
    · exact hb p e

theorem owrap_ok {L : JLib} {s : OSchema} {k : Nat} (h1 : ∀ v ∈ s.enum.getD [], JLiteralOk L k v) (h2 : s.example = .null) (h3 : s.min = none) (h4 : s.max = none)
    (h5 : s.minLength = 0) (h6 : s.maxLength = none) (h7 : ((s.properties.getD []).map Prod.fst).Nodup) (h8 : ∀ t ∈ s.oneOf, OSchemaOk L k t)
    (h9 : ∀ t ∈ s.items, OSchemaOk L k t) (h10 : ∀ p ∈ s.properties.getD [], OSchemaOk L k p.2) (h11 : ∀ t ∈ s.additionalProperties, OSchemaOk L k t) :
    OSchemaOk L (k + 1) s :=
  .mk h1 (h2 ▸ literal_null L k) (by rw [h3]; simp) (by rw [h4]; simp) (by rw [h5]; decide) (by rw [h6]; simp) h7 h8 h9 h10 h11

section
variable {s : Schema} {m : Model} (hm : newModel s = .ok m) {lib : OLib} (L : JLib)
include hm

theorem found_limits (ht : ∀ td ∈ s.types, LimitsPrint L lib td.ts) {n : String} {td : TypeDef} (h : m.findType n = some td) : LimitsPrint L lib td.ts := by
  rcases (newModel_findType_iff hm n td).1 h with ⟨h1, _⟩ | ⟨_, rfl⟩
  · exact ht td h1
  · exact .mk (by simp [baseTypeDef]) (by simp [baseTypeDef]) (by simp [baseTypeDef])

theorem oasSchema_okay (ht : ∀ td ∈ s.types, LimitsPrint L lib td.ts) (n k : Nat) (ts : TypeSpec) (hts : LimitsPrint L lib ts) (name : String) (sc : OSchema)
    (h : oasSchemaN n lib m ts name = .ok sc) : OSchemaOk L (n + k) sc := by
  induction n generalizing ts name sc with
  | zero => cases h
  | succ n ih =>
    rw [Nat.add_right_comm]
    unfold oasSchemaN oasSchemaStep at h
    have leaf : ∀ {x : OSchema}, x.enum = none → x.example = .null → x.oneOf = [] → x.items = none → x.properties = none → x.additionalProperties = none →
        x.min = none → x.max = none → x.minLength = 0 → x.maxLength = none → OSchemaOk L (n + k + 1) x := by
      intro x h1 h2 h3 h4 h5 h6 h7 h8 h9 h10
      exact leaf_ok _ h1 h2 h3 h4 h5 h6 (by rw [h7]; simp) (by rw [h8]; simp) (by rw [h9]; decide) (by rw [h10]; simp)
    rcases ran_ite h with ⟨_, h⟩ | ⟨_, h⟩
    · cases h; exact leaf rfl rfl rfl rfl rfl rfl rfl rfl rfl rfl
    rcases ran_ite h with ⟨_, h⟩ | ⟨_, h⟩
    · rcases ran_ite h with ⟨_, h⟩ | ⟨_, h⟩
      · cases h
      · cases h; exact numeric_limits _ hts
    rcases ran_ite h with ⟨_, h⟩ | ⟨_, h⟩
    · cases h; exact leaf rfl rfl rfl rfl rfl rfl rfl rfl rfl rfl
    rcases ran_ite h with ⟨_, h⟩ | ⟨_, h⟩
    · cases h; exact ostring_ok L _ ts
    rcases ran_ite h with ⟨_, h⟩ | ⟨_, h⟩
    · cases h; exact leaf rfl rfl rfl rfl rfl rfl rfl rfl rfl rfl
    rcases ran_ite h with ⟨_, h⟩ | ⟨_, h⟩
    · cases h; exact leaf rfl rfl rfl rfl rfl rfl rfl rfl rfl rfl
    rcases ran_ite h with ⟨_, h⟩ | ⟨_, h⟩
    · cases h; exact leaf rfl rfl rfl rfl rfl rfl rfl rfl rfl rfl
    rcases ran_ite h with ⟨_, h⟩ | ⟨_, h⟩
    · cases h; exact leaf rfl rfl rfl rfl rfl rfl rfl rfl rfl rfl
    rcases ran_ite h with ⟨_, h⟩ | ⟨_, h⟩
    · split at h
      · cases h
      · next itd hf =>
        obtain ⟨i, h1, h2⟩ := Ran.bind_eq_ok.1 h
        cases h2
        have := ih itd.ts (found_limits hm L ht hf) _ i h1
        exact owrap_ok (by simp) rfl rfl rfl rfl rfl (by simp) (by simp) (by simpa using this) (by simp) (by simp)
    rcases ran_ite h with ⟨_, h⟩ | ⟨_, h⟩
    · split at h
      · cases h
      · next itd hf =>
        obtain ⟨i, h1, h2⟩ := Ran.bind_eq_ok.1 h
        cases h2
        have := ih itd.ts (found_limits hm L ht hf) _ i h1
        exact owrap_ok (by simp) rfl rfl rfl rfl rfl (by simp) (by simp) (by simp) (by simp) (by simpa using this)
    rcases ran_ite h with ⟨_, h⟩ | ⟨_, h⟩
    · rcases ran_ite h with ⟨_, h⟩ | ⟨_, h⟩
      · cases h; exact leaf rfl rfl rfl rfl rfl rfl rfl rfl rfl rfl
      · obtain ⟨ps, h1, h2⟩ := Ran.bind_eq_ok.1 h
        cases h2
        obtain ⟨_, _, hf⟩ := hts
        obtain ⟨p1, p2⟩ := oasProps_okay (fun f hfm x hx => ih f.ts (hf f hfm) "" x hx) (by simp) (by simp) h1
        exact owrap_ok (by simp) rfl rfl rfl rfl rfl p1 (by simp) (by simp) p2 (by simp)
    · cases h; exact leaf rfl rfl rfl rfl rfl rfl rfl rfl rfl rfl

theorem exportString_okay (ht : ∀ td ∈ s.types, LimitsPrint L lib td.ts) {n : Nat} {td : TypeDef} (htd : LimitsPrint L lib td.ts) {sc : OSchema}
    (h : exportString (oasSchemaN n lib m) td = .ok sc) (f : String) : OSchemaOk L (n + 2) { sc with format := f } := by
  unfold exportString at h
  obtain ⟨i, h1, h2⟩ := Ran.bind_eq_ok.1 h
  cases h2
  obtain ⟨a1, a2, a3, a4, a5, a6, a7, a8, a9, a10, a11⟩ := oasSchema_okay hm L ht n 2 td.ts htd _ i h1
  refine .mk (fun v hv => ?_) a2 a3 a4 a5 a6 a7 a8 a9 a10 a11
  dsimp only at hv
  cases he : enumOfValues td.ts with
  | none => rw [he] at hv; exact a1 v hv
  | some e =>
    rw [he] at hv
    unfold enumOfValues at he
    split at he
    · cases he
      obtain ⟨x, _, rfl⟩ := List.mem_map.1 hv
      exact literal_str L _ x
    · cases he

theorem exportTypeDef_okay (ht : ∀ td ∈ s.types, LimitsPrint L lib td.ts) {n : Nat} {td : TypeDef} (htd : LimitsPrint L lib td.ts) {sc : OSchema}
    (h : exportTypeDefN n lib m td = .ok sc) : OSchemaOk L (n + 2) sc := by
  unfold exportTypeDefN at h
  dsimp only at h
  split_ifs at h
  · unfold exportStruct at h
    obtain ⟨ps, h1, h2⟩ := Ran.bind_eq_ok.1 h
    cases h2
    obtain ⟨_, _, hf⟩ := htd
    obtain ⟨p1, p2⟩ := oasProps_okay (fun f hfm x hx => oasSchema_okay hm L ht n 1 f.ts (hf f hfm) "" x hx) (by simp) (by simp) h1
    exact owrap_ok (by simp) rfl rfl rfl rfl rfl p1 (by simp) (by simp) p2 (by simp)
  · unfold exportArray at h
    split at h
    · cases h
    · next itd hf =>
      obtain ⟨i, h1, h2⟩ := Ran.bind_eq_ok.1 h
      cases h2
      have := oasSchema_okay hm L ht n 1 itd.ts (found_limits hm L ht hf) _ i h1
      exact owrap_ok (by simp) rfl rfl rfl rfl rfl (by simp) (by simp) (by simpa using this) (by simp) (by simp)
  · unfold exportMap at h
    split at h
    · cases h
    · next itd hf =>
      obtain ⟨i, h1, h2⟩ := Ran.bind_eq_ok.1 h
      cases h2
      have := oasSchema_okay hm L ht n 1 itd.ts (found_limits hm L ht hf) _ i h1
      exact owrap_ok (by simp) rfl rfl rfl rfl rfl (by simp) (by simp) (by simp) (by simp) (by simpa using this)
  · have := exportString_okay hm L ht htd h sc.format
    cases sc
    exact this
  · cases h; exact owrap_ok (by simp) rfl rfl rfl rfl rfl (by simp) (by simp) (by simp) (by simp) (by simp)
  · cases h
    refine owrap_ok (fun v hv => ?_) rfl rfl rfl rfl rfl (by simp [exportEnum]) (by simp [exportEnum]) (by simp [exportEnum]) (by simp [exportEnum]) (by simp [exportEnum])
    obtain ⟨x, _, rfl⟩ := List.mem_map.1 (show v ∈ td.ts.elements.map fun el => Value.str el.symbol from hv)
    exact literal_str L _ _
  · cases h; exact numeric_limits _ htd
  · obtain ⟨i, h1, h2⟩ := Ran.bind_eq_ok.1 h
    cases h2
    exact exportString_okay hm L ht htd h1 "uuid"
  · cases h
    refine owrap_ok (by simp [exportUnion]) rfl rfl rfl rfl rfl (by simp [exportUnion]) (fun t h' => ?_) (by simp [exportUnion]) (by simp [exportUnion]) (by simp [exportUnion])
    obtain ⟨v, _, rfl⟩ := List.mem_map.1 (show t ∈ td.ts.variants.map fun vd => ({ ref := refPrefix ++ vd.ts.type } : OSchema) from h')
    exact ref_ok L n _
  · obtain ⟨i, h1, h2⟩ := Ran.bind_eq_ok.1 h
    cases h2
    exact exportString_okay hm L ht htd h1 "date-time"

theorem exportOp_limits (hl : SchemaLimitsPrint L lib s) {n : Nat} {a : HttpDef} (ha : a ∈ s.http) {op : OOperation}
    (h : exportOp (oasSchemaN n lib m) a = .ok op) : OOperationOk L (n + 2) op := by
  unfold exportOp at h
  obtain ⟨op1, h1, h⟩ := Ran.bind_eq_ok.1 h
  cases he : a.expected with
  | none => rw [he] at h; simp at h
  | some e =>
    rw [he] at h
    obtain ⟨r, h2, h⟩ := Ran.bind_eq_ok.1 h
    cases h
    have a1 : OOperationOk L (n + 2) op1 :=
      exportInputs_okay (fun p hp sc hsc => oasSchema_okay hm L hl.types n 2 _ (hl.inputs a ha p hp) _ sc hsc) ⟨by simp, by simp, by simp, by simp⟩ h1
    have a2 : OResponseOk L (n + 2) r :=
      exportOutputs_okay (fun p hp sc hsc => oasSchema_okay hm L hl.types n 2 _ (hl.outputs a ha e he p hp) _ sc hsc) ⟨by simp, by simp, by simp, by simp⟩ h2
    obtain ⟨x1, x2⟩ := exportExceptions_okay (L := L) (n := n + 1) (xs := a.exceptions) (rs := [(sprintInt e.status, r)]) (by simp) (by
      intro x hx
      rw [List.mem_singleton] at hx
      subst hx
      exact a2)
    exact ⟨a1.parameters, a1.body, x1, x2⟩

/-- The document of a schema without examples, whose bounds can be printed. -/
theorem limits_document {n : Nat} {d : ODoc} (hd : exportOasN n lib m = .ok d) (hex : s.examples = []) (hl : SchemaLimitsPrint L lib s) :
    ODocOk L (n + 2) d := by
  have hsch : m.schema = s := by obtain ⟨_, _, _, rfl⟩ := (newModel_ok_iff s m).1 hm; rfl
  obtain ⟨hnd, _, _⟩ := (newModel_ok_iff s m).1 hm
  unfold exportOasN at hd
  obtain ⟨schemas, h1, hd⟩ := Ran.bind_eq_ok.1 hd
  obtain ⟨paths, h2, hd⟩ := Ran.bind_eq_ok.1 hd
  rw [hsch, hex] at hd
  cases hd
  rw [hsch] at h1 h2
  obtain ⟨l0, h5, h6⟩ := exportTypes_list hm hnd (by simp) h1
  rw [List.nil_append] at h5
  subst h5
  obtain ⟨_, _, a3, _, _, a6, _⟩ := exportHttp_ok h2
  have hdist : paths.Distinct := a6 (by simp [GoMap.Distinct])
  refine ⟨?_, fun e he => ?_, hdist, fun e he k op hop => ?_⟩
  · have hkeys : schemas.map Prod.fst = s.types.map (·.name) := by
      have : ∀ {tds : List TypeDef} {l : GoMap OSchema}, List.Forall₂ (fun td e => e.1 = td.name ∧ exportTypeDefN n lib m td = .ok e.2) tds l →
          l.map Prod.fst = tds.map (·.name) := by
        intro tds l h
        induction h with
        | nil => rfl
        | cons a _ ih => rw [List.map_cons, List.map_cons, ih, a.1]
      exact this h6
    show (schemas.map Prod.fst).Nodup
    rw [hkeys]
    exact hnd
  · obtain ⟨i, rfl⟩ := List.mem_iff_get.1 he
    obtain ⟨e1, e2⟩ := h6.get (by rw [h6.length_eq]; exact i.2) i.2
    have htd := List.get_mem s.types ⟨i, by rw [h6.length_eq]; exact i.2⟩
    exact exportTypeDef_okay hm L hl.types (hl.types _ htd) e2
  · have hg : mget paths e.1 = some e.2 := mget_of_mem hdist he
    have hp : pathOp paths e.1 k = some op := by unfold pathOp; rw [hg]; exact hop
    rcases a3 _ _ _ hp with h0 | ⟨a, ha, _, _, hexp⟩
    · cases k <;> cases h0
    · exact exportOp_limits hm L hl ha hexp

end

end Sadl
