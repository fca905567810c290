import Verif.Lemmas.SmithyImport
/-
Lemmas about the Smithy import: the shapes of types come back as types.
-/
namespace Sadl
open Smithy Spec
namespace Smithy

/-! ### Annotations -/

theorem asStringArray_strs (l : List String) : asStringArray (.arr (l.map .str)) = l := by
  have : ∀ l : List String, asStringArrayLoop (l.map .str) = some l := by
    intro l
    induction l with
    | nil => rfl
    | cons a r ih => simp [asStringArrayLoop, ih]
  simp [asStringArray, asArray, this]

theorem seen_typeShape_base (ns : String) (td : TypeDef) (hb : seen (bareShape ns td).traits = []) :
    seen (if td.comment ≠ "" then (bareShape ns td).put "smithy.api#documentation" (.str td.comment) else bareShape ns td).traits = [] := by
  split_ifs
  · simp only [Shape.put]
    rw [seen_mset_ignored _ _ _ (by decide), hb]
  · exact hb

theorem tags_import (lib : SLib) (ast : Ast) (T : Transport) (annos : GoMap String) (h : TagsKept T annos) (s : Shape)
    (hs : seen s.traits = []) :
    importTraits lib ast (T.traits (annotationTraits annos s).traits) [] = .ok annos := by
  rw [importTraits_seen, seen_traits]
  rcases h with rfl | ⟨t, rfl, ht, hT⟩
  · simp only [annotationTraits, hs]
    rfl
  · simp only [annotationTraits, if_true, Shape.put]
    rw [seen_mset _ _ _ (by decide), hs]
    simp only [mset, Transport.traits, List.map_cons, List.map_nil, splitTags, hT, importTraits, importTrait]
    rw [if_neg (by decide), if_neg (by decide), if_neg (by decide), if_pos trivial]
    simp only [asStringArray_strs, Out.bind_ok, withAnnotation]
    rw [List.map_map]
    have : (String.toList ∘ String.ofList) = id := by funext l; simp
    rw [this, List.map_id, joinWith_splitAll, String.ofList_toList, if_pos ht]
    rfl

theorem annos_import (lib : SLib) (ast : Ast) (T : Transport) (ns : String) (td : TypeDef) (h : TagsKept T td.annotations)
    (hb : seen (bareShape ns td).traits = []) :
    importTraits lib ast (T.traits (typeShape ns td).traits) [] = .ok td.annotations :=
  tags_import lib ast T td.annotations h _ (seen_typeShape_base ns td hb)

/-- The annotations of the shape of a type can be imported. -/
theorem traits_ok (lib : SLib) (ast : Ast) (T : Transport) (ns : String) (td : TypeDef) (sh : Shape)
    (hb : ∀ k ∈ List.map Prod.fst (bareShape ns td).traits, k ∈ ignoredTraits) (hm : Marked (typeShape ns td) sh) :
    ∃ annos, importTraits lib ast (T.traits sh.traits) [] = .ok annos := by
  refine importTraits_ok lib ast _ _ fun kv hkv => ?_
  have h1 : kv.1 ∈ List.map Prod.fst sh.traits := by rw [← keys_traits T]; exact List.mem_map.2 ⟨kv, hkv, rfl⟩
  rcases hm.keys _ h1 with h | h
  · obtain ⟨kv', h2, h3⟩ := List.mem_map.1 h
    rcases typeShape_keys ns td kv' h2 with h | h | h
    · exact .inl (hb _ (h3 ▸ h))
    · left; rw [← h3, h]; decide
    · rw [h3] at h
      exact (by decide : ∀ k ∈ ["smithy.api#tags", "smithy.api#sensitive", "smithy.api#deprecated"],
        k ∈ ignoredTraits ∨ k ∈ annotating) _ h
  · right
    exact (by decide : ∀ k ∈ ["smithy.api#error", "smithy.api#httpError"], k ∈ annotating) _ h

theorem doc_import (T : Transport) (ns : String) (td : TypeDef) (sh : Shape)
    (hb : mget (bareShape ns td).traits "smithy.api#documentation" = none) (hm : Marked (typeShape ns td) sh) :
    docOf (T.traits sh.traits) = escapeComment td.comment := by
  have h1 : mget sh.traits "smithy.api#documentation" = if td.comment ≠ "" then some (.str td.comment) else none := by
    rw [hm.traits _ (by decide), typeShape_doc ns td hb]
  have h2 : (T.traits sh.traits).str "smithy.api#documentation" = td.comment := by
    rw [traits_str]
    · unfold Traits.str
      rw [h1]
      by_cases hc : td.comment = "" <;> simp [hc, asString]
    · rw [h1]
      by_cases hc : td.comment = "" <;> simp [hc]
  simp [docOf, h2]

/-- The value of another trait of the shape of a type, after the transport. -/
theorem trait_import (T : Transport) (ns : String) (td : TypeDef) (sh : Shape) (hm : Marked (typeShape ns td) sh) (k : String)
    (hk : k ∉ ["smithy.api#tags", "smithy.api#sensitive", "smithy.api#deprecated", "smithy.api#documentation",
      "smithy.api#error", "smithy.api#httpError"]) :
    mget (T.traits sh.traits) k = (mget (bareShape ns td).traits k).map T.carry := by
  simp only [List.mem_cons, List.not_mem_nil, or_false, not_or] at hk
  rw [mget_traits, hm.traits _ (by simp [hk]), typeShape_trait _ _ _ (by simp [hk])]

/-! ### Members -/

/-- The members that arrive. -/
def arrived (T : Transport) (ms : GoMap Member) : GoMap Member := List.map (fun kv => (kv.1, T.member kv.2)) ms

theorem member_target (T : Transport) (mem : Member) : (T.member mem).target = mem.target := rfl

theorem member_traits (T : Transport) (mem : Member) : (T.member mem).traits = T.traits mem.traits := rfl

theorem importTraits_like (lib : SLib) (ast : Ast) (T : Transport) {a b : Traits} (h : seen b = seen a) :
    importTraits lib ast (T.traits b) [] = importTraits lib ast (T.traits a) [] := by
  rw [importTraits_seen, importTraits_seen lib ast (T.traits a), seen_traits, seen_traits, h]

theorem docOf_like (T : Transport) {a b : Traits} (h : ∀ k, k ≠ "smithy.api#httpPayload" → mget b k = mget a k) :
    docOf (T.traits b) = docOf (T.traits a) := by
  simp only [docOf, Traits.str, mget_traits, h "smithy.api#documentation" (by decide)]

theorem required_like (lib : SLib) (T : Transport) {a b : Traits} (h : ∀ k, k ≠ "smithy.api#httpPayload" → mget b k = mget a k) :
    (T.traits b).bool lib "smithy.api#required" = (T.traits a).bool lib "smithy.api#required" := by
  simp only [Traits.bool, mget_traits, h "smithy.api#required" (by decide)]

theorem importFields_like (lib : SLib) (ast : Ast) (T : Transport) {a b : GoMap Member} (h : List.Forall₂ MemberLike a b) :
    importFields lib ast (arrived T b) = importFields lib ast (arrived T a) := by
  induction h with
  | nil => rfl
  | @cons x y r r' hxy _ ih =>
    obtain ⟨h1, h2, h3, h4⟩ := hxy
    simp only [arrived] at ih
    simp only [arrived, List.map_cons, importFields, member_target, member_traits, h1, h2, importTraits_like lib ast T h3, docOf_like T h4,
      required_like lib T h4, ih]

theorem importElements_like (lib : SLib) (ast : Ast) (T : Transport) {a b : GoMap Member} (h : List.Forall₂ MemberLike a b) :
    importElements lib ast (arrived T b) = importElements lib ast (arrived T a) := by
  induction h with
  | nil => rfl
  | @cons x y r r' hxy _ ih =>
    obtain ⟨h1, h2, h3, h4⟩ := hxy
    simp only [arrived] at ih
    simp only [arrived, List.map_cons, importElements, member_target, member_traits, h1, importTraits_like lib ast T h3, docOf_like T h4, ih]

theorem importVariants_like (lib : SLib) (ast : Ast) (T : Transport) {a b : GoMap Member} (h : List.Forall₂ MemberLike a b) :
    importVariants lib ast (arrived T b) = importVariants lib ast (arrived T a) := by
  induction h with
  | nil => rfl
  | @cons x y r r' hxy _ ih =>
    obtain ⟨h1, h2, h3, h4⟩ := hxy
    simp only [arrived] at ih
    simp only [arrived, List.map_cons, importVariants, member_target, member_traits, h1, h2, importTraits_like lib ast T h3, docOf_like T h4, ih]

/-- Members whose traits can be imported. -/
def Fine (ms : GoMap Member) : Prop := ∀ km ∈ ms, ∀ kv ∈ km.2.traits, kv.1 ∈ ignoredTraits ∨ kv.1 ∈ annotating

theorem fine_arrived {T : Transport} {ms : GoMap Member} (h : Fine ms) : Fine (arrived T ms) := by
  intro km hkm kv hkv
  obtain ⟨km', h1, rfl⟩ := List.mem_map.1 hkm
  have h2 : kv.1 ∈ List.map Prod.fst km'.2.traits := by rw [← keys_traits T]; exact List.mem_map.2 ⟨kv, hkv, rfl⟩
  obtain ⟨kv', h3, h4⟩ := List.mem_map.1 h2
  rw [← h4]
  exact h km' h1 kv' h3

theorem importFields_ok (lib : SLib) (ast : Ast) {ms : GoMap Member} (h : Fine ms) : ∃ fs, importFields lib ast ms = .ok fs := by
  induction ms with
  | nil => exact ⟨[], rfl⟩
  | cons p r ih =>
    obtain ⟨a, h1⟩ := importTraits_ok lib ast p.2.traits [] (h p (by simp))
    obtain ⟨fs, h2⟩ := ih fun km hkm => h km (by simp [hkm])
    exact ⟨_, by simp only [importFields, h1, h2, Out.bind_ok]; rfl⟩

theorem importElements_ok (lib : SLib) (ast : Ast) {ms : GoMap Member} (h : Fine ms) : ∃ fs, importElements lib ast ms = .ok fs := by
  induction ms with
  | nil => exact ⟨[], rfl⟩
  | cons p r ih =>
    obtain ⟨a, h1⟩ := importTraits_ok lib ast p.2.traits [] (h p (by simp))
    obtain ⟨fs, h2⟩ := ih fun km hkm => h km (by simp [hkm])
    exact ⟨_, by simp only [importElements, h1, h2, Out.bind_ok]; rfl⟩

theorem importVariants_ok (lib : SLib) (ast : Ast) {ms : GoMap Member} (h : Fine ms) : ∃ fs, importVariants lib ast ms = .ok fs := by
  induction ms with
  | nil => exact ⟨[], rfl⟩
  | cons p r ih =>
    obtain ⟨a, h1⟩ := importTraits_ok lib ast p.2.traits [] (h p (by simp))
    obtain ⟨fs, h2⟩ := ih fun km hkm => h km (by simp [hkm])
    exact ⟨_, by simp only [importVariants, h1, h2, Out.bind_ok]; rfl⟩

theorem fine_mset {ms : GoMap Member} (h : Fine ms) (k : String) (mem : Member)
    (hm : ∀ kv ∈ mem.traits, kv.1 ∈ ignoredTraits ∨ kv.1 ∈ annotating) : Fine (mset ms k mem) := by
  induction ms with
  | nil =>
    intro km hkm
    simp only [mset, List.mem_singleton] at hkm
    subst hkm
    exact hm
  | cons p r ih =>
    obtain ⟨a, b⟩ := p
    have hr : Fine r := fun km hkm => h km (by simp [hkm])
    by_cases hk : a = k
    · intro km hkm
      simp only [mset, hk, if_true, List.mem_cons] at hkm
      rcases hkm with rfl | hkm
      · exact hm
      · exact hr km hkm
    · intro km hkm
      simp only [mset, hk, if_false, List.mem_cons] at hkm
      rcases hkm with rfl | hkm
      · exact h (a, b) (by simp)
      · exact ih hr km hkm

theorem fine_fields (ns : String) (fds : List StructFieldDef) {ms : GoMap Member} (h : Fine ms) : Fine (fieldMembers ns fds ms) := by
  induction fds generalizing ms with
  | nil => exact h
  | cons fd r ih =>
    refine ih (fine_mset h _ _ ?_)
    split
    · intro kv hkv
      simp only [Member.put, mset, List.mem_singleton] at hkv
      subst hkv
      exact .inl (by decide)
    · intro kv hkv
      simp at hkv

theorem fine_enum (els : List EnumElementDef) {ms : GoMap Member} (h : Fine ms) : Fine (enumMembers els ms) := by
  induction els generalizing ms with
  | nil => exact h
  | cons el r ih =>
    refine ih (fine_mset h _ _ ?_)
    split
    · intro kv hkv
      simp only [Member.put, mset, List.mem_singleton] at hkv
      subst hkv
      exact .inr (by decide : "smithy.api#enumValue" ∈ annotating)
    · intro kv hkv
      simp at hkv

theorem fine_union (ns : String) (vs : List UnionVariantDef) {ms : GoMap Member} (h : Fine ms) : Fine (unionMembers ns vs ms) := by
  induction vs generalizing ms with
  | nil => exact h
  | cons v r ih =>
    refine ih (fine_mset h _ _ ?_)
    intro kv hkv
    simp only [Member.put, mset, List.mem_singleton] at hkv
    subst hkv
    exact .inl (by decide : "smithy.api#documentation" ∈ ignoredTraits)

theorem fine_nil : Fine [] := fun _ h => by simp at h

/-! ### Members that survive -/

theorem refKept (ns t : String) (hns : '#' ∉ ns.toList) (hs : ns ≠ "smithy.api") (h : RefKept t) :
    shapeRefToTypeRef (typeReferenceByName ns t) = t :=
  C48_user_types ns t h.1 h.2 hns hs

/-- The member for a field. -/
def fieldMember (ns : String) (fd : StructFieldDef) : Member :=
  if fd.required then ({ target := typeReferenceByName ns fd.ts.type } : Member).put "smithy.api#required" (.bool true)
  else { target := typeReferenceByName ns fd.ts.type }

theorem fieldMembers_fresh (ns : String) (fds : List StructFieldDef) (ms : GoMap Member)
    (h : (ms.map Prod.fst ++ fds.map (·.name)).Nodup) :
    fieldMembers ns fds ms = ms ++ fds.map fun fd => (fd.name, fieldMember ns fd) := by
  induction fds generalizing ms with
  | nil => simp [fieldMembers]
  | cons fd r ih =>
    have e : fieldMembers ns (fd :: r) ms = fieldMembers ns r (mset ms fd.name (fieldMember ns fd)) := rfl
    have h' : (ms.map Prod.fst ++ ((fd.name, fieldMember ns fd) :: r.map fun fd => (fd.name, fieldMember ns fd)).map Prod.fst).Nodup := by
      simpa [List.map_map, Function.comp_def] using h
    obtain ⟨h1, h2⟩ := append_fresh _ h'
    rw [e, h1, ih]
    · simp
    · simpa [List.map_map, Function.comp_def] using h2

/-- The member for an element. -/
def enumMember (el : EnumElementDef) : Member :=
  match mget el.annotations "x_enumValue" with
  | some val => ({ target := "smithy.api#Unit" } : Member).put "smithy.api#enumValue" (.str val)
  | none => { target := "smithy.api#Unit" }

theorem enumMembers_fresh (els : List EnumElementDef) (ms : GoMap Member)
    (h : (ms.map Prod.fst ++ els.map (·.symbol)).Nodup) :
    enumMembers els ms = ms ++ els.map fun el => (el.symbol, enumMember el) := by
  induction els generalizing ms with
  | nil => simp [enumMembers]
  | cons el r ih =>
    have e : enumMembers (el :: r) ms = enumMembers r (mset ms el.symbol (enumMember el)) := rfl
    have h' : (ms.map Prod.fst ++ ((el.symbol, enumMember el) :: r.map fun el => (el.symbol, enumMember el)).map Prod.fst).Nodup := by
      simpa [List.map_map, Function.comp_def] using h
    obtain ⟨h1, h2⟩ := append_fresh _ h'
    rw [e, h1, ih]
    · simp
    · simpa [List.map_map, Function.comp_def] using h2

/-- The member for a variant. -/
def variantMember (ns : String) (v : UnionVariantDef) : Member :=
  ({ target := ensureNamespaced ns v.ts.type } : Member).put "smithy.api#documentation" (.str v.comment)

theorem unionMembers_fresh (ns : String) (vs : List UnionVariantDef) (ms : GoMap Member)
    (h : (ms.map Prod.fst ++ vs.map (·.name)).Nodup) :
    unionMembers ns vs ms = ms ++ vs.map fun v => (v.name, variantMember ns v) := by
  induction vs generalizing ms with
  | nil => simp [unionMembers]
  | cons v r ih =>
    have e : unionMembers ns (v :: r) ms = unionMembers ns r (mset ms v.name (variantMember ns v)) := rfl
    have h' : (ms.map Prod.fst ++ ((v.name, variantMember ns v) :: r.map fun v => (v.name, variantMember ns v)).map Prod.fst).Nodup := by
      simpa [List.map_map, Function.comp_def] using h
    obtain ⟨h1, h2⟩ := append_fresh _ h'
    rw [e, h1, ih]
    · simp
    · simpa [List.map_map, Function.comp_def] using h2

theorem fields_back (lib : SLib) (ast : Ast) (T : Transport) (ns : String) (hns : '#' ∉ ns.toList) (hs : ns ≠ "smithy.api")
    (fds : List StructFieldDef)
    (hf : ∀ f ∈ fds, ∃ t, RefKept t ∧ f = { name := f.name, required := f.required, ts := { type := t } }) :
    importFields lib ast (arrived T (fds.map fun fd => (fd.name, fieldMember ns fd))) = .ok fds := by
  induction fds with
  | nil => rfl
  | cons f r ih =>
    have ih := ih fun f hf' => hf f (by simp [hf'])
    obtain ⟨t, ht, e⟩ := hf f (by simp)
    simp only [arrived] at ih
    have hty : f.ts.type = t := by rw [e]
    have hmem : T.member (fieldMember ns f) = fieldMember ns f := by
      unfold fieldMember Transport.member
      split <;> simp [Member.put, mset, Transport.traits, T.bool]
    have htgt : (fieldMember ns f).target = typeReferenceByName ns t := by
      unfold fieldMember; split <;> simp [Member.put, hty]
    have ha : importTraits lib ast (fieldMember ns f).traits [] = .ok [] := by
      unfold fieldMember
      split
      · simp [Member.put, mset, importTraits, importTrait_ignored lib ast [] "smithy.api#required" _ (by decide)]
      · rfl
    have hd : docOf (fieldMember ns f).traits = "" := by
      unfold fieldMember
      split <;> exact (by decide : escapeComment "" = "")
    have hr : (fieldMember ns f).traits.bool lib "smithy.api#required" = f.required := by
      unfold fieldMember
      split
      · next h => rw [h]; rfl
      · next h => simp only [Bool.not_eq_true] at h; rw [h]; rfl
    simp only [arrived, List.map_cons, importFields, hmem, ha, Out.bind_ok, ih, htgt, refKept ns t hns hs ht, hd, hr]
    rw [← e]

theorem elements_back (lib : SLib) (ast : Ast) (T : Transport) (els : List EnumElementDef)
    (he : ∀ e ∈ els, e.comment = "" ∧ (e.annotations = [] ∨ ∃ v, v ≠ "" ∧ e.annotations = [("x_enumValue", v)])) :
    importElements lib ast (arrived T (els.map fun el => (el.symbol, enumMember el))) = .ok els := by
  induction els with
  | nil => rfl
  | cons el r ih =>
    have ih := ih fun f hf' => he f (by simp [hf'])
    obtain ⟨hc, ha⟩ := he el (by simp)
    simp only [arrived] at ih
    have hmem : T.member (enumMember el) = enumMember el := by
      unfold enumMember Transport.member
      split <;> simp [Member.put, mset, Transport.traits, T.str]
    have ha' : importTraits lib ast (enumMember el).traits [] = .ok el.annotations := by
      unfold enumMember
      rcases ha with ha | ⟨v, hv, ha⟩
      · rw [ha]; rfl
      · rw [ha]
        simp only [mget, if_true, Member.put, mset, importTraits, importTrait]
        rw [if_neg (by decide), if_neg (by decide), if_neg (by decide), if_neg (by decide), if_neg (by decide)]
        simp [withAnnotation, asString, hv, mset]
    have hd : docOf (enumMember el).traits = "" := by
      unfold enumMember
      split
      · simp only [docOf, Traits.str, Member.put, mset, mget, if_neg (by decide : ¬ "smithy.api#enumValue" = "smithy.api#documentation")]
        decide
      · decide
    simp only [arrived, List.map_cons, importElements, hmem, ha', Out.bind_ok, ih, hd]
    cases el
    simp_all

theorem variantKept (ns t : String) (hns : '#' ∉ ns.toList) (hs : ns ≠ "smithy.api") (h : VariantKept t) :
    shapeRefToTypeRef (ensureNamespaced ns t) = t := by
  unfold ensureNamespaced
  split_ifs with h1 h2
  · have h3 := h.2
    simp only [List.mem_cons, List.not_mem_nil, or_false, not_or] at h1 h3
    rcases h1 with h1 | h1 | h1 | h1 | h1 | h1 | h1 | h1 | h1 | h1 | h1 | h1 | h1 | h1 | h1 | h1 | h1 | h1 | h1 | h1 <;>
      first
      | (exfalso; simp [h1] at h3; done)
      | (rw [h1]; decide)
  · exact absurd h2 h.1
  · rw [shapeRef_qualified ns t (.inl hs), stripNamespace_qualified ns t hns]

theorem variants_back (lib : SLib) (ast : Ast) (T : Transport) (ns : String) (hns : '#' ∉ ns.toList) (hs : ns ≠ "smithy.api")
    (vs : List UnionVariantDef)
    (hv : ∀ v ∈ vs, TidyComment v.comment ∧ ∃ t, VariantKept t ∧ v = { name := v.name, comment := v.comment, ts := { type := t } }) :
    importVariants lib ast (arrived T (vs.map fun v => (v.name, variantMember ns v))) = .ok vs := by
  induction vs with
  | nil => rfl
  | cons v r ih =>
    have ih := ih fun f hf' => hv f (by simp [hf'])
    obtain ⟨hc, t, ht, e⟩ := hv v (by simp)
    simp only [arrived] at ih
    have hty : v.ts.type = t := by rw [e]
    have hmem : T.member (variantMember ns v) = variantMember ns v := by
      simp [variantMember, Transport.member, Member.put, mset, Transport.traits, T.str]
    have ha : importTraits lib ast (variantMember ns v).traits [] = .ok [] := by
      simp [variantMember, Member.put, mset, importTraits, importTrait_ignored lib ast [] "smithy.api#documentation" _ (by decide)]
    have hd : docOf (variantMember ns v).traits = v.comment := by
      simp only [docOf, variantMember, Member.put, mset, Traits.str, mget, if_true, asString]
      exact escapeComment_tidy _ hc
    have htgt : (variantMember ns v).target = ensureNamespaced ns t := by simp [variantMember, Member.put, hty]
    simp only [arrived, List.map_cons, importVariants, hmem, ha, Out.bind_ok, ih, hd, htgt, variantKept ns t hns hs ht]
    rw [← e]

end Smithy
end Sadl
