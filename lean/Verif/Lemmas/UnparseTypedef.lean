import Verif.Lemmas.UnparseReads
/-
Printed type definitions are read back.
-/
namespace Sadl.Props
open Sadl Sadl.Spec

/-- Newlines only. -/
def Nls (l : List Token) : Prop := ∀ t ∈ l, t = tNl

theorem nls_nil : Nls [] := by intro t h; simp at h

theorem run_end! {s : TState} {c : String} {rest : List Token} (hA : At s (tNl :: rest)) :
    Run (endOfStatement! c) s (fun r s' => r = c ∧ At s' rest) := by
  unfold endOfStatement!
  have hA' : At s (trail "" ++ tNl :: rest) := hA
  refine run_bind (run_mono (run_endOfStatement hA') ?_)
  rintro _ s1 ⟨rfl, h1⟩
  simp only [if_true]
  exact run_pure ⟨rfl, h1.at'⟩

/-- The options of a type definition and the end of the statement. -/
def withOpts (td : TypeDef) (o : Options) : TypeDef :=
  { td with
    annotations := o.annotations
    ts := { td.ts with pattern := o.pattern, values := o.values, minSize := o.minSize,
                       maxSize := o.maxSize, min := o.min, max := o.max, reference := o.reference } }

theorem run_typeOptions {lib : PLib} {td : TypeDef} {acc : List String} {own : List (List Token)} {o : Options}
    (h : OptChain lib acc own {} o) {s : TState} {rest : List Token} (hA : At s (optToks own ++ tNl :: rest)) :
    Run (parseTypeOptions lib td acc) s (fun r s' => r = withOpts td o ∧ At s' (tNl :: rest)) := by
  unfold parseTypeOptions
  refine run_bind (run_mono (run_options h.list (fun _ => by simp [tNl]) hA) ?_)
  rintro _ s1 ⟨rfl, h1⟩
  exact run_pure ⟨rfl, h1⟩

theorem run_simple {lib : PLib} {td : TypeDef} {acc : List String} {own : List (List Token)} {o : Options}
    (h : OptChain lib acc own {} o) {s : TState} {rest : List Token} (hA : At s (optToks own ++ tNl :: rest)) :
    Run (parseSimpleDef lib td acc) s (fun r s' => r = withOpts td o ∧ At s' rest) := by
  unfold parseSimpleDef
  refine run_bind (run_mono (run_typeOptions h hA) ?_)
  rintro _ s1 ⟨rfl, h1⟩
  refine run_bind (run_mono (run_end! h1) ?_)
  rintro _ s2 ⟨rfl, h2⟩
  exact run_pure ⟨rfl, h2⟩

theorem run_elements_at {lib : PLib} {s : TState} {N : Nat} {Q : Elems → TState → Prop} (hN : s.size = N)
    (h : Run (typeSpecElementsN lib (N + 1)) s Q) : Run (parseTypeSpecElements lib) s Q := by
  unfold Run at h ⊢
  unfold parseTypeSpecElements P.recursion
  rw [hN]; exact h

/-- The kinds of types that are printed on one line. -/
theorem run_flat_def {lib : PLib} {pl : PrintLib} {N : Nat} {ts : TypeSpec} {core : List Token} {params : List String} {own : List (List Token)}
    (hf : Flat lib pl (typeSpecElementsN lib (N + 1)) N ts core params own) {s : TState} {rest : List Token} {c name : String} (hc : IsLine c)
    (hA : At s (tSym name :: (specToks pl ts [] ++ tNl :: rest))) (hN : N = (specToks pl ts [] ++ tNl :: rest).length)
    (hgo : ∀ s' o, At s' (optToks own ++ tNl :: rest) →
      (∀ acc, (∀ x ∈ constraintNames ts.type, x ∈ acc) → OptChain lib acc own {} o) →
      o = { pattern := ts.pattern, values := ts.values, minSize := ts.minSize, maxSize := ts.maxSize, min := ts.min, max := ts.max } →
      Run (match ts.type with
        | "Any" | "Bool" | "Timestamp" => parseSimpleDef lib { name := name, comment := c, ts := { type := ts.type } } []
        | "Int8" | "Int16" | "Int32" | "Int64" | "Float32" | "Float64" | "Decimal" =>
          parseSimpleDef lib { name := name, comment := c, ts := { type := ts.type } } ["min", "max"]
        | "Bytes" => parseSimpleDef lib { name := name, comment := c, ts := { type := ts.type } } ["minsize", "maxsize"]
        | "String" => parseStringDef lib { name := name, comment := c, ts := { type := ts.type } }
        | "UUID" => parseSimpleDef lib { name := name, comment := c, ts := { type := ts.type } } ["reference"]
        | "UnitValue" => parseUnitValueDef lib { name := name, comment := c, ts := { type := ts.type } } params
        | "Array" | "List" => parseArrayDef lib { name := name, comment := c, ts := { type := ts.type } } params
        | "Map" => parseMapDef lib { name := name, comment := c, ts := { type := ts.type } } params
        | "Struct" => parseStructDef lib { name := name, comment := c, ts := { type := ts.type } } { type := ts.type, params := params }
        | "Enum" => pure { name := name, comment := c, ts := { type := ts.type } }
        | "Union" => parseUnionDef lib { name := name, comment := c, ts := { type := ts.type } } { type := ts.type, params := params }
        | _ => P.fail "Super type must be a base type") s' (fun r s'' => r = { name := name, comment := c, ts := ts } ∧ At s'' rest)) :
    Run (parseTypeDirective lib c) s (fun r s' => r = { name := name, comment := c, ts := ts } ∧ ∃ post, Nls post ∧ post.length ≤ 2 ∧ At s' (post ++ rest)) := by
  unfold parseTypeDirective
  refine run_bind (run_identifier hA (fun s1 h1 => ?_))
  have hsz : s1.size = N := by rw [h1.size, hN]
  rw [hf.toks, List.nil_append, List.append_assoc] at h1
  obtain ⟨t, r, e, ht1, ht2⟩ := after_type own "" rest
  have e0 : trail "" ++ tNl :: rest = tNl :: rest := rfl
  rw [e0] at e
  have hlen : (core ++ t :: r).length ≤ N := by rw [hN, hf.toks, List.nil_append, ← e, List.append_assoc]
  refine run_bind (run_mono (run_elements_at hsz (hf.read s1 t r (by rw [← e]; exact h1) hlen ht1 ht2)) ?_)
  rintro _ s2 ⟨rfl, h2⟩
  rw [← e] at h2
  have hm : mergeComment c "" = c := merge_empty hc
  simp only [hm]
  have := hgo s2 _ h2 (fun acc ha => hf.opts acc {} ha rfl rfl rfl rfl rfl rfl) rfl
  refine run_mono this ?_
  rintro _ s3 ⟨rfl, h3⟩
  exact ⟨rfl, [], nls_nil, by simp, h3⟩

/-- The fields that are printed like the variants of a union. -/
def variantField (v : UnionVariantDef) : StructFieldDef :=
  { name := v.name, ts := if v.ts.type = "UnitValue" then { type := "UnitValue", value := "Decimal", unit := "String" } else { type := v.ts.type } }

theorem variant_ok {v : UnionVariantDef} (h : VariantOk v) (lib : PLib) (pl : PrintLib) : FieldDefOk (variantField v) ∧ SpecOk lib pl (variantField v).ts ∧
    variantToks pl v = fieldToks pl false (variantField v) ∧
    ({ name := (variantField v).name, ts := { type := (variantField v).ts.type } } : UnionVariantDef) = v := by
  obtain ⟨name, type, h1, h2, h3, rfl⟩ := h
  unfold variantField
  have hf : ∀ ts : TypeSpec, ts.type ∉ specialTypes ∨ ts.type = "UnitValue" → FieldDefOk { name := name, ts := ts } := by
    intro ts hts
    have hz : byteLen ("" : String).toList ≤ 60 := by decide
    refine ⟨h1, line_empty, hz, ⟨by simp [GoMap.Distinct], by simp⟩, rfl, fun _ => ⟨rfl, rfl⟩, fun _ _ => rfl⟩
  have hb : ¬ (100 < byteLen ("" : String).toList) := by decide
  have toks : ∀ v u, variantToks pl { name := name, ts := { type := type } } = fieldToks pl false { name := name, ts := { type := type, value := v, unit := u } } := by
    intro v u
    have e1 := toks_named (pl := pl) h2 h3 "" "" (annoOpts pl [])
    have e2 := toks_named (pl := pl) h2 h3 v u ([] ++ annoOpts pl [])
    simp only [variantToks, fieldToks, hb, if_false, Bool.false_eq_true, List.nil_append] at *
    rw [e1, e2]
  by_cases hu : type = "UnitValue"
  · subst hu
    simp only [if_true]
    exact ⟨hf { type := "UnitValue", value := "Decimal", unit := "String" } (.inr rfl), .unitValue, toks _ _, trivial⟩
  · simp only [hu, if_false]
    have h3' : type ∉ specialTypes := by tauto
    exact ⟨hf { type := type } (.inl h3'), .named h2 h3', toks _ _, trivial⟩

theorem variants_fields {vs : List UnionVariantDef} (h : ∀ v ∈ vs, VariantOk v) (lib : PLib) (pl : PrintLib) :
    variantsToks pl vs = fieldsToks pl false (vs.map variantField) := by
  induction vs with
  | nil => rfl
  | cons v r ih =>
    rw [List.map_cons, variantsToks, fieldsToks, ih (fun x hx => h x (by simp [hx]))]
    rw [(variant_ok (h v (by simp)) lib pl).2.2.1]

theorem variants_back {vs : List UnionVariantDef} (h : ∀ v ∈ vs, VariantOk v) (lib : PLib) (pl : PrintLib) : unionVariants [] (vs.map variantField) = vs := by
  unfold unionVariants
  simp only [ne_eq, not_true, if_false, List.map_map]
  conv_rhs => rw [← List.map_id vs]
  apply List.map_congr_left
  intro v hv
  exact (variant_ok (h v hv) lib pl).2.2.2

/-- A printed type definition. -/
theorem run_typedef {lib : PLib} {pl : PrintLib} {td : TypeDef} (h : TypeDefOk lib pl td) {s : TState} {rest : List Token}
    (hA : At s (tSym td.name :: (specToks pl td.ts [] ++ tNl :: rest))) :
    Run (parseTypeDirective lib td.comment) s (fun r s' => r = td ∧ ∃ post, Nls post ∧ post.length ≤ 2 ∧ At s' (post ++ rest)) := by
  obtain ⟨name, comment, annos, ts⟩ := td
  obtain ⟨-, h2, h3, h4⟩ := h
  simp only at h2 h3 h4 hA ⊢
  subst h3
  have hc := words_line h2
  rcases h4 with ⟨hs, hp, ht⟩ | ⟨vs, hne, hv, rfl⟩
  · generalize hNdef : (specToks pl ts [] ++ tNl :: rest).length = N
    have hN := hNdef.symm
    cases hs with
    | @named t hn hsp =>
      refine run_flat_def (flat_named hn hsp N _) hc hA hN ?_
      intro s' o hA' ho ho'
      subst ho'
      have ht' : t = "Any" ∨ t = "Bool" ∨ t = "Timestamp" ∨ t = "Bytes" ∨ t = "UUID" := by
        rcases ht with ht | ht
        · exact absurd ht hsp
        · simpa using ht
      rcases ht' with rfl | rfl | rfl | rfl | rfl <;> exact run_simple (ho _ (by simp [constraintNames])) hA'
    | unitValue =>
      refine run_flat_def (flat_unitValue N _) hc hA hN ?_
      intro s' o hA' ho ho'
      subst ho'
      simp only
      unfold parseUnitValueDef
      refine run_bind (run_mono (run_typeOptions (ho [] (by simp [constraintNames])) hA') ?_)
      rintro _ s1 ⟨rfl, h1⟩
      refine run_bind (run_pure ?_)
      refine run_bind (run_mono (run_end! h1) ?_)
      rintro _ s2 ⟨rfl, h5⟩
      exact run_pure ⟨rfl, h5⟩
    | string a b c d =>
      refine run_flat_def (flat_string a b c d N _) hc hA hN ?_
      intro s' o hA' ho ho'
      subst ho'
      simp only
      unfold parseStringDef
      refine run_bind (run_mono (run_simple (ho _ (by simp [constraintNames])) hA') ?_)
      rintro _ s1 ⟨rfl, h1⟩
      refine run_pure ⟨?_, h1⟩
      exact if_neg hp
    | @number t mn mx a b c =>
      refine run_flat_def (flat_number a b c N _) hc hA hN ?_
      intro s' o hA' ho ho'
      subst ho'
      simp only [List.mem_cons, List.not_mem_nil, or_false] at a
      rcases a with rfl | rfl | rfl | rfl | rfl | rfl | rfl <;> exact run_simple (ho _ (by simp [constraintNames])) hA'
    | array a b c =>
      refine run_flat_def (flat_array a b c N _) hc hA hN ?_
      intro s' o hA' ho ho'
      subst ho'
      simp only
      unfold parseArrayDef
      refine run_bind (run_pure ?_)
      exact run_simple (ho _ (by simp [constraintNames])) hA'
    | map a b c d =>
      refine run_flat_def (flat_map a b c d N _) hc hA hN ?_
      intro s' o hA' ho ho'
      subst ho'
      simp only
      unfold parseMapDef
      refine run_bind (run_pure ?_)
      exact run_simple (ho _ (by simp [constraintNames])) hA'
    | @enum els h =>
      have hsp := spec_reads (.enum h : SpecOk lib pl { type := "Enum", elements := els }) N
      have e : specToks pl { type := "Enum", elements := els } [] ++ tNl :: rest =
          tSym "Enum" :: tPunct .openBrace :: tNl :: (els.flatMap (elementToks pl) ++ tPunct .closeBrace :: (trail "" ++ tNl :: rest)) := by
        unfold specToks; simp [trail]
      unfold parseTypeDirective
      refine run_bind (run_identifier hA (fun s1 h1 => ?_))
      have hsz := h1.size
      rw [hNdef] at hsz
      rw [e] at h1
      refine run_bind (run_mono (run_elements_at hsz (run_enum h line_empty h1)) ?_)
      rintro _ s2 ⟨rfl, h2⟩
      simp only [merge_empty hc]
      exact run_pure ⟨rfl, [tNl], by simp [Nls], by simp, h2⟩
    | @struct fs hf1 hf2 =>
      by_cases hfs : fs = []
      · subst hfs
        have e : specToks pl { type := "Struct" } [] ++ tNl :: rest = tSym "Struct" :: tNl :: tNl :: rest := by unfold specToks; rfl
        unfold parseTypeDirective
        refine run_bind (run_identifier hA (fun s1 h1 => ?_))
        have hsz := h1.size
        rw [hNdef] at hsz
        rw [e] at h1
        refine run_bind (run_mono (run_elements_at hsz (run_emptyStruct h1)) ?_)
        rintro _ s2 ⟨rfl, h2⟩
        simp only [merge_empty hc]
        unfold parseStructDef
        refine run_bind (run_mono (run_typeOptions (OptChain.nil (acc := [])) h2) ?_)
        rintro _ s3 ⟨rfl, h3⟩
        exact run_pure ⟨rfl, [tNl, tNl], by simp [Nls], by simp, h3⟩
      · have hemp : fs.isEmpty = false := by simpa using hfs
        have e : specToks pl { type := "Struct", fields := fs } [] ++ tNl :: rest =
            tSym "Struct" :: tPunct .openBrace :: tNl :: (fieldsToks pl false fs ++ tPunct .closeBrace :: (trail "" ++ tNl :: rest)) := by
          unfold specToks; simp [hemp, no_longComment hf1, trail]
        unfold parseTypeDirective
        refine run_bind (run_identifier hA (fun s1 h1 => ?_))
        have hsz := h1.size
        rw [hNdef] at hsz
        rw [e] at h1 hN
        obtain ⟨M, rfl⟩ : ∃ M, N = M + 1 := ⟨N - 1, by simp at hN; omega⟩
        refine run_bind (run_mono (run_elements_at hsz (run_struct (N := M) hf1 (fun f hf => spec_reads (hf2 f hf) M) line_empty (.inl rfl) h1
          (by simp at hN ⊢; omega))) ?_)
        rintro _ s2 ⟨rfl, h2⟩
        simp only [merge_empty hc]
        unfold parseStructDef
        refine run_bind (run_mono (run_typeOptions (OptChain.nil (acc := [])) h2) ?_)
        rintro _ s3 ⟨rfl, h3⟩
        exact run_pure ⟨rfl, [tNl], by simp [Nls], by simp, h3⟩
  · have e : specToks pl { type := "Union", variants := vs } [] ++ tNl :: rest =
        tSym "Union" :: tPunct .openBrace :: tNl :: (fieldsToks pl false (vs.map variantField) ++ tPunct .closeBrace :: (trail "" ++ tNl :: rest)) := by
      unfold specToks; simp [variants_fields hv lib, trail]
    generalize hNdef : (specToks pl { type := "Union", variants := vs } [] ++ tNl :: rest).length = N
    have hN := hNdef.symm
    unfold parseTypeDirective
    refine run_bind (run_identifier hA (fun s1 h1 => ?_))
    have hsz := h1.size
    rw [hNdef] at hsz
    rw [e] at h1 hN
    obtain ⟨M, rfl⟩ : ∃ M, N = M + 1 := ⟨N - 1, by simp at hN; omega⟩
    refine run_bind (run_mono (run_elements_at hsz (run_struct (N := M) (fun f hf => ?_) (fun f hf => ?_) line_empty (.inr rfl) h1
      (by simp at hN ⊢; omega))) ?_)
    · obtain ⟨v, hv', rfl⟩ := List.mem_map.1 hf
      exact (variant_ok (hv v hv') lib pl).1
    · obtain ⟨v, hv', rfl⟩ := List.mem_map.1 hf
      exact spec_reads (variant_ok (hv v hv') lib pl).2.1 M
    · rintro _ s2 ⟨rfl, h2⟩
      simp only [merge_empty hc]
      unfold parseUnionDef
      refine run_bind (run_mono (run_typeOptions (OptChain.nil (acc := [])) h2) ?_)
      rintro _ s3 ⟨rfl, h3⟩
      simp only [List.map_eq_nil_iff, hne, and_false, if_false]
      refine run_bind (run_mono (run_end! h3) ?_)
      rintro _ s4 ⟨rfl, h4⟩
      refine run_pure ⟨?_, [], nls_nil, by simp, h4⟩
      rw [variants_back hv lib pl]
      rfl

end Sadl.Props
