import Verif.Lemmas.UnparseType
/-
Reading back the type specifications printed by the unparser.
-/
namespace Sadl.Props
open Sadl Sadl.Spec

/-- The names of the constraints that are printed for a type. -/
def constraintNames (t : String) : List String :=
  match t with
  | "String" => ["pattern", "minsize", "maxsize", "values"]
  | "Int8" | "Int16" | "Int32" | "Int64" | "Float32" | "Float64" | "Decimal" => ["min", "max"]
  | "Array" | "Map" => ["minsize", "maxsize"]
  | _ => []

/-- A type printed on one line: its name and parameters, then the options. -/
structure Flat (lib : PLib) (pl : PrintLib) (recur : P Elems) (N : Nat) (ts : TypeSpec) (core : List Token) (params : List String)
    (own : List (List Token)) : Prop where
  toks : ∀ opts, specToks pl ts opts = core ++ optToks (opts ++ own)
  read : ∀ (s : TState) (t : Token) (r : List Token), At s (core ++ t :: r) → (core ++ t :: r).length ≤ N → t.type ≠ .openAngle → t.type ≠ .openBrace →
    Run recur s (fun e s' => e = { type := ts.type, params := params } ∧ At s' (t :: r))
  spec : specOfElems { type := ts.type, params := params } =
    pure { type := ts.type, items := ts.items, keys := ts.keys, value := ts.value, unit := ts.unit }
  opts : ∀ (acc : List String) (o : Options), (∀ x ∈ constraintNames ts.type, x ∈ acc) → o.pattern = "" → o.values = none →
    o.minSize = none → o.maxSize = none → o.min = none → o.max = none →
    OptChain lib acc own o { o with pattern := ts.pattern, values := ts.values, minSize := ts.minSize, maxSize := ts.maxSize,
                                    min := ts.min, max := ts.max }
  eq : ts = { type := ts.type, pattern := ts.pattern, values := ts.values, minSize := ts.minSize, maxSize := ts.maxSize,
              min := ts.min, max := ts.max, items := ts.items, keys := ts.keys, value := ts.value, unit := ts.unit }
  ne : core ≠ []

/-- How a printed type is read back by `recur`, if at most `N` tokens are left. -/
inductive Reads (lib : PLib) (pl : PrintLib) (recur : P Elems) (N : Nat) (ts : TypeSpec) : Prop
  | flat (core : List Token) (params : List String) (own : List (List Token)) (h : Flat lib pl recur N ts core params own)
      (ht : ts.type ≠ "Enum" ∧ ts.type ≠ "Struct")
  | block (ht : ts.type = "Enum" ∨ ts.type = "Struct")
      (eq : ts = { type := ts.type, fields := ts.fields, elements := ts.elements })
      (hf : ts.type = "Struct" → ts.fields ≠ [])
      (read : ∀ (s : TState) (opts : List (List Token)) (c : String) (rest : List Token), IsLine c →
        At s (specToks pl ts opts ++ (trail c ++ tNl :: rest)) → (specToks pl ts opts ++ (trail c ++ tNl :: rest)).length ≤ N →
        Run recur s (fun e s' => e = { type := ts.type, fields := ts.fields, elements := ts.elements, comment := c } ∧ At s' (tNl :: rest)))
  | empty (eq : ts = { type := "Struct" })
      (read : ∀ (s : TState) (rest : List Token), At s (tSym "Struct" :: tNl :: rest) → (tSym "Struct" :: tNl :: rest).length ≤ N →
        Run recur s (fun e s' => e = { type := "Struct" } ∧ At s' (tNl :: rest)))

theorem fieldOptions_mem (t : String) : (∀ x ∈ constraintNames t, x ∈ fieldOptions t) ∧ "required" ∈ fieldOptions t := by
  unfold constraintNames fieldOptions
  split <;> simp <;> (split <;> simp_all)

theorem spec_apply {e : Elems} {ts : TypeSpec} (h : specOfElems e = pure ts) (s : TState) : specOfElems e s = .ok ts s := by
  rw [h]; rfl

theorem skip_nl {step : String → P (String ⊕ Option String)} (hstep : step = fieldSkipStep) {pre rest : List Token} (hp : Nl1 pre) {s : TState}
    {Q : Option String → TState → Prop} (hA : At s (pre ++ rest))
    (h : ∀ s', At s' rest → Run (P.loop step "") s' Q) : Run (P.loop step "") s Q := by
  subst hstep
  rcases hp with rfl | rfl
  · exact h s hA
  · refine run_loop_again hA ?_
    unfold fieldSkipStep
    refine run_bind (run_next hA (fun s' hs' => ?_))
    simp only [tNl, reduceCtorEq, if_false, if_true]
    exact run_pure ⟨_, _, rfl, hs'.at', by simp, h s' hs'.at'⟩

/-- One field. -/
theorem run_field {lib : PLib} {pl : PrintLib} {recur : P Elems} {N : Nat} {f : StructFieldDef} (h : FieldDefOk f)
    (hr : Reads lib pl recur N f.ts) {pre rest : List Token} (hp : Nl1 pre) {s : TState}
    (hA : At s (pre ++ (fieldToks pl false f ++ rest))) (hN : (pre ++ (fieldToks pl false f ++ rest)).length ≤ N) :
    Run (parseStructFieldDef lib recur) s (fun r s' => r = some f ∧ ∃ post, Nl1 post ∧ At s' (post ++ rest)) := by
  obtain ⟨name, comment, annos, req, dflt, ts⟩ := f
  obtain ⟨h1, h2, -, h4, h5, h6, h7⟩ := h
  simp only at h1 h2 h4 h5 h6 h7 hr
  subst h5
  unfold fieldToks at hA hN
  simp only [Bool.false_eq_true, if_false, List.nil_append] at hA hN
  rw [bare_name h1, endLine_eq h2] at hA hN
  set opts : List (List Token) := (if req then [[tSym "required"]] else []) ++ annoOpts pl annos with hopts
  unfold parseStructFieldDef
  refine run_bind (skip_nl rfl hp hA (fun s1 hA1 => ?_))
  have hA1' : At s1 (tSym name :: (specToks pl ts opts ++ (trail comment ++ tNl :: rest))) := by simpa using hA1
  refine run_loop_done ?_
  unfold fieldSkipStep
  refine run_bind (run_next hA1' (fun s2 hs2 => ?_))
  simp only [tSym, reduceCtorEq, if_false]
  refine run_bind (run_unget hs2 (fun s3 hA3 => ?_))
  refine run_pure ⟨_, rfl, ?_⟩
  simp only
  refine run_bind (run_identifier hA3 (fun s4 hA4 => ?_))
  have hlen : (specToks pl ts opts ++ (trail comment ++ tNl :: rest)).length ≤ N := by
    simp at hN ⊢; omega
  cases hr with
  | flat core params own hf ht =>
    rw [hf.toks, List.append_assoc] at hA4 hlen
    obtain ⟨t, r, e, ht1, ht2⟩ := after_type (opts ++ own) comment rest
    rw [e] at hA4 hlen
    have hrun := hf.read s4 t r hA4 hlen ht1 ht2
    unfold parseTypeSpecWith
    refine run_bind (run_bind (run_mono hrun ?_))
    rintro _ s5 ⟨rfl, hA5⟩
    refine run_bind ⟨_, s5, spec_apply hf.spec s5, run_pure ?_⟩
    simp only
    rw [← e] at hA5
    obtain ⟨m1, m2⟩ := fieldOptions_mem ts.type
    have hchain : OptChain lib (fieldOptions ts.type) (opts ++ own) {}
        { required := req, annotations := annos, pattern := ts.pattern, values := ts.values, minSize := ts.minSize,
          maxSize := ts.maxSize, min := ts.min, max := ts.max } := by
      rw [hopts]
      exact OptChain.append (OptChain.append (chain_required req (fun _ => m2) rfl) (chain_annos h4 rfl))
        (hf.opts _ _ m1 rfl rfl rfl rfl rfl rfl)
    obtain ⟨t', r', e', ht'⟩ := trail_head comment rest
    refine run_bind (run_mono (run_options hchain.list (fun _ => by rw [e']; simpa using ht'.1) hA5) ?_)
    rintro _ s6 ⟨rfl, hA6⟩
    refine run_bind (run_mono (run_endOfStatement hA6) ?_)
    rintro _ s7 ⟨rfl, hG7⟩
    refine run_pure ⟨?_, [], .inl rfl, hG7.at'⟩
    have heq := hf.eq
    have hm : mergeComment (mergeComment "" "") "" = "" := by decide
    have hm2 : mergeComment "" (mergeComment "" "") = "" := by decide
    simp only [applyFieldOptions, hm2, addAnnotations, List.foldl_nil]
    congr 1
    rw [StructFieldDef.mk.injEq]
    refine ⟨rfl, ?_, rfl, rfl, rfl, ?_⟩
    · by_cases hc : comment = ""
      · rw [if_pos hc, hc]
      · rw [if_neg hc, merge_first h2 hc]
    · rw [heq]
  | block ht eq hf read =>
    obtain ⟨rfl, rfl⟩ := h6 ht
    have hrun := read s4 opts comment rest h2 hA4 hlen
    unfold parseTypeSpecWith
    refine run_bind (run_bind (run_mono hrun ?_))
    rintro _ s5 ⟨rfl, hA5⟩
    have hspec : specOfElems { type := ts.type, fields := ts.fields, elements := ts.elements, comment := comment } = pure ts := by
      rw [eq]
      rcases ht with ht | ht <;> (simp only [ht]; rfl)
    refine run_bind ⟨_, s5, spec_apply hspec s5, run_pure ?_⟩
    simp only
    have hA5' : At s5 (optToks [] ++ tNl :: rest) := hA5
    refine run_bind (run_mono (run_options (OptChain.nil (lib := lib) (acc := fieldOptions ts.type) (o := {})).list (fun _ => by simp [tNl]) hA5') ?_)
    rintro _ s6 ⟨rfl, hA6⟩
    have hA6' : At s6 (trail "" ++ tNl :: rest) := hA6
    refine run_bind (run_mono (run_endOfStatement hA6') ?_)
    rintro _ s7 ⟨rfl, hG7⟩
    refine run_pure ⟨?_, [], .inl rfl, hG7.at'⟩
    simp only [applyFieldOptions, addAnnotations, List.foldl_nil, if_true]
    rw [merge_empty' h2, merge_empty' h2]
    congr 1
    rw [StructFieldDef.mk.injEq]
    exact ⟨rfl, rfl, rfl, rfl, rfl, by rw [eq]⟩
  | empty eq read =>
    subst eq
    obtain ⟨rfl, rfl⟩ := h6 (.inr rfl)
    have hc : comment = "" := h7 rfl rfl
    subst hc
    have hsp : specToks pl { type := "Struct" } opts = [tSym "Struct", tNl] := by unfold specToks; rfl
    rw [hsp] at hA4 hlen
    have hrun := read s4 (tNl :: rest) hA4 hlen
    unfold parseTypeSpecWith
    refine run_bind (run_bind (run_mono hrun ?_))
    rintro _ s5 ⟨rfl, hA5⟩
    have hspec : specOfElems { type := "Struct" } = pure { type := "Struct" } := rfl
    refine run_bind ⟨_, s5, spec_apply hspec s5, run_pure ?_⟩
    simp only
    have hA5' : At s5 (optToks [] ++ tNl :: (tNl :: rest)) := hA5
    refine run_bind (run_mono (run_options (OptChain.nil (lib := lib) (acc := fieldOptions "Struct") (o := {})).list (fun _ => by simp [tNl]) hA5') ?_)
    rintro _ s6 ⟨rfl, hA6⟩
    have hA6' : At s6 (trail "" ++ tNl :: (tNl :: rest)) := hA6
    refine run_bind (run_mono (run_endOfStatement hA6') ?_)
    rintro _ s7 ⟨rfl, hG7⟩
    exact run_pure ⟨rfl, [tNl], .inr rfl, hG7.at'⟩

/-- The fields, up to the closing brace. -/
theorem run_fields {lib : PLib} {pl : PrintLib} {recur : P Elems} {N : Nat} : ∀ (fs : List StructFieldDef), (∀ f ∈ fs, FieldDefOk f) →
    (∀ f ∈ fs, Reads lib pl recur N f.ts) → ∀ (acc : List StructFieldDef) (pre rest : List Token) (s : TState), Nl1 pre →
    At s (pre ++ (fieldsToks pl false fs ++ tPunct .closeBrace :: rest)) →
    (pre ++ (fieldsToks pl false fs ++ tPunct .closeBrace :: rest)).length ≤ N →
    Run (P.loop (fieldsStep lib recur) acc) s (fun r s' => r = acc ++ fs ∧ At s' rest)
  | [], _, _, acc, pre, rest, s, hp, hA, _ => by
    refine run_loop_done ?_
    unfold fieldsStep parseStructFieldDef
    refine run_bind (run_bind (skip_nl rfl hp hA (fun s1 hA1 => ?_)))
    unfold fieldsToks at hA1
    refine run_loop_done ?_
    unfold fieldSkipStep
    refine run_bind (run_next hA1 (fun s' hs' => ?_))
    simp only [tPunct, if_true]
    exact run_pure ⟨_, rfl, run_pure (run_pure ⟨_, rfl, by simp, hs'.at'⟩)⟩
  | f :: r, h1, h2, acc, pre, rest, s, hp, hA, hN => by
    have e : fieldsToks pl false (f :: r) = fieldToks pl false f ++ fieldsToks pl false r := by rw [fieldsToks]
    have hA' : At s (pre ++ (fieldToks pl false f ++ (fieldsToks pl false r ++ tPunct .closeBrace :: rest))) := by
      rw [e, List.append_assoc] at hA; exact hA
    have hN' : (pre ++ (fieldToks pl false f ++ (fieldsToks pl false r ++ tPunct .closeBrace :: rest))).length ≤ N := by
      rw [e, List.append_assoc] at hN; exact hN
    have hlen : 2 ≤ (fieldToks pl false f).length := by
      obtain ⟨name, comment, annos, req, dflt, ts⟩ := f
      have := h1 _ (List.mem_cons_self ..)
      have a1 := this.name
      have a2 := this.comment
      simp only at a1 a2
      unfold fieldToks
      simp only [Bool.false_eq_true, if_false, List.nil_append]
      rw [bare_name a1, endLine_eq a2]
      simp; omega
    refine run_loop_again hA' ?_
    unfold fieldsStep
    refine run_bind (run_mono (run_field (h1 f (by simp)) (h2 f (by simp)) hp hA' hN') ?_)
    rintro _ s1 ⟨rfl, post, hpost, hA1⟩
    have hpl : post.length ≤ 1 := by rcases hpost with rfl | rfl <;> simp
    refine run_pure ⟨_, _, rfl, hA1, ?_, ?_⟩
    · simp; omega
    · refine run_mono (run_fields r (fun x hx => h1 x (by simp [hx])) (fun x hx => h2 x (by simp [hx])) (acc ++ [f]) post rest s1 hpost hA1 ?_) ?_
      · simp at hN' ⊢; omega
      · rintro a s2 ⟨rfl, h3⟩
        exact ⟨by simp, h3⟩

end Sadl.Props
