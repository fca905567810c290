import Verif.Lemmas.UnparseSpec
/-
Every printed type is read back.
-/
namespace Sadl.Props
open Sadl Sadl.Spec

theorem not_generic {t : String} (h : t ≠ "Struct" ∧ t ≠ "Enum" ∧ t ≠ "Union") {lib : PLib} {recur : P Elems} {s : TState} {tok : Token}
    {r : List Token} (hA : At s (tSym t :: tok :: r)) (ht : tok.type ≠ .openAngle) :
    Run (typeSpecElementsStep lib recur) s (fun e s' => e = { type := t } ∧ At s' (tok :: r)) := by
  unfold typeSpecElementsStep
  refine run_bind (run_identifier hA (fun s1 h1 => ?_))
  refine run_bind (run_get h1 (fun s2 h2 => ?_))
  simp only [ht, if_false, h, or_self]
  exact run_bind (run_unget h2 (fun s3 h3 => run_pure ⟨rfl, h3⟩))

theorem run_params {expected : Option Nat} {ps : List String} (hn : ∀ n ∈ expected, n = ps.length) : ∀ (todo done : List String), done ++ todo = ps →
    todo ≠ [] → ∀ (s : TState) (rest : List Token),
    At s ((todo.map tSym).intersperse (tPunct .comma) ++ tPunct .closeAngle :: rest) →
    Run (P.loop (paramsStep expected) done) s (fun r s' => r = ps ∧ At s' rest)
  | [], _, _, hne, _, _, _ => absurd rfl hne
  | [p], done, e, _, s, rest, hA => by
    have hA' : At s (tSym p :: tPunct .closeAngle :: rest) := by simpa using hA
    refine run_loop_again hA' ?_
    unfold paramsStep
    refine run_bind (run_next hA' (fun s1 h1 => ?_))
    simp only [tSym, ne_eq, reduceCtorEq, not_false_eq_true, if_true, if_false, not_true]
    refine run_pure ⟨_, _, rfl, h1.at', by simp, ?_⟩
    refine run_loop_done ?_
    refine run_bind (run_next h1.at' (fun s2 h2 => ?_))
    simp only [tPunct, ne_eq, reduceCtorEq, not_false_eq_true, if_true]
    have e' : done ++ [p] = ps := e
    rw [e']
    cases expected with
    | none => exact run_pure ⟨_, rfl, rfl, h2.at'⟩
    | some n =>
      have := hn n rfl
      simp only [this, not_true, if_false]
      exact run_pure ⟨_, rfl, rfl, h2.at'⟩
  | p :: q :: r, done, e, _, s, rest, hA => by
    have hA' : At s (tSym p :: tPunct .comma :: (((q :: r).map tSym).intersperse (tPunct .comma) ++ tPunct .closeAngle :: rest)) := by
      simpa [List.intersperse] using hA
    refine run_loop_again hA' ?_
    unfold paramsStep
    refine run_bind (run_next hA' (fun s1 h1 => ?_))
    simp only [tSym, ne_eq, reduceCtorEq, not_false_eq_true, if_true, if_false, not_true]
    refine run_pure ⟨_, _, rfl, h1.at', by simp, ?_⟩
    refine run_loop_again h1.at' ?_
    refine run_bind (run_next h1.at' (fun s2 h2 => ?_))
    simp only [tPunct, ne_eq, not_true, if_false]
    refine run_pure ⟨_, _, rfl, h2.at', by simp, ?_⟩
    exact run_params hn (q :: r) (done ++ [p]) (by simpa using e) (by simp) s2 rest h2.at'

theorem run_generic {lib : PLib} {recur : P Elems} {t name : String} {n : Nat} {ps : List String} (hg : genericArity t = some (name, some n))
    (hn : n = ps.length) (hne : ps ≠ []) {s : TState} {rest : List Token}
    (hA : At s (tSym t :: tPunct .openAngle :: ((ps.map tSym).intersperse (tPunct .comma) ++ tPunct .closeAngle :: rest))) :
    Run (typeSpecElementsStep lib recur) s (fun e s' => e = { type := name, params := ps } ∧ At s' rest) := by
  unfold typeSpecElementsStep
  refine run_bind (run_identifier hA (fun s1 h1 => ?_))
  refine run_bind (run_get h1 (fun s2 h2 => ?_))
  simp only [tPunct, if_true, hg]
  refine run_bind (run_mono (run_params (expected := some n) (by simpa using hn) ps [] rfl hne s2 rest h2.at') ?_)
  rintro _ s3 ⟨rfl, h3⟩
  exact run_pure ⟨rfl, h3⟩

/-- An opening brace: the block, its end and the comment behind it. -/
theorem run_enum {lib : PLib} {pl : PrintLib} {recur : P Elems} {els : List EnumElementDef} (h : ∀ el ∈ els, ElementOk el) {c : String} (hc : IsLine c)
    {s : TState} {rest : List Token}
    (hA : At s (tSym "Enum" :: tPunct .openBrace :: tNl :: (els.flatMap (elementToks pl) ++ tPunct .closeBrace :: (trail c ++ tNl :: rest)))) :
    Run (typeSpecElementsStep lib recur) s (fun e s' => e = { type := "Enum", elements := els, comment := c } ∧ At s' (tNl :: rest)) := by
  unfold typeSpecElementsStep
  refine run_bind (run_identifier hA (fun s1 h1 => ?_))
  refine run_bind (run_get h1 (fun s2 h2 => ?_))
  simp only [tPunct, reduceCtorEq, if_false, or_true, true_or, if_true, ne_eq, not_true]
  unfold parseBraces
  refine run_bind (run_mono (run_trailingComment (c := "") h2.at' "") ?_)
  rintro _ s3 ⟨rfl, h3⟩
  simp only [String.reduceEq, or_self, if_false, if_true]
  refine run_bind (run_mono (run_optNewline h3) (fun _ s4 h4 => ?_))
  refine run_bind (run_mono (run_elements els h [] [] _ s4 (.inl rfl) h4) ?_)
  rintro _ s5 ⟨rfl, h5⟩
  refine run_bind (run_mono (run_endOfStatement h5) ?_)
  rintro _ s6 ⟨rfl, h6⟩
  refine run_bind (run_unget h6 (fun s7 h7 => run_pure ⟨?_, h7⟩))
  by_cases he : c = ""
  · simp [he]
  · simp [he, merge_first hc he]

theorem run_struct {lib : PLib} {pl : PrintLib} {recur : P Elems} {N : Nat} {fs : List StructFieldDef} (h1 : ∀ f ∈ fs, FieldDefOk f)
    (h2 : ∀ f ∈ fs, Reads lib pl recur N f.ts) {c : String} (hc : IsLine c) {word : String} (hw : word = "Struct" ∨ word = "Union")
    {s : TState} {rest : List Token}
    (hA : At s (tSym word :: tPunct .openBrace :: tNl :: (fieldsToks pl false fs ++ tPunct .closeBrace :: (trail c ++ tNl :: rest))))
    (hN : (fieldsToks pl false fs ++ tPunct .closeBrace :: (trail c ++ tNl :: rest)).length ≤ N) :
    Run (typeSpecElementsStep lib recur) s (fun e s' => e = { type := word, fields := fs, comment := c } ∧ At s' (tNl :: rest)) := by
  unfold typeSpecElementsStep
  refine run_bind (run_identifier hA (fun s1 h1 => ?_))
  refine run_bind (run_get h1 (fun s2 h2 => ?_))
  have hw3 : word = "Struct" ∨ word = "Enum" ∨ word = "Union" := by tauto
  simp only [tPunct, reduceCtorEq, if_false, hw3, if_true, ne_eq, not_true]
  unfold parseBraces
  refine run_bind (run_mono (run_trailingComment (c := "") h2.at' "") ?_)
  rintro _ s3 ⟨rfl, h3⟩
  simp only [hw, if_true]
  refine run_bind (run_mono (run_optNewline h3) (fun _ s4 h4 => ?_))
  rename_i hf1 hf2 _
  refine run_bind (run_mono (run_fields fs hf1 hf2 [] [] _ s4 (.inl rfl) h4 hN) ?_)
  rintro _ s5 ⟨rfl, h5⟩
  refine run_bind (run_mono (run_endOfStatement h5) ?_)
  rintro _ s6 ⟨rfl, h6⟩
  refine run_bind (run_unget h6 (fun s7 h7 => run_pure ⟨?_, h7⟩))
  by_cases he : c = ""
  · simp [he]
  · simp [he, merge_first hc he]

theorem run_emptyStruct {lib : PLib} {recur : P Elems} {s : TState} {rest : List Token} (hA : At s (tSym "Struct" :: tNl :: rest)) :
    Run (typeSpecElementsStep lib recur) s (fun e s' => e = { type := "Struct" } ∧ At s' (tNl :: rest)) := by
  unfold typeSpecElementsStep
  refine run_bind (run_identifier hA (fun s1 h1 => ?_))
  refine run_bind (run_get h1 (fun s2 h2 => ?_))
  simp only [tNl, reduceCtorEq, if_false, true_or, if_true, ne_eq, not_false_eq_true]
  refine run_bind (run_unget h2 (fun s3 h3 => ?_))
  have h3' : At s3 (optToks [] ++ tNl :: rest) := h3
  refine run_bind (run_mono (run_options (OptChain.nil (lib := lib) (acc := []) (o := {})).list (fun _ => by simp [tNl]) h3') ?_)
  rintro _ s4 ⟨rfl, h4⟩
  refine run_bind (run_next h4 (fun s5 h5 => ?_))
  simp only [tNl, reduceCtorEq, if_false]
  exact run_bind (run_unget h5 (fun s6 h6 => run_pure ⟨rfl, h6⟩))

theorem no_longComment {fs : List StructFieldDef} (h : ∀ f ∈ fs, FieldDefOk f) : longComment fs = false := by
  unfold longComment
  rw [List.any_eq_false]
  intro f hf
  have := (h f hf).short
  simp; omega

/-! ### The kinds of types -/

theorem special_of {t : String} (h : t ∉ specialTypes) : t ≠ "Enum" ∧ t ≠ "String" ∧ t ≠ "Int8" ∧ t ≠ "Int16" ∧ t ≠ "Int32" ∧ t ≠ "Int64" ∧
    t ≠ "Float32" ∧ t ≠ "Float64" ∧ t ≠ "Decimal" ∧ t ≠ "Array" ∧ t ≠ "List" ∧ t ≠ "Map" ∧ t ≠ "Struct" ∧ t ≠ "Union" ∧ t ≠ "UnitValue" := by
  simpa [specialTypes] using h

theorem spec_named {t : String} (h : t ≠ "Array" ∧ t ≠ "List" ∧ t ≠ "Map" ∧ t ≠ "UnitValue") : specOfElems { type := t } = pure { type := t } := by
  unfold specOfElems
  split <;> simp_all

theorem toks_named {pl : PrintLib} {t : String} (hn : IsName t) (h : t ∉ specialTypes ∨ t = "UnitValue") (v u : String) (opts : List (List Token)) :
    specToks pl { type := t, value := v, unit := u } opts = tSym t :: optToks opts := by
  have hs : t ≠ "Enum" ∧ t ≠ "String" ∧ t ≠ "Int8" ∧ t ≠ "Int16" ∧ t ≠ "Int32" ∧ t ≠ "Int64" ∧ t ≠ "Float32" ∧ t ≠ "Float64" ∧ t ≠ "Decimal" ∧
      t ≠ "Array" ∧ t ≠ "Map" ∧ t ≠ "Struct" ∧ t ≠ "Union" := by
    rcases h with h | rfl
    · have := special_of h; tauto
    · decide
  unfold specToks
  split <;> simp_all [bare_name hn]

theorem flat_named {lib : PLib} {pl : PrintLib} {t : String} (hn : IsName t) (h : t ∉ specialTypes) (N : Nat) (recur : P Elems) :
    Flat lib pl (typeSpecElementsStep lib recur) N { type := t } [tSym t] [] [] where
  toks opts := by rw [toks_named hn (.inl h), List.append_nil]; rfl
  read s tok r hA _ ht _ := not_generic (by have := special_of h; tauto) hA ht
  spec := by have := special_of h; exact spec_named (by tauto)
  opts acc o _ h1 h2 h3 h4 h5 h6 := by
    have : { o with pattern := "", values := none, minSize := none, maxSize := none, min := none, max := none } = o := by
      cases o; simp_all
    simp only [this]; exact .nil
  eq := rfl
  ne := by simp

theorem flat_unitValue {lib : PLib} {pl : PrintLib} (N : Nat) (recur : P Elems) :
    Flat lib pl (typeSpecElementsStep lib recur) N { type := "UnitValue", value := "Decimal", unit := "String" } [tSym "UnitValue"] [] [] where
  toks opts := by rw [toks_named (by unfold IsName; decide) (.inr rfl), List.append_nil]; rfl
  read s tok r hA _ ht _ := not_generic (by decide) hA ht
  spec := rfl
  opts acc o _ h1 h2 h3 h4 h5 h6 := by
    have : { o with pattern := "", values := none, minSize := none, maxSize := none, min := none, max := none } = o := by
      cases o; simp_all
    simp only [this]; exact .nil
  eq := rfl
  ne := by simp

theorem flat_string {lib : PLib} {pl : PrintLib} {p : String} {a b : Option Int} {vs : Option (List String)} (h1 : IsPlain p) (h2 : SizeOk a)
    (h3 : SizeOk b) (h4 : ∀ l ∈ vs, l ≠ [] ∧ ∀ v ∈ l, IsPlain v) (N : Nat) (recur : P Elems) :
    Flat lib pl (typeSpecElementsStep lib recur) N { type := "String", pattern := p, minSize := a, maxSize := b, values := vs } [tSym "String"] []
      (patternOpts p ++ sizeOpts pl a b ++ valuesOpts vs) where
  toks opts := by unfold specToks; simp
  read s tok r hA _ ht _ := not_generic (by simp) hA ht
  spec := rfl
  opts acc o hm e1 e2 e3 e4 e5 e6 := by
    have hm' : "pattern" ∈ acc ∧ "minsize" ∈ acc ∧ "maxsize" ∈ acc ∧ "values" ∈ acc := by
      simpa [constraintNames] using hm
    have := (OptChain.append (OptChain.append (chain_pattern (lib := lib) (o := o) h1 hm'.1 e1)
      (chain_sizes (pl := pl) h2 h3 hm'.2.1 hm'.2.2.1 e3 e4)) (chain_values h4 hm'.2.2.2 e2))
    have e : { o with pattern := p, values := vs, minSize := a, maxSize := b, min := none, max := none } =
        { o with pattern := p, values := vs, minSize := a, maxSize := b } := by cases o; simp_all
    simp only [e]; exact this
  eq := rfl
  ne := by simp

theorem flat_number {lib : PLib} {pl : PrintLib} {t : String} (ht : t ∈ ["Int8", "Int16", "Int32", "Int64", "Float32", "Float64", "Decimal"])
    {a b : Option BigFloat} (ha : ∀ d ∈ a, NumberOk lib pl d) (hb : ∀ d ∈ b, NumberOk lib pl d) (N : Nat) (recur : P Elems) :
    Flat lib pl (typeSpecElementsStep lib recur) N { type := t, min := a, max := b } [tSym t] [] (boundOpts pl a b) where
  toks opts := by
    simp only [List.mem_cons, List.not_mem_nil, or_false] at ht
    rcases ht with rfl | rfl | rfl | rfl | rfl | rfl | rfl <;> (unfold specToks; rfl)
  read s tok r hA _ htok _ := by
    refine not_generic ?_ hA htok
    simp only [List.mem_cons, List.not_mem_nil, or_false] at ht
    rcases ht with rfl | rfl | rfl | rfl | rfl | rfl | rfl <;> simp
  spec := by
    simp only [List.mem_cons, List.not_mem_nil, or_false] at ht
    rcases ht with rfl | rfl | rfl | rfl | rfl | rfl | rfl <;> rfl
  opts acc o hm e1 e2 e3 e4 e5 e6 := by
    have hm' : "min" ∈ acc ∧ "max" ∈ acc := by
      simp only [List.mem_cons, List.not_mem_nil, or_false] at ht
      rcases ht with rfl | rfl | rfl | rfl | rfl | rfl | rfl <;> simpa [constraintNames] using hm
    have := chain_bounds (lib := lib) (pl := pl) (o := o) ha hb hm'.1 hm'.2 e5 e6
    have e : { o with pattern := "", values := none, minSize := none, maxSize := none, min := a, max := b } =
        { o with min := a, max := b } := by cases o; simp_all
    simp only [e]; exact this
  eq := rfl
  ne := by simp

theorem sizes_chain {lib : PLib} {pl : PrintLib} {acc : List String} {o : Options} {a b : Option Int} (h2 : SizeOk a) (h3 : SizeOk b)
    (hm : "minsize" ∈ acc ∧ "maxsize" ∈ acc) (e1 : o.pattern = "") (e2 : o.values = none) (e3 : o.minSize = none) (e4 : o.maxSize = none)
    (e5 : o.min = none) (e6 : o.max = none) : OptChain lib acc (sizeOpts pl a b) o
      { o with pattern := "", values := none, minSize := a, maxSize := b, min := none, max := none } := by
  have := chain_sizes (lib := lib) (pl := pl) (o := o) h2 h3 hm.1 hm.2 e3 e4
  have e : { o with pattern := "", values := none, minSize := a, maxSize := b, min := none, max := none } =
      { o with minSize := a, maxSize := b } := by cases o; simp_all
  rw [e]; exact this

theorem flat_array {lib : PLib} {pl : PrintLib} {items : String} {a b : Option Int} (h1 : IsName items) (h2 : SizeOk a) (h3 : SizeOk b) (N : Nat)
    (recur : P Elems) : Flat lib pl (typeSpecElementsStep lib recur) N { type := "Array", items := items, minSize := a, maxSize := b }
      [tSym "List", tPunct .openAngle, tSym items, tPunct .closeAngle] [items] (sizeOpts pl a b) where
  toks opts := by unfold specToks; simp [bare_name h1]
  read s tok r hA _ _ _ := run_generic (t := "List") (name := "Array") (n := 1) rfl rfl (by simp) (by simpa using hA)
  spec := rfl
  opts acc o hm e1 e2 e3 e4 e5 e6 := sizes_chain h2 h3 (by simpa [constraintNames] using hm) e1 e2 e3 e4 e5 e6
  eq := rfl
  ne := by simp

theorem flat_map {lib : PLib} {pl : PrintLib} {keys items : String} {a b : Option Int} (h0 : IsName keys) (h1 : IsName items) (h2 : SizeOk a)
    (h3 : SizeOk b) (N : Nat) (recur : P Elems) :
    Flat lib pl (typeSpecElementsStep lib recur) N { type := "Map", keys := keys, items := items, minSize := a, maxSize := b }
      [tSym "Map", tPunct .openAngle, tSym keys, tPunct .comma, tSym items, tPunct .closeAngle] [keys, items] (sizeOpts pl a b) where
  toks opts := by unfold specToks; simp [bare_name h1, bare_name h0]
  read s tok r hA _ _ _ := run_generic (t := "Map") (name := "Map") (n := 2) rfl rfl (by simp) (by simpa [List.intersperse] using hA)
  spec := rfl
  opts acc o hm e1 e2 e3 e4 e5 e6 := sizes_chain h2 h3 (by simpa [constraintNames] using hm) e1 e2 e3 e4 e5 e6
  eq := rfl
  ne := by simp

/-- Every printed type is read back, at any depth. -/
theorem spec_reads {lib : PLib} {pl : PrintLib} {ts : TypeSpec} (h : SpecOk lib pl ts) : ∀ N, Reads lib pl (typeSpecElementsN lib (N + 1)) N ts := by
  induction h with
  | named hn hs => intro N; exact .flat _ _ _ (flat_named hn hs N _) (by have := special_of hs; tauto)
  | unitValue => intro N; exact .flat _ _ _ (flat_unitValue N _) (by decide)
  | string h1 h2 h3 h4 => intro N; exact .flat _ _ _ (flat_string h1 h2 h3 h4 N _) (by simp)
  | number ht ha hb =>
    intro N
    refine .flat _ _ _ (flat_number ht ha hb N _) ?_
    simp only [List.mem_cons, List.not_mem_nil, or_false] at ht
    rcases ht with rfl | rfl | rfl | rfl | rfl | rfl | rfl <;> simp
  | array h1 h2 h3 => intro N; exact .flat _ _ _ (flat_array h1 h2 h3 N _) (by simp)
  | map h0 h1 h2 h3 => intro N; exact .flat _ _ _ (flat_map h0 h1 h2 h3 N _) (by simp)
  | @enum els h =>
    intro N
    refine .block (.inl rfl) rfl (by simp) ?_
    intro s opts c rest hc hA _
    have e : specToks pl { type := "Enum", elements := els } opts ++ (trail c ++ tNl :: rest) =
        tSym "Enum" :: tPunct .openBrace :: tNl :: (els.flatMap (elementToks pl) ++ tPunct .closeBrace :: (trail c ++ tNl :: rest)) := by
      unfold specToks; simp
    rw [e] at hA
    exact run_enum h hc hA
  | @struct fs h1 _ ih =>
    intro N
    by_cases hfs : fs = []
    · subst hfs
      exact .empty rfl (fun s rest hA _ => run_emptyStruct hA)
    · refine .block (.inr rfl) rfl (fun _ => hfs) ?_
      intro s opts c rest hc hA hN
      have e : specToks pl { type := "Struct", fields := fs } opts ++ (trail c ++ tNl :: rest) =
          tSym "Struct" :: tPunct .openBrace :: tNl :: (fieldsToks pl false fs ++ tPunct .closeBrace :: (trail c ++ tNl :: rest)) := by
        unfold specToks
        have : fs.isEmpty = false := by simpa using hfs
        simp [this, no_longComment h1]
      rw [e] at hA hN
      cases N with
      | zero => simp at hN
      | succ M =>
        refine run_struct (N := M) h1 (fun f hf => ih f hf M) hc (.inl rfl) hA ?_
        simp at hN ⊢; omega

end Sadl.Props
