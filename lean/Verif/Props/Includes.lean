import Verif.Lemmas.ParserEats
import Verif.Lemmas.ParserPost
import Verif.Props.Parsing
/-
C35: include directives.
-/
namespace Sadl.Props
open Sadl Sadl.Spec

/-- The definition of a type, as found in the file `f`. -/
def fromFile (f : String) (td : TypeDef) : TypeDef := { td with annotations := mset td.annotations "x_include" f }
def httpFromFile (f : String) (h : HttpDef) : HttpDef := { h with annotations := mset h.annotations "x_include" f }
def opFromFile (f : String) (o : OperationDef) : OperationDef := { o with annotations := mset o.annotations "x_include" f }

/-- `sch'` is `sch` with the definitions of `inc` added at the end, and with the comment `c`
that precedes the directive. -/
structure Merged (f c : String) (sch inc sch' : Schema) : Prop where
  types : sch'.types = sch.types ++ inc.types.map (fromFile f)
  http : sch'.http = sch.http ++ inc.http.map (httpFromFile f)
  operations : sch'.operations = sch.operations ++ inc.operations.map (opFromFile f)
  examples : sch'.examples = sch.examples
  header : sch'.name = sch.name ∧ sch'.namespace = sch.namespace ∧ sch'.version = sch.version ∧ sch'.base = sch.base ∧
    sch'.annotations = sch.annotations ∧ sch'.comment = mergeComment sch.comment c ∧ sch'.sadl = sch.sadl

/-- No type is defined twice. -/
def NoTypeTwice (sch inc : Schema) : Prop :=
  ∀ td ∈ inc.types, td.name ∉ BaseTypes ∧ ∀ td' ∈ sch.types, td'.name ≠ td.name

theorem findType_isSome {sch : Schema} {m : Model} (h : newModel sch = .ok m) (name : String) :
    (m.findType name).isSome = true ↔ name ∈ BaseTypes ∨ ∃ td ∈ sch.types, td.name = name := by
  obtain ⟨_, _, _, rfl⟩ := (newModel_ok_iff sch m).1 h
  unfold Model.findType
  rw [Option.isSome_iff_ne_none, ne_eq, mget_none_iff]
  simp only [List.map_append, List.mem_append, not_not, List.map_map]
  constructor
  · rintro (h | h)
    · left
      rw [baseIndex_eq] at h
      simpa using h
    · right
      simpa using h
  · rintro (h | h)
    · left
      rw [baseIndex_eq]
      simpa using h
    · right
      simpa using h

theorem getTwo {s : TState} {t u : Token} {ts : List Token} (h : At s (t :: u :: ts)) :
    ∃ s1 s2, getToken s = .ok (some t) s1 ∧ getToken s1 = .ok (some u) s2 ∧ At s2 ts := by
  obtain ⟨s1, h1, g1⟩ := getToken_at h
  obtain ⟨s2, h2, g2⟩ := getToken_at g1.at'
  exact ⟨s1, s2, h1, h2, g2.at'⟩

theorem topStep_include {lib : PLib} {incl : String → IncRes} {sch : Schema} {c f : String} {s s1 s2 : TState}
    (h1 : getToken s = .ok (some (sym "include")) s1) (h2 : getToken s1 = .ok (some (str f)) s2) :
    topStep lib incl (sch, c) s =
      match incl f with
      | none => .hang
      | some (.err e) => .err e s2
      | some (.panic e) => .panic e
      | some (.ok inc) =>
        match mergeInclude f { sch with comment := mergeComment sch.comment c } inc with
        | .ok sch' => .ok (.inl (sch', "")) s2
        | .err e => .err e s2
        | .panic e => .panic e := by
  rw [topStep_of_symbol h1 rfl]
  have e1 : expectString s1 = .ok f s2 := by
    unfold expectString nextToken
    rw [P.bind_apply, bind_ok h2]
    rfl
  show (parseIncludeDirective incl { sch with comment := mergeComment sch.comment c } >>= _) s1 = _
  unfold parseIncludeDirective
  rw [P.bind_apply, bind_ok e1]
  cases hi : incl f with
  | none => rfl
  | some r =>
    cases r with
    | err e => rfl
    | panic e => rfl
    | ok inc =>
      dsimp only
      cases hm : mergeInclude f { sch with comment := mergeComment sch.comment c } inc <;> rfl

/-- C35 (what an include adds): when the definitions so far are consistent, an include
directive adds exactly the types, HTTP actions and operations of the file, marked with its
name, after those already present, if that defines no type twice, and goes on with the rest of
the source; otherwise it is an error. -/
theorem C35_include_partial (lib : PLib) (incl : String → IncRes) (sch : Schema) (c f : String) (inc : Model) (s : TState)
    (rest : List Token) (hs : At s (sym "include" :: str f :: rest)) (hf : incl f = some (.ok inc))
    (hok : ∃ m, newModel sch = .ok m) :
    (NoTypeTwice sch inc.schema →
      ∃ sch' s', topStep lib incl (sch, c) s = .ok (.inl (sch', "")) s' ∧ pending s' = rest ∧ Merged f c sch inc.schema sch') ∧
    (¬ NoTypeTwice sch inc.schema → ∃ e s', topStep lib incl (sch, c) s = .err e s') := by
  obtain ⟨s1, s2, h1, h2, hA⟩ := getTwo hs
  rw [topStep_include h1 h2, hf]
  obtain ⟨m0, hm0⟩ := hok
  obtain ⟨a1, a2, a3, a4⟩ := (newModel_ok_iff sch m0).1 hm0
  obtain ⟨tmp, htmp⟩ : ∃ m, newModel { sch with comment := mergeComment sch.comment c } = .ok m :=
    ⟨_, (newModel_ok_iff _ _).2 ⟨a1, a2, a3, rfl⟩⟩
  have hany : (inc.schema.types.any (fun td => (tmp.findType td.name).isSome)) = true ↔ ¬ NoTypeTwice sch inc.schema := by
    rw [List.any_eq_true]
    unfold NoTypeTwice
    push Not
    constructor
    · rintro ⟨td, h1, h2⟩
      refine ⟨td, h1, ?_⟩
      intro hb
      rcases (findType_isSome htmp td.name).1 h2 with h | h
      · exact absurd h hb
      · exact h
    · rintro ⟨td, h1, h2⟩
      refine ⟨td, h1, (findType_isSome htmp td.name).2 ?_⟩
      by_cases hb : td.name ∈ BaseTypes
      · exact .inl hb
      · exact .inr (h2 hb)
  unfold mergeInclude
  rw [htmp]
  refine ⟨fun hn => ?_, fun hn => ?_⟩
  · have : ¬ (inc.schema.types.any (fun td => (tmp.findType td.name).isSome)) = true := by rw [hany]; exact not_not.2 hn
    simp only [this, if_false, Bool.false_eq_true]
    exact ⟨_, s2, rfl, hA.pending, rfl, rfl, rfl, rfl, rfl, rfl, rfl, rfl, rfl, rfl, rfl⟩
  · have := hany.2 hn
    simp only [this, if_true]
    exact ⟨_, s2, rfl⟩

/-- C35: if the definitions so far already define a type twice, an include is an error. -/
theorem C35_inconsistent_refused (lib : PLib) (incl : String → IncRes) (sch : Schema) (c f : String) (inc : Model) (s : TState)
    (rest : List Token) (hs : At s (sym "include" :: str f :: rest)) (hf : incl f = some (.ok inc))
    (hbad : ¬ ∃ m, newModel sch = .ok m) : ∃ e s', topStep lib incl (sch, c) s = .err e s' := by
  obtain ⟨s1, s2, h1, h2, hA⟩ := getTwo hs
  rw [topStep_include h1 h2, hf]
  unfold mergeInclude
  cases hm : newModel { sch with comment := mergeComment sch.comment c } with
  | ok m =>
    obtain ⟨a1, a2, a3, a4⟩ := (newModel_ok_iff _ _).1 hm
    exact absurd ⟨_, (newModel_ok_iff sch _).2 ⟨a1, a2, a3, rfl⟩⟩ hbad
  | err e => exact ⟨_, s2, rfl⟩
  | panic e => exact absurd hm (newModel_no_panic _ e)

/-- C35: a file that cannot be parsed makes the include an error. -/
theorem C35_bad_file_refused (lib : PLib) (incl : String → IncRes) (sch : Schema) (c f e : String) (s : TState)
    (rest : List Token) (hs : At s (sym "include" :: str f :: rest)) (hf : incl f = some (.err e)) :
    ∃ s', topStep lib incl (sch, c) s = .err e s' := by
  obtain ⟨s1, s2, h1, h2, hA⟩ := getTwo hs
  rw [topStep_include h1 h2, hf]
  exact ⟨s2, rfl⟩

/-! ### Nothing is lost afterwards -/

/-- `sch` is contained in `sch'`: its definitions come first. -/
structure Extends (sch sch' : Schema) : Prop where
  types : sch.types <+: sch'.types
  http : sch.http <+: sch'.http
  operations : sch.operations <+: sch'.operations
  examples : sch.examples <+: sch'.examples

theorem Extends.refl (s : Schema) : Extends s s := ⟨List.prefix_rfl, List.prefix_rfl, List.prefix_rfl, List.prefix_rfl⟩
theorem Extends.trans {a b c : Schema} (h1 : Extends a b) (h2 : Extends b c) : Extends a c :=
  ⟨h1.1.trans h2.1, h1.2.trans h2.2, h1.3.trans h2.3, h1.4.trans h2.4⟩

theorem mergeInclude_extends {f : String} {sch sch' : Schema} {inc : Model} (h : mergeInclude f sch inc = .ok sch') :
    Extends sch sch' := by
  unfold mergeInclude at h
  cases hm : newModel sch with
  | err e => rw [hm] at h; cases h
  | panic e => rw [hm] at h; cases h
  | ok m =>
    rw [hm] at h
    dsimp only at h
    split_ifs at h
    injection h with h
    subst h
    exact ⟨List.prefix_append _ _, List.prefix_append _ _, List.prefix_append _ _, List.prefix_rfl⟩

theorem ret_topStep_extends (lib : PLib) (incl : String → IncRes) (st : Schema × String) :
    Ret (topStep lib incl st) (fun r => match r with
      | .inl y => Extends st.1 y.1
      | .inr y => Extends st.1 y) := by
  unfold topStep
  refine ret_bind' (fun t => ?_)
  cases t with
  | none => exact ret_pure (Extends.refl _)
  | some t =>
    dsimp only
    split
    · refine ret_bind (Q1 := fun sch => Extends st.1 sch) ?_ (fun a ha => ret_pure ha)
      unfold directive
      dsimp only
      split
      case h_9 =>
        unfold parseIncludeDirective
        refine ret_bind' (fun f => ?_)
        split
        · exact ret_hang
        · exact ret_fail
        · exact ret_crash
        · split
          · next sch' hm =>
            have := mergeInclude_extends hm
            exact ret_pure ⟨this.1, this.2, this.3, this.4⟩
          · exact ret_fail
          · exact ret_crash
      case h_10 =>
        refine ret_ite (fun _ => ret_bind' (fun _ => ret_pure ?_)) (fun _ => ret_pure (Extends.refl _))
        exact ⟨List.prefix_rfl, List.prefix_rfl, List.prefix_rfl, List.prefix_rfl⟩
      all_goals
        refine ret_bind' (fun _ => ret_pure ⟨?_, ?_, ?_, ?_⟩) <;>
        first | exact List.prefix_append _ _ | exact List.prefix_rfl
    · exact ret_pure (Extends.refl _)
    · exact ret_pure (Extends.refl _)
    · exact ret_pure (Extends.refl _)
    · exact ret_fail

/-- C35: what has been defined or included stays, at its place, whatever follows. -/
theorem C35_kept (lib : PLib) (incl : String → IncRes) (sch sch' : Schema) (c : String) (s s' : TState)
    (h : P.loop (topStep lib incl) (sch, c) s = .ok sch' s') : Extends sch sch' := by
  have : Ret (P.loop (topStep lib incl) (sch, c)) (fun r => Extends sch r) := by
    refine ret_loop (I := fun st => Extends sch st.1) (Extends.refl _) ?_
    intro st hst
    refine ret_mono (ret_topStep_extends lib incl st) ?_
    intro r hr
    cases r with
    | inl y => exact hst.trans hr
    | inr y => exact hst.trans hr
  exact this _ _ _ h

/-- C35: a source that begins with an include directive: if it parses, the definitions of the
file are the first of the result, and the rest of the source adds its own after them. -/
theorem C35_first_include (lib : PLib) (incl : String → IncRes) (init sch : Schema) (f : String) (rest : List Token) (s : TState)
    (hb : ∀ t ∈ rest, t.type ≠ .blockComment) (hok : ∃ m, newModel init = .ok m)
    (h : parseSchema lib incl init (sym "include" :: str f :: rest) = .ok sch s) :
    ∃ inc, incl f = some (.ok inc) ∧ NoTypeTwice init inc.schema ∧
      init.types ++ inc.schema.types.map (fromFile f) <+: sch.types ∧
      init.http ++ inc.schema.http.map (httpFromFile f) <+: sch.http ∧
      init.operations ++ inc.schema.operations.map (opFromFile f) <+: sch.operations := by
  have hA : At { toks := sym "include" :: str f :: rest } (sym "include" :: str f :: rest) := by
    refine ⟨rfl, ?_⟩
    intro t ht
    simp only [List.mem_cons] at ht
    rcases ht with rfl | rfl | ht
    · simp [sym]
    · simp [str]
    · exact hb t ht
  unfold parseSchema P.loop P.loopN at h
  obtain ⟨r, s1, h1, h2⟩ := bind_ok_inv h
  obtain ⟨t1, t2, g1, g2, hA2⟩ := getTwo hA
  have hstep := topStep_include (lib := lib) (incl := incl) (sch := init) (c := "") g1 g2
  cases hi : incl f with
  | none => rw [hi] at hstep; rw [hstep] at h1; cases h1
  | some r' =>
    cases r' with
    | err e => rw [hi] at hstep; rw [hstep] at h1; cases h1
    | panic e => rw [hi] at hstep; rw [hstep] at h1; cases h1
    | ok inc =>
      obtain ⟨c1, c2⟩ := C35_include_partial lib incl init "" f inc _ rest hA hi hok
      by_cases hn : NoTypeTwice init inc.schema
      · obtain ⟨sch', s', e1, _, hM⟩ := c1 hn
        rw [e1] at h1
        injection h1 with h1 h1'
        subst h1 h1'
        have hext : Extends sch' sch := by
          have : ∀ k, Ret (P.loopN (topStep lib incl) k (sch', "")) (fun r => Extends sch' r) := by
            intro k
            have gen : ∀ (k : Nat) (st : Schema × String), Extends sch' st.1 →
                Ret (P.loopN (topStep lib incl) k st) (fun r => Extends sch' r) := by
              intro k
              induction k with
              | zero => intro st _; exact ret_hang
              | succ k ih =>
                intro st hst
                unfold P.loopN
                refine ret_bind (ret_topStep_extends lib incl st) ?_
                intro r hr
                cases r with
                | inl y => exact ih y (hst.trans hr)
                | inr y => exact ret_pure (hst.trans hr)
            exact gen k _ (Extends.refl _)
          exact this _ _ _ _ h2
        refine ⟨inc, rfl, hn, ?_, ?_, ?_⟩
        · rw [← hM.types]; exact hext.types
        · rw [← hM.http]; exact hext.http
        · rw [← hM.operations]; exact hext.operations
      · obtain ⟨e, s', e1⟩ := c2 hn
        rw [e1] at h1
        cases h1

/-! ### Termination -/

theorem expectString_ok {ok : Token → Prop} {s s' : TState} {f : String} (hs : AllTok ok s) (h : expectString s = .ok f s') :
    ∃ t, ok t ∧ t.type = .string ∧ t.text = f := by
  unfold expectString nextToken at h
  obtain ⟨t, s1, h1, h2⟩ := bind_ok_inv h
  obtain ⟨t?, s2, h3, h4⟩ := bind_ok_inv h1
  obtain ⟨u?, s3, e, _, hu⟩ := getToken_ok hs
  rw [e] at h3
  injection h3 with h3 h3'
  subst h3
  cases u? with
  | none => simp [eofError, P.fail] at h4
  | some u =>
    injection (show PRes.ok u s2 = .ok t s1 from h4) with h4 _
    subst h4
    by_cases ht : u.type = .string
    · simp only [ht, if_true] at h2
      injection (show PRes.ok u.text s1 = .ok f s' from h2) with h2 _
      exact ⟨u, hu u rfl, ht, h2⟩
    · simp only [ht, if_false] at h2
      simp [P.fail] at h2

/-- Only the files named in a source matter. -/
theorem parseSchema_incl_agree (lib : PLib) (incl incl' : String → IncRes) (init : Schema) (toks : List Token)
    (ht : ∀ t ∈ toks, t.type = .string → incl t.text = incl' t.text) :
    parseSchema lib incl init toks = parseSchema lib incl' init toks := by
  unfold parseSchema P.loop
  refine loopN_congr (I := AllTok (fun t => t.type = .string → incl t.text = incl' t.text)) ?_ ?_ _ _ _
    ⟨ht, by simp, by simp, by simp⟩
  · intro st s hs
    obtain ⟨t?, s', h, h1, h2⟩ := getToken_ok hs
    cases t? with
    | none => rw [topStep_of_none h, topStep_of_none h]
    | some t =>
      by_cases hst : t.type = .symbol
      · rw [topStep_of_symbol h hst, topStep_of_symbol h hst]
        by_cases hw : t.text = "include"
        · rw [hw]
          show (parseIncludeDirective incl { st.1 with comment := mergeComment st.1.comment st.2 } >>= _) s' =
            (parseIncludeDirective incl' { st.1 with comment := mergeComment st.1.comment st.2 } >>= _) s'
          unfold parseIncludeDirective
          rw [P.bind_apply, P.bind_apply, P.bind_apply, P.bind_apply]
          cases he : expectString s' with
          | ok f s2 =>
            obtain ⟨u, hu, hu1, hu2⟩ := expectString_ok h1 he
            have := hu hu1
            rw [hu2] at this
            simp only [this]
          | err e s2 => rfl
          | panic e => rfl
          | hang => rfl
        · rw [directive_incl lib incl incl' _ _ _ hw]
      · rw [topStep_of_other h hst, topStep_of_other h hst]
  · intro st s y s' hs h
    exact topStep_keeps lib incl st s s' hs y h

/-- Where the inclusion `incl` answers, `incl'` answers the same. -/
def Refines (incl incl' : String → IncRes) : Prop := ∀ f, incl f ≠ none → incl' f = incl f

theorem topStep_refines {lib : PLib} {incl incl' : String → IncRes} (hr : Refines incl incl') (st : Schema × String) (s : TState)
    (h : topStep lib incl st s ≠ .hang) : topStep lib incl' st s = topStep lib incl st s := by
  obtain ⟨t?, s', e, _⟩ := getToken_ok (ok := fun _ => True) (s := s) ⟨by simp, by simp, by simp, by simp⟩
  cases t? with
  | none => rw [topStep_of_none e, topStep_of_none e]
  | some t =>
    by_cases hst : t.type = .symbol
    · rw [topStep_of_symbol e hst] at h ⊢
      rw [topStep_of_symbol e hst]
      by_cases hw : t.text = "include"
      · rw [hw] at h ⊢
        replace h : (parseIncludeDirective incl { st.1 with comment := mergeComment st.1.comment st.2 } >>=
          fun sch => (pure (.inl (sch, "")) : P ((Schema × String) ⊕ Schema))) s' ≠ .hang := h
        show (parseIncludeDirective incl' { st.1 with comment := mergeComment st.1.comment st.2 } >>= _) s' =
          (parseIncludeDirective incl { st.1 with comment := mergeComment st.1.comment st.2 } >>= _) s'
        unfold parseIncludeDirective at h ⊢
        rw [P.bind_apply, P.bind_apply] at h ⊢
        rw [P.bind_apply, P.bind_apply]
        cases he : expectString s' with
        | ok f s2 =>
          rw [he] at h
          by_cases hf : incl f = none
          · simp [hf, P.hang] at h
          · simp only [hr f hf]
        | err e s2 => rfl
        | panic e => rfl
        | hang => rfl
      · rw [directive_incl lib incl' incl _ _ _ hw]
    · rw [topStep_of_other e hst, topStep_of_other e hst]

theorem parseSchema_refines {lib : PLib} {incl incl' : String → IncRes} (hr : Refines incl incl') (init : Schema) (toks : List Token)
    (h : parseSchema lib incl init toks ≠ .hang) : parseSchema lib incl' init toks = parseSchema lib incl init toks := by
  unfold parseSchema P.loop at h ⊢
  generalize ({ toks := toks } : TState).size + 1 = k at h ⊢
  generalize ({ toks := toks } : TState) = s at h ⊢
  generalize (init, "") = st at h ⊢
  induction k generalizing st s with
  | zero => exact absurd rfl h
  | succ k ih =>
    unfold P.loopN at h ⊢
    rw [P.bind_apply] at h ⊢
    rw [P.bind_apply]
    have h1 : topStep lib incl st s ≠ .hang := by
      intro hh; rw [hh] at h; exact h rfl
    rw [topStep_refines hr st s h1]
    cases hb : topStep lib incl st s with
    | ok r s2 =>
      rw [hb] at h
      cases r with
      | inl y => exact ih s2 y h
      | inr a => rfl
    | err e s2 => rfl
    | panic e => rfl
    | hang => rfl

theorem parseFileN_step (lib : PLib) (files : String → Option (List Token)) (n : Nat) :
    Refines (parseFileN lib files n) (parseFileN lib files (n + 1)) := by
  induction n with
  | zero => intro f h; exact absurd rfl h
  | succ n ih =>
    intro f h
    unfold parseFileN at h
    show parseFileN lib files (n + 1 + 1) f = parseFileN lib files (n + 1) f
    unfold parseFileN
    cases hf : files f with
    | none => rfl
    | some toks =>
      rw [hf] at h
      dsimp only at h ⊢
      unfold parseNoValidate at h ⊢
      have h1 : parseSchema lib (parseFileN lib files n) (initialSchema "" "") toks ≠ .hang := by
        intro hh; rw [hh] at h; exact h rfl
      rw [parseSchema_refines ih _ _ h1]

/-- C35: the bound on nested includes in the model is not observable: a result, once reached,
does not change. -/
theorem C35_bound_unobservable (lib : PLib) (files : String → Option (List Token)) (n k : Nat) (f : String)
    (h : parseFileN lib files n f ≠ none) : parseFileN lib files (n + k) f = parseFileN lib files n f := by
  induction k with
  | zero => rfl
  | succ k ih => rw [← ih]; exact parseFileN_step lib files (n + k) f (by rw [ih]; exact h)

/-- C35 (termination, part): if the files do not include each other in a circle, that is, if
every existing file named in a file has a smaller rank, then parsing any file returns.
Circular includes are excluded: see the refutation. -/
theorem C35_terminates_partial (lib : PLib) (files : String → Option (List Token)) (rank : String → Nat)
    (hr : ∀ f toks, files f = some toks → ∀ t ∈ toks, t.type = .string → files t.text ≠ none → rank t.text < rank f) (f : String) :
    ∃ n r, ∀ k, parseFileN lib files (n + k) f = some r := by
  have key : ∀ (n : Nat) (f : String), rank f + 1 < n → parseFileN lib files n f ≠ none := by
    intro n
    induction n with
    | zero => intro f h; omega
    | succ n ih =>
      intro f hf
      unfold parseFileN
      cases hfile : files f with
      | none => simp
      | some toks =>
        dsimp only
        have hinc : ∀ t ∈ toks, t.type = .string → parseFileN lib files n t.text ≠ none := by
          intro t ht h1
          by_cases hex : files t.text = none
          · obtain ⟨m, rfl⟩ : ∃ m, n = m + 1 := ⟨n - 1, by omega⟩
            unfold parseFileN
            rw [hex]; simp
          · have := hr f toks hfile t ht h1 hex
            exact ih _ (by omega)
        have h1 := parseSchema_incl_agree lib (parseFileN lib files n)
          (fun g => if parseFileN lib files n g = none then some (.err "") else parseFileN lib files n g)
          (initialSchema "" "") toks (fun t ht h1 => by simp [hinc t ht h1])
        have h2 := parseSchema_no_hang lib
          (fun g => if parseFileN lib files n g = none then some (.err "") else parseFileN lib files n g)
          (initialSchema "" "") toks (by intro g; split_ifs with hg; simp; exact hg)
        rw [← h1] at h2
        unfold parseNoValidate
        cases hp : parseSchema lib (parseFileN lib files n) (initialSchema "" "") toks with
        | hang => exact absurd hp h2
        | _ => simp
  have h0 := key (rank f + 2) f (by omega)
  obtain ⟨r, hr⟩ := Option.ne_none_iff_exists'.1 h0
  exact ⟨rank f + 2, r, fun k => by rw [C35_bound_unobservable lib files _ k f h0, hr]⟩

/-- Files that include each other in a circle are parsed forever: no bound on the nesting
suffices for a file of a set each of which begins by including one of the set. -/
theorem C35_circle_diverges (lib : PLib) (files : String → Option (List Token)) (S : String → Prop)
    (hS : ∀ f, S f → ∃ g rest, S g ∧ files f = some (sym "include" :: str g :: rest) ∧ ∀ t ∈ rest, t.type ≠ .blockComment) :
    ∀ (n : Nat) (f : String), S f → parseFileN lib files n f = none := by
  intro n
  induction n with
  | zero => intro f _; rfl
  | succ n ih =>
    intro f hf
    obtain ⟨g, rest, hg, hfile, hb⟩ := hS f hf
    unfold parseFileN
    rw [hfile]
    dsimp only
    have hA : At { toks := sym "include" :: str g :: rest } (sym "include" :: str g :: rest) := by
      refine ⟨rfl, ?_⟩
      intro t ht
      simp only [List.mem_cons] at ht
      rcases ht with rfl | rfl | ht
      · simp [sym]
      · simp [str]
      · exact hb t ht
    obtain ⟨s1, s2, g1, g2, _⟩ := getTwo hA
    have hstep := topStep_include (lib := lib) (incl := parseFileN lib files n) (sch := initialSchema "" "") (c := "") g1 g2
    rw [ih g hg] at hstep
    unfold parseNoValidate parseSchema P.loop P.loopN
    rw [P.bind_apply, hstep]

/-- C35 refuted: inclusion does not always terminate; a file that includes itself is parsed
forever. -/
theorem C35_refuted : ∃ files : String → Option (List Token), ∀ n, parseFileN noLib files n "a.sadl" = none := by
  refine ⟨fun _ => some [sym "include", str "a.sadl"], fun n => ?_⟩
  exact C35_circle_diverges noLib _ (fun f => f = "a.sadl") (fun f _ => ⟨"a.sadl", [], rfl, rfl, by simp⟩) n _ rfl

/-! ### Examples -/

/-- `a.sadl` includes `b.sadl` and `c.sadl`, and each defines a type. -/
def threeFiles (f : String) : Option (List Token) :=
  match f with
  | "a.sadl" => some [sym "include", str "b.sadl", nl, sym "include", str "c.sadl", nl, sym "type", sym "A", sym "String", nl]
  | "b.sadl" => some [sym "include", str "c.sadl", nl, sym "type", sym "B", sym "String", nl]
  | "c.sadl" => some [sym "type", sym "C", sym "String", nl]
  | _ => none

def typeNames (r : IncRes) : Option (List String) :=
  match r with
  | some (.ok m) => some (m.schema.types.map (·.name))
  | _ => none

/-- The hypotheses of `C35_terminates_partial` hold of them. -/
example : ∃ rank : String → Nat, ∀ f toks, threeFiles f = some toks → ∀ t ∈ toks, t.type = .string →
    threeFiles t.text ≠ none → rank t.text < rank f := by
  refine ⟨fun f => if f = "a.sadl" then 2 else if f = "b.sadl" then 1 else 0, ?_⟩
  intro f toks h t ht hs _
  unfold threeFiles at h
  split at h
  · injection h with h; subst h
    simp only [List.mem_cons, List.not_mem_nil, or_false] at ht
    rcases ht with rfl | rfl | rfl | rfl | rfl | rfl | rfl | rfl | rfl | rfl <;>
      first | (exact absurd hs (by simp [sym, nl])) | decide
  · injection h with h; subst h
    simp only [List.mem_cons, List.not_mem_nil, or_false] at ht
    rcases ht with rfl | rfl | rfl | rfl | rfl | rfl | rfl <;>
      first | (exact absurd hs (by simp [sym, nl])) | decide
  · injection h with h; subst h
    simp only [List.mem_cons, List.not_mem_nil, or_false] at ht
    rcases ht with rfl | rfl | rfl | rfl <;> exact absurd hs (by simp [sym, nl])
  · simp at h

/-- A diamond of includes is refused, because `C` would be defined twice. -/
example : (match parseFileN noLib threeFiles 5 "a.sadl" with | some (.err _) => true | _ => false) = true := by decide +kernel

/-- A chain is accepted, in order. -/
example : typeNames (parseFileN noLib threeFiles 5 "b.sadl") = some ["C", "B"] := by decide +kernel

end Sadl.Props
