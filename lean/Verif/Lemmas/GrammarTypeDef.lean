import Verif.Lemmas.GrammarTypes
/-
Exact descriptions of types and type definitions.
-/
namespace Sadl
open Spec Props

theorem opts_other {lib : PLib} {acc : List String} {t : Token} {ts r : List Token} {o : Options} (ht : t.type ≠ .openParen) :
    Opts lib acc (t :: ts) o r ↔ o = {} ∧ r = t :: ts := by
  constructor
  · rintro ⟨us, e, ⟨rfl, rfl⟩ | ⟨x, y, items, rfl, _⟩, _⟩
    · exact ⟨rfl, e.symm⟩
    · simp only [List.cons_append, List.cons.injEq] at e
      rw [e.1] at ht
      exact absurd rfl ht
  · rintro ⟨rfl, rfl⟩
    exact ⟨[], rfl, .inl ⟨rfl, rfl⟩, fun _ => by simpa [NotNext] using ht⟩

theorem opts_nil {lib : PLib} {acc : List String} {r : List Token} {o : Options} : Opts lib acc [] o r ↔ o = {} ∧ r = [] := by
  constructor
  · rintro ⟨us, e, h⟩
    obtain ⟨rfl, rfl⟩ := List.append_eq_nil_iff.1 e.symm
    rcases h with ⟨⟨_, rfl⟩ | ⟨x, y, items, h, _⟩, _⟩
    · exact ⟨rfl, rfl⟩
    · cases h
  · rintro ⟨rfl, rfl⟩
    exact ⟨[], rfl, .inl ⟨rfl, rfl⟩, fun _ => by simp [NotNext]⟩

theorem is_generic (n : Nat) (name : String) : Is n (match genericArity name with
      | none => (syntaxError : P Elems)
      | some (name, expected) => do
        let params ← P.loop (paramsStep expected) []
        pure { type := name, params := params })
    (fun ts e r => ∃ n' ps, Generic name n' ps ∧ Params ts ps r ∧ e = { type := n', params := ps }) := by
  cases hg : genericArity name with
  | none =>
    refine Is.congr (is_syntaxError n) ?_
    intro ts e r
    simp only [false_iff]
    rintro ⟨n', ps, h, _⟩
    obtain ⟨e, h1, _⟩ := generic_iff.1 h
    rw [hg] at h1
    cases h1
  | some q =>
    obtain ⟨n', e⟩ := q
    refine Is.congr (is_bind (is_params n e) (fun ps => is_pure n _)) ?_
    intro ts el r
    constructor
    · rintro ⟨ps, m, ⟨h1, h2⟩, rfl, rfl⟩
      exact ⟨n', ps, generic_iff.2 ⟨e, hg, h2⟩, h1, rfl⟩
    · rintro ⟨n'', ps, h1, h2, rfl⟩
      obtain ⟨e', h3, h4⟩ := generic_iff.1 h1
      rw [hg] at h3
      simp only [Option.some.injEq, Prod.mk.injEq] at h3
      obtain ⟨rfl, rfl⟩ := h3
      exact ⟨ps, r, ⟨h2, h4⟩, rfl, rfl⟩

theorem typeExpr_braces {lib : PLib} {name : String} {o : Options} {x : String} {ts ts1 r : List Token} {e : Elems} (hb : Bodied name)
    (h : Opts lib [] ts o (⟨.openBrace, x⟩ :: ts1)) (h1 : Braces lib name o ts1 e r) : TypeExpr lib (⟨.symbol, name⟩ :: ts) e r := by
  obtain ⟨c, ts2, h2, ⟨hn, fs, b, ts3, c', h3, h4, rfl⟩ | ⟨hn, es, b, ts3, c', h3, h4, rfl⟩⟩ := h1
  · exact .fields hn h h2 h3 h4
  · have : name = "Enum" := by
      rcases hb with h | h | h
      · exact absurd (.inl h) hn
      · exact h
      · exact absurd (.inr h) hn
    subst this
    exact .elements h h2 h3 h4

/-- A type with a body, from its name. -/
theorem braces_of {lib : PLib} {name : String} {ts r : List Token} {e : Elems} (hb : Bodied name) (ha : NotNext .openAngle ts)
    (h : TypeExpr lib (⟨.symbol, name⟩ :: ts) e r) :
    (∃ o x ts1, Opts lib [] ts o (⟨.openBrace, x⟩ :: ts1) ∧ Braces lib name o ts1 e r) ∨
    (∃ o t m, Opts lib [] ts o (t :: m) ∧ t.type ≠ .openBrace ∧ ts ≠ [] ∧ e = { type := name, options := o } ∧ r = t :: m) ∨
    (ts = [] ∧ e = { type := name } ∧ r = []) := by
  cases h with
  | plain h => exact absurd hb h
  | generic => simp [NotNext] at ha
  | fields h h1 h2 h3 h4 => exact .inl ⟨_, _, _, h1, _, _, h2, .inl ⟨h, _, _, _, _, h3, h4, rfl⟩⟩
  | elements h1 h2 h3 h4 => exact .inl ⟨_, _, _, h1, _, _, h2, .inr ⟨by decide, _, _, _, _, h3, h4, rfl⟩⟩
  | bare _ h1 _ h2 h3 => exact .inr (.inl ⟨_, _, _, h2, h3, h1, rfl, rfl⟩)
  | bareEnd => exact .inr (.inr ⟨rfl, rfl, rfl⟩)

theorem is_typeStep {n : Nat} {lib : PLib} {recur : P Elems} (h : Is n recur (TypeExpr lib)) :
    Is (n + 1) (typeSpecElementsStep lib recur) (TypeExpr lib) := by
  unfold typeSpecElementsStep
  refine Is.congr (is_bind_succ (is_identifier (n + 1)) (by rintro ts a r rfl; simp) (fun name => is_get (is_pure n _)
    (fun t => isGot_ite (fun _ => isGot_keep (is_generic n name)) (fun _ => isGot_ite
      (fun _ => isGot_ite (fun _ => isGot_unget (is_bind (is_options n lib []) (fun o => is_next (fun u => isGot_ite
          (fun _ => isGot_keep (is_braces h name o)) (fun _ => isGot_unget (is_pure n _))))))
        (fun _ => isGot_keep (is_braces h name {})))
      (fun _ => isGot_unget (is_pure n _)))))) ?_
  intro ts e r
  constructor
  · rintro ⟨name, m, rfl, hm⟩
    rcases m with _ | ⟨⟨ty, tx⟩, us⟩
    · obtain ⟨rfl, rfl⟩ := hm
      by_cases hb : Bodied name
      · exact .bareEnd hb
      · exact .plain hb (by simp [NotNext])
    · rw [onNext_cons] at hm
      rcases hm with ⟨h1, n', ps, h2, h3, rfl⟩ | ⟨h1, ⟨hb, h2⟩ | ⟨hb, rfl, rfl⟩⟩
      · simp only at h1; subst h1; exact .generic h2 h3
      · have ha : NotNext .openAngle (⟨ty, tx⟩ :: us) := by simpa [NotNext] using h1
        rcases h2 with ⟨h3, o, m, h4, h5⟩ | ⟨h3, h4⟩
        · rcases m with _ | ⟨⟨ty2, tx2⟩, m⟩
          · exact h5.elim
          · rw [onNext_cons] at h5
            rcases h5 with ⟨h6, h7⟩ | ⟨h6, rfl, rfl⟩
            · simp only at h6; subst h6; exact typeExpr_braces hb h4 h7
            · exact .bare hb (by simp) ha h4 h6
        · simp only [not_not] at h3; subst h3
          exact typeExpr_braces hb ((opts_other (by simp)).2 ⟨rfl, rfl⟩) h4
      · exact .plain hb (by simpa [NotNext] using h1)
  · intro h
    have hhd : ∃ name m, ts = ⟨.symbol, name⟩ :: m := by cases h <;> exact ⟨_, _, rfl⟩
    obtain ⟨name, m, rfl⟩ := hhd
    refine ⟨name, m, rfl, ?_⟩
    rcases m with _ | ⟨⟨ty, tx⟩, us⟩
    · rw [onNext_nil]
      by_cases hb : Bodied name
      · rcases braces_of hb (by simp [NotNext]) h with ⟨o, x, ts1, h1, _⟩ | ⟨o, t, m, h1, _⟩ | ⟨_, rfl, rfl⟩
        · cases (opts_nil.1 h1).2
        · cases (opts_nil.1 h1).2
        · exact ⟨rfl, rfl⟩
      · cases h with
        | plain => exact ⟨rfl, rfl⟩
        | fields h => rcases h with rfl | rfl <;> simp [Bodied] at hb
        | elements => simp [Bodied] at hb
        | bare h => exact absurd h hb
        | bareEnd h => exact absurd h hb
    · rw [onNext_cons]
      by_cases ha : ty = .openAngle
      · subst ha
        refine .inl ⟨rfl, ?_⟩
        cases h with
        | plain _ h => simp [NotNext] at h
        | generic h1 h2 => exact ⟨_, _, h1, h2, rfl⟩
        | fields _ h => cases ((opts_other (by simp)).1 h).2
        | elements h => cases ((opts_other (by simp)).1 h).2
        | bare _ _ h => simp [NotNext] at h
      · refine .inr ⟨ha, ?_⟩
        by_cases hb : Bodied name
        · refine .inl ⟨hb, ?_⟩
          by_cases ho : ty = .openBrace
          · subst ho
            refine .inr ⟨by simp, ?_⟩
            rcases braces_of hb (by simp [NotNext]) h with ⟨o, x, ts1, h1, h2⟩ | ⟨o, t, m, h1, h2, _⟩ | ⟨h1, _⟩
            · obtain ⟨rfl, h3⟩ := (opts_other (by simp)).1 h1
              injection h3 with h4 h5
              subst h5
              exact h2
            · obtain ⟨rfl, h3⟩ := (opts_other (by simp)).1 h1
              injection h3 with h4 h5
              rw [h4] at h2
              exact absurd rfl h2
            · cases h1
          · refine .inl ⟨ho, ?_⟩
            rcases braces_of hb (by simpa [NotNext] using ha) h with ⟨o, x, ts1, h1, h2⟩ | ⟨o, t, m, h1, h2, _, rfl, rfl⟩ | ⟨h1, _⟩
            · exact ⟨o, _, h1, .inl ⟨rfl, h2⟩⟩
            · exact ⟨o, _, h1, .inr ⟨h2, rfl, rfl⟩⟩
            · cases h1
        · refine .inr ⟨hb, ?_⟩
          cases h with
          | plain => exact ⟨rfl, rfl⟩
          | generic => exact absurd rfl ha
          | fields h => rcases h with rfl | rfl <;> simp [Bodied] at hb
          | elements => simp [Bodied] at hb
          | bare h => exact absurd h hb

theorem is_typeN (lib : PLib) : ∀ k, Is k (typeSpecElementsN lib k) (TypeExpr lib)
  | 0 => ⟨fun s a s' h => by simp [typeSpecElementsN, P.hang] at h, fun s h => by omega, fun ts a r h => le_of_lt (typeExpr_shrink h)⟩
  | k + 1 => is_typeStep (is_typeN lib k)

theorem is_type (n : Nat) (lib : PLib) : Is n (parseTypeSpecElements lib) (TypeExpr lib) := is_recursion (is_typeN lib) n

theorem is_typeSpec (n : Nat) (lib : PLib) (c : String) : Is n (parseTypeSpec lib c)
    (fun ts q r => ∃ e s, TypeExpr lib ts e r ∧ HasParts e s ∧ q = (s, e.options, mergeComment c e.comment)) :=
  is_typeSpecWith (is_type n lib) c

/-! ### Type definitions -/

theorem is_simpleDef (n : Nat) (lib : PLib) (td : TypeDef) (acc : List String) : Is n (parseSimpleDef lib td acc)
    (fun ts td' r => ∃ o m c', Opts lib acc ts o m ∧ Ends td.comment m c' true r ∧ td' = typeOf td o c') := by
  unfold parseSimpleDef parseTypeOptions
  refine Is.congr (is_bind (is_bind (is_options n lib acc) (fun o => is_pure n _)) (fun td' => is_bind (is_end! n _) (fun c => is_pure n _))) ?_
  intro ts td' r
  constructor
  · rintro ⟨_, m, ⟨o, m', h1, rfl, rfl⟩, c, m2, h2, rfl, rfl⟩
    exact ⟨o, _, c, h1, h2, rfl⟩
  · rintro ⟨o, m, c, h1, h2, rfl⟩
    exact ⟨_, m, ⟨o, m, h1, rfl, rfl⟩, c, r, h2, rfl, rfl⟩

theorem is_typeOptions (n : Nat) (lib : PLib) (td : TypeDef) (acc : List String) : Is n (parseTypeOptions lib td acc)
    (fun ts td' r => ∃ o, Opts lib acc ts o r ∧ td' = typeOf td o td.comment) := by
  unfold parseTypeOptions
  refine Is.congr (is_bind (is_options n lib acc) (fun o => is_pure n _)) ?_
  intro ts td' r
  constructor
  · rintro ⟨o, m', h1, rfl, rfl⟩; exact ⟨o, h1, rfl⟩
  · rintro ⟨o, h1, rfl⟩; exact ⟨o, r, h1, rfl, rfl⟩

theorem optItems_noOptions {lib : PLib} {us : List Token} {o o' : Options} (h : OptItems lib (AnyLit lib) [] us o o') :
    o' = { o with annotations := o'.annotations } := by
  induction h with
  | nil => rfl
  | comma _ ih => exact ih
  | flag _ _ ih => rw [ih]
  | anno _ _ ih => rw [ih]
  | opt _ hm => cases hm

/-- Where no option is acceptable there are only annotations. -/
theorem opts_noOptions {lib : PLib} {ts r : List Token} {o : Options} (h : Opts lib [] ts o r) : o = { annotations := o.annotations } := by
  obtain ⟨us, _, ⟨_, rfl⟩ | ⟨x, y, items, _, h⟩, _⟩ := h
  · rfl
  · exact optItems_noOptions h

/-- The rest of a type definition, after its supertype. -/
def TypeTail (lib : PLib) (c name : String) (e : Elems) : Rel TypeDef := fun ts td r =>
  (e.type ∈ simpleTypes ∧ ∃ s o ts2 c', (e.type ∉ ["Array", "List", "Map", "UnitValue"] → s = { type := e.type }) ∧
      (e.type ∈ ["Array", "List", "Map", "UnitValue"] → HasParts { type := e.type, params := e.params } s) ∧
      Opts lib (typeOptionNames e.type) ts o ts2 ∧ Ends (mergeComment c e.comment) ts2 c' true r ∧
      td = asUuid (typeOf { name := name, ts := s } o c')) ∨
  (e.type = "Struct" ∧ ∃ o, Opts lib [] ts o r ∧
      td = { name := name, comment := mergeComment c e.comment, annotations := e.options.annotations,
             ts := { type := "Struct", fields := e.fields } }) ∨
  (e.type = "Enum" ∧ r = ts ∧
      td = { name := name, comment := mergeComment c e.comment, annotations := e.options.annotations,
             ts := { type := "Enum", elements := e.elements } }) ∨
  (e.type = "Union" ∧ ∃ o ts2 c' vs, Opts lib [] ts o ts2 ∧ Ends (mergeComment c e.comment) ts2 c' true r ∧ vs ≠ [] ∧
      (e.params ≠ [] ∧ vs = e.params.map (fun p => { name := p, ts := { type := p } }) ∨
       e.params = [] ∧ vs = e.fields.map (fun f => { name := f.name, ts := { type := f.ts.type } })) ∧
      td = { name := name, comment := c', annotations := o.annotations, ts := { type := "Union", variants := vs } })

theorem typeDirective_iff {lib : PLib} {c : String} {ts r : List Token} {td : TypeDef} :
    TypeDirective lib c ts td r ↔ ∃ n ts' e m, ts = ⟨.symbol, n⟩ :: ts' ∧ TypeExpr lib ts' e m ∧ TypeTail lib c n e m td r := by
  constructor
  · intro h
    cases h with
    | simple h1 h2 h3 h4 h5 h6 => exact ⟨_, _, _, _, rfl, h1, .inl ⟨h2, _, _, _, _, h3, h4, h5, h6, rfl⟩⟩
    | struct h1 h2 h3 => exact ⟨_, _, _, _, rfl, h1, .inr (.inl ⟨h2, _, h3, rfl⟩)⟩
    | enum h1 h2 => exact ⟨_, _, _, _, rfl, h1, .inr (.inr (.inl ⟨h2, rfl, rfl⟩))⟩
    | union h1 h2 h3 h4 h5 h6 => exact ⟨_, _, _, _, rfl, h1, .inr (.inr (.inr ⟨h2, _, _, _, _, h3, h4, h5, h6, rfl⟩))⟩
  · rintro ⟨n, ts', e, m, rfl, h1, ⟨h2, s, o, ts2, c', h3, h4, h5, h6, rfl⟩ | ⟨h2, o, h3, rfl⟩ | ⟨h2, rfl, rfl⟩ |
      ⟨h2, o, ts2, c', vs, h3, h4, h5, h6, rfl⟩⟩
    · exact .simple h1 h2 h3 h4 h5 h6
    · exact .struct h1 h2 h3
    · exact .enum h1 h2
    · exact .union h1 h2 h3 h4 h5 h6

theorem asUuid_other {td : TypeDef} (h : td.ts.type ≠ "String") : asUuid td = td := by
  unfold asUuid
  rw [if_neg (fun h' => h h'.1)]

theorem typeOf_type {td : TypeDef} {o : Options} {c : String} : (typeOf td o c).ts.type = td.ts.type := rfl

theorem is_tail_simple {n : Nat} {lib : PLib} {c name : String} {e : Elems} {acc : List String} (h1 : e.type ∈ simpleTypes)
    (h2 : e.type ∉ ["Array", "List", "Map", "UnitValue"]) (h3 : typeOptionNames e.type = acc) (h4 : e.type ≠ "String") :
    Is n (parseSimpleDef lib { name := name, comment := mergeComment c e.comment, ts := { type := e.type } } acc) (TypeTail lib c name e) := by
  have h5 : e.type ≠ "Struct" := by rintro h; rw [h] at h1; revert h1; decide
  have h6 : e.type ≠ "Enum" := by rintro h; rw [h] at h1; revert h1; decide
  have h7 : e.type ≠ "Union" := by rintro h; rw [h] at h1; revert h1; decide
  refine Is.congr (is_simpleDef n lib _ acc) ?_
  intro ts td r
  subst h3
  constructor
  · rintro ⟨o, m, c', g1, g2, rfl⟩
    exact .inl ⟨h1, _, o, m, c', fun _ => rfl, fun h => absurd h h2, g1, g2, (asUuid_other (by rw [typeOf_type]; exact h4)).symm⟩
  · rintro (⟨_, s, o, m, c', g1, _, g2, g3, rfl⟩ | ⟨h, _⟩ | ⟨h, _⟩ | ⟨h, _⟩)
    · rw [g1 h2]
      exact ⟨o, m, c', g2, g3, asUuid_other (by rw [typeOf_type]; exact h4)⟩
    · exact absurd h h5
    · exact absurd h h6
    · exact absurd h h7

theorem is_tail_simple' {n : Nat} {lib : PLib} {c name ty comment : String} {params : List String} {fields : List StructFieldDef}
    {elements : List EnumElementDef} {options : Options} {acc : List String} (h1 : ty ∈ simpleTypes)
    (h2 : ty ∉ ["Array", "List", "Map", "UnitValue"]) (h3 : typeOptionNames ty = acc) (h4 : ty ≠ "String") :
    Is n (parseSimpleDef lib { name := name, comment := mergeComment c comment, ts := { type := ty } } acc)
      (TypeTail lib c name ⟨ty, params, fields, elements, options, comment⟩) :=
  is_tail_simple (e := ⟨ty, params, fields, elements, options, comment⟩) h1 h2 h3 h4

/-- As `is_tail_simple` for types with parameters. -/
theorem tail_params {lib : PLib} {c name : String} {e : Elems} {ts r : List Token} {td : TypeDef}
    (h1 : e.type ∈ ["Array", "List", "Map", "UnitValue"]) :
    TypeTail lib c name e ts td r ↔ ∃ s o m c', HasParts { type := e.type, params := e.params } s ∧
      Opts lib (typeOptionNames e.type) ts o m ∧ Ends (mergeComment c e.comment) m c' true r ∧ td = typeOf { name := name, ts := s } o c' := by
  have ht : ∀ s, HasParts { type := e.type, params := e.params } s → s.type ≠ "String" := by
    intro s h
    have : s.type = e.type := by cases h <;> rfl
    rw [this]
    rintro h; rw [h] at h1; revert h1; decide
  have h5 : e.type ≠ "Struct" := by rintro h; rw [h] at h1; revert h1; decide
  have h6 : e.type ≠ "Enum" := by rintro h; rw [h] at h1; revert h1; decide
  have h7 : e.type ≠ "Union" := by rintro h; rw [h] at h1; revert h1; decide
  have h8 : e.type ∈ simpleTypes := by
    simp only [List.mem_cons, List.not_mem_nil, or_false] at h1
    rcases h1 with h | h | h | h <;> rw [h] <;> decide
  constructor
  · rintro (⟨_, s, o, m, c', _, g1, g2, g3, rfl⟩ | ⟨h, _⟩ | ⟨h, _⟩ | ⟨h, _⟩)
    · exact ⟨s, o, m, c', g1 h1, g2, g3, asUuid_other (by rw [typeOf_type]; exact ht s (g1 h1))⟩
    · exact absurd h h5
    · exact absurd h h6
    · exact absurd h h7
  · rintro ⟨s, o, m, c', g1, g2, g3, rfl⟩
    exact .inl ⟨h8, s, o, m, c', fun h => absurd h1 h, fun _ => g1, g2, g3, (asUuid_other (by rw [typeOf_type]; exact ht s g1)).symm⟩

theorem is_arrayParams (n : Nat) (ps : List String) : Is n (arrayParams ps) (fun ts i r => (ps = [] ∧ i = "Any" ∨ ps = [i]) ∧ r = ts) :=
  is_reads_nothing (fun s a s' h => by have := arrayParams_iff.1 h; exact this)
    (fun s a h => arrayParams_iff.2 ⟨h, rfl⟩)

theorem is_mapParams (n : Nat) (ps : List String) :
    Is n (mapParams ps) (fun ts q r => (ps = [] ∧ q.1 = "String" ∧ q.2 = "Any" ∨ ps = [q.1, q.2]) ∧ r = ts) :=
  is_reads_nothing (fun s a s' h => by have := mapParams_iff.1 h; exact this)
    (fun s a h => mapParams_iff.2 ⟨h, rfl⟩)

theorem is_unitValueParams (n : Nat) (ps : List String) :
    Is n (unitValueParams ps) (fun ts q r => (ps = [] ∧ q.1 = "Decimal" ∧ q.2 = "String" ∨ ps = [q.1, q.2]) ∧ r = ts) :=
  is_reads_nothing (fun s a s' h => by have := unitValueParams_iff.1 h; exact this)
    (fun s a h => unitValueParams_iff.2 ⟨h, rfl⟩)

theorem is_tail_array {n : Nat} {lib : PLib} {c name : String} {e : Elems} (h1 : e.type = "Array" ∨ e.type = "List") :
    Is n (parseArrayDef lib { name := name, comment := mergeComment c e.comment, ts := { type := e.type } } e.params) (TypeTail lib c name e) := by
  unfold parseArrayDef
  refine Is.congr (is_bind (is_arrayParams n _) (fun i => is_simpleDef n lib _ _)) ?_
  intro ts td r
  rw [tail_params (by rcases h1 with h | h <;> rw [h] <;> decide)]
  have ha : typeOptionNames e.type = ["minsize", "maxsize"] := by rcases h1 with h | h <;> rw [h] <;> decide
  rw [ha]
  constructor
  · rintro ⟨i, m, ⟨h2, rfl⟩, o, m1, c', h3, h4, rfl⟩
    exact ⟨_, o, m1, c', .array h1 h2, h3, h4, rfl⟩
  · rintro ⟨s, o, m1, c', h2, h3, h4, rfl⟩
    cases h2 with
    | @array i _ h2 => exact ⟨i, ts, ⟨h2, rfl⟩, o, m1, c', h3, h4, rfl⟩
    | map h => rcases h1 with h1 | h1 <;> (simp only at h; rw [h] at h1; exact absurd h1 (by decide))
    | unitValue h => rcases h1 with h1 | h1 <;> (simp only at h; rw [h] at h1; exact absurd h1 (by decide))
    | other h h' => rcases h1 with h1 | h1 <;> contradiction

theorem is_tail_map {n : Nat} {lib : PLib} {c name : String} {e : Elems} (h1 : e.type = "Map") :
    Is n (parseMapDef lib { name := name, comment := mergeComment c e.comment, ts := { type := e.type } } e.params) (TypeTail lib c name e) := by
  unfold parseMapDef
  refine Is.congr (is_bind (is_mapParams n _) (fun i => is_simpleDef n lib _ _)) ?_
  intro ts td r
  rw [tail_params (by rw [h1]; decide)]
  have ha : typeOptionNames e.type = ["minsize", "maxsize"] := by rw [h1]; decide
  rw [ha]
  constructor
  · rintro ⟨i, m, ⟨h2, rfl⟩, o, m1, c', h3, h4, rfl⟩
    exact ⟨_, o, m1, c', .map h1 h2, h3, h4, rfl⟩
  · rintro ⟨s, o, m1, c', h2, h3, h4, rfl⟩
    cases h2 with
    | array h => rcases h with h | h <;> (simp only at h; rw [h] at h1; exact absurd h1 (by decide))
    | @map k i _ h2 => exact ⟨(k, i), ts, ⟨h2, rfl⟩, o, m1, c', h3, h4, rfl⟩
    | unitValue h => simp only at h; rw [h] at h1; exact absurd h1 (by decide)
    | other _ _ h => contradiction

theorem is_tail_unitValue {n : Nat} {lib : PLib} {c name : String} {e : Elems} (h1 : e.type = "UnitValue") :
    Is n (parseUnitValueDef lib { name := name, comment := mergeComment c e.comment, ts := { type := e.type } } e.params)
      (TypeTail lib c name e) := by
  unfold parseUnitValueDef
  refine Is.congr (is_bind (is_typeOptions n lib _ []) (fun td => is_bind (is_unitValueParams n _) (fun q => is_bind (is_end! n _)
    (fun c => is_pure n _)))) ?_
  intro ts td r
  rw [tail_params (by rw [h1]; decide)]
  have ha : typeOptionNames e.type = [] := by rw [h1]; decide
  rw [ha]
  constructor
  · rintro ⟨_, m, ⟨o, h3, rfl⟩, q, m1, ⟨h2, rfl⟩, c', m2, h4, rfl, rfl⟩
    exact ⟨_, o, _, c', .unitValue h1 h2, h3, h4, rfl⟩
  · rintro ⟨s, o, m1, c', h2, h3, h4, rfl⟩
    cases h2 with
    | array h => rcases h with h | h <;> (simp only at h; rw [h] at h1; exact absurd h1 (by decide))
    | map h => simp only at h; rw [h] at h1; exact absurd h1 (by decide)
    | @unitValue v u _ h2 => exact ⟨_, m1, ⟨o, h3, rfl⟩, (v, u), m1, ⟨h2, rfl⟩, c', r, h4, rfl, rfl⟩
    | other _ _ _ h => contradiction

theorem is_tail_string {n : Nat} {lib : PLib} {c name : String} {e : Elems} (h1 : e.type = "String") :
    Is n (parseStringDef lib { name := name, comment := mergeComment c e.comment, ts := { type := e.type } }) (TypeTail lib c name e) := by
  unfold parseStringDef
  refine Is.congr (is_bind (is_simpleDef n lib _ _) (fun td => is_pure n _)) ?_
  intro ts td r
  have ha : typeOptionNames e.type = ["minsize", "maxsize", "pattern", "values", "reference"] := by rw [h1]; decide
  have hu : ∀ td : TypeDef, td.ts.type = "String" →
      (if td.ts.pattern = regExUUID then { td with ts := { td.ts with type := "UUID", pattern := "" } } else td) = asUuid td := by
    intro td h
    unfold asUuid
    by_cases hp : td.ts.pattern = uuidPattern
    · rw [if_pos (show td.ts.pattern = regExUUID from hp), if_pos ⟨h, hp⟩]
    · rw [if_neg (show ¬ td.ts.pattern = regExUUID from hp), if_neg (fun h => hp h.2)]
  constructor
  · rintro ⟨_, m, ⟨o, m1, c', h2, h3, rfl⟩, rfl, rfl⟩
    refine .inl ⟨by rw [h1]; decide, { type := e.type }, o, m1, c', fun _ => rfl, fun h => ?_, by rw [ha]; exact h2, h3, ?_⟩
    · rw [h1] at h; exact absurd h (by decide)
    · exact hu (typeOf _ o c') h1
  · rintro (⟨_, s, o, m1, c', h2, _, h3, h4, rfl⟩ | ⟨h, _⟩ | ⟨h, _⟩ | ⟨h, _⟩)
    · rw [ha] at h3
      refine ⟨_, r, ⟨o, m1, c', h3, h4, rfl⟩, ?_, rfl⟩
      rw [h2 (by rw [h1]; decide)]
      exact (hu (typeOf { name := name, comment := mergeComment c e.comment, ts := { type := e.type } } o c') h1).symm
    all_goals (rw [h] at h1; exact absurd h1 (by decide))

theorem is_tail_struct {n : Nat} {lib : PLib} {c name : String} {e : Elems} (h1 : e.type = "Struct") :
    Is n (parseStructDef lib { name := name, comment := mergeComment c e.comment, ts := { type := e.type } } e) (TypeTail lib c name e) := by
  unfold parseStructDef
  refine Is.congr (is_bind (is_typeOptions n lib _ []) (fun td => is_pure n _)) ?_
  intro ts td r
  have key : ∀ o m, Opts lib [] ts o m → ({ typeOf { name := name, comment := mergeComment c e.comment, ts := { type := e.type } } o (mergeComment c e.comment) with
      annotations := e.options.annotations, ts := { (typeOf { name := name, comment := mergeComment c e.comment, ts := { type := e.type } } o (mergeComment c e.comment)).ts with fields := e.fields } } : TypeDef) =
      { name := name, comment := mergeComment c e.comment, annotations := e.options.annotations,
        ts := { type := "Struct", fields := e.fields } } := by
    intro o m h
    rw [opts_noOptions h, h1]
    rfl
  constructor
  · rintro ⟨_, m, ⟨o, h2, rfl⟩, rfl, rfl⟩
    exact .inr (.inl ⟨h1, o, h2, key o _ h2⟩)
  · rintro (⟨h, _⟩ | ⟨_, o, h2, rfl⟩ | ⟨h, _⟩ | ⟨h, _⟩)
    · rw [h1] at h; exact absurd h (by decide)
    · exact ⟨_, r, ⟨o, h2, rfl⟩, (key o _ h2).symm, rfl⟩
    all_goals (rw [h] at h1; exact absurd h1 (by decide))

theorem is_tail_enum {n : Nat} {lib : PLib} {c name : String} {e : Elems} (h1 : e.type = "Enum") :
    Is n (pure { name := name, comment := mergeComment c e.comment, annotations := e.options.annotations, ts := { type := e.type, elements := e.elements } })
      (TypeTail lib c name e) := by
  refine Is.congr (is_pure n _) ?_
  intro ts td r
  constructor
  · rintro ⟨rfl, rfl⟩; exact .inr (.inr (.inl ⟨h1, rfl, by rw [h1]⟩))
  · rintro (⟨h, _⟩ | ⟨h, _⟩ | ⟨_, rfl, rfl⟩ | ⟨h, _⟩)
    · rw [h1] at h; exact absurd h (by decide)
    · rw [h] at h1; exact absurd h1 (by decide)
    · exact ⟨by rw [h1], rfl⟩
    · rw [h] at h1; exact absurd h1 (by decide)

theorem is_tail_union {n : Nat} {lib : PLib} {c name : String} {e : Elems} (h1 : e.type = "Union") :
    Is n (parseUnionDef lib { name := name, comment := mergeComment c e.comment, ts := { type := e.type } } e) (TypeTail lib c name e) := by
  unfold parseUnionDef
  refine Is.congr (is_bind (is_typeOptions n lib _ []) (fun td => is_ite (fun _ => is_syntaxError n) (fun _ => is_bind (is_end! n _)
    (fun c => is_pure n _)))) ?_
  intro ts td r
  have key : ∀ o m c', Opts lib [] ts o m → ({ typeOf { name := name, comment := mergeComment c e.comment, ts := { type := e.type } } o (mergeComment c e.comment) with
      comment := c', ts := { (typeOf { name := name, comment := mergeComment c e.comment, ts := { type := e.type } } o (mergeComment c e.comment)).ts with variants := unionVariants e.params e.fields } } : TypeDef) =
      { name := name, comment := c', annotations := o.annotations, ts := { type := "Union", variants := unionVariants e.params e.fields } } := by
    intro o m c' h
    rw [opts_noOptions h, h1]
    rfl
  have hv : ∀ vs : List UnionVariantDef, (vs ≠ [] ∧ (e.params ≠ [] ∧ vs = e.params.map (fun p => { name := p, ts := { type := p } }) ∨
       e.params = [] ∧ vs = e.fields.map (fun f => { name := f.name, ts := { type := f.ts.type } }))) ↔
       (¬ (e.params = [] ∧ e.fields = []) ∧ vs = unionVariants e.params e.fields) := by
    intro vs
    unfold unionVariants
    by_cases hp : e.params = []
    · rw [if_neg (by simpa using hp)]
      constructor
      · rintro ⟨h2, ⟨h3, _⟩ | ⟨_, rfl⟩⟩
        · exact absurd hp h3
        · exact ⟨fun h => h2 (by rw [h.2]; rfl), rfl⟩
      · rintro ⟨h2, rfl⟩
        exact ⟨fun h => h2 ⟨hp, List.map_eq_nil_iff.1 h⟩, .inr ⟨hp, rfl⟩⟩
    · rw [if_pos (by simpa using hp)]
      constructor
      · rintro ⟨h2, ⟨_, rfl⟩ | ⟨h3, _⟩⟩
        · exact ⟨fun h => hp h.1, rfl⟩
        · exact absurd h3 hp
      · rintro ⟨h2, rfl⟩
        exact ⟨fun h => hp (List.map_eq_nil_iff.1 h), .inl ⟨hp, rfl⟩⟩
  constructor
  · rintro ⟨_, m, ⟨o, h2, rfl⟩, ⟨_, h⟩ | ⟨h3, c', m1, h4, rfl, rfl⟩⟩
    · exact h.elim
    · obtain ⟨h5, h6⟩ := (hv _).2 ⟨h3, rfl⟩
      exact .inr (.inr (.inr ⟨h1, o, m, c', _, h2, h4, h5, h6, key o m c' h2⟩))
  · rintro (⟨h, _⟩ | ⟨h, _⟩ | ⟨h, _⟩ | ⟨_, o, m, c', vs, h2, h4, h5, h6, rfl⟩)
    · rw [h1] at h; exact absurd h (by decide)
    · rw [h] at h1; exact absurd h1 (by decide)
    · rw [h] at h1; exact absurd h1 (by decide)
    · obtain ⟨h7, rfl⟩ := (hv _).1 ⟨h5, h6⟩
      exact ⟨_, m, ⟨o, h2, rfl⟩, .inr ⟨h7, c', r, h4, (key o m c' h2).symm, rfl⟩⟩

theorem is_typeDirective (n : Nat) (lib : PLib) (c : String) : Is n (parseTypeDirective lib c) (TypeDirective lib c) := by
  unfold parseTypeDirective
  have tail : ∀ (name : String) (e : Elems), Is n (
      let td : TypeDef := { name := name, comment := mergeComment c e.comment, ts := { type := e.type } }
      match e.type with
      | "Any" | "Bool" | "Timestamp" => parseSimpleDef lib td []
      | "Int8" | "Int16" | "Int32" | "Int64" | "Float32" | "Float64" | "Decimal" =>
        parseSimpleDef lib td ["min", "max"]
      | "Bytes" => parseSimpleDef lib td ["minsize", "maxsize"]
      | "String" => parseStringDef lib td
      | "UUID" => parseSimpleDef lib td ["reference"]
      | "UnitValue" => parseUnitValueDef lib td e.params
      | "Array" | "List" => parseArrayDef lib td e.params
      | "Map" => parseMapDef lib td e.params
      | "Struct" => parseStructDef lib td e
      | "Enum" => pure { td with annotations := e.options.annotations, ts := { td.ts with elements := e.elements } }
      | "Union" => parseUnionDef lib td e
      | _ => P.fail "Super type must be a base type") (TypeTail lib c name e) := by
    intro name e
    obtain ⟨ty, params, fields, elements, options, comment⟩ := e
    simp only
    split
    iterate 3 exact is_tail_simple' (by decide) (by decide) (by decide) (by decide)
    iterate 7 exact is_tail_simple' (by decide) (by decide) (by decide) (by decide)
    · exact is_tail_simple' (by decide) (by decide) (by decide) (by decide)
    · exact is_tail_string (e := ⟨_, params, fields, elements, options, comment⟩) rfl
    · exact is_tail_simple' (by decide) (by decide) (by decide) (by decide)
    · exact is_tail_unitValue (e := ⟨_, params, fields, elements, options, comment⟩) rfl
    · exact is_tail_array (e := ⟨_, params, fields, elements, options, comment⟩) (.inl rfl)
    · exact is_tail_array (e := ⟨_, params, fields, elements, options, comment⟩) (.inr rfl)
    · exact is_tail_map (e := ⟨_, params, fields, elements, options, comment⟩) rfl
    · exact is_tail_struct (e := ⟨_, params, fields, elements, options, comment⟩) rfl
    · exact is_tail_enum (e := ⟨_, params, fields, elements, options, comment⟩) rfl
    · exact is_tail_union (e := ⟨_, params, fields, elements, options, comment⟩) rfl
    · refine Is.congr (is_fail n _) ?_
      intro ts td r
      simp only [false_iff]
      unfold TypeTail
      simp only
      rintro (⟨h, _⟩ | ⟨h, _⟩ | ⟨h, _⟩ | ⟨h, _⟩)
      · simp only [simpleTypes, numericTypes, List.cons_append, List.nil_append, List.mem_cons, List.not_mem_nil, or_false] at h
        tauto
      all_goals tauto
  refine Is.congr (is_bind (is_identifier n) (fun name => is_bind (is_type n lib) (fun e => tail name e))) ?_
  intro ts td r
  rw [typeDirective_iff]
  constructor
  · rintro ⟨name, m, rfl, e, m1, h1, h2⟩; exact ⟨name, m, e, m1, rfl, h1, h2⟩
  · rintro ⟨name, m, e, m1, rfl, h1, h2⟩; exact ⟨name, m, rfl, e, m1, h1, h2⟩

end Sadl
