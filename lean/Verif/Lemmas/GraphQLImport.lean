import Verif.Lemmas.GraphQLDoc
/-
Importing GraphQL documents; exporting and importing.
-/
namespace Sadl.GraphQL
open Sadl.Spec

theorem sadlName_eq (n : String) : convertTypeName n = sadlName n := by
  unfold convertTypeName
  split
  · rfl
  · rfl
  · rfl
  · rename_i h1 h2 h3
    have e : ∀ k, (n = k → False) → (n == k) = false := fun k h => by
      rw [beq_eq_false_iff_ne]; exact h
    simp [sadlName, List.lookup, e _ h1, e _ h2, e _ h3]

/-! ### Success -/

/-- The types a field may have for the import not to panic. -/
def Passes (t : GTyp) : Prop := ∃ x, fieldType t = .ok x

theorem passes_iff (t : GTyp) : Passes t ↔ OneLevel t ∨ ∃ i, t = .nonNull (.list (.nonNull (.list i))) := by
  constructor
  · rintro ⟨x, h⟩
    rcases t with n | i | i
    · exact .inl .named
    · rcases i with n | i | i
      · exact .inl .list
      · cases h
      · rcases i with n | i | i
        · exact .inl .listNonNull
        · cases h
        · cases h
    · rcases i with n | i | i
      · exact .inl .nonNull
      · rcases i with n | i | i
        · exact .inl .nonNullList
        · cases h
        · rcases i with n | i | i
          · exact .inl .nonNullListNonNull
          · exact .inr ⟨i, rfl⟩
          · cases h
      · cases h
  · rintro (h | ⟨i, rfl⟩)
    · cases h <;> exact ⟨_, rfl⟩
    · exact ⟨_, rfl⟩

theorem oneLine_comment (d : Option String) : OneLine d (commentValue (stringValue d)) := by
  unfold OneLine commentValue stringValue
  rw [String.toList_ofList]
  induction (d.getD "").toList with
  | nil => exact .nil
  | cons c l ih =>
    refine .cons ?_ ih
    by_cases h : c = '\n' <;> simp [h]

theorem gqlField_shows {f : GFieldDef} {fd : StructFieldDef} (h : gqlField f = .ok fd) : FieldShows f fd := by
  unfold gqlField at h
  cases ht : fieldType f.type with
  | err e => rw [ht] at h; cases h
  | panic e => rw [ht] at h; cases h
  | ok t =>
    rw [ht] at h
    cases h
    refine ⟨rfl, ?_, ?_, ?_, oneLine_comment _⟩
    · simp only
      revert ht
      cases f.type with
      | named n => intro ht; cases ht; simp
      | list i =>
        rcases i with n | i | i
        · intro ht; cases ht; simp
        · intro ht; cases ht
        · rcases i with n | i | i <;> intro ht <;> cases ht <;> simp
      | nonNull i =>
        rcases i with n | i | i
        · intro ht; cases ht; simp
        · rcases i with n | i | i
          · intro ht; cases ht; simp
          · intro ht; cases ht
          · rcases i with n | i | i <;> intro ht <;> cases ht <;> simp
        · intro ht; cases ht
    · intro n hn
      rcases hn with e | e <;> rw [e] at ht <;> cases ht <;> simp [sadlName_eq]
    · intro n i hi hn
      rcases hi with e | e <;> rcases hn with e' | e' <;> subst e' <;> rw [e] at ht <;> cases ht <;> simp [sadlName_eq]

theorem gqlFields_shows (fs : List GFieldDef) : ∀ fds, gqlFields fs = .ok fds → List.Forall₂ FieldShows fs fds := by
  induction fs with
  | nil => intro fds h; cases h; exact .nil
  | cons f fs ih =>
    intro fds h
    rw [gqlFields] at h
    cases h1 : gqlField f with
    | err e => rw [h1] at h; cases h
    | panic e => rw [h1] at h; cases h
    | ok fd =>
      rw [h1] at h
      cases h2 : gqlFields fs with
      | err e => rw [h2] at h; cases h
      | panic e => rw [h2] at h; cases h
      | ok fds' =>
        rw [h2] at h
        cases h
        exact .cons (gqlField_shows h1) (ih _ h2)

theorem gqlFields_ok (fs : List GFieldDef) (h : ∀ f ∈ fs, Passes f.type) : ∃ fds, gqlFields fs = .ok fds := by
  induction fs with
  | nil => exact ⟨[], rfl⟩
  | cons f fs ih =>
    obtain ⟨x, hx⟩ := h f (by simp)
    obtain ⟨fds, h2⟩ := ih (fun f h' => h f (by simp [h']))
    obtain ⟨fd, hfd⟩ : ∃ fd, gqlField f = .ok fd := by
      unfold gqlField
      rw [hx]
      exact ⟨_, rfl⟩
    exact ⟨fd :: fds, by rw [gqlFields, hfd, h2]; rfl⟩

theorem gqlStruct_shows {n d fs td} (h : gqlStruct n d fs = .ok td) : DefShows (.object n d fs) td := by
  unfold gqlStruct at h
  cases h1 : gqlFields fs with
  | err e => rw [h1] at h; cases h
  | panic e => rw [h1] at h; cases h
  | ok fds =>
    rw [h1] at h
    cases h
    exact .object rfl rfl (gqlFields_shows fs fds h1) (oneLine_comment _)

theorem gqlDefs_shows (doc : List GDef) : ∀ (roots : List String) (tds : List TypeDef), gqlDefs roots doc = .ok tds →
    List.Forall₂ DefShows (gqlKept roots doc) tds := by
  induction doc with
  | nil => intro roots tds h; cases h; exact .nil
  | cons d doc ih =>
    intro roots tds h
    cases d with
    | object n d fs =>
      rw [gqlDefs] at h
      rw [gqlKept]
      split at h
      · rename_i hm
        rw [if_pos hm]
        exact ih _ _ h
      · rename_i hm
        rw [if_neg hm]
        cases h1 : gqlStruct n d fs with
        | err e => rw [h1] at h; cases h
        | panic e => rw [h1] at h; cases h
        | ok td =>
          rw [h1] at h
          cases h2 : gqlDefs roots doc with
          | err e => rw [h2] at h; cases h
          | panic e => rw [h2] at h; cases h
          | ok tds' =>
            rw [h2] at h
            cases h
            exact .cons (gqlStruct_shows h1) (ih _ _ h2)
    | schema ts => rw [gqlDefs] at h; exact ih _ _ h
    | enum n d vs =>
      rw [gqlDefs] at h
      cases h2 : gqlDefs roots doc with
      | err e => rw [h2] at h; cases h
      | panic e => rw [h2] at h; cases h
      | ok tds' =>
        rw [h2] at h
        cases h
        refine .cons (.enum rfl rfl ?_ (oneLine_comment _)) (ih _ _ h2)
        simp only [gqlEnum]
        induction vs with
        | nil => exact .nil
        | cons v vs ihv => exact .cons ⟨rfl, oneLine_comment _⟩ ihv
    | union n d vs =>
      rw [gqlDefs] at h
      cases h2 : gqlDefs roots doc with
      | err e => rw [h2] at h; cases h
      | panic e => rw [h2] at h; cases h
      | ok tds' =>
        rw [h2] at h
        cases h
        exact .cons (.union rfl rfl (oneLine_comment _)) (ih _ _ h2)
    | interface n => rw [gqlDefs] at h; exact ih _ _ h
    | inputObject n => rw [gqlDefs] at h; exact ih _ _ h
    | scalar n =>
      rw [gqlDefs] at h
      split at h
      · exact ih _ _ h
      · cases h
    | other k => rw [gqlDefs] at h; cases h

theorem gqlDefs_known (doc : List GDef) : ∀ (roots : List String) (tds : List TypeDef), gqlDefs roots doc = .ok tds →
    (∀ k, GDef.other k ∉ doc) ∧ ∀ n, GDef.scalar n ∈ doc → n = "Timestamp" ∨ n = "UUID" := by
  induction doc with
  | nil => intro roots tds _; simp
  | cons d doc ih =>
    intro roots tds h
    have step : ∀ roots tds, gqlDefs roots doc = .ok tds → (∀ k, d ≠ .other k) →
        (∀ n, d = .scalar n → n = "Timestamp" ∨ n = "UUID") →
        (∀ k, GDef.other k ∉ d :: doc) ∧ ∀ n, GDef.scalar n ∈ d :: doc → n = "Timestamp" ∨ n = "UUID" := by
      intro roots tds h h1 h2
      obtain ⟨h3, h4⟩ := ih roots tds h
      refine ⟨fun k hk => ?_, fun n hn => ?_⟩
      · rcases List.mem_cons.1 hk with e | e
        · exact h1 k e.symm
        · exact h3 k e
      · rcases List.mem_cons.1 hn with e | e
        · exact h2 n e.symm
        · exact h4 n e
    cases d with
    | object n d fs =>
      rw [gqlDefs] at h
      split at h
      · exact step _ _ h (by simp) (by simp)
      · cases h1 : gqlStruct n d fs with
        | err e => rw [h1] at h; cases h
        | panic e => rw [h1] at h; cases h
        | ok td =>
          rw [h1] at h
          cases h2 : gqlDefs roots doc with
          | err e => rw [h2] at h; cases h
          | panic e => rw [h2] at h; cases h
          | ok tds' => exact step _ _ h2 (by simp) (by simp)
    | schema ts => rw [gqlDefs] at h; exact step _ _ h (by simp) (by simp)
    | enum n d vs =>
      rw [gqlDefs] at h
      cases h2 : gqlDefs roots doc with
      | err e => rw [h2] at h; cases h
      | panic e => rw [h2] at h; cases h
      | ok tds' => exact step _ _ h2 (by simp) (by simp)
    | union n d vs =>
      rw [gqlDefs] at h
      cases h2 : gqlDefs roots doc with
      | err e => rw [h2] at h; cases h
      | panic e => rw [h2] at h; cases h
      | ok tds' => exact step _ _ h2 (by simp) (by simp)
    | interface n => rw [gqlDefs] at h; exact step _ _ h (by simp) (by simp)
    | inputObject n => rw [gqlDefs] at h; exact step _ _ h (by simp) (by simp)
    | scalar n =>
      rw [gqlDefs] at h
      split at h
      · rename_i ha
        refine step _ _ h (by simp) ?_
        rintro n' ⟨⟩
        simpa [scalarAccepted] using ha
      · cases h
    | other k => rw [gqlDefs] at h; cases h

theorem gqlDefs_ok (doc : List GDef) (h1 : ∀ k, GDef.other k ∉ doc) (h2 : ∀ n, GDef.scalar n ∈ doc → n = "Timestamp" ∨ n = "UUID") :
    ∀ (roots : List String), (∀ n d fs, GDef.object n d fs ∈ gqlKept roots doc → ∀ f ∈ fs, Passes f.type) →
    ∃ tds, gqlDefs roots doc = .ok tds := by
  induction doc with
  | nil => intro roots _; exact ⟨[], rfl⟩
  | cons d doc ih =>
    intro roots h3
    have ih := ih (fun k h => h1 k (by simp [h])) (fun n h => h2 n (by simp [h]))
    cases d with
    | object n d fs =>
      rw [gqlDefs]
      rw [gqlKept] at h3
      split
      · rename_i hm
        rw [if_pos hm] at h3
        exact ih _ h3
      · rename_i hm
        rw [if_neg hm] at h3
        obtain ⟨fds, hf⟩ := gqlFields_ok fs (h3 n d fs (by simp))
        obtain ⟨tds, ht⟩ := ih roots (fun n d fs h => h3 n d fs (by simp [h]))
        exact ⟨_, by rw [gqlStruct, hf, ht]; rfl⟩
    | schema ts => rw [gqlDefs]; exact ih _ h3
    | enum n d vs =>
      obtain ⟨tds, ht⟩ := ih roots (fun n d fs h => h3 n d fs (by simp [gqlKept, h]))
      exact ⟨_, by rw [gqlDefs, ht]; rfl⟩
    | union n d vs =>
      obtain ⟨tds, ht⟩ := ih roots (fun n d fs h => h3 n d fs (by simp [gqlKept, h]))
      exact ⟨_, by rw [gqlDefs, ht]; rfl⟩
    | interface n => rw [gqlDefs]; exact ih _ h3
    | inputObject n => rw [gqlDefs]; exact ih _ h3
    | scalar n =>
      rw [gqlDefs]
      have : scalarAccepted n = true := by
        rcases h2 n (by simp) with e | e <;> subst e <;> rfl
      rw [if_pos this]
      exact ih _ h3
    | other k => exact absurd (List.mem_cons_self ..) (h1 k)

theorem shows_names {ds : List GDef} {tds : List TypeDef} (h : List.Forall₂ DefShows ds tds) :
    tds.map TypeDef.name = ds.filterMap GDefName := by
  induction h with
  | nil => rfl
  | cons h _ ih =>
    cases h with
    | object e => rw [List.map_cons, List.filterMap_cons, ih, e]; rfl
    | enum e => rw [List.map_cons, List.filterMap_cons, ih, e]; rfl
    | union e => rw [List.map_cons, List.filterMap_cons, ih, e]; rfl

/-- Nothing panics where no list is nested. -/
theorem gqlDefs_no_panic (doc : List GDef) : ∀ (roots : List String),
    (∀ n d fs, GDef.object n d fs ∈ gqlKept roots doc → ∀ f ∈ fs, Passes f.type) → ∀ e, gqlDefs roots doc ≠ .panic e := by
  induction doc with
  | nil => intro roots _ e h; cases h
  | cons d doc ih =>
    intro roots h3 e h
    cases d with
    | object n d fs =>
      rw [gqlDefs] at h
      rw [gqlKept] at h3
      split at h
      · rename_i hm
        rw [if_pos hm] at h3
        exact ih _ h3 e h
      · rename_i hm
        rw [if_neg hm] at h3
        obtain ⟨fds, hf⟩ := gqlFields_ok fs (h3 n d fs (by simp))
        rw [gqlStruct, hf] at h
        simp only [Out.bind] at h
        cases h2 : gqlDefs roots doc with
        | err e' => rw [h2] at h; cases h
        | panic e' => exact ih roots (fun n d fs h => h3 n d fs (by simp [h])) _ h2
        | ok t => rw [h2] at h; cases h
    | schema ts => rw [gqlDefs] at h; exact ih _ h3 e h
    | enum n d vs =>
      rw [gqlDefs] at h
      cases h2 : gqlDefs roots doc with
      | err e' => rw [h2] at h; cases h
      | panic e' => exact ih roots (fun n d fs h => h3 n d fs (by simp [gqlKept, h])) _ h2
      | ok t => rw [h2] at h; cases h
    | union n d vs =>
      rw [gqlDefs] at h
      cases h2 : gqlDefs roots doc with
      | err e' => rw [h2] at h; cases h
      | panic e' => exact ih roots (fun n d fs h => h3 n d fs (by simp [gqlKept, h])) _ h2
      | ok t => rw [h2] at h; cases h
    | interface n => rw [gqlDefs] at h; exact ih _ h3 e h
    | inputObject n => rw [gqlDefs] at h; exact ih _ h3 e h
    | scalar n =>
      rw [gqlDefs] at h
      split at h
      · exact ih _ h3 e h
      · cases h
    | other k => rw [gqlDefs] at h; cases h

theorem gqlDefs_passes (doc : List GDef) : ∀ (roots : List String) (tds : List TypeDef), gqlDefs roots doc = .ok tds →
    ∀ n d fs, GDef.object n d fs ∈ gqlKept roots doc → ∀ f ∈ fs, Passes f.type := by
  have hfields : ∀ fs fds, gqlFields fs = .ok fds → ∀ f ∈ fs, Passes f.type := by
    intro fs
    induction fs with
    | nil => intro _ _ f hf; cases hf
    | cons f fs ih =>
      intro fds h g hg
      rw [gqlFields] at h
      cases h1 : gqlField f with
      | err e => rw [h1] at h; cases h
      | panic e => rw [h1] at h; cases h
      | ok fd =>
        rw [h1] at h
        cases h2 : gqlFields fs with
        | err e => rw [h2] at h; cases h
        | panic e => rw [h2] at h; cases h
        | ok fds' =>
          rcases List.mem_cons.1 hg with e | e
          · subst e
            unfold gqlField at h1
            cases h3 : fieldType g.type with
            | err e => rw [h3] at h1; cases h1
            | panic e => rw [h3] at h1; cases h1
            | ok x => exact ⟨x, h3⟩
          · exact ih _ h2 g e
  induction doc with
  | nil => intro roots tds _ n d fs h; cases h
  | cons d doc ih =>
    intro roots tds h n d' fs hm
    cases d with
    | object n' d fs' =>
      rw [gqlDefs] at h
      rw [gqlKept] at hm
      split at h
      · rename_i hr
        rw [if_pos hr] at hm
        exact ih _ _ h n d' fs hm
      · rename_i hr
        rw [if_neg hr] at hm
        unfold gqlStruct at h
        cases h1 : gqlFields fs' with
        | err e => rw [h1] at h; cases h
        | panic e => rw [h1] at h; cases h
        | ok fds =>
          rw [h1] at h
          cases h2 : gqlDefs roots doc with
          | err e => rw [h2] at h; cases h
          | panic e => rw [h2] at h; cases h
          | ok tds' =>
            rcases List.mem_cons.1 hm with e | e
            · cases e; exact hfields _ _ h1
            · exact ih _ _ h2 n d' fs e
    | schema ts => rw [gqlDefs] at h; exact ih _ _ h n d' fs hm
    | enum n' d vs =>
      rw [gqlDefs] at h
      cases h2 : gqlDefs roots doc with
      | err e => rw [h2] at h; cases h
      | panic e => rw [h2] at h; cases h
      | ok tds' => exact ih _ _ h2 n d' fs (by simpa [gqlKept] using hm)
    | union n' d vs =>
      rw [gqlDefs] at h
      cases h2 : gqlDefs roots doc with
      | err e => rw [h2] at h; cases h
      | panic e => rw [h2] at h; cases h
      | ok tds' => exact ih _ _ h2 n d' fs (by simpa [gqlKept] using hm)
    | interface n' => rw [gqlDefs] at h; exact ih _ _ h n d' fs hm
    | inputObject n' => rw [gqlDefs] at h; exact ih _ _ h n d' fs hm
    | scalar n' =>
      rw [gqlDefs] at h
      split at h
      · exact ih _ _ h n d' fs hm
      · cases h
    | other k => rw [gqlDefs] at h; cases h

/-! ### There and back -/

theorem commentValue_nil : commentValue (stringValue none) = "" := rfl

/-- A field after the export and the import. -/
def backField (m : Model) (custom : String → String) (f : StructFieldDef) : StructFieldDef :=
  let t := importField (typeRef m custom f.ts, f.required)
  { name := f.name, required := f.required, ts := { type := t.1, items := t.2.1 } }

theorem gqlField_fieldDef (m : Model) (custom : String → String) (f : StructFieldDef) :
    gqlField (fieldDef m custom f) = .ok (backField m custom f) := by
  unfold gqlField fieldDef backField
  simp only
  generalize typeRef m custom f.ts = t
  generalize hr : f.required = r
  cases t <;> cases r <;> simp [fieldTyp, fieldType, Out.bind, importField, commentValue_nil, typeName]

theorem gqlFields_back (m : Model) (custom : String → String) (fs : List StructFieldDef) :
    gqlFields (fs.map (fieldDef m custom)) = .ok (fs.map (backField m custom)) := by
  induction fs with
  | nil => rfl
  | cons f fs ih => rw [List.map_cons, gqlFields, gqlField_fieldDef, ih]; rfl

/-- A type after the export and the import. -/
def backDef (m : Model) (custom : String → String) (td : TypeDef) : Option TypeDef :=
  if td.ts.type = "Enum" then
    some { name := td.name, ts := { type := "Enum", elements := td.ts.elements.map fun e => { symbol := e.symbol } } }
  else if td.ts.type = "Struct" then
    some { name := td.name, ts := { type := "Struct", fields := td.ts.fields.map (backField m custom) } }
  else if td.ts.type = "Union" then
    some { name := td.name, ts := { type := "Union", variants := td.ts.variants.map fun v =>
      { name := v.ts.type, ts := { type := v.ts.type } } } }
  else none

theorem gqlDefs_scalars (ns : List String) (h : ∀ n ∈ ns, n = "Timestamp" ∨ n = "UUID") (roots : List String) :
    gqlDefs roots (ns.map .scalar) = .ok [] := by
  induction ns with
  | nil => rfl
  | cons n ns ih =>
    have : scalarAccepted n = true := by
      rcases h n (by simp) with e | e <;> subst e <;> rfl
    rw [List.map_cons, gqlDefs, if_pos this]
    exact ih (fun n h' => h n (by simp [h']))

theorem gqlDefs_back (m : Model) (custom : String → String) (ns : List String)
    (h : ∀ n ∈ ns, n = "Timestamp" ∨ n = "UUID") (tds : List TypeDef) :
    gqlDefs [] (tds.filterMap (docDef m custom) ++ ns.map .scalar) = .ok (tds.filterMap (backDef m custom)) := by
  induction tds with
  | nil => exact gqlDefs_scalars ns h []
  | cons td tds ih =>
    rw [List.filterMap_cons, List.filterMap_cons]
    by_cases e1 : td.ts.type = "Enum"
    · rw [show docDef m custom td = some _ from if_pos e1, show backDef m custom td = some _ from if_pos e1]
      simp only [List.cons_append, gqlDefs]
      rw [ih]
      simp [Out.bind, gqlEnum, commentValue_nil]
    · by_cases e2 : td.ts.type = "Struct"
      · rw [show docDef m custom td = some _ from (if_neg e1).trans (if_pos e2),
          show backDef m custom td = some _ from (if_neg e1).trans (if_pos e2)]
        simp only [List.cons_append, gqlDefs, List.not_mem_nil, if_false, gqlStruct, gqlFields_back]
        rw [ih]
        simp [Out.bind, commentValue_nil]
      · by_cases e3 : td.ts.type = "Union"
        · rw [show docDef m custom td = some _ from (if_neg e1).trans ((if_neg e2).trans (if_pos e3)),
            show backDef m custom td = some _ from (if_neg e1).trans ((if_neg e2).trans (if_pos e3))]
          simp only [List.cons_append, gqlDefs]
          rw [ih]
          simp [Out.bind, gqlUnion, commentValue_nil]
        · rw [show docDef m custom td = none from (if_neg e1).trans ((if_neg e2).trans (if_neg e3)),
            show backDef m custom td = none from (if_neg e1).trans ((if_neg e2).trans (if_neg e3))]
          exact ih

theorem backDef_name {m : Model} {custom : String → String} {td td' : TypeDef} (h : backDef m custom td = some td') :
    td'.name = td.name := by
  unfold backDef at h
  split at h
  · cases h; rfl
  · split at h
    · cases h; rfl
    · split at h
      · cases h; rfl
      · cases h

theorem filterMap_eq_map {α β : Type} (f : α → Option β) (g : α → β) (l : List α) :
    l.filterMap f = l.map g ↔ ∀ a ∈ l, f a = some (g a) := by
  constructor
  · intro h
    have len : ∀ l : List α, (l.filterMap f).length ≤ l.length := fun l => List.length_filterMap_le f l
    induction l with
    | nil => intro a ha; cases ha
    | cons a l ih =>
      rw [List.filterMap_cons] at h
      cases hf : f a with
      | none =>
        rw [hf] at h
        have := congrArg List.length h
        simp only [List.map_cons, List.length_cons, List.length_map] at this
        have := len l
        omega
      | some b =>
        rw [hf] at h
        simp only [List.map_cons, List.cons.injEq] at h
        intro x hx
        rcases List.mem_cons.1 hx with e | e
        · subst e; rw [hf, h.1]
        · exact ih h.2 x e
  · intro h
    induction l with
    | nil => rfl
    | cons a l ih =>
      rw [List.filterMap_cons, h a (by simp), List.map_cons, ih (fun a h' => h a (by simp [h']))]

theorem convert_scalar (custom : String → String) {t : String} (h : t ∈ gqlScalarTypes)
    (hd : ∀ n, declaredScalar custom t = some n → n = "Timestamp" ∨ n = "UUID") :
    convertTypeName (scalarType custom t) = t ↔
      t ∉ ["Int8", "Int16", "Int64", "Float32", "Decimal", "Int", "Float", "Boolean"] ∧
        (t ∈ ["UUID", "Timestamp"] → custom t = t) := by
  simp only [gqlScalarTypes, List.mem_cons, List.not_mem_nil, or_false] at h
  have hc : ∀ t, declaredScalar custom t = some (custom t) → (∀ n, declaredScalar custom t = some n → n = "Timestamp" ∨ n = "UUID") →
      custom t = "Timestamp" ∨ custom t = "UUID" := fun t h1 h2 => h2 _ h1
  have hd2 : t ∈ ["UUID", "Timestamp", "Int64", "Decimal"] → custom t ≠ "" → custom t = "Timestamp" ∨ custom t = "UUID" :=
    fun h1 h2 => hd _ ((declared_iff _ _ _).2 ⟨h1, rfl, h2⟩)
  clear hd hc
  rcases h with h | h | h | h | h | h | h | h | h | h | h <;> subst h <;>
    simp only [scalarType, customScalar] <;> (try (split <;> rename_i hne))
  all_goals first
    | (simp [convertTypeName]; done)
    | (rcases hd2 (by simp) hne with e | e <;> simp [e, convertTypeName]; done)
    | (rw [not_not] at hne; simp [hne, convertTypeName]; done)

theorem backField_iff {s : Schema} {m : Model} (h : newModel s = .ok m) (custom : String → String)
    (hs : ∀ n, CustomScalar s custom n → n = "Timestamp" ∨ n = "UUID")
    (hk : ∀ td ∈ s.types, td.ts.type ∈ ["Enum", "Struct", "Union"])
    (td : TypeDef) (htd : td ∈ s.types) (ht : td.ts.type = "Struct") (f : StructFieldDef) (hf : f ∈ td.ts.fields) :
    backField m custom f = plainField f ↔ FieldComesBack custom f := by
  have hm : m.schema = s := by
    obtain ⟨_, _, _, hm⟩ := (newModel_ok_iff s m).1 h
    rw [hm]
  have hd : ∀ n, refScalar m custom f.ts = some n → n = "Timestamp" ∨ n = "UUID" := by
    intro n hn
    refine hs n ((usedScalars_iff h custom n).1 ?_)
    unfold usedScalars
    rw [List.mem_eraseDups, hm]
    simp only [List.mem_flatMap, List.mem_filter, List.mem_filterMap, beq_iff_eq]
    exact ⟨td, ⟨htd, ht⟩, f, hf, hn⟩
  have e1 : backField m custom f = plainField f ↔ f.default = .null ∧
      f.ts = { type := (importField (typeRef m custom f.ts, f.required)).1,
               items := (importField (typeRef m custom f.ts, f.required)).2.1 } := by
    unfold backField plainField
    constructor
    · intro e
      simp only [StructFieldDef.mk.injEq] at e
      exact ⟨e.2.2.2.2.1.symm, e.2.2.2.2.2.symm⟩
    · rintro ⟨h1, h2⟩
      simp only [StructFieldDef.mk.injEq]
      exact ⟨trivial, trivial, trivial, trivial, h1.symm, h2.symm⟩
  rw [e1]
  unfold FieldComesBack
  refine and_congr_right fun _ => ?_
  have hr := refCase h custom f.ts
  generalize typeRef m custom f.ts = t at hr
  generalize refScalar m custom f.ts = k at hr hd
  have notIn : ∀ td' ∈ s.types, td'.ts.type ∉ gqlScalarTypes ∧ td'.ts.type ≠ "Array" := by
    intro td' h'
    have := hk td' h'
    simp only [List.mem_cons, List.not_mem_nil, or_false] at this
    rcases this with e | e | e <;> rw [e] <;> decide
  have hconv : ∀ n, convertTypeName n = n ↔ n ∉ ["Int", "Float", "Boolean"] := by
    intro n
    unfold convertTypeName
    split <;> simp_all
  cases hr with
  | scalar h1 =>
    simp only [importField]
    constructor
    · intro e
      have e' := congrArg TypeSpec.type e
      simp only at e'
      obtain ⟨h2, h3⟩ := (convert_scalar custom h1 hd).1 e'.symm
      exact .inl ⟨f.ts.type, by rw [e'.symm] at e; exact e, h2, h3⟩
    · rintro (⟨t, e, h2, h3⟩ | ⟨i, e, _⟩)
      · have e' := congrArg TypeSpec.type e
        simp only at e'
        subst e'
        rw [(convert_scalar custom h1 hd).2 ⟨h2, h3⟩]
        exact e
      · rw [e] at h1
        exact absurd h1 (by simp [gqlScalarTypes])
  | synonym td' h1 h2 h3 => exact absurd h3 (notIn td' h1).1
  | array e0 =>
    simp only [importField]
    constructor
    · intro e
      have e' := congrArg TypeSpec.items e
      simp only at e'
      exact .inr ⟨f.ts.items, by rw [e'.symm] at e; exact e, (hconv _).1 e'.symm⟩
    · rintro (⟨t, e, h2, _⟩ | ⟨i, e, h2⟩)
      · have ei : f.ts.items = "" := by rw [e]
        have et : f.ts.type = t := by rw [e]
        rw [ei]
        rw [← et, e0] at e
        rw [e]
        rfl
      · have ei : f.ts.items = i := by rw [e]
        rw [ei, (hconv i).2 h2]
        exact e
  | arrayDef td' h1 h2 h3 => exact absurd h3 (notIn td' h1).2
  | other h1 h2 h3 =>
    simp only [importField]
    constructor
    · intro e
      have e' := congrArg TypeSpec.type e
      simp only at e'
      have h4 := (hconv _).1 e'.symm
      refine .inl ⟨f.ts.type, by rw [e'.symm] at e; exact e, ?_, ?_⟩
      · intro h5
        have hsub : ∀ x ∈ ["Int8", "Int16", "Int64", "Float32", "Decimal", "Int", "Float", "Boolean"],
            x ∈ gqlScalarTypes ∨ x ∈ ["Int", "Float", "Boolean"] := by decide
        rcases hsub _ h5 with h6 | h6
        · exact h1 h6
        · exact h4 h6
      · intro h5
        have hsub : ∀ x ∈ ["UUID", "Timestamp"], x ∈ gqlScalarTypes := by decide
        exact absurd (hsub _ h5) h1
    · rintro (⟨t, e, h4, _⟩ | ⟨i, e, _⟩)
      · have et : f.ts.type = t := by rw [e]
        rw [et, (hconv t).2 (fun h5 => h4 (by simp only [List.mem_cons, List.not_mem_nil, or_false] at h5 ⊢; simp_all))]
        exact e
      · exact absurd (by rw [e]) h2

theorem backDef_iff {s : Schema} {m : Model} (h : newModel s = .ok m) (custom : String → String)
    (hs : ∀ n, CustomScalar s custom n → n = "Timestamp" ∨ n = "UUID") :
    (∀ td ∈ s.types, backDef m custom td = some (plainType td)) ↔
      ∀ td ∈ s.types,
        (td.ts = { type := "Enum", elements := td.ts.elements }) ∨
        (td.ts = { type := "Struct", fields := td.ts.fields } ∧ ∀ f ∈ td.ts.fields, FieldComesBack custom f) ∨
        (td.ts = { type := "Union", variants := td.ts.variants } ∧ ∀ v ∈ td.ts.variants, v.ts = { type := v.name }) := by
  constructor
  · intro hb
    have hk : ∀ td ∈ s.types, td.ts.type ∈ ["Enum", "Struct", "Union"] := by
      intro td htd
      have := hb td htd
      unfold backDef at this
      simp only [List.mem_cons, List.not_mem_nil, or_false]
      by_cases e1 : td.ts.type = "Enum"
      · exact .inl e1
      · by_cases e2 : td.ts.type = "Struct"
        · exact .inr (.inl e2)
        · by_cases e3 : td.ts.type = "Union"
          · exact .inr (.inr e3)
          · rw [if_neg e1, if_neg e2, if_neg e3] at this
            cases this
    intro td htd
    have hb' := hb td htd
    have hfields := backField_iff h custom hs hk td htd
    obtain ⟨name, comment, annos, ts⟩ := td
    have := hk _ htd
    simp only [List.mem_cons, List.not_mem_nil, or_false] at this
    unfold backDef plainType at hb'
    simp only at hb' this hfields
    rcases this with e | e | e
    · rw [if_pos e] at hb'
      simp only [Option.some.injEq, TypeDef.mk.injEq, true_and] at hb'
      left
      obtain ⟨type, pattern, values, minSize, maxSize, fields, elements, min, max, items, keys, variants, unit, value, reference⟩ := ts
      simp only [TypeSpec.mk.injEq] at hb' e ⊢
      obtain ⟨_, h2, h3, h4, h5, h6, _, h8, h9, h10, h11, h12, h13, h14, h15⟩ := hb'
      refine ⟨e, h2.symm, h3.symm, h4.symm, h5.symm, ?_, trivial, h8.symm, h9.symm, h10.symm, h11.symm, ?_, h13.symm, h14.symm,
        h15.symm⟩
      · exact List.map_eq_nil_iff.1 h6.symm
      · exact List.map_eq_nil_iff.1 h12.symm
    · rw [if_neg (by rw [e]; decide), if_pos e] at hb'
      simp only [Option.some.injEq, TypeDef.mk.injEq, true_and] at hb'
      right; left
      have hf2 : ∀ f ∈ ts.fields, backField m custom f = plainField f → FieldComesBack custom f :=
        fun f hf => (hfields e f hf).1
      obtain ⟨type, pattern, values, minSize, maxSize, fields, elements, min, max, items, keys, variants, unit, value, reference⟩ := ts
      simp only [TypeSpec.mk.injEq] at hb' e hf2 ⊢
      obtain ⟨_, h2, h3, h4, h5, h6, h7, h8, h9, h10, h11, h12, h13, h14, h15⟩ := hb'
      refine ⟨⟨e, h2.symm, h3.symm, h4.symm, h5.symm, trivial, ?_, h8.symm, h9.symm, h10.symm, h11.symm, ?_, h13.symm, h14.symm,
        h15.symm⟩, ?_⟩
      · exact List.map_eq_nil_iff.1 h7.symm
      · exact List.map_eq_nil_iff.1 h12.symm
      · intro f hf
        exact hf2 f hf (List.map_inj_left.1 h6 f hf)
    · rw [if_neg (by rw [e]; decide), if_neg (by rw [e]; decide), if_pos e] at hb'
      simp only [Option.some.injEq, TypeDef.mk.injEq, true_and] at hb'
      right; right
      obtain ⟨type, pattern, values, minSize, maxSize, fields, elements, min, max, items, keys, variants, unit, value, reference⟩ := ts
      simp only [TypeSpec.mk.injEq] at hb' e ⊢
      obtain ⟨_, h2, h3, h4, h5, h6, h7, h8, h9, h10, h11, h12, h13, h14, h15⟩ := hb'
      refine ⟨⟨e, h2.symm, h3.symm, h4.symm, h5.symm, ?_, ?_, h8.symm, h9.symm, h10.symm, h11.symm, trivial, h13.symm, h14.symm,
        h15.symm⟩, ?_⟩
      · exact List.map_eq_nil_iff.1 h6.symm
      · exact List.map_eq_nil_iff.1 h7.symm
      · intro v hv
        have := List.map_inj_left.1 h12 v hv
        unfold plainVariant at this
        simp only [UnionVariantDef.mk.injEq] at this
        obtain ⟨a, _, _, b⟩ := this
        rw [← b, a]
  · intro hc
    have hk : ∀ td ∈ s.types, td.ts.type ∈ ["Enum", "Struct", "Union"] := by
      intro td htd
      rcases hc td htd with e | ⟨e, _⟩ | ⟨e, _⟩ <;> rw [e] <;> simp
    intro td htd
    unfold backDef plainType
    rcases hc td htd with e | ⟨e, hf⟩ | ⟨e, hv⟩
    · rw [e]
      simp [plainElement]
    · have et : td.ts.type = "Struct" := by rw [e]
      have : td.ts.fields.map (backField m custom) = td.ts.fields.map plainField :=
        List.map_inj_left.2 fun f hf' => (backField_iff h custom hs hk td htd et f hf').2 (hf f hf')
      rw [if_neg (by rw [et]; decide), if_pos et, this, e]
      simp
    · have et : td.ts.type = "Union" := by rw [e]
      have : (td.ts.variants.map fun v => ({ name := v.ts.type, ts := { type := v.ts.type } } : UnionVariantDef)) =
          td.ts.variants.map plainVariant := by
        refine List.map_inj_left.2 fun v hv' => ?_
        unfold plainVariant
        rw [hv v hv']
      rw [if_neg (by rw [et]; decide), if_neg (by rw [et]; decide), if_pos et, this, e]
      simp

end Sadl.GraphQL
