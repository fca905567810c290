import Verif.Lemmas.GrammarUpto
/-
Exact descriptions of the functions that parse types.
-/
namespace Sadl
open Spec Props

/-- A function that reads nothing. -/
theorem is_reads_nothing {α : Type} {n : Nat} {p : P α} {Q : α → Prop} (h1 : ∀ s a s', p s = .ok a s' → Q a ∧ s' = s)
    (h2 : ∀ s a, Q a → p s = .ok a s) : Is n p (fun ts a r => Q a ∧ r = ts) := by
  refine ⟨?_, ?_, ?_⟩
  · intro s a s' h
    obtain ⟨h3, rfl⟩ := h1 s a s' h
    exact ⟨h3, rfl⟩
  · rintro s _ a r ⟨h3, rfl⟩
    exact ⟨s, h2 s a h3, rfl⟩
  · rintro ts a r ⟨_, rfl⟩; exact le_refl _

/-! ### Type parameters -/

/-- A round of the loop over type parameters. -/
def ParamRound (e : Option Nat) (ps : List String) : Rel (List String ⊕ List String) := fun ts q r => ∃ t, ts = t :: r ∧
  ((t.type = .comma ∧ q = .inl ps) ∨ (t.type = .closeAngle ∧ q = .inr ps ∧ ∀ k ∈ e, k = ps.length) ∨
   (t.type = .symbol ∧ q = .inl (ps ++ [t.text])))

theorem is_paramRound (n : Nat) (e : Option Nat) (ps : List String) : Is n (paramsStep e ps) (ParamRound e ps) := by
  have hc : Is n (match e with
      | some n => if n ≠ ps.length then (syntaxError : P (List String ⊕ List String)) else pure (.inr ps)
      | none => pure (.inr ps)) (fun ts q r => (∀ k ∈ e, k = ps.length) ∧ q = .inr ps ∧ r = ts) := by
    cases e with
    | none => exact (is_pure n _).congr (by simp)
    | some k => exact (is_ite (fun _ => is_syntaxError n) (fun _ => is_pure n _)).congr (by simp)
  unfold paramsStep
  refine Is.congr (is_next (fun t => isGot_keep (is_ite (fun _ => is_ite (fun _ => hc) (fun _ => is_ite (fun _ => is_syntaxError n)
    (fun _ => is_pure n _))) (fun _ => is_pure n _)))) ?_
  intro ts q r
  rcases ts with _ | ⟨t, ts⟩
  · simp [ParamRound]
  · simp only [onNext_cons, and_false, false_or, not_not]
    constructor
    · rintro (⟨h1, ⟨h2, h3, rfl, rfl⟩ | ⟨h2, h3, rfl, rfl⟩⟩ | ⟨h1, rfl, rfl⟩)
      · exact ⟨t, rfl, .inr (.inl ⟨h2, rfl, h3⟩)⟩
      · exact ⟨t, rfl, .inr (.inr ⟨h3, rfl⟩)⟩
      · exact ⟨t, rfl, .inl ⟨h1, rfl⟩⟩
    · rintro ⟨t', e', h⟩
      injection e' with e1 e2
      subst e1 e2
      rcases h with ⟨h1, rfl⟩ | ⟨h1, rfl, h2⟩ | ⟨h1, rfl⟩
      · exact .inr ⟨h1, rfl, rfl⟩
      · exact .inl ⟨by simp [h1], .inl ⟨h1, h2, rfl, rfl⟩⟩
      · exact .inl ⟨by simp [h1], .inr ⟨by simp [h1], h1, rfl, rfl⟩⟩

theorem is_params (n : Nat) (e : Option Nat) : Is n (P.loop (paramsStep e) [])
    (fun ts ps r => Params ts ps r ∧ ∀ k ∈ e, k = ps.length) := by
  refine Is.congr (is_loop (is_paramRound n e) ?_ []) ?_
  · rintro x ts y m ⟨t, rfl, _⟩; simp
  · intro ts a r
    constructor
    · have key : ∀ x ts a r, LoopRel (ParamRound e) x ts a r → ∃ ps, Params ts ps r ∧ a = x ++ ps ∧ ∀ k ∈ e, k = a.length := by
        intro x ts a r h
        induction h with
        | again h1 _ ih =>
          obtain ⟨ps, h2, rfl, h4⟩ := ih
          obtain ⟨⟨ty, tx⟩, rfl, h⟩ := h1
          rcases h with ⟨h3, h⟩ | ⟨_, h, _⟩ | ⟨h3, h⟩
          · injection h with h; simp only at h3; subst h h3
            exact ⟨_, .comma h2, by simp, h4⟩
          · cases h
          · injection h with h; simp only at h3; subst h h3
            exact ⟨_, .name h2, by simp, h4⟩
        | done h1 =>
          obtain ⟨⟨ty, tx⟩, rfl, h⟩ := h1
          rcases h with ⟨h3, h⟩ | ⟨h3, h, h4⟩ | ⟨h3, h⟩
          · cases h
          · injection h with h; simp only at h3; subst h h3
            exact ⟨[], .close, by simp, h4⟩
          · cases h
      intro h
      obtain ⟨ps, h1, rfl, h2⟩ := key _ _ _ _ h
      exact ⟨by simpa using h1, h2⟩
    · rintro ⟨h, hk⟩
      have key : ∀ ts ps r, Params ts ps r → ∀ x, (∀ k ∈ e, k = (x ++ ps).length) → LoopRel (ParamRound e) x ts (x ++ ps) r := by
        intro ts ps r h
        induction h with
        | close => intro x hx; exact .done ⟨_, rfl, .inr (.inl ⟨rfl, by simp, by simpa using hx⟩)⟩
        | comma _ ih => intro x hx; exact .again ⟨_, rfl, .inl ⟨rfl, rfl⟩⟩ (ih x hx)
        | @name n ts ps r _ ih =>
          intro x hx
          refine .again ⟨_, rfl, .inr (.inr ⟨rfl, rfl⟩)⟩ ?_
          simpa using ih (x ++ [n]) (by simpa using hx)
      simpa using key _ _ _ h [] (by simpa using hk)

/-- The table of types with parameters. -/
theorem generic_iff {n n' : String} {ps : List String} :
    Generic n n' ps ↔ ∃ e, genericArity n = some (n', e) ∧ ∀ k ∈ e, k = ps.length := by
  constructor
  · rintro ⟨⟩
    · exact ⟨some 1, rfl, by simp⟩
    · exact ⟨some 1, rfl, by simp⟩
    · exact ⟨some 2, rfl, by simp⟩
    · exact ⟨some 2, rfl, by simp⟩
    · exact ⟨none, rfl, by simp⟩
  · rintro ⟨e, h1, h2⟩
    unfold genericArity at h1
    have one : ∀ ps : List String, 1 = ps.length → ∃ t, ps = [t] := by
      intro ps h
      exact List.length_eq_one_iff.1 h.symm
    have two : ∀ ps : List String, 2 = ps.length → ∃ t u, ps = [t, u] := by
      intro ps h
      rcases ps with _ | ⟨t, _ | ⟨u, _ | ⟨v, ps⟩⟩⟩
      · simp at h
      · simp at h
      · exact ⟨t, u, rfl⟩
      · simp at h
    split at h1
    · simp only [Option.some.injEq, Prod.mk.injEq] at h1
      obtain ⟨rfl, rfl⟩ := h1
      obtain ⟨t, rfl⟩ := one ps (h2 1 rfl)
      exact .array
    · simp only [Option.some.injEq, Prod.mk.injEq] at h1
      obtain ⟨rfl, rfl⟩ := h1
      obtain ⟨t, rfl⟩ := one ps (h2 1 rfl)
      exact .list
    · simp only [Option.some.injEq, Prod.mk.injEq] at h1
      obtain ⟨rfl, rfl⟩ := h1
      obtain ⟨t, u, rfl⟩ := two ps (h2 2 rfl)
      exact .map
    · simp only [Option.some.injEq, Prod.mk.injEq] at h1
      obtain ⟨rfl, rfl⟩ := h1
      obtain ⟨t, u, rfl⟩ := two ps (h2 2 rfl)
      exact .unitValue
    · simp only [Option.some.injEq, Prod.mk.injEq] at h1
      obtain ⟨rfl, rfl⟩ := h1
      exact .union
    · cases h1

/-! ### The parts of a type -/

theorem arrayParams_iff {ps : List String} {s s' : TState} {i : String} :
    arrayParams ps s = .ok i s' ↔ (ps = [] ∧ i = "Any" ∨ ps = [i]) ∧ s' = s := by
  unfold arrayParams
  rcases ps with _ | ⟨a, _ | ⟨b, ps⟩⟩
  · constructor
    · intro h
      injection (show PRes.ok "Any" s = .ok i s' from h) with h1 h2
      exact ⟨.inl ⟨rfl, h1.symm⟩, h2.symm⟩
    · rintro ⟨⟨_, rfl⟩ | h, rfl⟩
      · rfl
      · cases h
  · constructor
    · intro h
      injection (show PRes.ok a s = .ok i s' from h) with h1 h2
      exact ⟨.inr (by rw [h1]), h2.symm⟩
    · rintro ⟨⟨h, _⟩ | h, rfl⟩
      · cases h
      · injection h with h1; subst h1; rfl
  · simp [syntaxError, P.fail]

theorem mapParams_iff {ps : List String} {s s' : TState} {q : String × String} :
    mapParams ps s = .ok q s' ↔ (ps = [] ∧ q.1 = "String" ∧ q.2 = "Any" ∨ ps = [q.1, q.2]) ∧ s' = s := by
  unfold mapParams
  obtain ⟨k, v⟩ := q
  rcases ps with _ | ⟨a, _ | ⟨b, _ | ⟨c, ps⟩⟩⟩
  · constructor
    · intro h
      injection (show PRes.ok ("String", "Any") s = .ok (k, v) s' from h) with h1 h2
      injection h1 with h3 h4
      exact ⟨.inl ⟨rfl, h3.symm, h4.symm⟩, h2.symm⟩
    · rintro ⟨⟨_, rfl, rfl⟩ | h, rfl⟩
      · rfl
      · cases h
  · simp [syntaxError, P.fail]
  · constructor
    · intro h
      injection (show PRes.ok (a, b) s = .ok (k, v) s' from h) with h1 h2
      injection h1 with h3 h4
      exact ⟨.inr (by rw [h3, h4]), h2.symm⟩
    · rintro ⟨⟨h, _⟩ | h, rfl⟩
      · cases h
      · simp only [List.cons.injEq, and_true] at h; obtain ⟨rfl, rfl⟩ := h; rfl
  · simp [syntaxError, P.fail]

theorem unitValueParams_iff {ps : List String} {s s' : TState} {q : String × String} :
    unitValueParams ps s = .ok q s' ↔ (ps = [] ∧ q.1 = "Decimal" ∧ q.2 = "String" ∨ ps = [q.1, q.2]) ∧ s' = s := by
  unfold unitValueParams
  obtain ⟨k, v⟩ := q
  rcases ps with _ | ⟨a, _ | ⟨b, _ | ⟨c, ps⟩⟩⟩
  · constructor
    · intro h
      injection (show PRes.ok ("Decimal", "String") s = .ok (k, v) s' from h) with h1 h2
      injection h1 with h3 h4
      exact ⟨.inl ⟨rfl, h3.symm, h4.symm⟩, h2.symm⟩
    · rintro ⟨⟨_, rfl, rfl⟩ | h, rfl⟩
      · rfl
      · cases h
  · simp [syntaxError, P.fail]
  · constructor
    · intro h
      injection (show PRes.ok (a, b) s = .ok (k, v) s' from h) with h1 h2
      injection h1 with h3 h4
      exact ⟨.inr (by rw [h3, h4]), h2.symm⟩
    · rintro ⟨⟨h, _⟩ | h, rfl⟩
      · cases h
      · simp only [List.cons.injEq, and_true] at h; obtain ⟨rfl, rfl⟩ := h; rfl
  · simp [syntaxError, P.fail]

theorem is_specOfElems (n : Nat) (e : Elems) : Is n (specOfElems e) (fun ts s r => HasParts e s ∧ r = ts) := by
  refine is_reads_nothing ?_ ?_
  · intro s a s' h
    obtain ⟨ty, params, fields, elements, options, comment⟩ := e
    unfold specOfElems at h
    simp only at h
    split at h
    · rename_i ht
      obtain ⟨i, s1, e1, e2⟩ := bind_ok_inv h
      obtain ⟨e3, rfl⟩ := arrayParams_iff.1 e1
      injection (show PRes.ok _ s1 = .ok a s' from e2) with h1 h2
      subst h1
      exact ⟨.array (.inl rfl) e3, h2.symm⟩
    · rename_i ht
      obtain ⟨i, s1, e1, e2⟩ := bind_ok_inv h
      obtain ⟨e3, rfl⟩ := arrayParams_iff.1 e1
      injection (show PRes.ok _ s1 = .ok a s' from e2) with h1 h2
      subst h1
      exact ⟨.array (.inr rfl) e3, h2.symm⟩
    · rename_i ht
      obtain ⟨i, s1, e1, e2⟩ := bind_ok_inv h
      obtain ⟨e3, rfl⟩ := mapParams_iff.1 e1
      injection (show PRes.ok _ s1 = .ok a s' from e2) with h1 h2
      subst h1
      exact ⟨.map rfl e3, h2.symm⟩
    · rename_i ht
      obtain ⟨i, s1, e1, e2⟩ := bind_ok_inv h
      obtain ⟨e3, rfl⟩ := unitValueParams_iff.1 e1
      injection (show PRes.ok _ s1 = .ok a s' from e2) with h1 h2
      subst h1
      exact ⟨.unitValue rfl e3, h2.symm⟩
    · rename_i h1 h2 h3 h4
      split at h
      · simp [syntaxError, P.fail] at h
      · rename_i h5
        injection (show PRes.ok _ s = .ok a s' from h) with h6 h7
        subst h6
        exact ⟨.other h1 h2 h3 h4 (by simpa using h5), h7.symm⟩
  · intro s a h
    unfold specOfElems
    cases h with
    | array h1 h2 =>
      have := arrayParams_iff (s := s) (s' := s).2 ⟨h2, rfl⟩
      rcases h1 with h1 | h1 <;> (rw [h1]; simp only; rw [bind_ok this]; rfl)
    | @map k i h1 h2 =>
      have := mapParams_iff (s := s) (s' := s) (q := (k, i)).2 ⟨h2, rfl⟩
      rw [h1]; simp only; rw [bind_ok this]; rfl
    | @unitValue v u h1 h2 =>
      have := unitValueParams_iff (s := s) (s' := s) (q := (v, u)).2 ⟨h2, rfl⟩
      rw [h1]; simp only; rw [bind_ok this]; rfl
    | other h1 h2 h3 h4 h5 =>
      obtain ⟨ty, params, fields, elements, options, comment⟩ := e
      simp only at h1 h2 h3 h4 h5 ⊢
      subst h5
      split
      · contradiction
      · rfl

/-! ### Enum elements -/

/-- A round of the loop before an enum element. -/
def SkipRound (c : String) : Rel (String ⊕ Option (String × String)) := fun ts q r => ∃ t us, ts = t :: us ∧
  ((t.type = .closeBrace ∧ q = .inr none ∧ r = t :: us) ∨ (t.type = .lineComment ∧ q = .inl (mergeComment c t.text) ∧ r = us) ∨
   ((t.type = .semicolon ∨ t.type = .newline ∨ t.type = .comma) ∧ q = .inl c ∧ r = us) ∨
   (t.type = .symbol ∧ q = .inr (some (t.text, c)) ∧ r = us))

theorem isW_skipRound (n : Nat) (c : String) : IsW n (enumSkipStep c) (stops Option.isNone) (SkipRound c) := by
  unfold enumSkipStep
  refine IsW.congr (isW_next (fun t => isGotW_ite (fun _ => isGotW_stop rfl) (fun _ => isGotW_ite
    (fun _ => isGotW_keep (.of_is (is_pure n _) (by rintro _ _ _ ⟨rfl, _⟩; rfl))) (fun _ => isGotW_ite
    (fun _ => isGotW_keep (.of_is (is_pure n _) (by rintro _ _ _ ⟨rfl, _⟩; rfl))) (fun _ => isGotW_ite
    (fun _ => isGotW_keep (.of_is (is_pure n _) (by rintro _ _ _ ⟨rfl, _⟩; rfl)))
    (fun _ => isGotW_keep (.of_is (is_fail n _) (fun _ _ _ h => h.elim)))))))) ?_
  intro ts q r
  rcases ts with _ | ⟨t, us⟩
  · simp [SkipRound]
  · simp only [onNext_cons, and_false, or_false]
    constructor
    · rintro (⟨h1, rfl, rfl⟩ | ⟨h1, ⟨h2, rfl, rfl⟩ | ⟨h2, ⟨h3, rfl, rfl⟩ | ⟨h3, h4, rfl, rfl⟩⟩⟩)
      · exact ⟨t, _, rfl, .inl ⟨h1, rfl, rfl⟩⟩
      · exact ⟨t, _, rfl, .inr (.inl ⟨h2, rfl, rfl⟩)⟩
      · exact ⟨t, _, rfl, .inr (.inr (.inl ⟨h3, rfl, rfl⟩))⟩
      · exact ⟨t, _, rfl, .inr (.inr (.inr ⟨h4, rfl, rfl⟩))⟩
    · rintro ⟨t', us', e', h⟩
      injection e' with e1 e2
      subst e1 e2
      rcases h with ⟨h1, rfl, rfl⟩ | ⟨h1, rfl, rfl⟩ | ⟨h1, rfl, rfl⟩ | ⟨h1, rfl, rfl⟩
      · exact .inl ⟨h1, rfl, rfl⟩
      · exact .inr ⟨by simp [h1], .inl ⟨h1, rfl, rfl⟩⟩
      · exact .inr ⟨by rcases h1 with h1 | h1 | h1 <;> simp [h1], .inr ⟨by rcases h1 with h1 | h1 | h1 <;> simp [h1], .inl ⟨h1, rfl, rfl⟩⟩⟩
      · exact .inr ⟨by simp [h1], .inr ⟨by simp [h1], .inr ⟨by simp [h1], h1, rfl, rfl⟩⟩⟩

/-- An enum element, or none at the closing brace. -/
def ElementAt (lib : PLib) : Rel (Option EnumElementDef) := fun ts q r => ∃ s m, LoopRel SkipRound "" ts s m ∧
  match s with
  | none => q = none ∧ r = m
  | some x => ∃ o m1 c1, Opts lib [] m o m1 ∧ Trailing x.2 m1 c1 r ∧
      q = some { symbol := x.1, comment := c1, annotations := o.annotations }

theorem isW_elementAt (n : Nat) (lib : PLib) : IsW n (parseEnumElementDef lib) Option.isNone (ElementAt lib) := by
  unfold parseEnumElementDef
  refine IsW.congr (isW_bind (R2 := fun s m q r => match s with
    | none => q = none ∧ r = m
    | some x => ∃ o m1 c1, Opts lib [] m o m1 ∧ Trailing x.2 m1 c1 r ∧
      q = some { symbol := x.1, comment := c1, annotations := o.annotations })
    (isW_loop (isW_skipRound n) ?_ "") ?_ ?_) (fun _ _ _ => Iff.rfl)
  · rintro x ts y m ⟨t, us, rfl, h⟩
    rcases h with ⟨_, h, _⟩ | ⟨_, _, rfl⟩ | ⟨_, _, rfl⟩ | ⟨_, h, _⟩
    · cases h
    · simp
    · simp
    · cases h
  · rintro (_ | ⟨sym, c⟩) ha
    · cases ha
    · refine IsW.congr (IsW.of_is (is_bind (is_options n lib []) (fun o => is_bind (is_trailing n c) (fun c1 => is_pure n _)))
        (by rintro _ _ _ ⟨_, _, _, _, _, _, rfl, _⟩; rfl)) ?_
      intro ts q r
      constructor
      · rintro ⟨o, m1, h1, c1, m2, h2, rfl, rfl⟩; exact ⟨o, m1, c1, h1, h2, rfl⟩
      · rintro ⟨o, m1, c1, h1, h2, rfl⟩; exact ⟨o, m1, h1, c1, _, h2, rfl, rfl⟩
  · rintro (_ | x) ha b
    · exact isGotW_stop rfl
    · cases ha

/-- A round of the loop over enum elements. -/
def ElementRound (lib : PLib) (es : List EnumElementDef) : Rel (List EnumElementDef ⊕ List EnumElementDef) := fun ts q r =>
  (ElementAt lib ts none r ∧ q = .inr es) ∨ (∃ e, ElementAt lib ts (some e) r ∧ q = .inl (es ++ [e]))

theorem skip_shrink {c : String} {ts m : List Token} {x : String × String} (h : LoopRel SkipRound c ts (some x) m) :
    m.length < ts.length := by
  generalize hq : some x = q at h
  induction h with
  | again h1 _ ih =>
    have := ih hq
    obtain ⟨t, us, rfl, h⟩ := h1
    rcases h with ⟨_, h, _⟩ | ⟨_, _, rfl⟩ | ⟨_, _, rfl⟩ | ⟨_, h, _⟩
    · cases h
    · simp; omega
    · simp; omega
    · cases h
  | done h1 =>
    subst hq
    obtain ⟨t, us, rfl, h⟩ := h1
    rcases h with ⟨_, h, _⟩ | ⟨_, h, _⟩ | ⟨_, h, _⟩ | ⟨_, _, rfl⟩
    · cases h
    · cases h
    · cases h
    · simp

theorem trailing_shrink {c c' : String} {ts r : List Token} (h : Trailing c ts c' r) : r.length ≤ ts.length :=
  (is_trailing 0 c).shrink _ _ _ h

theorem elementAt_shrink {lib : PLib} {ts r : List Token} {e : EnumElementDef} (h : ElementAt lib ts (some e) r) :
    r.length < ts.length := by
  obtain ⟨s, m, h1, h2⟩ := h
  cases s with
  | none => cases h2.1
  | some x =>
    obtain ⟨o, m1, c1, h3, h4, _⟩ := h2
    exact lt_of_le_of_lt (trailing_shrink h4) (lt_of_le_of_lt (opts_shrink h3) (skip_shrink h1))

theorem isW_elements (n : Nat) (lib : PLib) :
    IsW n (P.loop (elementsStep lib) []) (fun _ => true) (fun ts es r => Elements lib "" ts es r) := by
  refine IsW.congr (isW_loop (B := ElementRound lib) (fun es => ?_) ?_ []) ?_
  · unfold elementsStep
    refine IsW.congr (isW_bind (R2 := fun (x : Option EnumElementDef) m (q : List EnumElementDef ⊕ List EnumElementDef) r => match x with
      | none => q = .inr es ∧ r = m
      | some e => q = .inl (es ++ [e]) ∧ r = m) (isW_elementAt n lib) ?_ ?_) ?_
    · rintro (_ | e) ha
      · cases ha
      · exact IsW.of_is (is_pure n _) (by rintro _ _ _ ⟨rfl, _⟩; rfl)
    · rintro (_ | e) ha b
      · exact isGotW_stop rfl
      · cases ha
    · intro ts q r
      constructor
      · rintro ⟨_ | e, m, h1, rfl, rfl⟩
        · exact .inl ⟨h1, rfl⟩
        · exact .inr ⟨e, h1, rfl⟩
      · rintro (⟨h1, rfl⟩ | ⟨e, h1, rfl⟩)
        · exact ⟨none, r, h1, rfl, rfl⟩
        · exact ⟨some e, r, h1, rfl, rfl⟩
  · rintro x ts y m (⟨_, h⟩ | ⟨e, h1, _⟩)
    · cases h
    · exact elementAt_shrink h1
  · intro ts a r
    -- what is skipped before an element or before the closing brace
    have skip : ∀ c ts q m, LoopRel SkipRound c ts q m →
        match q with
        | none => Elements lib c ts [] m
        | some x => ∀ o m1 c1 m2 es r, Opts lib [] m o m1 → Trailing x.2 m1 c1 m2 → Elements lib "" m2 es r →
            Elements lib c ts ({ symbol := x.1, comment := c1, annotations := o.annotations } :: es) r := by
      intro c ts q m h
      induction h with
      | @again c c' ts m1 q m h1 _ ih =>
        obtain ⟨⟨ty, tx⟩, us, rfl, h⟩ := h1
        rcases h with ⟨_, h, _⟩ | ⟨h2, h, rfl⟩ | ⟨h2, h, rfl⟩ | ⟨_, h, _⟩
        · cases h
        · injection h with h; simp only at h2; subst h h2
          cases q with
          | none => exact .comment ih
          | some x => intro o m1 c1 m2 es r h3 h4 h5; exact .comment (ih _ _ _ _ _ _ h3 h4 h5)
        · injection h with h; subst h
          cases q with
          | none => exact .sep h2 ih
          | some x => intro o m1 c1 m2 es r h3 h4 h5; exact .sep h2 (ih _ _ _ _ _ _ h3 h4 h5)
        · cases h
      | @done c ts q m h1 =>
        obtain ⟨⟨ty, tx⟩, us, rfl, h⟩ := h1
        rcases h with ⟨h2, h, rfl⟩ | ⟨_, h, _⟩ | ⟨_, h, _⟩ | ⟨h2, h, rfl⟩
        · injection h with h; simp only at h2; subst h h2; exact .close
        · cases h
        · cases h
        · injection h with h; simp only at h2; subst h h2
          intro o m1 c1 m2 es r h3 h4 h5
          exact .element h3 h4 h5
    constructor
    · have key : ∀ x ts a r, LoopRel (ElementRound lib) x ts a r → ∃ es, Elements lib "" ts es r ∧ a = x ++ es := by
        intro x ts a r h
        induction h with
        | again h1 _ ih =>
          obtain ⟨es, h2, rfl⟩ := ih
          rcases h1 with ⟨_, h⟩ | ⟨e, ⟨s, m, h3, h4⟩, h⟩
          · cases h
          · injection h with h
            subst h
            cases s with
            | none => cases h4.1
            | some x =>
              obtain ⟨o, m1, c1, h5, h6, h7⟩ := h4
              injection h7 with h7
              subst h7
              exact ⟨_, skip _ _ _ _ h3 _ _ _ _ _ _ h5 h6 h2, by simp⟩
        | done h1 =>
          rcases h1 with ⟨⟨s, m, h3, h4⟩, h⟩ | ⟨e, _, h⟩
          · injection h with h
            subst h
            cases s with
            | none => obtain ⟨_, rfl⟩ := h4; exact ⟨[], skip _ _ _ _ h3, by simp⟩
            | some x => obtain ⟨_, _, _, _, _, h⟩ := h4; cases h
          · cases h
      intro h
      obtain ⟨es, h1, rfl⟩ := key _ _ _ _ h
      simpa using h1
    · intro h
      have key : ∀ c ts es r, Elements lib c ts es r → ∃ s m, LoopRel SkipRound c ts s m ∧
          match s with
          | none => es = [] ∧ r = m
          | some x => ∃ o m1 c1 m2 es', Opts lib [] m o m1 ∧ Trailing x.2 m1 c1 m2 ∧
              es = { symbol := x.1, comment := c1, annotations := o.annotations } :: es' ∧
              ∀ acc, LoopRel (ElementRound lib) acc m2 (acc ++ es') r := by
        intro c ts es r h
        induction h with
        | @close c x r => exact ⟨none, _, .done ⟨_, _, rfl, .inl ⟨rfl, rfl, rfl⟩⟩, rfl, rfl⟩
        | comment _ ih =>
          obtain ⟨s, m, h1, h2⟩ := ih
          exact ⟨s, m, .again ⟨_, _, rfl, .inr (.inl ⟨rfl, rfl, rfl⟩)⟩ h1, h2⟩
        | sep ht _ ih =>
          obtain ⟨s, m, h1, h2⟩ := ih
          exact ⟨s, m, .again ⟨_, _, rfl, .inr (.inr (.inl ⟨ht, rfl, rfl⟩))⟩ h1, h2⟩
        | @element c n ts o ts1 c1 ts2 es r h3 h4 _ ih =>
          refine ⟨some (n, c), ts, .done ⟨_, _, rfl, .inr (.inr (.inr ⟨rfl, rfl, rfl⟩))⟩, o, ts1, c1, ts2, es, h3, h4, rfl, ?_⟩
          intro acc
          obtain ⟨s, m, h1, h2⟩ := ih
          cases s with
          | none =>
            obtain ⟨rfl, rfl⟩ := h2
            refine .done (.inl ⟨⟨none, _, h1, rfl, rfl⟩, by simp⟩)
          | some x =>
            obtain ⟨o, m1, c1, m2, es', h5, h6, rfl, h7⟩ := h2
            refine .again (.inr ⟨_, ⟨some x, _, h1, o, m1, c1, h5, h6, rfl⟩, rfl⟩) ?_
            have := h7 (acc ++ [{ symbol := x.1, comment := c1, annotations := o.annotations }])
            rw [List.append_assoc] at this
            exact this
      obtain ⟨s, m, h1, h2⟩ := key _ _ _ _ h
      cases s with
      | none =>
        obtain ⟨rfl, rfl⟩ := h2
        exact .done (.inl ⟨⟨none, _, h1, rfl, rfl⟩, rfl⟩)
      | some x =>
        obtain ⟨o, m1, c1, m2, es', h5, h6, rfl, h7⟩ := h2
        refine .again (.inr ⟨_, ⟨some x, _, h1, o, m1, c1, h5, h6, rfl⟩, rfl⟩) ?_
        simpa using h7 [_]

/-! ### Fields -/

theorem ends_shrink {c c' : String} {ok : Bool} {ts r : List Token} (h : Ends c ts c' ok r) : r.length ≤ ts.length :=
  (is_end 0 c).shrink ts (c', ok) r h

theorem params_shrink {ts r : List Token} {ps : List String} (h : Params ts ps r) : r.length ≤ ts.length :=
  (is_params 0 none).shrink _ _ _ ⟨h, by simp⟩

theorem elements_shrink {lib : PLib} {c : String} {ts r : List Token} {es : List EnumElementDef} (h : Elements lib c ts es r) :
    r.length ≤ ts.length := by
  induction h with
  | close => exact le_refl _
  | comment _ ih => simp; omega
  | sep _ _ ih => simp; omega
  | element h1 h2 _ ih =>
    have := opts_shrink h1
    have := trailing_shrink h2
    simp; omega

theorem afterBrace_shrink {b : Token} {c c' : String} {ts r : List Token} (h : AfterBrace b c ts c' r) : r.length ≤ ts.length + 1 :=
  (isGot_afterBrace 0 b c).shrink _ _ _ h

mutual
theorem typeExpr_shrink {lib : PLib} {ts r : List Token} {e : Elems} : TypeExpr lib ts e r → r.length < ts.length
  | .plain _ _ => by simp
  | .generic _ h => by have := params_shrink h; simp; omega
  | .fields _ h1 h2 h3 h4 => by
    have := opts_shrink h1
    have := trailing_shrink h2
    have := fields_shrink h3
    have := afterBrace_shrink h4
    simp only [List.length_cons] at *
    omega
  | .elements h1 h2 h3 h4 => by
    have := opts_shrink h1
    have := trailing_shrink h2
    have := elements_shrink h3
    have := afterBrace_shrink h4
    simp only [List.length_cons] at *
    omega
  | .bare _ _ _ h _ => by
    have := opts_shrink h
    simp only [List.length_cons] at *
    omega
  | .bareEnd _ => by simp
theorem fields_shrink {lib : PLib} {c : String} {ts r : List Token} {fs : List StructFieldDef} : Fields lib c ts fs r →
    r.length ≤ ts.length
  | .close => le_refl _
  | .comment h => by have := fields_shrink h; simp; omega
  | .newline h => by have := fields_shrink h; simp; omega
  | .field h1 _ h2 h3 h4 => by
    have := typeExpr_shrink h1
    have := opts_shrink h2
    have := ends_shrink h3
    have := fields_shrink h4
    simp only [List.length_cons] at *
    omega
end

/-- A round of the loop before a field. -/
def FieldSkip (c : String) : Rel (String ⊕ Option String) := fun ts q r => ∃ t us, ts = t :: us ∧
  ((t.type = .closeBrace ∧ q = .inr none ∧ r = t :: us) ∨ (t.type = .lineComment ∧ q = .inl (mergeComment "" t.text) ∧ r = us) ∨
   (t.type = .newline ∧ q = .inl c ∧ r = us) ∨
   (t.type ≠ .closeBrace ∧ t.type ≠ .lineComment ∧ t.type ≠ .newline ∧ q = .inr (some c) ∧ r = t :: us))

theorem isW_fieldSkip (n : Nat) (c : String) : IsW n (fieldSkipStep c) (stops Option.isNone) (FieldSkip c) := by
  unfold fieldSkipStep
  refine IsW.congr (isW_next (fun t => isGotW_ite (fun _ => isGotW_stop rfl) (fun _ => isGotW_ite
    (fun _ => isGotW_keep (.of_is (is_pure n _) (by rintro _ _ _ ⟨rfl, _⟩; rfl))) (fun _ => isGotW_ite
    (fun _ => isGotW_keep (.of_is (is_pure n _) (by rintro _ _ _ ⟨rfl, _⟩; rfl)))
    (fun _ => IsGotW.of_is (isGot_unget (is_pure n _)) (by rintro _ _ _ ⟨rfl, _⟩; rfl)))))) ?_
  intro ts q r
  rcases ts with _ | ⟨t, us⟩
  · simp [FieldSkip]
  · simp only [onNext_cons]
    constructor
    · rintro (⟨h1, rfl, rfl⟩ | ⟨h1, ⟨h2, rfl, rfl⟩ | ⟨h2, ⟨h3, rfl, rfl⟩ | ⟨h3, rfl, rfl⟩⟩⟩)
      · exact ⟨t, _, rfl, .inl ⟨h1, rfl, rfl⟩⟩
      · exact ⟨t, _, rfl, .inr (.inl ⟨h2, rfl, rfl⟩)⟩
      · exact ⟨t, _, rfl, .inr (.inr (.inl ⟨h3, rfl, rfl⟩))⟩
      · exact ⟨t, _, rfl, .inr (.inr (.inr ⟨h1, h2, h3, rfl, rfl⟩))⟩
    · rintro ⟨t', us', e', h⟩
      injection e' with e1 e2
      subst e1 e2
      rcases h with ⟨h1, rfl, rfl⟩ | ⟨h1, rfl, rfl⟩ | ⟨h1, rfl, rfl⟩ | ⟨h1, h2, h3, rfl, rfl⟩
      · exact .inl ⟨h1, rfl, rfl⟩
      · exact .inr ⟨by simp [h1], .inl ⟨h1, rfl, rfl⟩⟩
      · exact .inr ⟨by simp [h1], .inr ⟨by simp [h1], .inl ⟨h1, rfl, rfl⟩⟩⟩
      · exact .inr ⟨h1, .inr ⟨h2, .inr ⟨h3, rfl, rfl⟩⟩⟩

theorem fieldSkip_again {x y : String} {ts m : List Token} (h : FieldSkip x ts (.inl y) m) : m.length < ts.length := by
  obtain ⟨t, us, rfl, h⟩ := h
  rcases h with ⟨_, h, _⟩ | ⟨_, _, rfl⟩ | ⟨_, _, rfl⟩ | ⟨_, _, _, h, _⟩
  · cases h
  · simp
  · simp
  · cases h

theorem fieldOptions_eq (type : String) : fieldOptions type = fieldOptionNames type := by
  unfold fieldOptions fieldOptionNames
  split <;> simp_all [numericTypes]

/-- A type with its parts. -/
theorem is_typeSpecWith {n : Nat} {lib : PLib} {recur : P Elems} (h : Is n recur (TypeExpr lib)) (c : String) :
    Is n (parseTypeSpecWith recur c) (fun ts q r => ∃ e s, TypeExpr lib ts e r ∧ HasParts e s ∧ q = (s, e.options, mergeComment c e.comment)) := by
  unfold parseTypeSpecWith
  refine Is.congr (is_bind h (fun e => is_bind (is_specOfElems n e) (fun s => is_pure n _))) ?_
  intro ts q r
  constructor
  · rintro ⟨e, m, h1, s, m', ⟨h2, rfl⟩, rfl, rfl⟩; exact ⟨e, s, h1, h2, rfl⟩
  · rintro ⟨e, s, h1, h2, rfl⟩; exact ⟨e, r, h1, s, r, ⟨h2, rfl⟩, rfl, rfl⟩

/-- A field, after what precedes it. -/
def FieldAfter (lib : PLib) (c : String) : Rel StructFieldDef := fun ts f r => ∃ n ts' e ts1 s o ts2 c' ok,
  ts = ⟨.symbol, n⟩ :: ts' ∧ TypeExpr lib ts' e ts1 ∧ HasParts e s ∧ Opts lib (fieldOptionNames s.type) ts1 o ts2 ∧
  Ends (mergeComment c (mergeComment c e.comment)) ts2 c' ok r ∧ f = fieldOf n c' s o e.options.annotations

/-- A field, or none at the closing brace. -/
def FieldAt (lib : PLib) : Rel (Option StructFieldDef) := fun ts q r => ∃ s m, LoopRel FieldSkip "" ts s m ∧
  match s with
  | none => q = none ∧ r = m
  | some c => ∃ f, FieldAfter lib c m f r ∧ q = some f

theorem isW_fieldAt {n : Nat} {lib : PLib} {recur : P Elems} (h : Is n recur (TypeExpr lib)) :
    IsW n (parseStructFieldDef lib recur) Option.isNone (FieldAt lib) := by
  unfold parseStructFieldDef
  refine IsW.congr (isW_bind (R2 := fun s m q r => match s with
    | none => q = none ∧ r = m
    | some c => ∃ f, FieldAfter lib c m f r ∧ q = some f)
    (isW_loop (isW_fieldSkip n) (fun _ _ _ _ => fieldSkip_again) "") ?_ ?_) (fun _ _ _ => Iff.rfl)
  · rintro (_ | c) ha
    · cases ha
    · refine IsW.congr (IsW.of_is (is_bind (is_identifier n) (fun fname => is_bind (is_typeSpecWith h c)
        (fun q => is_bind (is_options n lib (fieldOptions q.1.type)) (fun o => is_bind (is_end n _) (fun e => is_pure n _)))))
        (by rintro _ _ _ ⟨_, _, _, _, _, _, _, _, _, _, _, _, rfl, _⟩; rfl)) ?_
      intro ts q r
      constructor
      · rintro ⟨fname, m1, rfl, ⟨s, io, ic⟩, m2, ⟨e, s', h1, h2, h3⟩, o, m3, h4, ⟨c', ok⟩, m4, h5, rfl, rfl⟩
        simp only [Prod.mk.injEq] at h3
        obtain ⟨rfl, rfl, rfl⟩ := h3
        rw [fieldOptions_eq] at h4
        exact ⟨_, ⟨fname, m1, e, m2, s, o, m3, c', ok, rfl, h1, h2, h4, h5, rfl⟩, rfl⟩
      · rintro ⟨f, ⟨fname, m1, e, m2, s, o, m3, c', ok, rfl, h1, h2, h4, h5, rfl⟩, rfl⟩
        refine ⟨fname, m1, rfl, (s, e.options, mergeComment c e.comment), m2, ⟨e, s, h1, h2, rfl⟩, o, m3, ?_, (c', ok), _, h5, rfl, rfl⟩
        rw [fieldOptions_eq]; exact h4
  · rintro (_ | x) ha b
    · exact isGotW_stop rfl
    · cases ha

/-- A round of the loop over fields. -/
def FieldRound (lib : PLib) (fs : List StructFieldDef) : Rel (List StructFieldDef ⊕ List StructFieldDef) := fun ts q r =>
  (FieldAt lib ts none r ∧ q = .inr fs) ∨ (∃ f, FieldAt lib ts (some f) r ∧ q = .inl (fs ++ [f]))

theorem fieldSkip_shrink {c : String} {ts m : List Token} {x : Option String} (h : LoopRel FieldSkip c ts x m) :
    m.length ≤ ts.length := (isW_loop (isW_fieldSkip 0) (fun _ _ _ _ => fieldSkip_again) c).shrink _ _ _ h

theorem fieldAfter_shrink {lib : PLib} {c : String} {ts r : List Token} {f : StructFieldDef} (h : FieldAfter lib c ts f r) :
    r.length < ts.length := by
  obtain ⟨n, ts', e, ts1, s, o, ts2, c', ok, rfl, h1, _, h2, h3, _⟩ := h
  have := typeExpr_shrink h1
  have := opts_shrink h2
  have := ends_shrink h3
  simp only [List.length_cons] at *
  omega

theorem isW_fields {n : Nat} {lib : PLib} {recur : P Elems} (h : Is n recur (TypeExpr lib)) :
    IsW n (P.loop (fieldsStep lib recur) []) (fun _ => true) (fun ts fs r => Fields lib "" ts fs r) := by
  refine IsW.congr (isW_loop (B := FieldRound lib) (fun es => ?_) ?_ []) ?_
  · unfold fieldsStep
    refine IsW.congr (isW_bind (R2 := fun (x : Option StructFieldDef) m (q : List StructFieldDef ⊕ List StructFieldDef) r => match x with
      | none => q = .inr es ∧ r = m
      | some e => q = .inl (es ++ [e]) ∧ r = m) (isW_fieldAt h) ?_ ?_) ?_
    · rintro (_ | e) ha
      · cases ha
      · exact IsW.of_is (is_pure n _) (by rintro _ _ _ ⟨rfl, _⟩; rfl)
    · rintro (_ | e) ha b
      · exact isGotW_stop rfl
      · cases ha
    · intro ts q r
      constructor
      · rintro ⟨_ | e, m, h1, rfl, rfl⟩
        · exact .inl ⟨h1, rfl⟩
        · exact .inr ⟨e, h1, rfl⟩
      · rintro (⟨h1, rfl⟩ | ⟨e, h1, rfl⟩)
        · exact ⟨none, r, h1, rfl, rfl⟩
        · exact ⟨some e, r, h1, rfl, rfl⟩
  · rintro x ts y m (⟨_, h⟩ | ⟨e, ⟨s, m1, h1, h2⟩, _⟩)
    · cases h
    · cases s with
      | none => cases h2.1
      | some c =>
        obtain ⟨f, h3, _⟩ := h2
        exact lt_of_lt_of_le (fieldAfter_shrink h3) (fieldSkip_shrink h1)
  · intro ts a r
    have skip : ∀ c ts q m, LoopRel FieldSkip c ts q m →
        match q with
        | none => Fields lib c ts [] m
        | some x => ∀ f m2 fs r, FieldAfter lib x m f m2 → Fields lib "" m2 fs r → Fields lib c ts (f :: fs) r := by
      intro c ts q m h
      induction h with
      | @again c c' ts m1 q m h1 _ ih =>
        obtain ⟨⟨ty, tx⟩, us, rfl, h⟩ := h1
        rcases h with ⟨_, h, _⟩ | ⟨h2, h, rfl⟩ | ⟨h2, h, rfl⟩ | ⟨_, _, _, h, _⟩
        · cases h
        · injection h with h; simp only at h2; subst h h2
          cases q with
          | none => exact .comment ih
          | some x => intro f m2 fs r h3 h4; exact .comment (ih _ _ _ _ h3 h4)
        · injection h with h; simp only at h2; subst h h2
          cases q with
          | none => exact .newline ih
          | some x => intro f m2 fs r h3 h4; exact .newline (ih _ _ _ _ h3 h4)
        · cases h
      | @done c ts q m h1 =>
        obtain ⟨⟨ty, tx⟩, us, rfl, h⟩ := h1
        rcases h with ⟨h2, h, rfl⟩ | ⟨_, h, _⟩ | ⟨_, h, _⟩ | ⟨_, _, _, h, rfl⟩
        · injection h with h; simp only at h2; subst h h2; exact .close
        · cases h
        · cases h
        · injection h with h; subst h
          rintro f m2 fs r ⟨n, ts', e, ts1, s, o, ts2, c', ok, e1, h3, h4, h5, h6, rfl⟩ h7
          injection e1 with e1 e2
          rw [e1, e2]
          exact .field h3 h4 h5 h6 h7
    constructor
    · have key : ∀ x ts a r, LoopRel (FieldRound lib) x ts a r → ∃ es, Fields lib "" ts es r ∧ a = x ++ es := by
        intro x ts a r h
        induction h with
        | again h1 _ ih =>
          obtain ⟨es, h2, rfl⟩ := ih
          rcases h1 with ⟨_, h⟩ | ⟨e, ⟨s, m, h3, h4⟩, h⟩
          · cases h
          · injection h with h
            subst h
            cases s with
            | none => cases h4.1
            | some x =>
              obtain ⟨f, h5, h7⟩ := h4
              injection h7 with h7
              subst h7
              exact ⟨_, skip _ _ _ _ h3 _ _ _ _ h5 h2, by simp⟩
        | done h1 =>
          rcases h1 with ⟨⟨s, m, h3, h4⟩, h⟩ | ⟨e, _, h⟩
          · injection h with h
            subst h
            cases s with
            | none => obtain ⟨_, rfl⟩ := h4; exact ⟨[], skip _ _ _ _ h3, by simp⟩
            | some x => obtain ⟨_, _, h⟩ := h4; cases h
          · cases h
      intro h
      obtain ⟨es, h1, rfl⟩ := key _ _ _ _ h
      simpa using h1
    · intro h
      have key : ∀ (k : Nat) c ts es r, ts.length < k → Fields lib c ts es r → ∃ s m, LoopRel FieldSkip c ts s m ∧
          match s with
          | none => es = [] ∧ r = m
          | some x => ∃ f m2 es', FieldAfter lib x m f m2 ∧ es = f :: es' ∧ ∀ acc, LoopRel (FieldRound lib) acc m2 (acc ++ es') r := by
        intro k
        induction k with
        | zero => intro c ts es r hk; omega
        | succ k ih =>
          intro c ts es r hk h
          cases h with
          | @close _ x r => exact ⟨none, _, .done ⟨_, _, rfl, .inl ⟨rfl, rfl, rfl⟩⟩, rfl, rfl⟩
          | comment h =>
            obtain ⟨s, m, h1, h2⟩ := ih _ _ _ _ (by simp at hk; omega) h
            exact ⟨s, m, .again ⟨_, _, rfl, .inr (.inl ⟨rfl, rfl, rfl⟩)⟩ h1, h2⟩
          | newline h =>
            obtain ⟨s, m, h1, h2⟩ := ih _ _ _ _ (by simp at hk; omega) h
            exact ⟨s, m, .again ⟨_, _, rfl, .inr (.inr (.inl ⟨rfl, rfl, rfl⟩))⟩ h1, h2⟩
          | @field _ n ts e ts1 s o ts2 c' ok ts3 fs r h3 h4 h5 h6 h =>
            have ha : FieldAfter lib c (⟨.symbol, n⟩ :: ts) _ ts3 := ⟨n, ts, e, ts1, s, o, ts2, c', ok, rfl, h3, h4, h5, h6, rfl⟩
            refine ⟨some c, _, .done ⟨_, _, rfl, .inr (.inr (.inr ⟨by simp, by simp, by simp, rfl, rfl⟩))⟩, _, ts3, fs, ha, rfl, ?_⟩
            intro acc
            have := fieldAfter_shrink ha
            obtain ⟨s, m, h1, h2⟩ := ih _ _ _ _ (by omega) h
            cases s with
            | none =>
              obtain ⟨rfl, rfl⟩ := h2
              exact .done (.inl ⟨⟨none, _, h1, rfl, rfl⟩, by simp⟩)
            | some x =>
              obtain ⟨f, m2, es', h5, rfl, h7⟩ := h2
              refine .again (.inr ⟨f, ⟨some x, _, h1, f, h5, rfl⟩, rfl⟩) ?_
              have := h7 (acc ++ [f])
              rw [List.append_assoc] at this
              exact this
      obtain ⟨s, m, h1, h2⟩ := key _ _ _ _ _ (Nat.lt_succ_self _) h
      cases s with
      | none =>
        obtain ⟨rfl, rfl⟩ := h2
        exact .done (.inl ⟨⟨none, _, h1, rfl, rfl⟩, rfl⟩)
      | some x =>
        obtain ⟨f, m2, es', h5, rfl, h7⟩ := h2
        exact .again (.inr ⟨f, ⟨some x, _, h1, f, h5, rfl⟩, rfl⟩) (h7 [f])

/-! ### Types -/

theorem is_optNewline (n : Nat) : Is n optNewline (fun ts _ r => (∃ x, ts = ⟨.newline, x⟩ :: r) ∨ (ts ≠ [] ∧ NotNext .newline ts ∧ r = ts)) := by
  unfold optNewline
  have hu : ∀ t, IsGot n t ungetToken (fun ts _ r => r = t :: ts) := by
    intro t
    have := isGot_unget (t := t) (is_pure n ())
    exact this.congr (by simp)
  refine Is.congr (is_get (is_syntaxError n) (fun t => isGot_ite (fun _ => hu t) (fun _ => isGot_keep (is_pure n _)))) ?_
  intro ts u r
  rcases ts with _ | ⟨⟨ty, tx⟩, ts⟩
  · simp
  · simp only [onNext_cons, not_not, true_and]
    constructor
    · rintro (⟨h, rfl⟩ | ⟨rfl, rfl⟩)
      · exact .inr ⟨by simp, by simpa [NotNext] using h, rfl⟩
      · exact .inl ⟨tx, rfl⟩
    · rintro (⟨x, e⟩ | ⟨_, h, rfl⟩)
      · simp only [List.cons.injEq, Token.mk.injEq] at e
        obtain ⟨⟨rfl, rfl⟩, rfl⟩ := e
        exact .inr ⟨rfl, rfl⟩
      · exact .inl ⟨by simpa [NotNext] using h, rfl⟩

theorem fields_newline {lib : PLib} {ts r : List Token} {fs : List StructFieldDef} :
    (∃ m, ((∃ x, ts = ⟨.newline, x⟩ :: m) ∨ (ts ≠ [] ∧ NotNext .newline ts ∧ m = ts)) ∧ Fields lib "" m fs r) ↔ Fields lib "" ts fs r := by
  constructor
  · rintro ⟨m, ⟨x, rfl⟩ | ⟨_, _, rfl⟩, h⟩
    · exact .newline h
    · exact h
  · intro h
    rcases ts with _ | ⟨⟨ty, x⟩, ts⟩
    · cases h
    · by_cases ht : ty = .newline
      · subst ht
        cases h with
        | newline h => exact ⟨ts, .inl ⟨x, rfl⟩, h⟩
      · exact ⟨_, .inr ⟨by simp, by simpa [NotNext] using ht, rfl⟩, h⟩

theorem elements_newline {lib : PLib} {ts r : List Token} {es : List EnumElementDef} :
    (∃ m, ((∃ x, ts = ⟨.newline, x⟩ :: m) ∨ (ts ≠ [] ∧ NotNext .newline ts ∧ m = ts)) ∧ Elements lib "" m es r) ↔ Elements lib "" ts es r := by
  constructor
  · rintro ⟨m, ⟨x, rfl⟩ | ⟨_, _, rfl⟩, h⟩
    · exact .sep (.inr (.inl rfl)) h
    · exact h
  · intro h
    rcases ts with _ | ⟨⟨ty, x⟩, ts⟩
    · cases h
    · by_cases ht : ty = .newline
      · subst ht
        cases h with
        | sep _ h => exact ⟨ts, .inl ⟨x, rfl⟩, h⟩
      · exact ⟨_, .inr ⟨by simp, by simpa [NotNext] using ht, rfl⟩, h⟩

/-- A body, after the opening brace. -/
def Braces (lib : PLib) (n : String) (o : Options) : Rel Elems := fun ts e r => ∃ c ts2, Trailing "" ts c ts2 ∧
  (((n = "Struct" ∨ n = "Union") ∧ ∃ fs b ts3 c', Fields lib "" ts2 fs (b :: ts3) ∧ AfterBrace b c ts3 c' r ∧
      e = { type := n, fields := fs, options := o, comment := c' }) ∨
   (¬ (n = "Struct" ∨ n = "Union") ∧ ∃ es b ts3 c', Elements lib "" ts2 es (b :: ts3) ∧ AfterBrace b c ts3 c' r ∧
      e = { type := n, elements := es, options := o, comment := c' }))

theorem is_braces {n : Nat} {lib : PLib} {recur : P Elems} (h : Is n recur (TypeExpr lib)) (name : String) (o : Options) :
    Is n (parseBraces lib recur name o) (Braces lib name o) := by
  unfold parseBraces
  have tailF : ∀ c, Is n (do
      optNewline
      let fields ← P.loop (fieldsStep lib recur) []
      let r ← endOfStatement c
      ungetToken
      pure ({ type := name, fields := fields, options := o, comment := r.1 } : Elems))
      (fun ts2 e r => ∃ fs b ts3 c', Fields lib "" ts2 fs (b :: ts3) ∧ AfterBrace b c ts3 c' r ∧
        e = { type := name, fields := fs, options := o, comment := c' }) := by
    intro c
    have hf : IsW n (do
        let fields ← P.loop (fieldsStep lib recur) []
        let r ← endOfStatement c
        ungetToken
        pure ({ type := name, fields := fields, options := o, comment := r.1 } : Elems)) (fun _ => false)
        (fun ts2 e r => ∃ fs m, Fields lib "" ts2 fs m ∧ ∃ b ts3 c', m = b :: ts3 ∧ AfterBrace b c ts3 c' r ∧
          e = { type := name, fields := fs, options := o, comment := c' }) := by
      refine isW_bind (isW_fields h) (fun _ hk => by cases hk) (fun fs _ b => ?_)
      have := isGot_afterBrace n b c
      refine IsGotW.of_is ?_ (fun _ _ _ _ => rfl)
      refine ⟨?_, ?_, ?_⟩
      · intro s h1 h2 a s' h3
        obtain ⟨q, s1, e1, e2⟩ := bind_ok_inv h3
        obtain ⟨_, s2, e3, e4⟩ := bind_ok_inv e2
        injection (show PRes.ok _ s2 = .ok a s' from e4) with g1 g2
        subst g1 g2
        have := this.sound s h1 h2 q.1 s2 (by rw [bind_ok e1, bind_ok e3]; rfl)
        exact ⟨b, _, _, rfl, this, rfl⟩
      · rintro s h1 h2 hn a r ⟨b', ts3, c', e1, e2, rfl⟩
        injection e1 with g1 g2
        subst g1 g2
        obtain ⟨s', e3, e4⟩ := this.complete s h1 h2 hn c' r e2
        obtain ⟨q, s1, e5, e6⟩ := bind_ok_inv e3
        obtain ⟨_, s2, e7, e8⟩ := bind_ok_inv e6
        injection (show PRes.ok _ s2 = .ok c' s' from e8) with g1 g2
        subst g1 g2
        exact ⟨s2, by rw [bind_ok e5, bind_ok e7]; rfl, e4⟩
      · rintro ts a r ⟨b', ts3, c', e1, e2, rfl⟩
        injection e1 with g1 g2
        subst g1 g2
        exact this.shrink _ _ _ e2
    refine Is.congr (is_bind (is_optNewline n) (fun _ => hf.is)) ?_
    intro ts e r
    constructor
    · rintro ⟨⟨⟩, m, h1, fs, m1, h2, b, ts3, c', rfl, h3, rfl⟩
      exact ⟨fs, b, ts3, c', fields_newline.1 ⟨m, h1, h2⟩, h3, rfl⟩
    · rintro ⟨fs, b, ts3, c', h2, h3, rfl⟩
      obtain ⟨m, h4, h5⟩ := fields_newline.2 h2
      exact ⟨(), m, h4, fs, _, h5, b, ts3, c', rfl, h3, rfl⟩
  have tailE : ∀ c, Is n (do
      optNewline
      let elements ← P.loop (elementsStep lib) []
      let r ← endOfStatement c
      ungetToken
      pure ({ type := name, elements := elements, options := o, comment := r.1 } : Elems))
      (fun ts2 e r => ∃ es b ts3 c', Elements lib "" ts2 es (b :: ts3) ∧ AfterBrace b c ts3 c' r ∧
        e = { type := name, elements := es, options := o, comment := c' }) := by
    intro c
    have hf : IsW n (do
        let elements ← P.loop (elementsStep lib) []
        let r ← endOfStatement c
        ungetToken
        pure ({ type := name, elements := elements, options := o, comment := r.1 } : Elems)) (fun _ => false)
        (fun ts2 e r => ∃ fs m, Elements lib "" ts2 fs m ∧ ∃ b ts3 c', m = b :: ts3 ∧ AfterBrace b c ts3 c' r ∧
          e = { type := name, elements := fs, options := o, comment := c' }) := by
      refine isW_bind (isW_elements n lib) (fun _ hk => by cases hk) (fun fs _ b => ?_)
      have := isGot_afterBrace n b c
      refine IsGotW.of_is ?_ (fun _ _ _ _ => rfl)
      refine ⟨?_, ?_, ?_⟩
      · intro s h1 h2 a s' h3
        obtain ⟨q, s1, e1, e2⟩ := bind_ok_inv h3
        obtain ⟨_, s2, e3, e4⟩ := bind_ok_inv e2
        injection (show PRes.ok _ s2 = .ok a s' from e4) with g1 g2
        subst g1 g2
        have := this.sound s h1 h2 q.1 s2 (by rw [bind_ok e1, bind_ok e3]; rfl)
        exact ⟨b, _, _, rfl, this, rfl⟩
      · rintro s h1 h2 hn a r ⟨b', ts3, c', e1, e2, rfl⟩
        injection e1 with g1 g2
        subst g1 g2
        obtain ⟨s', e3, e4⟩ := this.complete s h1 h2 hn c' r e2
        obtain ⟨q, s1, e5, e6⟩ := bind_ok_inv e3
        obtain ⟨_, s2, e7, e8⟩ := bind_ok_inv e6
        injection (show PRes.ok _ s2 = .ok c' s' from e8) with g1 g2
        subst g1 g2
        exact ⟨s2, by rw [bind_ok e5, bind_ok e7]; rfl, e4⟩
      · rintro ts a r ⟨b', ts3, c', e1, e2, rfl⟩
        injection e1 with g1 g2
        subst g1 g2
        exact this.shrink _ _ _ e2
    refine Is.congr (is_bind (is_optNewline n) (fun _ => hf.is)) ?_
    intro ts e r
    constructor
    · rintro ⟨⟨⟩, m, h1, fs, m1, h2, b, ts3, c', rfl, h3, rfl⟩
      exact ⟨fs, b, ts3, c', elements_newline.1 ⟨m, h1, h2⟩, h3, rfl⟩
    · rintro ⟨fs, b, ts3, c', h2, h3, rfl⟩
      obtain ⟨m, h4, h5⟩ := elements_newline.2 h2
      exact ⟨(), m, h4, fs, _, h5, b, ts3, c', rfl, h3, rfl⟩
  refine Is.congr (is_bind (is_trailing n "") (fun c => is_ite (fun _ => tailF c) (fun _ => tailE c))) ?_
  intro ts e r
  rfl

end Sadl
