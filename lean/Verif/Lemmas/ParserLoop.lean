import Verif.Lemmas.ParserTerm
import Verif.Lemmas.ParserSafe
import Verif.Lemmas.NewModel
/-
Loops: independence of the bound, congruence; sources without given symbols.
-/
namespace Sadl
variable {α β σ : Type}

/-- A larger bound does not change a result that has been reached. -/
theorem loopN_mono (body : σ → P (σ ⊕ α)) (j : Nat) : ∀ (k : Nat) (x : σ) (s : TState),
    P.loopN body k x s ≠ .hang → P.loopN body (k + j) x s = P.loopN body k x s := by
  intro k
  induction k with
  | zero => intro x s h; exact absurd rfl h
  | succ k ih =>
    intro x s h
    have e : k + 1 + j = (k + j) + 1 := by omega
    rw [e]
    unfold P.loopN at h ⊢
    rw [P.bind_apply] at h ⊢
    rw [P.bind_apply]
    cases hb : body x s with
    | ok r s' =>
      rw [hb] at h
      cases r with
      | inl y => exact ih y s' h
      | inr a => rfl
    | err e s' => rfl
    | panic e => rfl
    | hang => rfl

/-- Two loops whose bodies agree on an invariant agree. -/
theorem loopN_congr {body body' : σ → P (σ ⊕ α)} {I : TState → Prop}
    (h1 : ∀ x s, I s → body x s = body' x s)
    (h2 : ∀ x s y s', I s → body x s = .ok (.inl y) s' → I s') :
    ∀ (k : Nat) (x : σ) (s : TState), I s → P.loopN body k x s = P.loopN body' k x s := by
  intro k
  induction k with
  | zero => intro x s _; rfl
  | succ k ih =>
    intro x s hs
    unfold P.loopN
    rw [P.bind_apply, P.bind_apply, ← h1 x s hs]
    cases hb : body x s with
    | ok r s' =>
      cases r with
      | inl y => exact ih y s' (h2 x s y s' hs hb)
      | inr a => rfl
    | err e s' => rfl
    | panic e => rfl
    | hang => rfl

/-- `topStep` reads a token satisfying `ok`. -/
theorem topStep_of_none {lib : PLib} {incl : String → IncRes} {st : Schema × String} {s s' : TState}
    (h : getToken s = .ok none s') : topStep lib incl st s = .ok (.inr st.1) s' := by
  unfold topStep; rw [P.bind_apply, h]; rfl

theorem topStep_of_symbol {lib : PLib} {incl : String → IncRes} {st : Schema × String} {s s' : TState} {t : Token}
    (h : getToken s = .ok (some t) s') (ht : t.type = .symbol) :
    topStep lib incl st s =
      (directive lib incl st.1 st.2 t.text >>= fun sch => (pure (.inl (sch, "")) : P ((Schema × String) ⊕ Schema))) s' := by
  unfold topStep; rw [P.bind_apply, h]; simp only [ht]

/-- What `topStep` does with a token that is not a symbol. -/
def topOther (st : Schema × String) (t : Token) : P ((Schema × String) ⊕ Schema) :=
  match t.type with
  | .lineComment => pure (.inl (st.1, mergeComment st.2 t.text))
  | .semicolon => pure (.inl st)
  | .newline => pure (.inl st)
  | _ => P.fail "Expected one of 'type', 'namespace', ..."

theorem topStep_of_other {lib : PLib} {incl : String → IncRes} {st : Schema × String} {s s' : TState} {t : Token}
    (h : getToken s = .ok (some t) s') (ht : t.type ≠ .symbol) :
    topStep lib incl st s = topOther st t s' := by
  unfold topStep topOther; rw [P.bind_apply, h]
  obtain ⟨ty, tx⟩ := t
  cases ty <;> first | rfl | exact absurd rfl ht

/-- A symbol other than the given word. -/
def NotWord (w : String) (t : Token) : Prop := ¬ (t.type = .symbol ∧ t.text = w)

theorem safe_topOther {pan : Prop} {ok : Token → Prop} (st : Schema × String) (t : Token) :
    Safe pan ok (topOther st t) := by
  unfold topOther; split
  · exact safe_pure _
  · exact safe_pure _
  · exact safe_pure _
  · exact safe_fail _

theorem mergeInclude_not_panic (f : String) (sch : Schema) (inc : Model) (e : String) :
    mergeInclude f sch inc ≠ .panic e := by
  unfold mergeInclude
  cases h : newModel sch with
  | err e => simp
  | panic e => exact absurd h (newModel_no_panic sch e)
  | ok m => simp only; split_ifs <;> simp

theorem safe_include {pan : Prop} {ok : Token → Prop} {incl : String → IncRes}
    (hi : ∀ f e, incl f = some (.panic e) → pan) (sch : Schema) :
    Safe pan ok (parseIncludeDirective incl sch) := by
  unfold parseIncludeDirective
  apply safe_bind safe_expectString
  intro f
  split
  · exact safe_hang
  · exact safe_fail _
  · next e h => exact fun _ _ => hi f e h
  · split
    · exact safe_pure _
    · exact safe_fail _
    · next e h => exact absurd h (mergeInclude_not_panic _ _ _ e)

theorem safe_directive {pan : Prop} {ok : Token → Prop} (lib : PLib) {incl : String → IncRes}
    (hi : ∀ f e, incl f = some (.panic e) → pan) (sch : Schema) (comment word : String) (hw : word = "operation" → pan) :
    Safe pan ok (directive lib incl sch comment word) := by
  unfold directive
  dsimp only
  split
  case h_7 =>
    have : pan = True := by simpa using hw
    subst this
    safe_go
  case h_9 => exact safe_include hi _
  all_goals safe_go

theorem safe_topStep {pan : Prop} {ok : Token → Prop} (lib : PLib) {incl : String → IncRes}
    (hi : ∀ f e, incl f = some (.panic e) → pan) (hok : ∀ t, ok t → t.type = .symbol → t.text = "operation" → pan)
    (st : Schema × String) : Safe pan ok (topStep lib incl st) := by
  intro s hs
  obtain ⟨t?, s', h, h1, h2⟩ := getToken_ok hs
  cases t? with
  | none => rw [topStep_of_none h]; exact h1
  | some t =>
    by_cases ht : t.type = .symbol
    · rw [topStep_of_symbol h ht]
      exact safe_bind (safe_directive lib hi _ _ _ (fun hw => hok t (h2 t rfl) ht hw)) (fun _ => safe_pure _) s' h1
    · rw [topStep_of_other h ht]
      exact safe_topOther st t s' h1

/-- Without the word `operation` in it, a source cannot crash the parser. -/
theorem parseSchema_no_panic (lib : PLib) (incl : String → IncRes) (init : Schema) (toks : List Token)
    (hi : ∀ f e, incl f ≠ some (.panic e)) (ht : ∀ t ∈ toks, NotWord "operation" t) (e : String) :
    parseSchema lib incl init toks ≠ .panic e := by
  intro h
  have := safe_loop (x := (init, "")) (safe_topStep (pan := False) (ok := NotWord "operation") lib hi
    (fun t h1 h2 h3 => h1 ⟨h2, h3⟩)) { toks := toks } ⟨ht, by simp, by simp, by simp⟩
  unfold parseSchema at h
  rw [h] at this
  exact this

theorem directive_incl (lib : PLib) (incl incl' : String → IncRes) (sch : Schema) (comment word : String)
    (hw : word ≠ "include") : directive lib incl sch comment word = directive lib incl' sch comment word := by
  unfold directive
  dsimp only
  split <;> first | rfl | exact absurd rfl hw

theorem topStep_keeps {ok : Token → Prop} (lib : PLib) (incl : String → IncRes) (st : Schema × String) (s s' : TState)
    (hs : AllTok ok s) (y : Schema × String) (h : topStep lib incl st s = .ok (.inl y) s') : AllTok ok s' := by
  have := safe_topStep (pan := True) (ok := ok) lib (incl := incl) (fun _ _ _ => trivial) (fun _ _ _ _ => trivial) st s hs
  rw [h] at this
  exact this

/-- The included files only matter to sources with an `include` directive. -/
theorem parseSchema_incl (lib : PLib) (incl incl' : String → IncRes) (init : Schema) (toks : List Token)
    (ht : ∀ t ∈ toks, NotWord "include" t) : parseSchema lib incl init toks = parseSchema lib incl' init toks := by
  unfold parseSchema P.loop
  refine loopN_congr (I := AllTok (NotWord "include")) ?_ ?_ _ _ _ ⟨ht, by simp, by simp, by simp⟩
  · intro st s hs
    obtain ⟨t?, s', h, h1, h2⟩ := getToken_ok hs
    cases t? with
    | none => rw [topStep_of_none h, topStep_of_none h]
    | some t =>
      by_cases hst : t.type = .symbol
      · rw [topStep_of_symbol h hst, topStep_of_symbol h hst,
          directive_incl lib incl incl' _ _ _ (fun hw => h2 t rfl ⟨hst, hw⟩)]
      · rw [topStep_of_other h hst, topStep_of_other h hst]
  · intro st s y s' hs h
    exact topStep_keeps lib incl st s s' hs y h

end Sadl
