import Verif.Lemmas.GrammarTypeDef
/-
Exact descriptions of examples, operations and names joined by dots.
-/
namespace Sadl
open Spec Props

/-! ### Names joined by dots -/

theorem loopRel_eq {σ α : Type} {R : σ → Rel (σ ⊕ α)} {s : σ} {ts r : List Token} {a b : α} (h : LoopRel R s ts a r) (e : a = b) :
    LoopRel R s ts b r := e ▸ h

theorem isGot_bind {α β : Type} {n : Nat} {t : Token} {p : P α} {f : α → P β} {R1 : Rel α} {R2 : α → Rel β} (h1 : IsGot n t p R1)
    (h2 : ∀ a, Is n (f a) (R2 a)) : IsGot n t (p >>= f) (fun ts b r => ∃ a m, R1 ts a m ∧ R2 a m b r) := by
  refine ⟨?_, ?_, ?_⟩
  · intro s g1 g2 b s' h
    obtain ⟨a, s1, e1, e2⟩ := bind_ok_inv h
    exact ⟨a, pending s1, h1.sound _ g1 g2 _ _ e1, (h2 a).sound _ _ _ e2⟩
  · rintro s g1 g2 hs b r ⟨a, m, e1, e2⟩
    obtain ⟨s1, g3, rfl⟩ := h1.complete s g1 g2 hs a m e1
    obtain ⟨s2, g4, g5⟩ := (h2 a).complete s1 (lt_of_le_of_lt (h1.shrink _ _ _ e1) hs) b r e2
    exact ⟨s2, by rw [bind_ok g3, g4], g5⟩
  · rintro ts b r ⟨a, m, e1, e2⟩
    exact le_trans ((h2 a).shrink _ _ _ e2) (h1.shrink _ _ _ e1)

/-- A round of the loop over the parts of a name. -/
def CompoundRound (s : String) : Rel (String ⊕ String) := fun ts q r => ∃ n us, ts = ⟨.symbol, n⟩ :: us ∧
  ((NotNext .dot us ∧ q = .inr (s ++ n) ∧ r = us) ∨ (∃ x, us = ⟨.dot, x⟩ :: r ∧ q = .inl (s ++ n ++ ".")))

theorem is_compoundRound (n : Nat) (s : String) : Is n (compoundStep s) (CompoundRound s) := by
  unfold compoundStep
  refine Is.congr (is_bind (is_identifier n) (fun m => is_get (is_pure n _) (fun t => isGot_ite (fun _ => isGot_unget (is_pure n _))
    (fun _ => isGot_keep (is_pure n _))))) ?_
  intro ts q r
  constructor
  · rintro ⟨m, us, rfl, h⟩
    refine ⟨m, us, rfl, ?_⟩
    rcases us with _ | ⟨⟨ty, tx⟩, us⟩
    · obtain ⟨rfl, rfl⟩ := h
      exact .inl ⟨by simp [NotNext], rfl, rfl⟩
    · rcases h with ⟨h, rfl, rfl⟩ | ⟨h, rfl, rfl⟩
      · exact .inl ⟨by simpa [NotNext] using h, rfl, rfl⟩
      · simp only [not_not] at h; subst h
        exact .inr ⟨tx, rfl, rfl⟩
  · rintro ⟨m, us, rfl, h⟩
    refine ⟨m, us, rfl, ?_⟩
    rcases h with ⟨h, rfl, rfl⟩ | ⟨x, rfl, rfl⟩
    · rcases r with _ | ⟨⟨ty, tx⟩, us⟩
      · exact ⟨rfl, rfl⟩
      · exact .inl ⟨by simpa [NotNext] using h, rfl, rfl⟩
    · exact .inr ⟨by simp, rfl, rfl⟩

theorem string_dots (a b c : String) : a ++ "." ++ (b ++ "." ++ c) = a ++ "." ++ b ++ "." ++ c := by
  simp only [String.append_assoc]

theorem is_compound (n : Nat) : Is n expectCompoundIdentifier Compound := by
  unfold expectCompoundIdentifier
  refine Is.congr (is_loop (is_compoundRound n) ?_ "") ?_
  · rintro x ts y m ⟨n, us, rfl, ⟨_, h, _⟩ | ⟨x, rfl, _⟩⟩
    · cases h
    · simp; omega
  · intro ts a r
    constructor
    · have key : ∀ s ts a r, LoopRel CompoundRound s ts a r → ∃ m, Compound ts m r ∧ a = s ++ m := by
        intro s ts a r h
        induction h with
        | again h1 _ ih =>
          obtain ⟨m, h2, rfl⟩ := ih
          obtain ⟨n, us, rfl, ⟨_, h, _⟩ | ⟨x, rfl, h⟩⟩ := h1
          · cases h
          · injection h with h
            subst h
            exact ⟨_, .more h2, by simp only [String.append_assoc]⟩
        | done h1 =>
          obtain ⟨n, us, rfl, ⟨h2, h, rfl⟩ | ⟨x, rfl, h⟩⟩ := h1
          · injection h with h
            subst h
            exact ⟨_, .last h2, rfl⟩
          · cases h
      intro h
      obtain ⟨m, h1, rfl⟩ := key _ _ _ _ h
      simpa using h1
    · intro h
      have key : ∀ ts m r, Compound ts m r → ∀ s, LoopRel CompoundRound s ts (s ++ m) r := by
        intro ts m r h
        induction h with
        | last h => intro s; exact .done ⟨_, _, rfl, .inl ⟨h, rfl, rfl⟩⟩
        | more _ ih =>
          intro s
          refine .again ⟨_, _, rfl, .inr ⟨_, rfl, rfl⟩⟩ ?_
          exact loopRel_eq (ih _) (by simp only [String.append_assoc])
      simpa using key _ _ _ h ""

/-- A round of the loop over the rest of a namespace. -/
def DottedRound (s : String) : Rel (String ⊕ String) := fun ts q r =>
  (NotNext .dot ts ∧ q = .inr s ∧ r = ts) ∨
  (∃ x t, ts = ⟨.dot, x⟩ :: t :: r ∧ (t.type = .symbol ∨ t.type = .string) ∧ q = .inl (s ++ "." ++ t.text))

theorem is_dottedRound (n : Nat) (s : String) : Is n (namespaceStep s) (DottedRound s) := by
  unfold namespaceStep
  refine Is.congr (is_get (is_pure n _) (fun t => isGot_ite (fun _ => isGot_unget (is_pure n _))
    (fun _ => isGot_keep (is_bind (is_text n) (fun m => is_pure n _))))) ?_
  intro ts q r
  rcases ts with _ | ⟨⟨ty, tx⟩, ts⟩
  · rw [onNext_nil]
    simp [DottedRound, NotNext]
  · rw [onNext_cons]
    constructor
    · rintro (⟨h, rfl, rfl⟩ | ⟨h, m, _, ⟨t, rfl, h1, rfl⟩, rfl, rfl⟩)
      · exact .inl ⟨by simpa [NotNext] using h, rfl, rfl⟩
      · simp only [not_not] at h; subst h
        exact .inr ⟨tx, t, rfl, h1, rfl⟩
    · rintro (⟨h, rfl, rfl⟩ | ⟨x, t, e, h, rfl⟩)
      · exact .inl ⟨by simpa [NotNext] using h, rfl, rfl⟩
      · simp only [List.cons.injEq, Token.mk.injEq] at e
        obtain ⟨⟨rfl, rfl⟩, rfl⟩ := e
        exact .inr ⟨by simp, t.text, _, ⟨t, rfl, h, rfl⟩, rfl, rfl⟩

theorem dotted_rest {ts r : List Token} {s a : String} : LoopRel DottedRound s ts a r ↔
    (NotNext .dot ts ∧ a = s ∧ r = ts) ∨ (∃ x ts' m, ts = ⟨.dot, x⟩ :: ts' ∧ Dotted ts' m r ∧ a = s ++ "." ++ m) := by
  constructor
  · intro h
    induction h with
    | again h1 _ ih =>
      rcases h1 with ⟨_, h, _⟩ | ⟨x, t, rfl, ht, h⟩
      · cases h
      · injection h with h
        subst h
        rcases ih with ⟨h2, rfl, rfl⟩ | ⟨x', ts', m, rfl, h2, rfl⟩
        · exact .inr ⟨x, _, t.text, rfl, .last ht h2, rfl⟩
        · exact .inr ⟨x, _, t.text ++ "." ++ m, rfl, .more ht h2, (string_dots _ _ _).symm⟩
    | done h1 =>
      rcases h1 with ⟨h2, h, rfl⟩ | ⟨x, n, rfl, _, h⟩
      · injection h with h
        subst h
        exact .inl ⟨h2, rfl, rfl⟩
      · cases h
  · rintro (⟨h, rfl, rfl⟩ | ⟨x, ts', m, rfl, h, rfl⟩)
    · exact .done (.inl ⟨h, rfl, rfl⟩)
    · induction h generalizing s x with
      | last ht h => exact .again (.inr ⟨x, _, rfl, ht, rfl⟩) (.done (.inl ⟨h, rfl, rfl⟩))
      | @more t x' ts m r ht _ ih =>
        refine .again (.inr ⟨x, t, rfl, ht, rfl⟩) ?_
        rw [string_dots]
        exact ih _

theorem is_dotted (n : Nat) : Is n parseNamespaceDirective Dotted := by
  unfold parseNamespaceDirective
  refine Is.congr (is_bind (is_text n) (fun s => is_loop (is_dottedRound n) ?_ s)) ?_
  · rintro x ts y m (⟨_, h, _⟩ | ⟨x, n, rfl, _⟩)
    · cases h
    · simp; omega
  · intro ts a r
    constructor
    · rintro ⟨s, m, ⟨t, rfl, ht, rfl⟩, h⟩
      rcases dotted_rest.1 h with ⟨h2, rfl, rfl⟩ | ⟨x, ts', m, rfl, h2, rfl⟩
      · exact .last ht h2
      · exact .more ht h2
    · intro h
      cases h with
      | last ht h => exact ⟨_, _, ⟨_, rfl, ht, rfl⟩, dotted_rest.2 (.inl ⟨h, rfl, rfl⟩)⟩
      | more ht h => exact ⟨_, _, ⟨_, rfl, ht, rfl⟩, dotted_rest.2 (.inr ⟨_, _, _, rfl, h, rfl⟩)⟩

theorem is_exampleDirective (n : Nat) (lib : PLib) (c : String) : Is n (parseExampleDirective lib c) (ExampleDirective lib c) := by
  unfold parseExampleDirective
  refine Is.congr (is_bind (is_compound n) (fun t => is_bind (is_options n lib _) (fun o => is_bind (is_literalValue n lib)
    (fun v => is_pure n _)))) ?_
  intro ts e r
  constructor
  · rintro ⟨t, m, h1, o, m1, h2, v, m2, ⟨us, rfl, h3⟩, rfl, rfl⟩; exact .mk h1 h2 h3
  · rintro ⟨h1, h2, h3⟩; exact ⟨_, _, h1, _, _, h2, _, _, ⟨_, rfl, h3⟩, rfl, rfl⟩

/-! ### Operations -/

def InputOptRound (b : Bool) : Rel (Bool ⊕ Bool) := fun ts q r => ∃ t, ts = t :: r ∧
  ((t.type = .closeParen ∧ q = .inr b) ∨ (t.type = .symbol ∧ t.text = "required" ∧ q = .inl true) ∨
   (t.type ≠ .closeParen ∧ t.type ≠ .symbol ∧ q = .inl b))

theorem is_inputOptRound (n : Nat) (b : Bool) : Is n (inputOptionStep b) (InputOptRound b) := by
  unfold inputOptionStep
  refine Is.congr (is_must (fun t => isGot_keep (is_ite (fun _ => is_pure n _) (fun _ => is_ite (fun _ => is_ite (fun _ => is_pure n _)
    (fun _ => is_syntaxError n)) (fun _ => is_pure n _))))) ?_
  intro ts q r
  rcases ts with _ | ⟨t, ts⟩
  · simp [InputOptRound]
  · simp only [onNext_cons, and_false, or_false]
    constructor
    · rintro (⟨h1, rfl, rfl⟩ | ⟨h1, ⟨h2, h3, rfl, rfl⟩ | ⟨h2, rfl, rfl⟩⟩)
      · exact ⟨t, rfl, .inl ⟨h1, rfl⟩⟩
      · exact ⟨t, rfl, .inr (.inl ⟨h2, h3, rfl⟩)⟩
      · exact ⟨t, rfl, .inr (.inr ⟨h1, h2, rfl⟩)⟩
    · rintro ⟨t', e, h⟩
      injection e with e1 e2
      subst e1 e2
      rcases h with ⟨h1, rfl⟩ | ⟨h1, h2, rfl⟩ | ⟨h1, h2, rfl⟩
      · exact .inl ⟨h1, rfl, rfl⟩
      · exact .inr ⟨by simp [h1], .inl ⟨h1, h2, rfl, rfl⟩⟩
      · exact .inr ⟨h1, .inr ⟨h2, rfl, rfl⟩⟩

theorem is_inputOpts (n : Nat) : Is n (P.loop inputOptionStep false) InputOpts := by
  refine Is.congr (is_loop (is_inputOptRound n) ?_ false) ?_
  · rintro x ts y m ⟨t, rfl, _⟩; simp
  · intro ts b r
    constructor
    · have key : ∀ x ts b r, LoopRel InputOptRound x ts b r → ∃ b', InputOpts ts b' r ∧ b = (x || b') := by
        intro x ts b r h
        induction h with
        | again h1 _ ih =>
          obtain ⟨b', h2, rfl⟩ := ih
          obtain ⟨⟨ty, tx⟩, rfl, ⟨_, h⟩ | ⟨h3, h4, h⟩ | ⟨h3, h4, h⟩⟩ := h1
          · cases h
          · injection h with h; simp only at h3 h4; subst h h3 h4
            exact ⟨true, .required h2, by simp⟩
          · injection h with h; subst h
            exact ⟨b', .skip h3 h4 h2, rfl⟩
        | done h1 =>
          obtain ⟨⟨ty, tx⟩, rfl, ⟨h3, h⟩ | ⟨h3, h4, h⟩ | ⟨h3, h4, h⟩⟩ := h1
          · injection h with h; simp only at h3; subst h h3
            exact ⟨false, .close, by simp⟩
          · cases h
          · cases h
      intro h
      obtain ⟨b', h1, rfl⟩ := key _ _ _ _ h
      simpa using h1
    · intro h
      have key : ∀ ts b r, InputOpts ts b r → ∀ x, LoopRel InputOptRound x ts (x || b) r := by
        intro ts b r h
        induction h with
        | close => intro x; exact .done ⟨_, rfl, .inl ⟨rfl, by simp⟩⟩
        | required _ ih => intro x; refine .again ⟨_, rfl, .inr (.inl ⟨rfl, rfl, rfl⟩)⟩ ?_; simpa using ih true
        | skip h1 h2 _ ih => intro x; exact .again ⟨_, rfl, .inr (.inr ⟨h1, h2, rfl⟩)⟩ (ih x)
      simpa using key _ _ _ h false

theorem inputOpts_shrink {ts r : List Token} {b : Bool} (h : InputOpts ts b r) : r.length ≤ ts.length :=
  (is_inputOpts 0).shrink _ _ _ h

/-- A round of the loop over inputs.  At the end of the source there are no inputs. -/
def InputRound (st : List StructFieldDef × Bool) : Rel ((List StructFieldDef × Bool) ⊕ List StructFieldDef) := fun ts q r =>
  (ts = [] ∧ st.2 = false ∧ q = .inr [] ∧ r = []) ∨ (∃ x, ts = ⟨.closeBrace, x⟩ :: r ∧ q = .inr st.1) ∨
  (∃ x, ts = ⟨.newline, x⟩ :: r ∧ q = .inl (st.1, true)) ∨
  (∃ n t, ts = ⟨.symbol, n⟩ :: ⟨.symbol, t⟩ :: r ∧ r ≠ [] ∧ NotNext .openParen r ∧
    q = .inl (st.1 ++ [{ name := n, ts := { type := t } }], false)) ∨
  (∃ n t x ts' b, ts = ⟨.symbol, n⟩ :: ⟨.symbol, t⟩ :: ⟨.openParen, x⟩ :: ts' ∧ InputOpts ts' b r ∧
    q = .inl (st.1 ++ [{ name := n, required := b, ts := { type := t } }], false))

theorem is_inputRound (n : Nat) (st : List StructFieldDef × Bool) : Is n (inputsStep st) (InputRound st) := by
  unfold inputsStep
  refine Is.congr (is_get (is_ite (fun _ => is_eofError n) (fun _ => is_pure n _)) (fun t => isGot_keep (is_ite (fun _ => is_pure n _)
    (fun _ => is_ite (fun _ => is_pure n _) (fun _ => is_ite (fun _ => is_syntaxError n) (fun _ => is_must (fun t2 => isGot_keep
      (is_ite (fun _ => is_syntaxError n) (fun _ => is_must (fun t3 => isGot_bind (isGot_ite (fun _ => isGot_unget (is_pure n _))
        (fun _ => isGot_keep (is_inputOpts n))) (fun b => is_pure n _)))))))))))
    ?_
  intro ts q r
  rcases ts with _ | ⟨⟨ty, x⟩, ts⟩
  · simp only [onNext_nil, and_false, false_or]
    constructor
    · rintro ⟨h, rfl, rfl⟩; exact .inl ⟨rfl, by simpa using h, rfl, rfl⟩
    · rintro (⟨_, h, rfl, rfl⟩ | ⟨x, h, _⟩ | ⟨x, h, _⟩ | ⟨n, t, h, _⟩ | ⟨n, t, x, ts', b, h, _⟩)
      · exact ⟨by simp [h], rfl, rfl⟩
      all_goals cases h
  · simp only [onNext_cons, and_false, false_or]
    constructor
    · rintro (⟨rfl, rfl, rfl⟩ | ⟨h1, ⟨rfl, rfl, rfl⟩ | ⟨h2, h3, h4⟩⟩)
      · exact .inr (.inl ⟨x, rfl, rfl⟩)
      · exact .inr (.inr (.inl ⟨x, rfl, rfl⟩))
      · simp only [not_not] at h3; subst h3
        rcases ts with _ | ⟨⟨ty2, x2⟩, ts⟩
        · exact h4.elim
        · simp only [onNext_cons, not_not] at h4
          obtain ⟨rfl, h5⟩ := h4
          rcases ts with _ | ⟨⟨ty3, x3⟩, ts⟩
          · exact h5.elim
          · obtain ⟨b, m, h6, rfl, rfl⟩ := h5
            rcases h6 with ⟨h7, rfl, rfl⟩ | ⟨h7, h8⟩
            · exact .inr (.inr (.inr (.inl ⟨x, x2, rfl, by simp, by simpa [NotNext] using h7, rfl⟩)))
            · simp only [not_not] at h7; subst h7
              exact .inr (.inr (.inr (.inr ⟨x, x2, x3, ts, b, rfl, h8, rfl⟩)))
    · rintro (⟨h, _⟩ | ⟨x', h, rfl⟩ | ⟨x', h, rfl⟩ | ⟨n, t, h, h1, h2, rfl⟩ | ⟨n, t, x', ts', b, h, h1, rfl⟩)
      · cases h
      · simp only [List.cons.injEq, Token.mk.injEq] at h
        obtain ⟨⟨rfl, rfl⟩, rfl⟩ := h
        exact .inl ⟨rfl, rfl, rfl⟩
      · simp only [List.cons.injEq, Token.mk.injEq] at h
        obtain ⟨⟨rfl, rfl⟩, rfl⟩ := h
        exact .inr ⟨by simp, .inl ⟨rfl, rfl, rfl⟩⟩
      · simp only [List.cons.injEq, Token.mk.injEq] at h
        obtain ⟨⟨rfl, rfl⟩, rfl⟩ := h
        refine .inr ⟨by simp, .inr ⟨by simp, by simp, ?_⟩⟩
        rw [onNext_cons]
        refine ⟨by simp, ?_⟩
        rcases r with _ | ⟨⟨ty3, x3⟩, r⟩
        · exact absurd rfl h1
        · exact ⟨false, _, .inl ⟨by simpa [NotNext] using h2, rfl, rfl⟩, rfl, rfl⟩
      · simp only [List.cons.injEq, Token.mk.injEq] at h
        obtain ⟨⟨rfl, rfl⟩, rfl⟩ := h
        refine .inr ⟨by simp, .inr ⟨by simp, by simp, ?_⟩⟩
        rw [onNext_cons]
        refine ⟨by simp, ?_⟩
        rw [onNext_cons]
        exact ⟨b, _, .inr ⟨by simp, h1⟩, rfl, rfl⟩

theorem inputRound_again {st st' : List StructFieldDef × Bool} {ts m : List Token} (h : InputRound st ts (.inl st') m) :
    m.length < ts.length := by
  rcases h with ⟨_, _, h, _⟩ | ⟨x', _, h⟩ | ⟨x', rfl, _⟩ | ⟨n, t, rfl, _⟩ | ⟨n, t, x', ts', b, rfl, h1, _⟩
  · cases h
  · cases h
  · simp
  · simp; omega
  · have := inputOpts_shrink h1; simp; omega

theorem inputs_of_loop {st : List StructFieldDef × Bool} {ts r : List Token} {a : List StructFieldDef}
    (h : LoopRel InputRound st ts a r) : (∃ is, Inputs ts is r ∧ a = st.1 ++ is) ∨ r = [] := by
  induction h with
  | again h1 _ ih =>
    rcases ih with ⟨is, h2, rfl⟩ | h2
    · rcases h1 with ⟨_, _, h, _⟩ | ⟨x', _, h⟩ | ⟨x', rfl, h⟩ | ⟨n, t, rfl, h3, h4, h⟩ | ⟨n, t, x', ts', b, rfl, h3, h⟩
      · cases h
      · cases h
      · injection h with h; subst h; exact .inl ⟨is, .newline h2, rfl⟩
      · injection h with h; subst h; exact .inl ⟨_, .plain h3 h4 h2, by simp⟩
      · injection h with h; subst h; exact .inl ⟨_, .opts h3 h2, by simp⟩
    · exact .inr h2
  | done h1 =>
    rcases h1 with ⟨_, _, h, rfl⟩ | ⟨x', rfl, h⟩ | ⟨x', rfl, h⟩ | ⟨n, t, rfl, h3, h4, h⟩ | ⟨n, t, x', ts', b, rfl, h3, h⟩
    · exact .inr rfl
    · injection h with h; subst h; exact .inl ⟨[], .close, by simp⟩
    all_goals cases h

theorem loop_of_inputs {ts r : List Token} {is : List StructFieldDef} (h : Inputs ts is r) :
    ∀ st : List StructFieldDef × Bool, LoopRel InputRound st ts (st.1 ++ is) r := by
  induction h with
  | close => intro st; exact .done (.inr (.inl ⟨_, rfl, by simp⟩))
  | newline _ ih => intro st; exact .again (.inr (.inr (.inl ⟨_, rfl, rfl⟩))) (ih (st.1, true))
  | plain h1 h2 _ ih =>
    intro st
    refine .again (.inr (.inr (.inr (.inl ⟨_, _, rfl, h1, h2, rfl⟩)))) ?_
    exact loopRel_eq (ih (st.1 ++ [_], false)) (by simp)
  | opts h1 _ ih =>
    intro st
    refine .again (.inr (.inr (.inr (.inr ⟨_, _, _, _, _, rfl, h1, rfl⟩)))) ?_
    exact loopRel_eq (ih (st.1 ++ [_], false)) (by simp)

/-- A round of the loop over outputs. -/
def OutputRound (st : List OperationOutput × Bool) : Rel ((List OperationOutput × Bool) ⊕ List OperationOutput) := fun ts q r =>
  (ts = [] ∧ st.2 = false ∧ q = .inr [] ∧ r = []) ∨ (∃ x, ts = ⟨.closeBrace, x⟩ :: r ∧ q = .inr st.1) ∨
  (∃ x, ts = ⟨.newline, x⟩ :: r ∧ q = .inl (st.1, true)) ∨
  (∃ n t, ts = ⟨.symbol, n⟩ :: ⟨.symbol, t⟩ :: r ∧ q = .inl (st.1 ++ [{ name := n, ts := { type := t } }], false))

theorem is_outputRound (n : Nat) (st : List OperationOutput × Bool) : Is n (outputsStep st) (OutputRound st) := by
  unfold outputsStep
  refine Is.congr (is_get (is_ite (fun _ => is_eofError n) (fun _ => is_pure n _)) (fun t => isGot_keep (is_ite (fun _ => is_pure n _)
    (fun _ => is_ite (fun _ => is_pure n _) (fun _ => is_ite (fun _ => is_syntaxError n) (fun _ => is_must (fun t2 => isGot_keep
      (is_ite (fun _ => is_syntaxError n) (fun _ => is_pure n _))))))))) ?_
  intro ts q r
  rcases ts with _ | ⟨⟨ty, x⟩, ts⟩
  · simp only [onNext_nil, and_false, false_or]
    constructor
    · rintro ⟨h, rfl, rfl⟩; exact .inl ⟨rfl, by simpa using h, rfl, rfl⟩
    · rintro (⟨_, h, rfl, rfl⟩ | ⟨x, h, _⟩ | ⟨x, h, _⟩ | ⟨n, t, h, _⟩)
      · exact ⟨by simp [h], rfl, rfl⟩
      all_goals cases h
  · simp only [onNext_cons, and_false, false_or]
    constructor
    · rintro (⟨rfl, rfl, rfl⟩ | ⟨h1, ⟨rfl, rfl, rfl⟩ | ⟨h2, h3, h4⟩⟩)
      · exact .inr (.inl ⟨x, rfl, rfl⟩)
      · exact .inr (.inr (.inl ⟨x, rfl, rfl⟩))
      · simp only [not_not] at h3; subst h3
        rcases ts with _ | ⟨⟨ty2, x2⟩, ts⟩
        · exact h4.elim
        · simp only [onNext_cons, not_not] at h4
          obtain ⟨rfl, rfl, rfl⟩ := h4
          exact .inr (.inr (.inr ⟨x, x2, rfl, rfl⟩))
    · rintro (⟨h, _⟩ | ⟨x', h, rfl⟩ | ⟨x', h, rfl⟩ | ⟨n, t, h, rfl⟩)
      · cases h
      · simp only [List.cons.injEq, Token.mk.injEq] at h
        obtain ⟨⟨rfl, rfl⟩, rfl⟩ := h
        exact .inl ⟨rfl, rfl, rfl⟩
      · simp only [List.cons.injEq, Token.mk.injEq] at h
        obtain ⟨⟨rfl, rfl⟩, rfl⟩ := h
        exact .inr ⟨by simp, .inl ⟨rfl, rfl, rfl⟩⟩
      · simp only [List.cons.injEq, Token.mk.injEq] at h
        obtain ⟨⟨rfl, rfl⟩, rfl⟩ := h
        refine .inr ⟨by simp, .inr ⟨by simp, by simp, ?_⟩⟩
        rw [onNext_cons]
        exact ⟨by simp, rfl, rfl⟩

theorem outputRound_again {st st' : List OperationOutput × Bool} {ts m : List Token} (h : OutputRound st ts (.inl st') m) :
    m.length < ts.length := by
  rcases h with ⟨_, _, h, _⟩ | ⟨x', _, h⟩ | ⟨x', rfl, _⟩ | ⟨n, t, rfl, _⟩
  · cases h
  · cases h
  · simp
  · simp; omega

theorem outputs_of_loop {st : List OperationOutput × Bool} {ts r : List Token} {a : List OperationOutput}
    (h : LoopRel OutputRound st ts a r) : (∃ is, Outputs ts is r ∧ a = st.1 ++ is) ∨ r = [] := by
  induction h with
  | again h1 _ ih =>
    rcases ih with ⟨is, h2, rfl⟩ | h2
    · rcases h1 with ⟨_, _, h, _⟩ | ⟨x', _, h⟩ | ⟨x', rfl, h⟩ | ⟨n, t, rfl, h⟩
      · cases h
      · cases h
      · injection h with h; subst h; exact .inl ⟨is, .newline h2, rfl⟩
      · injection h with h; subst h; exact .inl ⟨_, .output h2, by simp⟩
    · exact .inr h2
  | done h1 =>
    rcases h1 with ⟨_, _, h, rfl⟩ | ⟨x', rfl, h⟩ | ⟨x', rfl, h⟩ | ⟨n, t, rfl, h⟩
    · exact .inr rfl
    · injection h with h; subst h; exact .inl ⟨[], .close, by simp⟩
    all_goals cases h

theorem loop_of_outputs {ts r : List Token} {is : List OperationOutput} (h : Outputs ts is r) :
    ∀ st : List OperationOutput × Bool, LoopRel OutputRound st ts (st.1 ++ is) r := by
  induction h with
  | close => intro st; exact .done (.inr (.inl ⟨_, rfl, by simp⟩))
  | newline _ ih => intro st; exact .again (.inr (.inr (.inl ⟨_, rfl, rfl⟩))) (ih (st.1, true))
  | output _ ih =>
    intro st
    refine .again (.inr (.inr (.inr ⟨_, _, rfl, rfl⟩))) ?_
    exact loopRel_eq (ih (st.1 ++ [_], false)) (by simp)

/-- A round of the loop over exceptions. -/
def ExceptionRound (st : List String × Bool) : Rel ((List String × Bool) ⊕ List String) := fun ts q r =>
  (ts = [] ∧ st.2 = false ∧ q = .inr [] ∧ r = []) ∨ (∃ x, ts = ⟨.closeBrace, x⟩ :: r ∧ q = .inr st.1) ∨
  (∃ x, ts = ⟨.newline, x⟩ :: r ∧ q = .inl (st.1, true)) ∨ (∃ n, ts = ⟨.symbol, n⟩ :: r ∧ q = .inl (st.1 ++ [n], false))

theorem is_exceptionRound (n : Nat) (st : List String × Bool) : Is n (exceptionsStep st) (ExceptionRound st) := by
  unfold exceptionsStep
  refine Is.congr (is_get (is_ite (fun _ => is_eofError n) (fun _ => is_pure n _)) (fun t => isGot_keep (is_ite (fun _ => is_pure n _)
    (fun _ => is_ite (fun _ => is_pure n _) (fun _ => is_ite (fun _ => is_syntaxError n) (fun _ => is_pure n _)))))) ?_
  intro ts q r
  rcases ts with _ | ⟨⟨ty, x⟩, ts⟩
  · simp only [onNext_nil, and_false, false_or]
    constructor
    · rintro ⟨h, rfl, rfl⟩; exact .inl ⟨rfl, by simpa using h, rfl, rfl⟩
    · rintro (⟨_, h, rfl, rfl⟩ | ⟨x, h, _⟩ | ⟨x, h, _⟩ | ⟨n, h, _⟩)
      · exact ⟨by simp [h], rfl, rfl⟩
      all_goals cases h
  · simp only [onNext_cons, and_false, false_or]
    constructor
    · rintro (⟨rfl, rfl, rfl⟩ | ⟨h1, ⟨rfl, rfl, rfl⟩ | ⟨h2, h3, rfl, rfl⟩⟩)
      · exact .inr (.inl ⟨x, rfl, rfl⟩)
      · exact .inr (.inr (.inl ⟨x, rfl, rfl⟩))
      · simp only [not_not] at h3; subst h3
        exact .inr (.inr (.inr ⟨x, rfl, rfl⟩))
    · rintro (⟨h, _⟩ | ⟨x', h, rfl⟩ | ⟨x', h, rfl⟩ | ⟨n, h, rfl⟩)
      · cases h
      all_goals
        simp only [List.cons.injEq, Token.mk.injEq] at h
        obtain ⟨⟨rfl, rfl⟩, rfl⟩ := h
      · exact .inl ⟨rfl, rfl, rfl⟩
      · exact .inr ⟨by simp, .inl ⟨rfl, rfl, rfl⟩⟩
      · exact .inr ⟨by simp, .inr ⟨by simp, by simp, rfl, rfl⟩⟩

theorem exceptionRound_again {st st' : List String × Bool} {ts m : List Token} (h : ExceptionRound st ts (.inl st') m) :
    m.length < ts.length := by
  rcases h with ⟨_, _, h, _⟩ | ⟨x', _, h⟩ | ⟨x', rfl, _⟩ | ⟨n, rfl, _⟩
  · cases h
  · cases h
  · simp
  · simp

theorem exceptions_of_loop {st : List String × Bool} {ts r : List Token} {a : List String}
    (h : LoopRel ExceptionRound st ts a r) : (∃ is, Exceptions ts is r ∧ a = st.1 ++ is) ∨ r = [] := by
  induction h with
  | again h1 _ ih =>
    rcases ih with ⟨is, h2, rfl⟩ | h2
    · rcases h1 with ⟨_, _, h, _⟩ | ⟨x', _, h⟩ | ⟨x', rfl, h⟩ | ⟨n, rfl, h⟩
      · cases h
      · cases h
      · injection h with h; subst h; exact .inl ⟨is, .newline h2, rfl⟩
      · injection h with h; subst h; exact .inl ⟨_, .exc h2, by simp⟩
    · exact .inr h2
  | done h1 =>
    rcases h1 with ⟨_, _, h, rfl⟩ | ⟨x', rfl, h⟩ | ⟨x', rfl, h⟩ | ⟨n, rfl, h⟩
    · exact .inr rfl
    · injection h with h; subst h; exact .inl ⟨[], .close, by simp⟩
    all_goals cases h

theorem loop_of_exceptions {ts r : List Token} {is : List String} (h : Exceptions ts is r) :
    ∀ st : List String × Bool, LoopRel ExceptionRound st ts (st.1 ++ is) r := by
  induction h with
  | close => intro st; exact .done (.inr (.inl ⟨_, rfl, by simp⟩))
  | newline _ ih => intro st; exact .again (.inr (.inr (.inl ⟨_, rfl, rfl⟩))) (ih (st.1, true))
  | exc _ ih =>
    intro st
    refine .again (.inr (.inr (.inr ⟨_, rfl, rfl⟩))) ?_
    exact loopRel_eq (ih (st.1 ++ [_], false)) (by simp)

theorem is_block {α : Type} {n : Nat} {p : P α} {R : Rel α} (h : Is n p R) : Is n (do
      let tok ← mustToken
      if tok.type ≠ .openBrace then syntaxError else p) (fun ts a r => ∃ x m, ts = ⟨.openBrace, x⟩ :: m ∧ R m a r) := by
  refine Is.congr (is_must (fun t => isGot_keep (is_ite (fun _ => is_syntaxError n) (fun _ => h)))) ?_
  intro ts a r
  rcases ts with _ | ⟨⟨ty, x⟩, ts⟩
  · simp
  · simp only [onNext_cons, and_false, false_or, not_not]
    constructor
    · rintro ⟨rfl, h⟩; exact ⟨x, ts, rfl, h⟩
    · rintro ⟨x', m, e, h⟩
      simp only [List.cons.injEq, Token.mk.injEq] at e
      obtain ⟨⟨rfl, rfl⟩, rfl⟩ := e
      exact ⟨rfl, h⟩

theorem is_inputs (n : Nat) : Is n parseOperationInputs (fun ts a r => ∃ x m, ts = ⟨.openBrace, x⟩ :: m ∧ LoopRel InputRound ([], false) m a r) :=
  is_block (is_loop (is_inputRound n) (fun _ _ _ _ => inputRound_again) _)

theorem is_outputs (n : Nat) : Is n parseOperationOutputs (fun ts a r => ∃ x m, ts = ⟨.openBrace, x⟩ :: m ∧ LoopRel OutputRound ([], false) m a r) :=
  is_block (is_loop (is_outputRound n) (fun _ _ _ _ => outputRound_again) _)

theorem is_exceptions (n : Nat) : Is n parseOperationExceptions (fun ts a r => ∃ x m, ts = ⟨.openBrace, x⟩ :: m ∧ LoopRel ExceptionRound ([], false) m a r) :=
  is_block (is_loop (is_exceptionRound n) (fun _ _ _ _ => exceptionRound_again) _)

/-- A round of the loop over the body of an operation. -/
def OpRound (op : OperationDef) : Rel (OperationDef ⊕ OperationDef) := fun ts q r => ∃ t us, ts = t :: us ∧
  ((t.type = .closeBrace ∧ q = .inr op ∧ r = us) ∨ (t.type ≠ .closeBrace ∧ t.type ≠ .symbol ∧ q = .inl op ∧ r = us) ∨
   (t.type = .symbol ∧
    ((t.text = "inputs" ∧ ∃ x m a, us = ⟨.openBrace, x⟩ :: m ∧ LoopRel InputRound ([], false) m a r ∧ q = .inl { op with inputs := a }) ∨
     (t.text = "outputs" ∧ ∃ x m a, us = ⟨.openBrace, x⟩ :: m ∧ LoopRel OutputRound ([], false) m a r ∧ q = .inl { op with outputs := a }) ∨
     (t.text = "exceptions" ∧ ∃ x m a, us = ⟨.openBrace, x⟩ :: m ∧ LoopRel ExceptionRound ([], false) m a r ∧
       q = .inl { op with exceptions := a }))))

theorem is_opRound (n : Nat) (op : OperationDef) : Is n (operationStep op) (OpRound op) := by
  unfold operationStep
  have hw : ∀ w : String, Is n (match w with
    | "inputs" => do let x ← parseOperationInputs; pure (.inl { op with inputs := x })
    | "outputs" => do let x ← parseOperationOutputs; pure (.inl { op with outputs := x })
    | "exceptions" => do let x ← parseOperationExceptions; pure (.inl { op with exceptions := x })
    | _ => (P.fail "Expected 'inputs', 'outputs', or 'exceptions'" : P (OperationDef ⊕ OperationDef))) (fun us q r =>
      (w = "inputs" ∧ ∃ x m a, us = ⟨.openBrace, x⟩ :: m ∧ LoopRel InputRound ([], false) m a r ∧ q = .inl { op with inputs := a }) ∨
      (w = "outputs" ∧ ∃ x m a, us = ⟨.openBrace, x⟩ :: m ∧ LoopRel OutputRound ([], false) m a r ∧ q = .inl { op with outputs := a }) ∨
      (w = "exceptions" ∧ ∃ x m a, us = ⟨.openBrace, x⟩ :: m ∧ LoopRel ExceptionRound ([], false) m a r ∧
       q = .inl { op with exceptions := a })) := by
    intro w
    split
    · refine Is.congr (is_bind (is_inputs n) (fun a => is_pure n _)) ?_
      intro ts q r
      constructor
      · rintro ⟨a, m1, ⟨x, m, rfl, h⟩, rfl, rfl⟩; exact .inl ⟨rfl, x, m, a, rfl, h, rfl⟩
      · rintro (⟨_, x, m, a, rfl, h, rfl⟩ | ⟨h, _⟩ | ⟨h, _⟩)
        · exact ⟨a, r, ⟨x, m, rfl, h⟩, rfl, rfl⟩
        all_goals exact absurd h (by decide)
    · refine Is.congr (is_bind (is_outputs n) (fun a => is_pure n _)) ?_
      intro ts q r
      constructor
      · rintro ⟨a, m1, ⟨x, m, rfl, h⟩, rfl, rfl⟩; exact .inr (.inl ⟨rfl, x, m, a, rfl, h, rfl⟩)
      · rintro (⟨h, _⟩ | ⟨_, x, m, a, rfl, h, rfl⟩ | ⟨h, _⟩)
        · exact absurd h (by decide)
        · exact ⟨a, r, ⟨x, m, rfl, h⟩, rfl, rfl⟩
        · exact absurd h (by decide)
    · refine Is.congr (is_bind (is_exceptions n) (fun a => is_pure n _)) ?_
      intro ts q r
      constructor
      · rintro ⟨a, m1, ⟨x, m, rfl, h⟩, rfl, rfl⟩; exact .inr (.inr ⟨rfl, x, m, a, rfl, h, rfl⟩)
      · rintro (⟨h, _⟩ | ⟨h, _⟩ | ⟨_, x, m, a, rfl, h, rfl⟩)
        · exact absurd h (by decide)
        · exact absurd h (by decide)
        · exact ⟨a, r, ⟨x, m, rfl, h⟩, rfl, rfl⟩
    · refine Is.congr (is_fail n _) ?_
      intro ts q r
      simp only [false_iff]
      rintro (⟨h, _⟩ | ⟨h, _⟩ | ⟨h, _⟩) <;> contradiction
  refine Is.congr (is_next (fun t => isGot_keep (is_ite (fun _ => is_pure n _) (fun _ => is_ite (fun _ => hw t.text) (fun _ => is_pure n _))))) ?_
  intro ts q r
  rcases ts with _ | ⟨t, us⟩
  · simp [OpRound]
  · rw [onNext_cons]
    constructor
    · rintro (⟨h1, rfl, rfl⟩ | ⟨h1, ⟨h2, h3⟩ | ⟨h2, rfl, rfl⟩⟩)
      · exact ⟨t, _, rfl, .inl ⟨h1, rfl, rfl⟩⟩
      · exact ⟨t, _, rfl, .inr (.inr ⟨h2, h3⟩)⟩
      · exact ⟨t, _, rfl, .inr (.inl ⟨h1, h2, rfl, rfl⟩)⟩
    · rintro ⟨t', us', e, h⟩
      injection e with e1 e2
      subst e1 e2
      rcases h with ⟨h1, rfl, rfl⟩ | ⟨h1, h2, rfl, rfl⟩ | ⟨h1, h2⟩
      · exact .inl ⟨h1, rfl, rfl⟩
      · exact .inr ⟨h1, .inr ⟨h2, rfl, rfl⟩⟩
      · exact .inr ⟨by simp [h1], .inl ⟨h1, h2⟩⟩

theorem opRound_nil {op : OperationDef} {a : OperationDef} {r : List Token} : ¬ LoopRel OpRound op [] a r := by
  intro h
  cases h with
  | again h => obtain ⟨_, _, h, _⟩ := h; cases h
  | done h => obtain ⟨_, _, h, _⟩ := h; cases h

theorem is_opBody (n : Nat) (op : OperationDef) : Is n (P.loop operationStep op) (OpBody op) := by
  refine Is.congr (is_loop (is_opRound n) ?_ op) ?_
  · rintro x ts y m ⟨t, us, rfl, h⟩
    rcases h with ⟨_, h, _⟩ | ⟨_, _, _, rfl⟩ | ⟨_, ⟨_, x, m1, a, rfl, h, _⟩ | ⟨_, x, m1, a, rfl, h, _⟩ | ⟨_, x, m1, a, rfl, h, _⟩⟩
    · cases h
    · simp
    · have := (is_loop (is_inputRound 0) (fun _ _ _ _ => inputRound_again) _).shrink _ _ _ h; simp; omega
    · have := (is_loop (is_outputRound 0) (fun _ _ _ _ => outputRound_again) _).shrink _ _ _ h; simp; omega
    · have := (is_loop (is_exceptionRound 0) (fun _ _ _ _ => exceptionRound_again) _).shrink _ _ _ h; simp; omega
  · intro ts a r
    constructor
    · intro h
      induction h with
      | again h1 hl ih =>
        obtain ⟨⟨ty, tx⟩, us, rfl, h⟩ := h1
        rcases h with ⟨_, h, _⟩ | ⟨h2, h3, h, rfl⟩ | ⟨h2, h3⟩
        · cases h
        · injection h with h; subst h
          exact .skip h2 h3 ih
        · simp only at h2 h3
          subst h2
          rcases h3 with ⟨rfl, x, m1, a, rfl, h4, h⟩ | ⟨rfl, x, m1, a, rfl, h4, h⟩ | ⟨rfl, x, m1, a, rfl, h4, h⟩
          · injection h with h; subst h
            rcases inputs_of_loop h4 with ⟨is, h5, rfl⟩ | rfl
            · exact .inputs h5 ih
            · exact absurd hl opRound_nil
          · injection h with h; subst h
            rcases outputs_of_loop h4 with ⟨is, h5, rfl⟩ | rfl
            · exact .outputs h5 ih
            · exact absurd hl opRound_nil
          · injection h with h; subst h
            rcases exceptions_of_loop h4 with ⟨is, h5, rfl⟩ | rfl
            · exact .exceptions h5 ih
            · exact absurd hl opRound_nil
      | done h1 =>
        obtain ⟨⟨ty, tx⟩, us, rfl, h⟩ := h1
        rcases h with ⟨h2, h, rfl⟩ | ⟨_, _, h, _⟩ | ⟨_, ⟨_, x, m1, a, _, _, h⟩ | ⟨_, x, m1, a, _, _, h⟩ | ⟨_, x, m1, a, _, _, h⟩⟩
        · injection h with h; simp only at h2; subst h h2
          exact .close
        all_goals cases h
    · intro h
      induction h with
      | close => exact .done ⟨_, _, rfl, .inl ⟨rfl, rfl, rfl⟩⟩
      | skip h1 h2 _ ih => exact .again ⟨_, _, rfl, .inr (.inl ⟨h1, h2, rfl, rfl⟩)⟩ ih
      | inputs h1 _ ih => exact .again ⟨_, _, rfl, .inr (.inr ⟨rfl, .inl ⟨rfl, _, _, _, rfl, loop_of_inputs h1 ([], false), rfl⟩⟩)⟩ ih
      | outputs h1 _ ih =>
        exact .again ⟨_, _, rfl, .inr (.inr ⟨rfl, .inr (.inl ⟨rfl, _, _, _, rfl, loop_of_outputs h1 ([], false), rfl⟩)⟩)⟩ ih
      | exceptions h1 _ ih =>
        exact .again ⟨_, _, rfl, .inr (.inr ⟨rfl, .inr (.inr ⟨rfl, _, _, _, rfl, loop_of_exceptions h1 ([], false), rfl⟩)⟩)⟩ ih

theorem is_attempt {α β : Type} {n : Nat} {p : P α} {f : Option α → P β} {R1 : Rel α} {R2 : α → Rel β} (h1 : Is n p R1)
    (h2 : ∀ a, Is n (f (some a)) (R2 a)) (h3 : ∀ s a s', f none s ≠ .ok a s') :
    Is n (P.attempt p >>= f) (fun ts b r => ∃ a m, R1 ts a m ∧ R2 a m b r) := by
  refine ⟨?_, ?_, ?_⟩
  · intro s b s' h
    obtain ⟨a, s1, e1, e2⟩ := bind_ok_inv h
    cases a with
    | none => exact absurd e2 (h3 _ _ _)
    | some a =>
      have e3 : p s = .ok a s1 := by
        unfold P.attempt at e1
        split at e1
        · injection e1 with g1 g2; injection g1 with g1; subst g1 g2; assumption
        all_goals cases e1
      exact ⟨a, pending s1, h1.sound _ _ _ e3, (h2 a).sound _ _ _ e2⟩
  · rintro s hs b r ⟨a, m, e1, e2⟩
    obtain ⟨s1, g1, rfl⟩ := h1.complete s hs a m e1
    obtain ⟨s2, g2, g3⟩ := (h2 a).complete s1 (lt_of_le_of_lt (h1.shrink _ _ _ e1) hs) b r e2
    have : P.attempt p s = .ok (some a) s1 := by unfold P.attempt; rw [g1]
    exact ⟨s2, by rw [bind_ok this, g2], g3⟩
  · rintro ts b r ⟨a, m, e1, e2⟩
    exact le_trans ((h2 a).shrink _ _ _ e2) (h1.shrink _ _ _ e1)

theorem optArg_http {lib : PLib} {L : List Token → Value → Prop} {name : String} {us : List Token} {o o' : Options}
    (h : OptArg lib L name us o o') : name ≠ "http" := by
  cases h <;> decide

theorem optItems_http {lib : PLib} {us : List Token} {o o' : Options} :
    OptItems lib (AnyLit lib) ["http"] us o o' ↔ OptItems lib (AnyLit lib) [] us o o' := by
  constructor
  · intro h
    induction h with
    | nil => exact .nil
    | comma _ ih => exact .comma ih
    | flag h _ ih => exact .flag h ih
    | anno h _ ih => exact .anno h ih
    | opt _ h1 h2 => exact absurd (by simpa using h1) (optArg_http h2)
  · intro h
    induction h with
    | nil => exact .nil
    | comma _ ih => exact .comma ih
    | flag h _ ih => exact .flag h ih
    | anno h _ ih => exact .anno h ih
    | opt _ h1 => cases h1

theorem opts_http {lib : PLib} {ts r : List Token} {o : Options} : Opts lib ["http"] ts o r ↔ Opts lib [] ts o r := by
  unfold Opts OptList
  simp only [optItems_http]

theorem is_operationDirective (n : Nat) (lib : PLib) (c : String) : Is n (parseOperationDirective lib c) (OperationDirective lib c) := by
  unfold parseOperationDirective
  refine Is.congr (is_bind (is_identifier n) (fun name => is_attempt (is_options n lib ["http"]) (fun o => is_bind (is_expect n _)
    (fun _ => is_bind (is_opBody n _) (fun op => is_pure n _))) ?_)) ?_
  · intro s a s' h
    obtain ⟨_, s1, _, h⟩ := bind_ok_inv h
    obtain ⟨_, s2, _, h⟩ := bind_ok_inv h
    cases h
  · intro ts op r
    constructor
    · rintro ⟨name, m, rfl, o, m1, h1, ⟨⟩, m2, ⟨x, rfl⟩, op, m3, h2, rfl, rfl⟩
      exact .mk (opts_http.1 h1) h2
    · rintro ⟨h1, h2⟩
      exact ⟨_, _, rfl, _, _, opts_http.2 h1, (), _, ⟨_, rfl⟩, _, _, h2, rfl, rfl⟩

end Sadl
