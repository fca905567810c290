import Verif.Lemmas.GrammarOps
import Verif.Lemmas.Http

/-! The parsing of HTTP actions, described exactly. -/

namespace Sadl

open Spec

/-- Comments and newlines before an item of a block. -/
inductive Skips : String → List Token → String → List Token → Prop
  | refl {c ts} : Skips c ts c ts
  | comment {c x ts c' m} : Skips (mergeComment c x) ts c' m → Skips c (⟨.lineComment, x⟩ :: ts) c' m
  | newline {c x ts c' m} : Skips c ts c' m → Skips c (⟨.newline, x⟩ :: ts) c' m

theorem Skips.shrink {c c' : String} {ts m : List Token} (h : Skips c ts c' m) : m.length ≤ ts.length := by
  induction h with
  | refl => exact le_refl _
  | comment _ ih => simp; omega
  | newline _ ih => simp; omega

theorem Skips.snocComment {c c' x : String} {ts m : List Token} (h : Skips c ts c' (⟨.lineComment, x⟩ :: m)) :
    Skips c ts (mergeComment c' x) m := by
  generalize hm : (⟨.lineComment, x⟩ :: m : List Token) = m' at h
  induction h with
  | refl => subst hm; exact .comment .refl
  | comment _ ih => exact .comment (ih hm)
  | newline _ ih => exact .newline (ih hm)

theorem Skips.snocNewline {c c' x : String} {ts m : List Token} (h : Skips c ts c' (⟨.newline, x⟩ :: m)) :
    Skips c ts c' m := by
  generalize hm : (⟨.newline, x⟩ :: m : List Token) = m' at h
  induction h with
  | refl => subst hm; exact .newline .refl
  | comment _ ih => exact .comment (ih hm)
  | newline _ ih => exact .newline (ih hm)

/-- What `IsBlockDone` finds. -/
def BlockRel (c : String) : Rel (Bool × String) := fun ts q r => ∃ m, Skips c ts q.2 m ∧
  ((q.1 = true ∧ ∃ x, m = ⟨.closeBrace, x⟩ :: r) ∨
   (q.1 = false ∧ r = m ∧ NotNext .closeBrace m ∧ NotNext .lineComment m ∧ NotNext .newline m))

/-- A round of `IsBlockDone`. -/
def BlockRound (c : String) : Rel (String ⊕ (Bool × String)) := fun ts q r =>
  (∃ x, ts = ⟨.closeBrace, x⟩ :: r ∧ q = .inr (true, c)) ∨ (∃ x, ts = ⟨.lineComment, x⟩ :: r ∧ q = .inl (mergeComment c x)) ∨
  (∃ x, ts = ⟨.newline, x⟩ :: r ∧ q = .inl c) ∨
  (NotNext .closeBrace ts ∧ NotNext .lineComment ts ∧ NotNext .newline ts ∧ q = .inr (false, c) ∧ r = ts)

theorem is_blockRound (n : Nat) (c : String) : Is n (blockStep c) (BlockRound c) := by
  unfold blockStep
  refine Is.congr (is_get (is_pure n _) (fun t => isGot_ite (fun _ => isGot_keep (is_pure n _)) (fun _ => isGot_ite
    (fun _ => isGot_keep (is_pure n _)) (fun _ => isGot_ite (fun _ => isGot_keep (is_pure n _)) (fun _ => isGot_unget (is_pure n _)))))) ?_
  intro ts q r
  rcases ts with _ | ⟨⟨ty, x⟩, ts⟩
  · rw [onNext_nil]
    simp [BlockRound, NotNext]
  · rw [onNext_cons]
    constructor
    · rintro (⟨h, rfl, rfl⟩ | ⟨h1, ⟨h, rfl, rfl⟩ | ⟨h2, ⟨h, rfl, rfl⟩ | ⟨h3, rfl, rfl⟩⟩⟩)
      · simp only at h; subst h; exact .inl ⟨x, rfl, rfl⟩
      · simp only at h; subst h; exact .inr (.inl ⟨x, rfl, rfl⟩)
      · simp only at h; subst h; exact .inr (.inr (.inl ⟨x, rfl, rfl⟩))
      · exact .inr (.inr (.inr ⟨by simpa [NotNext] using h1, by simpa [NotNext] using h2, by simpa [NotNext] using h3, rfl, rfl⟩))
    · rintro (⟨x', h, rfl⟩ | ⟨x', h, rfl⟩ | ⟨x', h, rfl⟩ | ⟨h1, h2, h3, rfl, rfl⟩)
      · simp only [List.cons.injEq, Token.mk.injEq] at h
        obtain ⟨⟨rfl, rfl⟩, rfl⟩ := h
        exact .inl ⟨rfl, rfl, rfl⟩
      · simp only [List.cons.injEq, Token.mk.injEq] at h
        obtain ⟨⟨rfl, rfl⟩, rfl⟩ := h
        exact .inr ⟨by simp, .inl ⟨rfl, rfl, rfl⟩⟩
      · simp only [List.cons.injEq, Token.mk.injEq] at h
        obtain ⟨⟨rfl, rfl⟩, rfl⟩ := h
        exact .inr ⟨by simp, .inr ⟨by simp, .inl ⟨rfl, rfl, rfl⟩⟩⟩
      · exact .inr ⟨by simpa [NotNext] using h1, .inr ⟨by simpa [NotNext] using h2, .inr ⟨by simpa [NotNext] using h3, rfl, rfl⟩⟩⟩

theorem is_block_done (n : Nat) (c : String) : Is n (isBlockDone c) (BlockRel c) := by
  unfold isBlockDone
  refine Is.congr (is_loop (is_blockRound n) ?_ c) ?_
  · rintro x ts y m (⟨x', rfl, h⟩ | ⟨x', rfl, h⟩ | ⟨x', rfl, h⟩ | ⟨_, _, _, h, _⟩)
    · cases h
    · simp
    · simp
    · cases h
  · intro ts q r
    constructor
    · intro h
      induction h with
      | again h1 _ ih =>
        obtain ⟨m, h2, h3⟩ := ih
        rcases h1 with ⟨x', rfl, h⟩ | ⟨x', rfl, h⟩ | ⟨x', rfl, h⟩ | ⟨_, _, _, h, _⟩
        · cases h
        · injection h with h; subst h; exact ⟨m, .comment h2, h3⟩
        · injection h with h; subst h; exact ⟨m, .newline h2, h3⟩
        · cases h
      | done h1 =>
        rcases h1 with ⟨x', rfl, h⟩ | ⟨x', rfl, h⟩ | ⟨x', rfl, h⟩ | ⟨h1, h2, h3, h, rfl⟩
        · injection h with h; subst h; exact ⟨_, .refl, .inl ⟨rfl, x', rfl⟩⟩
        · cases h
        · cases h
        · injection h with h; subst h; exact ⟨_, .refl, .inr ⟨rfl, rfl, h1, h2, h3⟩⟩
    · rintro ⟨m, h1, h2⟩
      obtain ⟨b, c'⟩ := q
      simp only at h1 h2
      induction h1 with
      | refl =>
        rcases h2 with ⟨rfl, x, rfl⟩ | ⟨rfl, rfl, h1, h2, h3⟩
        · exact .done (.inl ⟨x, rfl, rfl⟩)
        · exact .done (.inr (.inr (.inr ⟨h1, h2, h3, rfl, rfl⟩)))
      | comment _ ih => exact .again (.inr (.inl ⟨_, rfl, rfl⟩)) (ih h2)
      | newline _ ih => exact .again (.inr (.inr (.inl ⟨_, rfl, rfl⟩))) (ih h2)

/-- A block item: `IsBlockDone` and, if it is not, an item that starts with a word. -/
theorem is_blockItem {α : Type} {n : Nat} {close : String → P α} {item : String → String → P α} {C : String → α}
    {R : String → String → Rel α} (hc : ∀ c, close c = pure (C c)) (hi : ∀ w c, Is n (item w c) (R w c)) : Is n (do
      let r ← isBlockDone ""
      if r.1 then close r.2 else do
        let w ← expectIdentifier
        item w r.2) (fun ts q r => ∃ c m, Skips "" ts c m ∧
          ((∃ x, m = ⟨.closeBrace, x⟩ :: r ∧ q = C c) ∨ (∃ w m', m = ⟨.symbol, w⟩ :: m' ∧ R w c m' q r))) := by
  simp only [hc]
  refine Is.congr (is_bind (is_block_done n "") (fun b => is_ite (fun _ => is_pure n _) (fun _ => is_bind (is_identifier n)
    (fun w => hi w _)))) ?_
  intro ts q r
  constructor
  · rintro ⟨⟨b, c⟩, m1, ⟨m, h1, h2⟩, h3⟩
    refine ⟨c, m, h1, ?_⟩
    rcases h3 with ⟨h3, rfl, rfl⟩ | ⟨h3, w, m', rfl, h4⟩
    · simp only at h3 h2
      rcases h2 with ⟨_, x, rfl⟩ | ⟨h, _⟩
      · exact .inl ⟨x, rfl, rfl⟩
      · simp [h] at h3
    · simp only at h3 h2
      rcases h2 with ⟨h, _⟩ | ⟨_, rfl, _⟩
      · exact absurd h h3
      · exact .inr ⟨w, m', rfl, h4⟩
  · rintro ⟨c, m, h1, ⟨x, rfl, rfl⟩ | ⟨w, m', rfl, h2⟩⟩
    · exact ⟨(true, c), r, ⟨_, h1, .inl ⟨rfl, x, rfl⟩⟩, .inl ⟨rfl, rfl, rfl⟩⟩
    · exact ⟨(false, c), _, ⟨_, h1, .inr ⟨rfl, rfl, by simp [NotNext], by simp [NotNext], by simp [NotNext]⟩⟩,
        .inr ⟨by simp, w, m', rfl, h2⟩⟩

theorem mkParam_eq (path n c : String) (s : TypeSpec) (o : Options) : mkParam path n c s o = paramOf path n c s o := by
  have hh : ∀ k, parameterSource path n o.header = .header k → k = o.header := by
    intro k h
    unfold parameterSource at h
    split at h
    · injection h with h; exact h.symm
    · simp only at h; split at h
      · cases h
      · split at h <;> cases h
  have hn : (∀ k, parameterSource path n o.header ≠ .header k) → o.header = "" := by
    intro h
    by_contra hne
    refine h o.header ?_
    unfold parameterSource
    rw [if_pos hne]
  unfold mkParam paramOf
  cases hs : parameterSource path n o.header with
  | path => have := hn (by simp [hs]); simp [this]
  | query k => have := hn (by simp [hs]); simp [this]
  | header k => have := hh k hs; simp [this]
  | body => have := hn (by simp [hs]); simp [this]

/-- A parameter after its name. -/
def ParamTail (lib : PLib) (path n c : String) : Rel HttpParamSpec := fun ts p r => ∃ e ts1 s o ts2 c' ok,
  TypeExpr lib ts e ts1 ∧ HasParts e s ∧ Opts lib ["header", "default", "required"] ts1 o ts2 ∧
  Ends (mergeComment c e.comment) ts2 c' ok r ∧ p = paramOf path n c' s o

theorem param_iff {lib : PLib} {path c : String} {ts r : List Token} {p : HttpParamSpec} : Param lib path c ts p r ↔
    ∃ n m, ts = ⟨.symbol, n⟩ :: m ∧ n ≠ "expect" ∧ n ≠ "except" ∧ ParamTail lib path n c m p r := by
  constructor
  · rintro ⟨h1, h2, h3, h4, h5, h6⟩
    exact ⟨_, _, rfl, h1, h2, _, _, _, _, _, _, _, h3, h4, h5, h6, rfl⟩
  · rintro ⟨n, m, rfl, h1, h2, _, _, _, _, _, _, _, h3, h4, h5, h6, rfl⟩
    exact .mk h1 h2 h3 h4 h5 h6

theorem is_param (n : Nat) (lib : PLib) (path w c : String) : Is n (parseHttpParam lib path w c) (ParamTail lib path w c) := by
  unfold parseHttpParam
  refine Is.congr (is_bind (is_typeSpec n lib c) (fun q => is_bind (is_options n lib _) (fun o => is_bind (is_end n _) (fun e =>
    is_pure n _)))) ?_
  intro ts p r
  constructor
  · rintro ⟨⟨s, io, ic⟩, m1, ⟨e, s', h1, h2, h3⟩, o, m2, h4, ⟨c', ok⟩, m3, h5, rfl, rfl⟩
    simp only [Prod.mk.injEq] at h3
    obtain ⟨rfl, rfl, rfl⟩ := h3
    exact ⟨e, m1, s, o, m2, c', ok, h1, h2, h4, h5, mkParam_eq _ _ _ _ _⟩
  · rintro ⟨e, m1, s, o, m2, c', ok, h1, h2, h4, h5, rfl⟩
    exact ⟨(s, e.options, mergeComment c e.comment), m1, ⟨e, s, h1, h2, rfl⟩, o, m2, h4, (c', ok), r, h5,
      (mkParam_eq _ _ _ _ _).symm, rfl⟩

theorem paramTail_shrink {lib : PLib} {path n c : String} {ts r : List Token} {p : HttpParamSpec} (h : ParamTail lib path n c ts p r) :
    r.length ≤ ts.length := (is_param 0 lib path n c).shrink _ _ _ h

/-- A round of the loop over the outputs of an expected response. -/
def ExpectRound (lib : PLib) (path : String) (e : HttpExpectedSpec) : Rel (HttpExpectedSpec ⊕ HttpExpectedSpec) := fun ts q r =>
  ∃ c m, Skips "" ts c m ∧ ((∃ x, m = ⟨.closeBrace, x⟩ :: r ∧ q = .inr { e with comment := mergeComment e.comment c }) ∨
    (∃ w m', m = ⟨.symbol, w⟩ :: m' ∧ w ≠ "expect" ∧ w ≠ "except" ∧ ∃ p, ParamTail lib path w c m' p r ∧
      q = .inl { e with outputs := e.outputs ++ [p] }))

theorem is_expectRound (n : Nat) (lib : PLib) (path : String) (e : HttpExpectedSpec) :
    Is n (expectStep lib path e) (ExpectRound lib path e) := by
  unfold expectStep
  refine Is.congr (is_blockItem (close := fun c => (pure (.inr { e with comment := mergeComment e.comment c }) : P (HttpExpectedSpec ⊕ HttpExpectedSpec)))
    (item := fun w c => if w = "expect" ∨ w = "except" then (syntaxError : P (HttpExpectedSpec ⊕ HttpExpectedSpec)) else do
      let out ← parseHttpParam lib path w c
      pure (.inl { e with outputs := e.outputs ++ [out] }))
    (C := fun c => (.inr { e with comment := mergeComment e.comment c } : HttpExpectedSpec ⊕ HttpExpectedSpec)) (fun _ => rfl) (fun w c =>
    is_ite (fun _ => is_syntaxError n) (fun _ => is_bind (is_param n lib path w c) (fun p => is_pure n _)))) ?_
  intro ts q r
  constructor
  · rintro ⟨c, m, h1, h2⟩
    refine ⟨c, m, h1, ?_⟩
    rcases h2 with h2 | ⟨w, m', rfl, ⟨_, h⟩ | ⟨h2, p, m1, h3, rfl, rfl⟩⟩
    · exact .inl h2
    · exact h.elim
    · rw [not_or] at h2
      exact .inr ⟨w, m', rfl, h2.1, h2.2, p, h3, rfl⟩
  · rintro ⟨c, m, h1, h2⟩
    refine ⟨c, m, h1, ?_⟩
    rcases h2 with h2 | ⟨w, m', rfl, h2, h3, p, h4, rfl⟩
    · exact .inl h2
    · exact .inr ⟨w, m', rfl, .inr ⟨by simp [h2, h3], p, r, h4, rfl, rfl⟩⟩

theorem Skips.expectBody {lib : PLib} {path : String} {c c' : String} {ts m r : List Token} {q : List HttpParamSpec × String}
    (h : Skips c ts c' m) (h1 : ExpectBody lib path c' m q r) : ExpectBody lib path c ts q r := by
  induction h with
  | refl => exact h1
  | comment _ ih => exact .comment (ih h1)
  | newline _ ih => exact .newline (ih h1)

theorem is_expectBody (n : Nat) (lib : PLib) (path : String) (e : HttpExpectedSpec) : Is n (P.loop (expectStep lib path) e)
    (fun ts e' r => ∃ ps c, ExpectBody lib path "" ts (ps, c) r ∧
      e' = { e with outputs := e.outputs ++ ps, comment := mergeComment e.comment c }) := by
  refine Is.congr (is_loop (is_expectRound n lib path) ?_ e) ?_
  · rintro x ts y m ⟨c, m1, h1, ⟨x, rfl, h⟩ | ⟨w, m', rfl, _, _, p, h2, _⟩⟩
    · cases h
    · have := h1.shrink
      have := paramTail_shrink h2
      simp only [List.length_cons] at *
      omega
  · intro ts a r
    constructor
    · intro h
      induction h with
      | again h1 _ ih =>
        obtain ⟨ps, c', h2, rfl⟩ := ih
        obtain ⟨c, m1, h1, ⟨x, rfl, h⟩ | ⟨w, m', rfl, h3, h4, p, h5, h⟩⟩ := h1
        · cases h
        · injection h with h
          subst h
          exact ⟨p :: ps, c', h1.expectBody (.output (param_iff.2 ⟨w, m', rfl, h3, h4, h5⟩) h2), by simp⟩
      | done h1 =>
        obtain ⟨c, m1, h1, ⟨x, rfl, h⟩ | ⟨w, m', rfl, h3, h4, p, h5, h⟩⟩ := h1
        · injection h with h
          subst h
          exact ⟨[], c, h1.expectBody .close, by simp⟩
        · cases h
    · rintro ⟨ps, c, h, rfl⟩
      have key : ∀ c0 ts q r, ExpectBody lib path c0 ts q r → ∀ ts0 (e : HttpExpectedSpec), Skips "" ts0 c0 ts →
          LoopRel (ExpectRound lib path) e ts0 { e with outputs := e.outputs ++ q.1, comment := mergeComment e.comment q.2 } r := by
        intro c0 ts q r h
        induction h with
        | close =>
          intro ts0 e hs
          exact loopRel_eq (.done ⟨_, _, hs, .inl ⟨_, rfl, rfl⟩⟩) (by simp)
        | comment _ ih => intro ts0 e hs; exact ih ts0 e hs.snocComment
        | newline _ ih => intro ts0 e hs; exact ih ts0 e hs.snocNewline
        | output h1 _ ih =>
          intro ts0 e hs
          obtain ⟨w, m, rfl, h2, h3, h4⟩ := param_iff.1 h1
          exact .again ⟨_, _, hs, .inr ⟨w, m, rfl, h2, h3, _, h4, rfl⟩⟩ (loopRel_eq (ih _ _ .refl) (by simp))
      exact key _ _ _ _ h ts e .refl

theorem is_expected (n : Nat) (lib : PLib) (op : HttpDef) (c : String) : Is n (parseHttpExpectedSpec lib op c)
    (fun ts q r => op.expected = none ∧ ∃ e, Expect lib op.path c ts e r ∧ q = { op with expected := some e }) := by
  unfold parseHttpExpectedSpec
  cases hx : op.expected with
  | some e => exact Is.congr (is_fail n _) (by simp)
  | none =>
    refine Is.congr (is_bind (is_int n 32) (fun st => is_bind (is_options n lib []) (fun o => is_next (fun t => isGot_bind
      (isGot_ite (fun _ => isGot_keep (is_bind (is_trailing n c) (fun c1 => is_expectBody n lib op.path _)))
        (fun _ => isGot_ite (fun _ => isGot_keep (is_pure n _)) (fun _ => isGot_unget (is_pure n _))))
      (fun e => is_bind (is_end! n _) (fun c' => is_pure n _)))))) ?_
    intro ts q r
    constructor
    · rintro ⟨st, m1, ⟨t, rfl, h1⟩, o, m2, h2, h3⟩
      refine ⟨rfl, ?_⟩
      rcases m2 with _ | ⟨⟨ty, x⟩, m2⟩
      · exact h3.elim
      · obtain ⟨e, m3, h3, c', m4, h4, rfl, rfl⟩ := h3
        rcases h3 with ⟨h3, c1, m5, h5, ps, c2, h6, rfl⟩ | ⟨h3, ⟨h5, rfl, rfl⟩ | ⟨h5, rfl, rfl⟩⟩
        · simp only at h3; subst h3
          exact ⟨_, .body h1 h2 h5 h6 h4, by simp⟩
        · simp only at h5; subst h5
          exact ⟨_, .entity h1 h2 h4, by simp⟩
        · exact ⟨_, .none h1 h2 h3 h5 h4, by simp⟩
    · rintro ⟨_, e, h, rfl⟩
      cases h with
      | body h1 h2 h5 h6 h4 =>
        exact ⟨_, _, ⟨_, rfl, h1⟩, _, _, h2, _, _, .inl ⟨rfl, _, _, h5, _, _, h6, rfl⟩, _, _, h4, by simp, rfl⟩
      | entity h1 h2 h4 =>
        exact ⟨_, _, ⟨_, rfl, h1⟩, _, _, h2, _, _, .inr ⟨by simp, .inl ⟨rfl, rfl, rfl⟩⟩, _, _, h4, by simp, rfl⟩
      | none h1 h2 h3 h5 h4 =>
        exact ⟨_, _, ⟨_, rfl, h1⟩, _, _, h2, _, _, .inr ⟨h3, .inr ⟨h5, rfl, rfl⟩⟩, _, _, h4, by simp, rfl⟩

theorem is_excepted (n : Nat) (lib : PLib) (op : HttpDef) (c : String) : Is n (parseHttpExceptionSpec lib op c)
    (fun ts q r => ∃ e, (∀ e' ∈ op.exceptions, e'.type ≠ e.type) ∧ Except lib c ts e r ∧
      q = { op with exceptions := op.exceptions ++ [e] }) := by
  unfold parseHttpExceptionSpec
  refine Is.congr (is_next (fun t => isGot_unget (is_bind (is_ite (fun _ => is_int n 32) (fun _ => is_pure n _)) (fun st => is_bind
    (is_identifier n) (fun w => is_ite (fun _ => is_fail n _) (fun _ => is_bind (is_options n lib []) (fun o => is_bind (is_end! n _)
      (fun c' => is_pure n _)))))))) ?_
  intro ts q r
  rcases ts with _ | ⟨⟨ty, x⟩, ts⟩
  · rw [onNext_nil]
    simp only [false_iff]
    rintro ⟨e, _, h, _⟩
    cases h
  · rw [onNext_cons]
    constructor
    · rintro ⟨st, m, h1, w, m1, rfl, ⟨_, h⟩ | ⟨h2, o, m2, h3, c', m3, h4, rfl, rfl⟩⟩
      · exact h.elim
      · have hd : ∀ e' ∈ op.exceptions, e'.type ≠ w := by
          intro e' he ht
          exact h2 (List.any_eq_true.2 ⟨e', he, by simpa using ht⟩)
        rcases h1 with ⟨h1, t, e, h5⟩ | ⟨h1, rfl, e⟩
        · injection e with e1 e2
          rw [e1, e2]
          exact ⟨_, hd, .status h5 h3 h4, rfl⟩
        · rw [← e]
          exact ⟨_, hd, .noStatus h3 h4, rfl⟩
    · rintro ⟨e, hd, h, rfl⟩
      have hn : ¬ (op.exceptions.any (fun exc => exc.type == e.type)) = true := by
        intro h
        obtain ⟨e', he, ht⟩ := List.any_eq_true.1 h
        exact hd e' he (by simpa using ht)
      cases h with
      | status h5 h3 h4 =>
        exact ⟨_, _, .inl ⟨rfl, _, rfl, h5⟩, _, _, rfl, .inr ⟨hn, _, _, h3, _, _, h4, rfl, rfl⟩⟩
      | noStatus h3 h4 =>
        exact ⟨_, _, .inr ⟨by simp, rfl, rfl⟩, _, _, rfl, .inr ⟨hn, _, _, h3, _, _, h4, rfl, rfl⟩⟩

/-- An item of the body of an action. -/
def HttpItem (lib : PLib) (op : HttpDef) (w c : String) : Rel HttpDef := fun ts q r =>
  (w = "expect" ∧ op.expected = none ∧ ∃ e, Expect lib op.path c ts e r ∧ q = { op with expected := some e }) ∨
  (w = "except" ∧ ∃ e, (∀ e' ∈ op.exceptions, e'.type ≠ e.type) ∧ Except lib c ts e r ∧
    q = { op with exceptions := op.exceptions ++ [e] }) ∨
  (w ≠ "expect" ∧ w ≠ "except" ∧ ∃ p, ParamTail lib op.path w c ts p r ∧ q = { op with inputs := op.inputs ++ [p] })

/-- A round of the loop over the body of an action. -/
def HttpRound (lib : PLib) (op : HttpDef) : Rel (HttpDef ⊕ HttpDef) := fun ts q r =>
  ∃ c m, Skips "" ts c m ∧ ((∃ x, m = ⟨.closeBrace, x⟩ :: r ∧ q = .inr op) ∨
    (∃ w m', m = ⟨.symbol, w⟩ :: m' ∧ ∃ op', HttpItem lib op w c m' op' r ∧ q = .inl op'))

theorem is_httpItem (n : Nat) (lib : PLib) (op : HttpDef) (c w : String) : Is n
    (if w = "expect" then parseHttpExpectedSpec lib op c
     else if w = "except" then parseHttpExceptionSpec lib op c
     else do
      let p ← parseHttpParam lib op.path w c
      pure { op with inputs := op.inputs ++ [p] }) (HttpItem lib op w c) := by
  refine Is.congr (is_ite (fun _ => is_expected n lib op c) (fun _ => is_ite (fun _ => is_excepted n lib op c) (fun _ =>
    is_bind (is_param n lib op.path w c) (fun p => is_pure n _)))) ?_
  intro ts q r
  constructor
  · rintro (⟨h, h1⟩ | ⟨h, ⟨h1, h2⟩ | ⟨h1, p, m, h2, rfl, rfl⟩⟩)
    · exact .inl ⟨h, h1⟩
    · exact .inr (.inl ⟨h1, h2⟩)
    · exact .inr (.inr ⟨h, h1, p, h2, rfl⟩)
  · rintro (⟨h, h1⟩ | ⟨h, h1⟩ | ⟨h, h1, p, h2, rfl⟩)
    · exact .inl ⟨h, h1⟩
    · exact .inr ⟨by rw [h]; decide, .inl ⟨h, h1⟩⟩
    · exact .inr ⟨h, .inr ⟨h1, p, r, h2, rfl, rfl⟩⟩

theorem httpItem_shrink {lib : PLib} {op op' : HttpDef} {c w : String} {ts r : List Token} (h : HttpItem lib op w c ts op' r) :
    r.length ≤ ts.length := (is_httpItem 0 lib op c w).shrink _ _ _ h

theorem is_httpRound (n : Nat) (lib : PLib) (op : HttpDef) : Is n (httpStep lib op) (HttpRound lib op) := by
  have e : httpStep lib op = (do
      let r ← isBlockDone ""
      if r.1 then (pure (.inr op) : P (HttpDef ⊕ HttpDef)) else do
        let w ← expectIdentifier
        let op' ← (if w = "expect" then parseHttpExpectedSpec lib op r.2
           else if w = "except" then parseHttpExceptionSpec lib op r.2
           else do
            let p ← parseHttpParam lib op.path w r.2
            pure { op with inputs := op.inputs ++ [p] })
        pure (.inl op')) := by
    unfold httpStep parseHttpSpec
    congr 1
    funext q
    split
    · rfl
    · funext s
      simp only [bind, P.bind]
      cases expectIdentifier s <;> rfl
  rw [e]
  refine Is.congr (is_blockItem (close := fun c => (pure (.inr op) : P (HttpDef ⊕ HttpDef))) (C := fun _ => (.inr op : HttpDef ⊕ HttpDef))
    (item := fun w c => do
      let op' ← (if w = "expect" then parseHttpExpectedSpec lib op c
           else if w = "except" then parseHttpExceptionSpec lib op c
           else do
            let p ← parseHttpParam lib op.path w c
            pure { op with inputs := op.inputs ++ [p] })
      (pure (.inl op') : P (HttpDef ⊕ HttpDef))) (fun _ => rfl) (fun w c =>
    is_bind (is_httpItem n lib op c w) (fun op' => is_pure n _))) ?_
  intro ts q r
  constructor
  · rintro ⟨c, m, h1, h2⟩
    refine ⟨c, m, h1, ?_⟩
    rcases h2 with h2 | ⟨w, m', rfl, p, m1, h3, rfl, rfl⟩
    · exact .inl h2
    · exact .inr ⟨w, m', rfl, p, h3, rfl⟩
  · rintro ⟨c, m, h1, h2⟩
    refine ⟨c, m, h1, ?_⟩
    rcases h2 with h2 | ⟨w, m', rfl, p, h3, rfl⟩
    · exact .inl h2
    · exact .inr ⟨w, m', rfl, p, r, h3, rfl, rfl⟩

theorem Skips.httpBody {lib : PLib} {h h' : HttpDef} {c c' : String} {ts m r : List Token}
    (hs : Skips c ts c' m) (h1 : HttpBody lib h c' m h' r) : HttpBody lib h c ts h' r := by
  induction hs with
  | refl => exact h1
  | comment _ ih => exact .comment (ih h1)
  | newline _ ih => exact .newline (ih h1)

theorem is_httpBody (n : Nat) (lib : PLib) (op : HttpDef) : Is n (P.loop (httpStep lib) op) (HttpBody lib op "") := by
  refine Is.congr (is_loop (is_httpRound n lib) ?_ op) ?_
  · rintro x ts y m ⟨c, m1, h1, ⟨x, rfl, h⟩ | ⟨w, m', rfl, p, h2, _⟩⟩
    · cases h
    · have := h1.shrink
      have := httpItem_shrink h2
      simp only [List.length_cons] at *
      omega
  · intro ts a r
    constructor
    · intro h
      induction h with
      | again h1 _ ih =>
        obtain ⟨c, m1, h1, ⟨x, rfl, h⟩ | ⟨w, m', rfl, op', h3, h⟩⟩ := h1
        · cases h
        · injection h with h
          subst h
          refine h1.httpBody ?_
          rcases h3 with ⟨rfl, h4, e, h5, rfl⟩ | ⟨rfl, e, h4, h5, rfl⟩ | ⟨h4, h5, p, h6, rfl⟩
          · exact .expect h4 h5 ih
          · exact .except h4 h5 ih
          · exact .param (param_iff.2 ⟨w, m', rfl, h4, h5, h6⟩) ih
      | done h1 =>
        obtain ⟨c, m1, h1, ⟨x, rfl, h⟩ | ⟨w, m', rfl, op', h3, h⟩⟩ := h1
        · injection h with h
          subst h
          exact h1.httpBody .close
        · cases h
    · intro h
      have key : ∀ h c0 ts h' r, HttpBody lib h c0 ts h' r → ∀ ts0, Skips "" ts0 c0 ts → LoopRel (HttpRound lib) h ts0 h' r := by
        intro h c0 ts h' r hb
        induction hb with
        | close => intro ts0 hs; exact .done ⟨_, _, hs, .inl ⟨_, rfl, rfl⟩⟩
        | comment _ ih => intro ts0 hs; exact ih ts0 hs.snocComment
        | newline _ ih => intro ts0 hs; exact ih ts0 hs.snocNewline
        | param h1 _ ih =>
          intro ts0 hs
          obtain ⟨w, m, rfl, h2, h3, h4⟩ := param_iff.1 h1
          exact .again ⟨_, _, hs, .inr ⟨w, m, rfl, _, .inr (.inr ⟨h2, h3, _, h4, rfl⟩), rfl⟩⟩ (ih _ .refl)
        | expect h1 h2 _ ih =>
          intro ts0 hs
          exact .again ⟨_, _, hs, .inr ⟨_, _, rfl, _, .inl ⟨rfl, h1, _, h2, rfl⟩, rfl⟩⟩ (ih _ .refl)
        | except h1 h2 _ ih =>
          intro ts0 hs
          exact .again ⟨_, _, hs, .inr ⟨_, _, rfl, _, .inr (.inl ⟨rfl, _, h1, h2, rfl⟩), rfl⟩⟩ (ih _ .refl)
      exact key _ _ _ _ _ h ts .refl

theorem reverse_rec {α : Type} {motive : List α → Prop} (l : List α) (nil : motive [])
    (append_singleton : ∀ (l : List α) (a : α), motive l → motive (l ++ [a])) : motive l := by
  have : ∀ l : List α, motive l.reverse := by
    intro l
    induction l with
    | nil => exact nil
    | cons a l ih => rw [List.reverse_cons]; exact append_singleton _ _ ih
  rw [← List.reverse_reverse l]
  exact this _

theorem resourceNameL_spec (ws : List (List Char)) :
    (∃ before after, ws = before ++ resourceNameL ws.reverse :: after ∧ '{' ∉ resourceNameL ws.reverse ∧ ∀ a ∈ after, '{' ∈ a) ∨
    (resourceNameL ws.reverse = [] ∧ ∀ a ∈ ws, '{' ∈ a) := by
  induction ws using reverse_rec with
  | nil => right; simp [resourceNameL]
  | append_singleton ws w ih =>
    rw [List.reverse_append, List.reverse_singleton, List.singleton_append]
    unfold resourceNameL
    by_cases hw : '{' ∈ w
    · rw [if_pos hw]
      rcases ih with ⟨b, a, h1, h2, h3⟩ | ⟨h1, h2⟩
      · refine .inl ⟨b, a ++ [w], ?_, h2, ?_⟩
        · conv_lhs => rw [h1]
          simp
        · intro x hx
          rcases List.mem_append.1 hx with hx | hx
          · exact h3 x hx
          · simp only [List.mem_singleton] at hx; subst hx; exact hw
      · refine .inr ⟨h1, ?_⟩
        intro x hx
        rcases List.mem_append.1 hx with hx | hx
        · exact h2 x hx
        · simp only [List.mem_singleton] at hx; subst hx; exact hw
    · rw [if_neg hw]
      exact .inl ⟨ws, [], rfl, hw, by simp⟩

theorem resourceNameL_of (before after : List (List Char)) (seg : List Char) (h1 : '{' ∉ seg) (h2 : ∀ a ∈ after, '{' ∈ a) :
    resourceNameL (before ++ seg :: after).reverse = seg := by
  induction after using reverse_rec with
  | nil => simp [resourceNameL, h1]
  | append_singleton as a ih =>
    have e : (before ++ seg :: (as ++ [a])).reverse = a :: (before ++ seg :: as).reverse := by simp
    rw [e]
    unfold resourceNameL
    rw [if_pos (h2 a (by simp))]
    exact ih (fun x hx => h2 x (by simp [hx]))

theorem lastSegment_iff {path seg : List Char} : LastSegment path seg ↔ seg = resourceNameL (splitAll '/' path).reverse := by
  constructor
  · rintro (⟨b, a, h1, h2, h3⟩ | ⟨rfl, ws, h1, h2⟩)
    · rw [← pieces_unique h1, resourceNameL_of b a seg h2 h3]
    · rw [← pieces_unique h1, resourceNameL_none h2]
  · rintro rfl
    rcases resourceNameL_spec (splitAll '/' path) with ⟨b, a, h1, h2, h3⟩ | ⟨h1, h2⟩
    · refine .inl ⟨b, a, ?_, h2, h3⟩
      rw [← h1]
      exact pieces_splitAll _ _
    · exact .inr ⟨h1, _, pieces_splitAll _ _, h2⟩

theorem ofList_eq_empty {l : List Char} : String.ofList l = "" ↔ l = [] := by
  constructor
  · intro h
    have := congrArg String.toList h
    simpa using this
  · rintro rfl; rfl

theorem namedAction_iff {h h' : HttpDef} : NamedAction h h' ↔ h' = ensureActionName h := by
  unfold ensureActionName ensureResourceName actionName
  constructor
  · intro hn
    cases hn with
    | given h1 => rw [if_neg h1]
    | resource h1 h2 => rw [if_pos h1]; simp only [if_neg h2]
    | segment h1 h2 h3 h4 =>
      rw [lastSegment_iff] at h3
      subst h3
      have : resourceName h.path ≠ "" := by
        unfold resourceName
        rwa [Ne, ofList_eq_empty]
      rw [if_pos h1]; simp only [if_pos h2, if_neg this]
      rfl
    | nothing h1 h2 h3 =>
      rw [lastSegment_iff] at h3
      have : resourceName h.path = "" := by
        unfold resourceName
        rw [ofList_eq_empty]; exact h3.symm
      rw [if_pos h1]; simp only [if_pos h2, this, if_true]
      obtain ⟨⟩ := h
      simp only at h2
      rw [h2]
  · rintro rfl
    by_cases h1 : h.name = ""
    · rw [if_pos h1]
      by_cases h2 : h.resource = ""
      · by_cases h3 : resourceNameL (splitAll '/' h.path.toList).reverse = []
        · have : resourceName h.path = "" := by
            unfold resourceName
            rwa [ofList_eq_empty]
          simp only [if_pos h2, this, if_true]
          have e : { h with resource := "" } = h := by
            obtain ⟨⟩ := h
            simp only at h2
            rw [h2]
          rw [e]
          exact .nothing h1 h2 (lastSegment_iff.2 h3.symm)
        · have : resourceName h.path ≠ "" := by
            unfold resourceName
            rwa [Ne, ofList_eq_empty]
          simp only [if_pos h2, if_neg this]
          exact .segment h1 h2 (lastSegment_iff.2 rfl) h3
      · simp only [if_neg h2]
        exact .resource h1 h2
    · rw [if_neg h1]
      exact .given h1

theorem required_same (p : HttpParamSpec) (b : Bool) (hb : b = false) :
    { p with field := { p.field with required := p.field.required || b } } = p := by
  subst hb
  cases p with
  | mk _ _ _ f => cases f; simp

theorem required_true (p : HttpParamSpec) (b : Bool) (hb : b = true) :
    { p with field := { p.field with required := true } } = { p with field := { p.field with required := p.field.required || b } } := by
  subst hb
  simp

theorem requireInput_eq (p : HttpParamSpec) : requireInput p =
    { p with field := { p.field with required := p.field.required || (p.query = "" ∧ p.header ≠ "") } } := by
  unfold requireInput
  split
  · exact required_true p _ (decide_eq_true (by assumption))
  · exact (required_same p _ (decide_eq_false (by assumption))).symm

theorem ensureRequiredParams_eq (h : HttpDef) : ensureRequiredParams h = withRequired h := by
  unfold ensureRequiredParams withRequired
  congr 1
  · exact List.map_congr_left (fun p _ => requireInput_eq p)
  · cases h.expected with
    | none => rfl
    | some e =>
      simp only [Option.map_some, Option.some.injEq]
      by_cases he : e.status ≠ 204 ∧ e.status ≠ 304
      · rw [if_pos he]
        congr 1
        refine List.map_congr_left (fun p _ => ?_)
        unfold requireOutput
        split
        · exact required_true p _ (decide_eq_true ⟨he.1, he.2, by assumption⟩)
        · rename_i h1
          exact (required_same p _ (decide_eq_false (fun g => h1 g.2.2))).symm
      · rw [if_neg he]
        have : e.outputs.map (fun p => { p with field := { p.field with
              required := p.field.required || (e.status ≠ 204 ∧ e.status ≠ 304 ∧ p.header = "") } }) = e.outputs := by
          refine (List.map_congr_left (g := id) (fun p _ => ?_)).trans (List.map_id _)
          exact required_same p _ (decide_eq_false (fun g => he ⟨g.1, g.2.1⟩))
        rw [this]

theorem is_httpDirective (n : Nat) (lib : PLib) (c : String) : Is n (parseHttpDirective lib c) (HttpDirective lib c) := by
  unfold parseHttpDirective
  refine Is.congr (is_bind (is_identifier n) (fun m => is_ite (fun _ => is_fail n _) (fun _ => is_bind (is_string n) (fun path => is_bind
    (is_options n lib _) (fun o => is_next (fun t => isGot_keep (is_ite (fun _ => is_bind (is_trailing n c) (fun c1 => is_bind
      (is_httpBody n lib _) (fun op => is_bind (is_end n _) (fun e => is_pure n _)))) (fun _ => is_syntaxError n)))))))) ?_
  have hm : ∀ m, m ∈ httpMethods ↔ m ∈ ["GET", "PUT", "POST", "DELETE", "PATCH", "HEAD", "OPTIONS"] := by
    intro m
    simp only [httpMethods, List.mem_cons, List.not_mem_nil, or_false]
    tauto
  intro ts q r
  constructor
  · rintro ⟨m, m1, rfl, ⟨_, h⟩ | ⟨h1, path, m2, rfl, o, m3, h2, h3⟩⟩
    · exact h.elim
    · rcases m3 with _ | ⟨⟨ty, x⟩, m3⟩
      · exact h3.elim
      · rcases h3 with ⟨h3, c1, m4, h4, op, m5, h5, ⟨c', ok⟩, m6, h6, rfl, rfl⟩ | ⟨_, h⟩
        · simp only at h3; subst h3
          rw [not_not, hm] at h1
          rw [ensureRequiredParams_eq]
          exact .mk h1 h2 h4 h5 h6 (namedAction_iff.2 rfl)
        · exact h.elim
  · intro h
    cases h with
    | mk h1 h2 h4 h5 h6 h7 =>
      rw [namedAction_iff] at h7
      subst h7
      rw [← hm] at h1
      refine ⟨_, _, rfl, .inr ⟨fun g => g h1, _, _, rfl, _, _, h2, .inl ⟨rfl, _, _, h4, _, _, h5, (_, _), _, h6, ?_, rfl⟩⟩⟩
      rw [ensureRequiredParams_eq]

end Sadl
