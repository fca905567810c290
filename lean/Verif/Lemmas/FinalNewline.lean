import Verif.Model.ParserValidate
import Mathlib.Tactic.SplitIfs
/-
The parser on a source and on the same source with one more newline: a run that succeeds on the first is followed by one on the second.
-/
namespace Sadl
namespace FinalNl

variable {α β σ : Type}

/-- The second run `q` follows the first `p`: started in related states, if `p` succeeds then so does `q`, with the same value, in related states. -/
def Sim (A : TState → TState → Prop) (p q : P α) (B : α → TState → TState → Prop) : Prop :=
  ∀ s s', A s s' → ∀ a s1, p s = .ok a s1 → ∃ s1', q s' = .ok a s1' ∧ B a s1 s1'

/-- Only comments of the form `/* … */`, that are skipped. -/
def Skip (l : List Token) : Prop := ∀ b ∈ l, b.type = .blockComment

/-- The last token that is not skipped is `t`, or the last token that was read is `t`. -/
def Tail (t : Token) (s : TState) : Prop :=
  (∃ pre bs, s.toks = pre ++ t :: bs ∧ Skip bs) ∨ (Skip s.toks ∧ (s.ungotten = some t ∨ (s.ungotten = none ∧ s.last = some t)))

/-- No token is left. -/
def Exh (s : TState) : Prop := s.toks = [] ∧ s.ungotten = none

/-- The end has not been seen. -/
def Rel (n t : Token) (s s' : TState) : Prop := s' = { s with toks := s.toks ++ [n] } ∧ Tail t s

/-- The end has been seen. -/
def Fin (n : Token) (s s' : TState) : Prop := Exh s ∧ s'.toks = [] ∧ (s'.ungotten = none ∨ s'.ungotten = some n)

def St (n t : Token) (s s' : TState) : Prop := Rel n t s s' ∨ Fin n s s'

/-- The token was just read, by both. -/
def Rd (n t tok : Token) (s s' : TState) : Prop := Rel n t s s' ∧ s.ungotten = none ∧ s.last = some tok

/-- After the end was seen, the first run has put back the brace before it, and the second one the newline. -/
def Back (n : Token) (s s' : TState) : Prop :=
  s.toks = [] ∧ (∃ l, s.ungotten = some l ∧ (l.type = .closeBrace ∨ l.type = .semicolon)) ∧ s'.toks = [] ∧ s'.ungotten = some n

def St2 (n t : Token) (s s' : TState) : Prop := St n t s s' ∨ Back n s s'

/-! ### The rules -/

theorem Sim.bind {A : TState → TState → Prop} {p q : P α} {B : α → TState → TState → Prop} {f g : α → P β} {C : β → TState → TState → Prop}
    (h : Sim A p q B) (h' : ∀ a, Sim (B a) (f a) (g a) C) : Sim A (p >>= f) (q >>= g) C := by
  intro s s' hs b s2 hp
  change P.bind p f s = _ at hp
  change ∃ s1', P.bind q g s' = _ ∧ _
  unfold P.bind at hp ⊢
  cases e : p s with
  | ok a s1 =>
    rw [e] at hp
    obtain ⟨s1', hq, hB⟩ := h s s' hs a s1 e
    rw [hq]
    exact h' a s1 s1' hB b s2 hp
  | err e' s1 => rw [e] at hp; cases hp
  | panic e' => rw [e] at hp; cases hp
  | hang => rw [e] at hp; cases hp

theorem Sim.pure {A : TState → TState → Prop} {B : α → TState → TState → Prop} {a : α} (h : ∀ s s', A s s' → B a s s') :
    Sim A (Pure.pure a : P α) (Pure.pure a) B := by
  intro s s' hs b s1 hp
  cases hp
  exact ⟨s', rfl, h s s' hs⟩

theorem Sim.fail {A : TState → TState → Prop} {e : String} {q : P α} {B : α → TState → TState → Prop} : Sim A (P.fail e) q B :=
  fun _ _ _ _ _ hp => by cases hp
theorem Sim.crash {A : TState → TState → Prop} {e : String} {q : P α} {B : α → TState → TState → Prop} : Sim A (P.crash e) q B :=
  fun _ _ _ _ _ hp => by cases hp
theorem Sim.hang {A : TState → TState → Prop} {q : P α} {B : α → TState → TState → Prop} : Sim A P.hang q B :=
  fun _ _ _ _ _ hp => by cases hp
theorem Sim.syn {A : TState → TState → Prop} {q : P α} {B : α → TState → TState → Prop} : Sim A syntaxError q B :=
  fun _ _ _ _ _ hp => by cases hp
theorem Sim.eof {A : TState → TState → Prop} {q : P α} {B : α → TState → TState → Prop} : Sim A eofError q B :=
  fun _ _ _ _ _ hp => by cases hp

theorem Sim.ite {A : TState → TState → Prop} {c : Prop} [Decidable c] {p1 p2 q1 q2 : P α} {B : α → TState → TState → Prop}
    (h1 : c → Sim A p1 q1 B) (h2 : ¬ c → Sim A p2 q2 B) : Sim A (if c then p1 else p2) (if c then q1 else q2) B := by
  by_cases h : c
  · rw [if_pos h, if_pos h]; exact h1 h
  · rw [if_neg h, if_neg h]; exact h2 h

theorem Sim.mono {A A' : TState → TState → Prop} {p q : P α} {B B' : α → TState → TState → Prop} (h : Sim A p q B)
    (hA : ∀ s s', A' s s' → A s s') (hB : ∀ a s s', B a s s' → B' a s s') : Sim A' p q B' := by
  intro s s' hs a s1 hp
  obtain ⟨s1', h1, h2⟩ := h s s' (hA s s' hs) a s1 hp
  exact ⟨s1', h1, hB a s1 s1' h2⟩

section
variable {n t : Token}

theorem Rd.st {tok : Token} {s s' : TState} (h : Rd n t tok s s') : St n t s s' := .inl h.1

theorem Sim.ofRd {tok : Token} {p q : P α} {B : α → TState → TState → Prop} (h : Sim (St n t) p q B) : Sim (Rd n t tok) p q B :=
  h.mono (fun _ _ h => h.st) (fun _ _ _ h => h)

theorem scan_append (hn : n.type = .newline) : ∀ (l : List Token),
    (∀ tok r, scan l = (some tok, r) → scan (l ++ [n]) = (some tok, r ++ [n])) ∧
    (∀ r, scan l = (none, r) → r = [] ∧ scan (l ++ [n]) = (some n, [])) := by
  intro l
  induction l with
  | nil => exact ⟨fun tok r h => by simp [scan] at h, fun r h => by simp [scan] at h; simp [scan, hn, h]⟩
  | cons x l ih =>
    constructor
    · intro tok r h
      rw [scan] at h
      split_ifs at h with hx
      · rw [List.cons_append, scan, if_pos hx]; exact ih.1 tok r h
      · cases h
        rw [List.cons_append, scan, if_neg hx]
    · intro r h
      rw [scan] at h
      split_ifs at h with hx
      · rw [List.cons_append, scan, if_pos hx]
        exact ih.2 r h
      · cases h

theorem scan_skip {l : List Token} (h : Skip l) : scan l = (none, []) := by
  induction l with
  | nil => rfl
  | cons x l ih => rw [scan, if_pos (h x (by simp))]; exact ih fun b hb => h b (by simp [hb])

theorem scan_tail (ht : t.type ≠ .blockComment) (bs : List Token) : ∀ (l : List Token) (pre : List Token) tok r, l = pre ++ t :: bs → scan l = (some tok, r) →
    (∃ pre', r = pre' ++ t :: bs) ∨ (r = bs ∧ tok = t) := by
  intro l
  induction l with
  | nil => intro pre tok r h; simp at h
  | cons x l ih =>
    intro pre tok r h hs
    rw [scan] at hs
    cases pre with
    | nil =>
      simp only [List.nil_append, List.cons.injEq] at h
      obtain ⟨rfl, rfl⟩ := h
      rw [if_neg ht] at hs
      cases hs
      exact .inr ⟨rfl, rfl⟩
    | cons y pre =>
      simp only [List.cons_append, List.cons.injEq] at h
      obtain ⟨rfl, h⟩ := h
      split_ifs at hs with hx
      · exact ih pre tok r h hs
      · cases hs
        exact .inl ⟨pre, h⟩

theorem scan_none_tail (ht : t.type ≠ .blockComment) (pre bs : List Token) (r : List Token) : scan (pre ++ t :: bs) ≠ (none, r) := by
  induction pre with
  | nil => simp [scan, ht]
  | cons x pre ih =>
    rw [List.cons_append, scan]
    split_ifs
    · exact ih
    · simp

/-- What a `GetToken` gives. -/
theorem get_cases (hn : n.type = .newline) (ht : t.type ≠ .blockComment) {s s' : TState} (h : St n t s s') :
    (∃ tok s1 s1', getToken s = .ok (some tok) s1 ∧ getToken s' = .ok (some tok) s1' ∧ Rd n t tok s1 s1') ∨
    (∃ s1, getToken s = .ok none s1 ∧ Exh s1 ∧ s1.last = s.last ∧ (Rel n t s s' → s.last = some t) ∧
      ((∃ s1', getToken s' = .ok none s1' ∧ Exh s1') ∨ (∃ s1', getToken s' = .ok (some n) s1' ∧ Exh s1' ∧ s1'.last = some n))) := by
  rcases h with ⟨rfl, htl⟩ | ⟨⟨h1, h2⟩, h3, h4⟩
  · cases hu : s.ungotten with
    | some u =>
      refine .inl ⟨u, { s with last := some u, ungotten := none }, { s with toks := s.toks ++ [n], last := some u, ungotten := none }, ?_, ?_, ⟨rfl, ?_⟩, rfl, rfl⟩
      · unfold getToken; simp only [hu]
      · unfold getToken; simp only [hu]
      · rcases htl with h | ⟨h1, h2 | ⟨h2, _⟩⟩
        · exact .inl h
        · rw [hu] at h2; cases h2; exact .inr ⟨h1, .inr ⟨rfl, rfl⟩⟩
        · rw [hu] at h2; cases h2
    | none =>
      cases hs : scan s.toks with
      | mk o r =>
        cases o with
        | some tok =>
          have := (scan_append hn s.toks).1 tok r hs
          refine .inl ⟨tok, { s with toks := r, last := some tok, prevLast := s.last },
            { s with toks := r ++ [n], last := some tok, prevLast := s.last }, ?_, ?_, ⟨?_, ?_⟩, ?_, rfl⟩
          · unfold getToken; simp only [hu, hs]
          · unfold getToken; simp only [hu, this]
          · rfl
          · rcases htl with ⟨pre, bs, h, hb⟩ | ⟨h1, _⟩
            · rcases scan_tail ht bs _ pre tok r h hs with ⟨pre', h'⟩ | ⟨rfl, h''⟩
              · exact .inl ⟨pre', bs, h', hb⟩
              · exact .inr ⟨hb, .inr ⟨hu, by rw [h'']⟩⟩
            · rw [scan_skip h1] at hs; cases hs
          · exact hu
        | none =>
          have := (scan_append hn s.toks).2 r hs
          have hl : s.last = some t := by
            rcases htl with ⟨pre, bs, h, _⟩ | ⟨h1, h2 | ⟨h2, h3⟩⟩
            · rw [h] at hs; exact absurd hs (scan_none_tail ht _ _ _)
            · rw [hu] at h2; cases h2
            · exact h3
          refine .inr ⟨{ s with toks := r, prevLast := s.last }, ?_, ⟨this.1, hu⟩, rfl, fun _ => hl, .inr ⟨{ s with toks := [], last := some n, prevLast := s.last }, ?_, ⟨rfl, hu⟩, rfl⟩⟩
          · unfold getToken; simp only [hu, hs]
          · unfold getToken; simp only [hu, this.2]
  · refine .inr ⟨{ s with toks := [], prevLast := s.last }, ?_, ⟨rfl, h2⟩, rfl, ?_, ?_⟩
    · unfold getToken; simp only [h2, h1, scan]
    · rintro ⟨rfl, _⟩
      simp at h3
    · rcases h4 with h4 | h4
      · exact .inl ⟨{ s' with toks := [], prevLast := s'.last }, by unfold getToken; simp only [h4, h3, scan], rfl, h4⟩
      · exact .inr ⟨{ s' with last := some n, ungotten := none }, by unfold getToken; simp only [h4], ⟨h3, rfl⟩, rfl⟩

variable (hn : n.type = .newline) (ht : t.type ≠ .blockComment)
include hn ht

theorem sim_get {F F' : Option Token → P α} {B : α → TState → TState → Prop}
    (h1 : ∀ tok, Sim (Rd n t tok) (F (some tok)) (F' (some tok)) B)
    (h2 : ∀ s s' a s1, Exh s → Exh s' → F none s = .ok a s1 → ∃ s1', F' none s' = .ok a s1' ∧ B a s1 s1')
    (h3 : ∀ s s' a s1, Exh s → Exh s' → s'.last = some n → F none s = .ok a s1 → ∃ s1', F' (some n) s' = .ok a s1' ∧ B a s1 s1') :
    Sim (St n t) (getToken >>= F) (getToken >>= F') B := by
  intro s s' hs a s1 hp
  change P.bind getToken F s = _ at hp
  change ∃ s1', P.bind getToken F' s' = _ ∧ _
  unfold P.bind at hp ⊢
  rcases get_cases hn ht hs with ⟨tok, u, u', e1, e2, hr⟩ | ⟨u, e1, hu, _, _, ⟨u', e2, hu'⟩ | ⟨u', e2, hu', hl⟩⟩
  · rw [e1] at hp
    rw [e2]
    exact h1 tok u u' hr a s1 hp
  · rw [e1] at hp
    rw [e2]
    exact h2 u u' a s1 hu hu' hp
  · rw [e1] at hp
    rw [e2]
    exact h3 u u' a s1 hu hu' hl hp

theorem sim_next {F F' : Token → P α} {B : α → TState → TState → Prop} (h1 : ∀ tok, Sim (Rd n t tok) (F tok) (F' tok) B) :
    Sim (St n t) (nextToken >>= F) (nextToken >>= F') B := by
  intro s s' hs a s1 hp
  change P.bind (P.bind getToken _) F s = _ at hp
  change ∃ s1', P.bind (P.bind getToken _) F' s' = _ ∧ _
  unfold P.bind at hp ⊢
  rcases get_cases hn ht hs with ⟨tok, u, u', e1, e2, hr⟩ | ⟨u, e1, hu, _⟩
  · rw [e1] at hp
    rw [e2]
    exact h1 tok u u' hr a s1 hp
  · rw [e1] at hp
    cases hp

theorem sim_must {F F' : Token → P α} {B : α → TState → TState → Prop} (h1 : ∀ tok, Sim (Rd n t tok) (F tok) (F' tok) B) :
    Sim (St n t) (mustToken >>= F) (mustToken >>= F') B := by
  intro s s' hs a s1 hp
  change P.bind (P.bind getToken _) F s = _ at hp
  change ∃ s1', P.bind (P.bind getToken _) F' s' = _ ∧ _
  unfold P.bind at hp ⊢
  rcases get_cases hn ht hs with ⟨tok, u, u', e1, e2, hr⟩ | ⟨u, e1, hu, _⟩
  · rw [e1] at hp
    rw [e2]
    exact h1 tok u u' hr a s1 hp
  · rw [e1] at hp
    cases hp

omit hn ht in
theorem sim_unget {tok : Token} : Sim (Rd n t tok) ungetToken ungetToken (fun _ => St n t) := by
  rintro s s' ⟨⟨rfl, htl⟩, hu, hl⟩ a s1 hp
  cases hp
  refine ⟨_, rfl, .inl ⟨rfl, ?_⟩⟩
  rcases htl with h | ⟨h1, h2 | ⟨h2, h3⟩⟩
  · exact .inl h
  · rw [hu] at h2; cases h2
  · exact .inr ⟨h1, .inl h3⟩

omit hn ht in
theorem sim_loopN {body body' : σ → P (σ ⊕ α)} {B : α → TState → TState → Prop}
    (h : ∀ x, Sim (St n t) (body x) (body' x) (fun r s s' => match r with | .inl _ => St n t s s' | .inr a => B a s s')) :
    ∀ k m x, k ≤ m → Sim (St n t) (P.loopN body k x) (P.loopN body' m x) B := by
  intro k
  induction k with
  | zero => exact fun m x _ => Sim.hang
  | succ k ih =>
    intro m x hm
    obtain ⟨m, rfl⟩ : ∃ m', m = m' + 1 := ⟨m - 1, by omega⟩
    unfold P.loopN
    refine Sim.bind (h x) fun r => ?_
    cases r with
    | inl x' => exact ih m x' (by omega)
    | inr a => exact Sim.pure fun s s' h => h

omit hn ht in
theorem St.size {s s' : TState} (h : St n t s s') : s.size ≤ s'.size := by
  rcases h with ⟨rfl, _⟩ | ⟨⟨h1, h2⟩, h3, h4⟩
  · simp only [TState.size, List.length_append]; omega
  · simp [TState.size, h1, h2]

omit hn ht in
theorem sim_loop' {body body' : σ → P (σ ⊕ α)} {B : α → TState → TState → Prop}
    (h : ∀ x, Sim (St n t) (body x) (body' x) (fun r s s' => match r with | .inl _ => St n t s s' | .inr a => B a s s')) (x : σ) :
    Sim (St n t) (P.loop body x) (P.loop body' x) B := by
  intro s s' hs
  exact sim_loopN h _ _ x (Nat.succ_le_succ hs.size) s s' hs

omit hn ht in
theorem sim_loop {body body' : σ → P (σ ⊕ α)} (h : ∀ x, Sim (St n t) (body x) (body' x) (fun _ => St n t)) (x : σ) :
    Sim (St n t) (P.loop body x) (P.loop body' x) (fun _ => St n t) :=
  sim_loop' (B := fun _ => St n t) (fun x => (h x).mono (fun _ _ h => h) (fun r s s' h => by cases r <;> exact h)) x

/-! ### Expectations, literals and options -/

/-- The steps that are always the same. -/
macro "sim" hn:ident ht:ident : tactic => `(tactic| repeat' (first
  | exact Sim.fail | exact Sim.crash | exact Sim.hang | exact Sim.syn | exact Sim.eof
  | exact Sim.pure (fun _ _ h => h) | exact Sim.pure (fun _ _ h => Rd.st h)
  | (refine sim_next $hn $ht fun tok => ?_) | (refine sim_must $hn $ht fun tok => ?_)
  | (refine Sim.bind sim_unget fun _ => ?_)
  | (refine Sim.ite (fun _ => ?_) (fun _ => ?_))))

theorem sim_expectIdentifier : Sim (St n t) expectIdentifier expectIdentifier (fun _ => St n t) := by unfold expectIdentifier; sim hn ht
theorem sim_expect (k : TokType) : Sim (St n t) (expect k) (expect k) (fun _ => St n t) := by unfold expect; sim hn ht
theorem sim_expectString : Sim (St n t) expectString expectString (fun _ => St n t) := by unfold expectString; sim hn ht
theorem sim_expectText : Sim (St n t) expectText expectText (fun _ => St n t) := by unfold expectText; sim hn ht
theorem sim_expectEqualsIdentifier : Sim (St n t) expectEqualsIdentifier expectEqualsIdentifier (fun _ => St n t) :=
  Sim.bind (sim_expect hn ht _) fun _ => sim_expectIdentifier hn ht
theorem sim_expectEqualsString : Sim (St n t) expectEqualsString expectEqualsString (fun _ => St n t) :=
  Sim.bind (sim_expect hn ht _) fun _ => sim_expectString hn ht
theorem sim_expectInt (b : Nat) : Sim (St n t) (expectInt b) (expectInt b) (fun _ => St n t) := by
  unfold expectInt
  sim hn ht
  next tok h => cases parseInt b tok.text <;> sim hn ht
theorem sim_expectEqualsInt64 : Sim (St n t) expectEqualsInt64 expectEqualsInt64 (fun _ => St n t) :=
  Sim.bind (sim_expect hn ht _) fun _ => sim_expectInt hn ht 64
theorem sim_expectNumber (lib : PLib) : Sim (St n t) (expectNumber lib) (expectNumber lib) (fun _ => St n t) := by
  unfold expectNumber
  sim hn ht
  next tok h => cases lib.parseDecimal tok.text <;> sim hn ht
theorem sim_expectEqualsNumber (lib : PLib) : Sim (St n t) (expectEqualsNumber lib) (expectEqualsNumber lib) (fun _ => St n t) :=
  Sim.bind (sim_expect hn ht _) fun _ => sim_expectNumber hn ht lib

theorem Exh.fin {s s' : TState} (he : Exh s) (he' : Exh s') : St n t s s' := .inr ⟨he, he'.1, .inl he'.2⟩

omit hn ht in
theorem unget_at_end {a : α} {s s' : TState} (he : Exh s) (he' : Exh s') (hl : s'.last = some n) :
    ∃ s1', (ungetToken >>= fun _ => (pure a : P α)) s' = .ok a s1' ∧ St n t s s1' :=
  ⟨{ s' with ungotten := s'.last, last := s'.prevLast }, rfl, .inr ⟨he, he'.1, .inr hl⟩⟩

theorem newline_ne {k : TokType} (h : k ≠ .newline) : n.type ≠ k := fun e => h (e ▸ hn)

theorem sim_compoundStep (acc : String) : Sim (St n t) (compoundStep acc) (compoundStep acc) (fun _ => St n t) := by
  unfold compoundStep
  refine Sim.bind (sim_expectIdentifier hn ht) fun x => sim_get hn ht (fun tok => ?_) ?_ ?_
  · dsimp only; sim hn ht
  · intro s s' a s1 he he' h
    cases h
    exact ⟨_, rfl, Exh.fin hn ht he he'⟩
  · intro s s' a s1 he he' hl h
    cases h
    dsimp only
    rw [if_pos (newline_ne hn ht (by decide))]
    exact unget_at_end he he' hl
theorem sim_compound : Sim (St n t) expectCompoundIdentifier expectCompoundIdentifier (fun _ => St n t) :=
  sim_loop (sim_compoundStep hn ht) _

theorem sim_literalString (lib : PLib) (tok : Token) : Sim (St n t) (parseLiteralString lib tok) (parseLiteralString lib tok) (fun _ => St n t) := by
  unfold parseLiteralString
  cases lib.unquote tok.text <;> sim hn ht

theorem sim_arrayStep {r r' : Token → P Value} (hr : ∀ tok, Sim (St n t) (r tok) (r' tok) (fun _ => St n t)) (x : List Value) :
    Sim (St n t) (arrayStep r x) (arrayStep r' x) (fun _ => St n t) := by
  unfold arrayStep
  sim hn ht
  exact Sim.bind (Sim.ofRd (hr _)) fun _ => Sim.pure fun _ _ h => h

theorem sim_objectStep (lib : PLib) {r r' : Token → P Value} (hr : ∀ tok, Sim (St n t) (r tok) (r' tok) (fun _ => St n t)) (x : GoMap Value) :
    Sim (St n t) (objectStep lib r x) (objectStep lib r' x) (fun _ => St n t) := by
  unfold objectStep
  sim hn ht
  refine Sim.bind (Sim.ofRd (sim_literalString hn ht lib _)) fun _ => Sim.bind (sim_expect hn ht _) fun _ => sim_next hn ht fun _ => ?_
  exact Sim.bind (Sim.ofRd (hr _)) fun _ => Sim.pure fun _ _ h => h

theorem sim_literalStep (lib : PLib) {r r' : Token → P Value} (hr : ∀ tok, Sim (St n t) (r tok) (r' tok) (fun _ => St n t)) (tok : Token) :
    Sim (St n t) (literalStep lib r tok) (literalStep lib r' tok) (fun _ => St n t) := by
  unfold literalStep
  cases tok.type
  case symbol =>
    dsimp only
    by_cases h1 : tok.text = "true"
    · rw [h1]; exact Sim.pure fun _ _ h => h
    · by_cases h2 : tok.text = "false"
      · rw [h2]; exact Sim.pure fun _ _ h => h
      · by_cases h3 : tok.text = "null"
        · rw [h3]; exact Sim.pure fun _ _ h => h
        · split <;> first | contradiction | exact Sim.fail
  case string => exact Sim.bind (sim_literalString hn ht lib _) fun _ => Sim.pure fun _ _ h => h
  case number => dsimp only; cases lib.parseDecimal tok.text <;> sim hn ht
  case openBracket => exact sim_loop (sim_arrayStep hn ht hr) _
  case openBrace => exact sim_loop (sim_objectStep hn ht lib hr) _
  all_goals exact Sim.syn

theorem sim_literalN (lib : PLib) : ∀ k m tok, k ≤ m → Sim (St n t) (parseLiteralN lib k tok) (parseLiteralN lib m tok) (fun _ => St n t) := by
  intro k
  induction k with
  | zero => exact fun m tok _ => Sim.hang
  | succ k ih =>
    intro m tok hm
    obtain ⟨m, rfl⟩ : ∃ m', m = m' + 1 := ⟨m - 1, by omega⟩
    unfold parseLiteralN
    exact sim_literalStep hn ht lib (fun tok => ih m tok (by omega)) tok

theorem sim_literal (lib : PLib) (tok : Token) : Sim (St n t) (parseLiteral lib tok) (parseLiteral lib tok) (fun _ => St n t) := by
  intro s s' hs
  exact sim_literalN hn ht lib _ _ tok (Nat.succ_le_succ hs.size) s s' hs

theorem sim_literalValue (lib : PLib) : Sim (St n t) (parseLiteralValue lib) (parseLiteralValue lib) (fun _ => St n t) := by
  unfold parseLiteralValue
  refine sim_get hn ht (fun tok => Sim.ofRd (sim_literal hn ht lib tok)) ?_ ?_
  · intro s s' a s1 _ _ h; cases h
  · intro s s' a s1 _ _ _ h; cases h

theorem sim_equalsLiteral (lib : PLib) : Sim (St n t) (parseEqualsLiteral lib) (parseEqualsLiteral lib) (fun _ => St n t) :=
  Sim.bind (sim_expect hn ht _) fun _ => sim_literalValue hn ht lib

theorem sim_stringArrayStep (x : List String) : Sim (St n t) (stringArrayStep x) (stringArrayStep x) (fun _ => St n t) := by
  unfold stringArrayStep; sim hn ht

theorem sim_stringArray : Sim (St n t) expectEqualsStringArray expectEqualsStringArray (fun _ => St n t) := by
  unfold expectEqualsStringArray
  refine sim_next hn ht fun tok => Sim.ite (fun _ => Sim.syn) fun _ => Sim.ofRd (sim_next hn ht fun tok => Sim.ite (fun _ => Sim.syn) fun _ => Sim.ofRd ?_)
  exact Sim.bind (sim_loop (sim_stringArrayStep hn ht) _) fun _ => Sim.pure fun _ _ h => h

theorem sim_extendedOption (a : GoMap String) (x : String) : Sim (St n t) (parseExtendedOption a x) (parseExtendedOption a x) (fun _ => St n t) := by
  unfold parseExtendedOption
  sim hn ht
  exact Sim.ofRd (Sim.bind (sim_expectString hn ht) fun _ => Sim.pure fun _ _ h => h)

theorem sim_option (lib : PLib) (o : Options) (x : String) : Sim (St n t) (parseOption lib o x) (parseOption lib o x) (fun _ => St n t) := by
  have k : ∀ {γ : Type} {p : P γ} {f : γ → Options}, Sim (St n t) p p (fun _ => St n t) →
      Sim (St n t) (p >>= fun v => (pure (f v) : P Options)) (p >>= fun v => pure (f v)) (fun _ => St n t) :=
    fun h => Sim.bind h fun _ => Sim.pure fun _ _ h => h
  unfold parseOption
  split
  · exact k (sim_expectEqualsNumber hn ht lib)
  · exact k (sim_expectEqualsNumber hn ht lib)
  · exact k (sim_expectEqualsInt64 hn ht)
  · exact k (sim_expectEqualsInt64 hn ht)
  · exact k (sim_expectEqualsString hn ht)
  · exact k (sim_stringArray hn ht)
  · exact Sim.pure fun _ _ h => h
  · exact k (sim_equalsLiteral hn ht lib)
  · exact k (sim_expectEqualsIdentifier hn ht)
  · exact k (sim_expectEqualsIdentifier hn ht)
  · exact k (sim_expectEqualsIdentifier hn ht)
  · exact k (sim_expectEqualsIdentifier hn ht)
  · exact k (sim_expectEqualsString hn ht)
  · exact k (sim_expectEqualsIdentifier hn ht)
  · exact Sim.fail

theorem sim_optionsStep (lib : PLib) (acc : List String) (o : Options) : Sim (St n t) (optionsStep lib acc o) (optionsStep lib acc o) (fun _ => St n t) := by
  unfold optionsStep
  refine sim_get hn ht (fun tok => ?_) ?_ ?_
  · dsimp only
    refine Sim.ite (fun _ => Sim.pure fun _ _ h => Rd.st h) fun _ => Sim.ite (fun _ => ?_) fun _ => Sim.ite (fun _ => Sim.pure fun _ _ h => Rd.st h) fun _ => Sim.syn
    refine Sim.ite (fun _ => ?_) fun _ => Sim.ite (fun _ => ?_) fun _ => Sim.fail
    · exact Sim.ofRd (Sim.bind (sim_extendedOption hn ht _ _) fun _ => Sim.pure fun _ _ h => h)
    · exact Sim.ofRd (Sim.bind (sim_option hn ht lib _ _) fun _ => Sim.pure fun _ _ h => h)
  · intro s s' a s1 _ _ h; cases h
  · intro s s' a s1 _ _ _ h; cases h

theorem sim_options (lib : PLib) (acc : List String) : Sim (St n t) (parseOptions lib acc) (parseOptions lib acc) (fun _ => St n t) := by
  unfold parseOptions
  refine sim_get hn ht (fun tok => ?_) ?_ ?_
  · dsimp only
    sim hn ht
    exact Sim.ofRd (sim_loop (sim_optionsStep hn ht lib acc) _)
  · intro s s' a s1 he he' h
    cases h
    exact ⟨_, rfl, Exh.fin hn ht he he'⟩
  · intro s s' a s1 he he' hl h
    cases h
    dsimp only
    rw [if_neg (newline_ne hn ht (by decide))]
    exact unget_at_end he he' hl

/-- Reading what was put back after the end was seen. -/
theorem Back.get {s s' : TState} (h : Back n s s') : ∃ l s1 s1', (l.type = .closeBrace ∨ l.type = .semicolon) ∧ getToken s = .ok (some l) s1 ∧
    getToken s' = .ok (some n) s1' ∧ Exh s1 ∧ Exh s1' ∧ s1.last = some l ∧ s1'.last = some n := by
  obtain ⟨h1, ⟨l, h2, h3⟩, h4, h5⟩ := h
  exact ⟨l, { s with last := some l, ungotten := none }, { s' with last := some n, ungotten := none }, h3, by unfold getToken; simp only [h2],
    by unfold getToken; simp only [h5], ⟨h1, rfl⟩, ⟨h4, rfl⟩, rfl, rfl⟩

theorem sim_options2 (lib : PLib) (acc : List String) : Sim (St2 n t) (parseOptions lib acc) (parseOptions lib acc) (fun _ => St2 n t) := by
  rintro s s' (hs | hs) a s1 h
  · obtain ⟨s1', h1, h2⟩ := sim_options hn ht lib acc s s' hs a s1 h
    exact ⟨s1', h1, .inl h2⟩
  · obtain ⟨l, u, u', hl, e1, e2, he, he', hla, hla'⟩ := Back.get hn ht hs
    have np : l.type ≠ .openParen := by rcases hl with h | h <;> rw [h] <;> decide
    change P.bind getToken _ s = _ at h
    change ∃ s1', P.bind getToken _ s' = _ ∧ _
    unfold P.bind at h ⊢
    rw [e1] at h
    rw [e2]
    dsimp only at h ⊢
    rw [if_neg np] at h
    rw [if_neg (newline_ne hn ht (by decide))]
    cases h
    exact ⟨_, rfl, .inr ⟨he.1, ⟨l, hla, hl⟩, he'.1, hla'⟩⟩

/-! ### The end of a statement -/

theorem sim_endStep (c : String) : Sim (St n t) (endStep c) (endStep c) (fun _ => St n t) := by
  unfold endStep
  refine sim_get hn ht (fun tok => ?_) ?_ ?_
  · dsimp only; sim hn ht
  · intro s s' a s1 he he' h
    cases h
    exact ⟨_, rfl, Exh.fin hn ht he he'⟩
  · intro s s' a s1 he he' hl h
    cases h
    dsimp only
    rw [if_neg (newline_ne hn ht (by decide)), if_neg (newline_ne hn ht (by decide)), if_pos hn]
    exact ⟨_, rfl, Exh.fin hn ht he he'⟩

theorem sim_end (c : String) : Sim (St n t) (endOfStatement c) (endOfStatement c) (fun _ => St n t) := sim_loop (sim_endStep hn ht) _

/-- The end of a statement after a brace was put back: only the flag may differ. -/
theorem Back.end {s s' : TState} (h : Back n s s') (c : String) (a : String × Bool) (s1 : TState) (he : endOfStatement c s = .ok a s1) :
    ∃ s1', endOfStatement c s' = .ok (c, true) s1' ∧ a.1 = c ∧ St n t s1 s1' := by
  obtain ⟨l, u, u', hl, e1, e2, hx, hx', hla, hla'⟩ := Back.get hn ht h
  have hsz : s.size = 1 := by obtain ⟨h1, ⟨l, h2, _⟩, _⟩ := h; simp [TState.size, h1, h2]
  have hsz' : s'.size = 1 := by obtain ⟨_, _, h1, h2⟩ := h; simp [TState.size, h1, h2]
  have e' : endOfStatement c s' = .ok (c, true) u' := by
    unfold endOfStatement P.loop
    rw [hsz']
    change P.bind (P.bind getToken _) _ s' = _
    unfold P.bind
    rw [e2]
    dsimp only
    rw [if_neg (newline_ne hn ht (by decide)), if_neg (newline_ne hn ht (by decide)), if_pos hn]
    rfl
  refine ⟨u', e', ?_⟩
  have ne1 : l.type ≠ .lineComment := by rcases hl with h | h <;> rw [h] <;> decide
  have ne2 : l.type ≠ .newline := by rcases hl with h | h <;> rw [h] <;> decide
  unfold endOfStatement P.loop at he
  rw [hsz] at he
  change P.bind (P.bind getToken _) _ s = _ at he
  unfold P.bind at he
  rw [e1] at he
  dsimp only at he
  by_cases hsemi : l.type = .semicolon
  · rw [if_pos hsemi] at he
    change P.bind (P.bind getToken _) _ u = _ at he
    have e3 : getToken u = .ok none { u with toks := [], prevLast := u.last } := by unfold getToken; simp only [hx.2, hx.1, scan]
    unfold P.bind at he
    rw [e3] at he
    cases he
    exact ⟨rfl, Exh.fin hn ht ⟨rfl, hx.2⟩ hx'⟩
  · rw [if_neg hsemi, if_neg ne1, if_neg ne2] at he
    cases he
    exact ⟨rfl, Exh.fin hn ht hx hx'⟩

theorem sim_end2 (c : String) (f : String → α) :
    Sim (St2 n t) (endOfStatement c >>= fun r => (pure (f r.1) : P α)) (endOfStatement c >>= fun r => pure (f r.1)) (fun _ => St n t) := by
  rintro s s' (hs | hs) a s1 h
  · have k : Sim (St n t) (endOfStatement c >>= fun r => (pure (f r.1) : P α)) (endOfStatement c >>= fun r => pure (f r.1)) (fun _ => St n t) :=
      Sim.bind (sim_end hn ht c) (fun _ => Sim.pure fun _ _ h => h)
    exact k s s' hs a s1 h
  · change P.bind (endOfStatement c) _ s = _ at h
    change ∃ s1', P.bind (endOfStatement c) _ s' = _ ∧ _
    unfold P.bind at h ⊢
    cases e : endOfStatement c s with
    | ok r u =>
      rw [e] at h
      obtain ⟨u', e', hr, hst⟩ := Back.end hn ht hs c r u e
      rw [e']
      cases h
      exact ⟨u', by rw [hr]; rfl, hst⟩
    | err _ _ => rw [e] at h; cases h
    | panic _ => rw [e] at h; cases h
    | hang => rw [e] at h; cases h

theorem sim_end! (c : String) : Sim (St2 n t) (endOfStatement! c) (endOfStatement! c) (fun _ => St n t) := by
  rintro s s' (hs | hs) a s1 h
  · have k : Sim (St n t) (endOfStatement! c) (endOfStatement! c) (fun _ => St n t) := by
      unfold endOfStatement!
      refine Sim.bind (sim_end hn ht c) (fun r => ?_)
      exact Sim.ite (fun _ => Sim.pure fun _ _ h => h) fun _ => Sim.syn
    exact k s s' hs a s1 h
  · change P.bind (endOfStatement c) _ s = _ at h
    change ∃ s1', P.bind (endOfStatement c) _ s' = _ ∧ _
    unfold P.bind at h ⊢
    cases e : endOfStatement c s with
    | ok r u =>
      rw [e] at h
      obtain ⟨u', e', hr, hst⟩ := Back.end hn ht hs c r u e
      rw [e']
      dsimp only at h ⊢
      split_ifs at h
      · cases h
        exact ⟨u', by rw [hr]; rfl, hst⟩
      · cases h
    | err _ _ => rw [e] at h; cases h
    | panic _ => rw [e] at h; cases h
    | hang => rw [e] at h; cases h

theorem sim_trailing (c : String) : Sim (St n t) (parseTrailingComment c) (parseTrailingComment c) (fun _ => St n t) := by
  unfold parseTrailingComment
  refine sim_get hn ht (fun tok => ?_) ?_ ?_
  · dsimp only; sim hn ht
  · intro s s' a s1 he he' h
    cases h
    exact ⟨_, rfl, Exh.fin hn ht he he'⟩
  · intro s s' a s1 he he' hl h
    cases h
    dsimp only
    rw [if_neg (newline_ne hn ht (by decide))]
    exact unget_at_end he he' hl

end
end FinalNl
end Sadl
