import Verif.Spec.Tokens
import Verif.Lemmas.ParserLoop
/-
C18 termination, C19 crashes, C20 token push-back.
-/
namespace Sadl.Props
open Sadl Sadl.Spec

/-- A library in which nothing can be parsed; enough for sources without literals. -/
def noLib : PLib :=
  { regexMatch := fun _ _ => some false, parseDecimal := fun _ => none, timestampOk := fun _ => false,
    unquote := fun s => some s }

/-! ### C18 -/

/-- C18: parsing any source without include directives terminates. -/
theorem C18_parsing_terminates (lib : PLib) (incl : String → IncRes) (init : Schema) (toks : List Token)
    (h : ∀ t ∈ toks, ¬ (t.type = .symbol ∧ t.text = "include")) :
    (∃ sch s, parseSchema lib incl init toks = .ok sch s) ∨ (∃ e s, parseSchema lib incl init toks = .err e s) ∨
      (∃ e, parseSchema lib incl init toks = .panic e) := by
  have h1 := parseSchema_incl lib incl (fun _ => some (.err "")) init toks h
  have h2 := parseSchema_no_hang lib (fun _ => some (.err "")) init toks (by simp)
  rw [← h1] at h2
  cases hr : parseSchema lib incl init toks with
  | ok sch s => exact .inl ⟨_, _, rfl⟩
  | err e s => exact .inr (.inl ⟨_, _, rfl⟩)
  | panic e => exact .inr (.inr ⟨_, rfl⟩)
  | hang => exact absurd hr h2

/-- C18, with include directives: parsing terminates if parsing the included files does. -/
theorem C18_parsing_terminates_with_includes (lib : PLib) (incl : String → IncRes) (init : Schema)
    (toks : List Token) (hi : ∀ f, incl f ≠ none) :
    parseSchema lib incl init toks ≠ .hang ∧ parseNoValidate lib incl init toks ≠ none := by
  have h := parseSchema_no_hang lib incl init toks hi
  refine ⟨h, ?_⟩
  unfold parseNoValidate
  cases hr : parseSchema lib incl init toks with
  | hang => exact absurd hr h
  | _ => simp

/-- C18: the bound built into the model's loops is not observable: what a loop of the model
returns is what the loop without a bound returns, and the latter has only one result. -/
theorem C18_bound_unobservable {σ α : Type} (body : σ → P (σ ⊕ α)) (x : σ) (s : TState)
    (h : P.loop body x s ≠ .hang) :
    Runs body x s (P.loop body x s) ∧ ∀ r, Runs body x s r → r = P.loop body x s := by
  have h1 : ∀ (k : Nat) (x : σ) (s : TState), P.loopN body k x s ≠ .hang →
      Runs body x s (P.loopN body k x s) := by
    intro k
    induction k with
    | zero => intro x s h; exact absurd rfl h
    | succ k ih =>
      intro x s h
      unfold P.loopN at h ⊢
      rw [P.bind_apply] at h ⊢
      cases hb : body x s with
      | ok r s' =>
        rw [hb] at h
        cases r with
        | inl y => exact .again hb (ih y s' h)
        | inr a => exact .done hb
      | err e s' => exact .error hb
      | panic e => exact .crash hb
      | hang => rw [hb] at h; exact absurd rfl h
  have hdet : ∀ x s r, Runs body x s r → ∀ r', Runs body x s r' → r' = r := by
    intro x s r hr
    induction hr with
    | again h1 _ ih =>
      intro r' hr'
      cases hr' with
      | again h2 h3 => rw [h1] at h2; cases h2; exact ih r' h3
      | done h2 => rw [h1] at h2; cases h2
      | error h2 => rw [h1] at h2; cases h2
      | crash h2 => rw [h1] at h2; cases h2
    | done h1 =>
      intro r' hr'
      cases hr' with
      | again h2 h3 => rw [h1] at h2; cases h2
      | done h2 => rw [h1] at h2; cases h2; rfl
      | error h2 => rw [h1] at h2; cases h2
      | crash h2 => rw [h1] at h2; cases h2
    | error h1 =>
      intro r' hr'
      cases hr' with
      | again h2 h3 => rw [h1] at h2; cases h2
      | done h2 => rw [h1] at h2; cases h2
      | error h2 => rw [h1] at h2; cases h2; rfl
      | crash h2 => rw [h1] at h2; cases h2
    | crash h1 =>
      intro r' hr'
      cases hr' with
      | again h2 h3 => rw [h1] at h2; cases h2
      | done h2 => rw [h1] at h2; cases h2
      | error h2 => rw [h1] at h2; cases h2
      | crash h2 => rw [h1] at h2; cases h2; rfl
  have hr := h1 _ x s h
  exact ⟨hr, fun r h2 => hdet x s _ hr r h2⟩

/-- C18: a source that parses has been read to its end. -/
theorem C18_whole_source_read (lib : PLib) (incl : String → IncRes) (init : Schema) (toks : List Token)
    (hi : ∀ f, incl f ≠ none) (sch : Schema) (s : TState) (h : parseSchema lib incl init toks = .ok sch s) :
    pending s = [] := by
  have : wp toks.length (P.loop (topStep lib incl) (init, "")) { toks := toks } (fun _ s' => s'.size = 0) := by
    apply wp_loop
    intro x s1 h1
    have h1' : s1.size ≤ toks.length := by simpa [TState.size] using h1
    refine wp_mono (Q := fun a s' => (∀ b, a = .inr b → s'.size = 0) ∧ (∀ b, a = .inl b → s'.size + 1 ≤ s1.size)) ?_ ?_
    · unfold topStep
      apply wp_bind
      apply wp_getToken
      · intro s' hs'
        exact wp_pure ⟨fun _ _ => hs', by simp⟩
      · intro t s' hs'
        dsimp only
        split
        · apply wp_bind
          apply wp_directive lib incl _ _ _ hi (by omega)
          intro a s'' hs''
          exact wp_pure ⟨by simp, fun _ _ => by omega⟩
        · exact wp_pure ⟨by simp, fun _ _ => by omega⟩
        · exact wp_pure ⟨by simp, fun _ _ => by omega⟩
        · exact wp_pure ⟨by simp, fun _ _ => by omega⟩
        · exact wp_fail (by omega)
    · intro a s' ha
      cases a with
      | inl b => exact ha.2 b rfl
      | inr b => exact ha.1 b rfl
  unfold wp at this
  unfold parseSchema at h
  rw [h] at this
  simp only [TState.size] at this
  have h1 : s.toks = [] := List.length_eq_zero_iff.1 (by omega)
  have h2 : s.ungotten = none := by
    cases hu : s.ungotten with
    | none => rfl
    | some t => rw [hu] at this; simp only [Option.elim_some] at this; omega
  simp [pending, h1, h2]

/-- a source that meets the hypotheses and parses -/
example : (match parseSchema noLib (fun _ => none) {} [sym "type", sym "Foo", sym "String", nl] with
    | .ok s _ => s.types.map (·.name) | _ => []) = ["Foo"] := by decide +kernel

/-! ### C19 -/

/-- C19 (part): a source without the word `operation`, all of whose included files parse
without a crash, does not crash the parser.  Missing: sources with operations, for which
the property is false, see below. -/
theorem C19_no_crash_partial (lib : PLib) (incl : String → IncRes) (init : Schema) (toks : List Token)
    (hi : ∀ f e, incl f ≠ some (.panic e))
    (h : ∀ t ∈ toks, ¬ (t.type = .symbol ∧ t.text = "operation")) (e : String) :
    parseSchema lib incl init toks ≠ .panic e ∧ parseNoValidate lib incl init toks ≠ some (.panic e) := by
  have h1 := parseSchema_no_panic lib incl init toks hi h
  refine ⟨h1 e, ?_⟩
  unfold parseNoValidate
  cases hr : parseSchema lib incl init toks with
  | panic e => exact absurd hr (h1 e)
  | ok sch s => simpa using newModel_no_panic sch e
  | err e s => simp
  | hang => simp

/-- C19 is false: an operation whose block of inputs breaks off crashes the parser. -/
theorem C19_refuted_end_of_file :
    ∃ e, parseSchema noLib (fun _ => none) {} [sym "operation", sym "Foo", punct .openBrace, sym "inputs"] = .panic e :=
  (crashed_iff _).1 (by decide +kernel)

/-- C19 is false: an operation with an unknown option crashes the parser. -/
theorem C19_refuted_operation_option :
    ∃ e, parseSchema noLib (fun _ => none) {} [sym "operation", sym "Foo", punct .openParen, sym "bad",
      punct .openBrace, punct .closeBrace, nl] = .panic e :=
  (crashed_iff _).1 (by decide +kernel)

/-! ### C20 -/

/-- C20: a read delivers the first pending token, if any, and leaves the others. -/
theorem C20_read (s : TState) :
    ∃ s', getToken s = .ok (pending s).head? s' ∧ pending s' = (pending s).tail := by
  unfold getToken pending
  cases hu : s.ungotten with
  | some t => exact ⟨_, rfl, by simp⟩
  | none =>
    have key : ∀ l : List Token, (scan l).1 = (l.filter (fun t => decide (t.type ≠ .blockComment))).head? ∧
        (scan l).2.filter (fun t => decide (t.type ≠ .blockComment)) =
          (l.filter (fun t => decide (t.type ≠ .blockComment))).tail := by
      intro l
      induction l with
      | nil => simp [scan]
      | cons a r ih =>
        unfold scan
        split_ifs with ha
        · simpa [ha] using ih
        · simp [ha]
    have hk := key s.toks
    rcases hs : scan s.toks with ⟨t?, r⟩
    rw [hs] at hk
    cases t? with
    | some t => exact ⟨_, congrArg (fun x => PRes.ok x _) hk.1, hk.2⟩
    | none => exact ⟨_, congrArg (fun x => PRes.ok x _) hk.1, hk.2⟩

/-- C20: reading a token and pushing it back leaves the tokens to be read unchanged. -/
theorem C20_push_back_transparent (s s1 s2 : TState) (t : Token) (h1 : getToken s = .ok (some t) s1)
    (h2 : ungetToken s1 = .ok () s2) :
    pending s2 = pending s ∧ ∃ s3, getToken s2 = .ok (some t) s3 ∧ pending s3 = pending s1 := by
  have key : pending s = t :: pending s1 ∧ s1.last = some t ∧ s1.ungotten = none := by
    obtain ⟨s', ha, hb⟩ := C20_read s
    rw [h1] at ha
    injection ha with hc hd
    subst hd
    refine ⟨?_, ?_⟩
    · cases hp : pending s with
      | nil => rw [hp] at hc; cases hc
      | cons a r => rw [hp] at hc hb; cases hc; rw [hb]; rfl
    · unfold getToken at h1
      cases hu : s.ungotten with
      | some t' => rw [hu] at h1; simp only at h1; injection h1 with hx hy; injection hx with hx; subst hx hy; exact ⟨rfl, rfl⟩
      | none =>
        rw [hu] at h1; simp only at h1
        rcases hs : scan s.toks with ⟨t?, r⟩
        rw [hs] at h1
        cases t? with
        | some t' => simp only at h1; injection h1 with hx hy; injection hx with hx; subst hx hy; exact ⟨rfl, rfl⟩
        | none => simp only at h1; injection h1 with hx hy; cases hx
  obtain ⟨k1, k2, k3⟩ := key
  have e2 : s2 = { s1 with ungotten := s1.last, last := s1.prevLast } := by
    unfold ungetToken at h2; injection h2 with _ h; exact h.symm
  have k4 : pending s2 = t :: pending s1 := by
    subst e2; unfold pending; rw [k2, k3]; rfl
  obtain ⟨s3, h3, h4⟩ := C20_read s2
  rw [k4] at h3 h4
  exact ⟨by rw [k4, k1], s3, h3, h4⟩

/-- C20: whatever the parser has read and pushed back, in any order, the next token it is
given is one of the source and no block comment. -/
theorem C20_no_block_comments (toks : List Token) (history : List Call) (t : Token) (s : TState)
    (h : getToken (after history { toks := toks }) = .ok (some t) s) : t ∈ toks ∧ t.type ≠ .blockComment := by
  have hscan : ∀ l : List Token, (∀ x ∈ l, x ∈ toks) →
      (∀ x ∈ (scan l).1, x ∈ toks ∧ x.type ≠ .blockComment) ∧ ∀ x ∈ (scan l).2, x ∈ toks := by
    intro l
    induction l with
    | nil => simp [scan]
    | cons a r ih =>
      intro hl
      unfold scan
      split_ifs with ha
      · exact ih (fun x hx => hl x (by simp [hx]))
      · refine ⟨?_, fun x hx => hl x (by simp [hx])⟩
        intro x hx
        simp only [Option.mem_def, Option.some.injEq] at hx
        subst hx
        exact ⟨hl a (by simp), ha⟩
  let good : Option Token → Prop := fun o => ∀ x ∈ o, x ∈ toks ∧ x.type ≠ .blockComment
  let I : TState → Prop := fun s => (∀ x ∈ s.toks, x ∈ toks) ∧ good s.ungotten ∧ good s.last ∧ good s.prevLast
  have hget : ∀ s, I s → ∃ t? s', getToken s = .ok t? s' ∧ I s' ∧ good t? := by
    intro s ⟨h1, h2, h3, h4⟩
    unfold getToken
    cases hu : s.ungotten with
    | some t => rw [hu] at h2; exact ⟨_, _, rfl, ⟨h1, by simp [good], h2, h4⟩, h2⟩
    | none =>
      have hk := hscan s.toks h1
      rcases hsc : scan s.toks with ⟨t?, r⟩
      rw [hsc] at hk
      cases t? with
      | some t => exact ⟨_, _, rfl, ⟨hk.2, by simp [hu, good], hk.1, h3⟩, hk.1⟩
      | none => exact ⟨_, _, rfl, ⟨hk.2, by simp [hu, good], h3, h3⟩, hk.1⟩
  have hafter : ∀ (hist : List Call) (s : TState), I s → I (after hist s) := by
    intro hist
    induction hist with
    | nil => intro s hs; exact hs
    | cons c r ih =>
      intro s hs
      cases c with
      | get =>
        obtain ⟨t?, s', h1, h2, _⟩ := hget s hs
        simp only [after, h1]
        exact ih s' h2
      | unget => exact ih _ ⟨hs.1, hs.2.2.1, hs.2.2.2, hs.2.2.2⟩
  obtain ⟨t?, s', h1, _, h3⟩ := hget _ (hafter history { toks := toks } ⟨fun _ hx => hx, by simp [good], by simp [good], by simp [good]⟩)
  rw [h] at h1
  injection h1 with h1 _
  subst h1
  exact h3 t rfl

/-- a concrete push-back with a block comment in the way -/
example : ∃ s1 s2, getToken { toks := [punct .blockComment, sym "a", sym "b"] } = .ok (some (sym "a")) s1 ∧
    ungetToken s1 = .ok () s2 ∧ pending s2 = [sym "a", sym "b"] := ⟨_, _, rfl, rfl, by decide⟩

/-- Why C20 excludes the end of the source: pushing back after a read that found no token
makes the last token of the source be read again. -/
theorem C20_end_of_source_excluded :
    ∃ s s1 s2, getToken s = .ok none s1 ∧ ungetToken s1 = .ok () s2 ∧ pending s = [] ∧ pending s2 = [sym "a"] :=
  ⟨{ toks := [], last := some (sym "a") }, _, _, rfl, rfl, rfl, by decide⟩

end Sadl.Props
