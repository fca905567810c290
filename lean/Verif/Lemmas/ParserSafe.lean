import Verif.Lemmas.ParserWp
/-
Which parsing functions can crash.  `Safe pan ok p`: when every token the function can see
satisfies `ok`, it leaves only such tokens, and crashes only if `pan` holds.
-/
namespace Sadl
variable {α β σ : Type} {pan : Prop} {ok : Token → Prop}

/-- Every token held in the state satisfies `ok`. -/
def AllTok (ok : Token → Prop) (s : TState) : Prop :=
  (∀ t ∈ s.toks, ok t) ∧ (∀ t ∈ s.ungotten, ok t) ∧ (∀ t ∈ s.last, ok t) ∧ (∀ t ∈ s.prevLast, ok t)

def Safe (pan : Prop) (ok : Token → Prop) (p : P α) : Prop := ∀ s, AllTok ok s →
  match p s with
  | .ok _ s' => AllTok ok s'
  | .err _ s' => AllTok ok s'
  | .panic _ => pan
  | .hang => True

theorem safe_pure (a : α) : Safe pan ok (pure a : P α) := fun _ h => h
theorem safe_fail (e : String) : Safe pan ok (P.fail e : P α) := fun _ h => h
theorem safe_syntaxError : Safe pan ok (syntaxError : P α) := fun _ h => h
theorem safe_eofError : Safe pan ok (eofError : P α) := fun _ h => h
theorem safe_hang : Safe pan ok (P.hang : P α) := fun _ _ => trivial

theorem safe_bind {p : P α} {f : α → P β} (hp : Safe pan ok p) (hf : ∀ a, Safe pan ok (f a)) :
    Safe pan ok (p >>= f) := by
  intro s hs
  have h1 := hp s hs
  rw [P.bind_apply]
  cases h : p s with
  | ok a s' => rw [h] at h1; exact hf a s' h1
  | err e s' => rw [h] at h1; exact h1
  | panic e => rw [h] at h1; exact h1
  | hang => trivial

theorem safe_ite {c : Prop} [Decidable c] {p q : P α} (h1 : Safe pan ok p) (h2 : Safe pan ok q) :
    Safe pan ok (if c then p else q) := by
  split_ifs
  · exact h1
  · exact h2

theorem scan_ok {l : List Token} (h : ∀ t ∈ l, ok t) :
    (∀ t ∈ (scan l).1, ok t) ∧ (∀ t ∈ (scan l).2, ok t) := by
  induction l with
  | nil => simp [scan]
  | cons a r ih =>
    unfold scan
    split_ifs
    · exact ih (fun t ht => h t (by simp [ht]))
    · simp only [Option.mem_def, Option.some.injEq, forall_eq']
      exact ⟨h a (by simp), fun t ht => h t (by simp [ht])⟩

/-- Reading a token, and its property. -/
theorem getToken_ok {s : TState} (hs : AllTok ok s) :
    ∃ t? s', getToken s = .ok t? s' ∧ AllTok ok s' ∧ ∀ t ∈ t?, ok t := by
  obtain ⟨h1, h2, h3, h4⟩ := hs
  unfold getToken
  cases hu : s.ungotten with
  | some t =>
    rw [hu] at h2
    exact ⟨_, _, rfl, ⟨h1, by simp, h2, h4⟩, h2⟩
  | none =>
    have hk := scan_ok h1
    rcases hsc : scan s.toks with ⟨t?, r⟩
    rw [hsc] at hk
    cases t? with
    | some t => exact ⟨_, _, rfl, ⟨hk.2, by simp [hu], hk.1, h3⟩, hk.1⟩
    | none => exact ⟨_, _, rfl, ⟨hk.2, by simp [hu], h3, h3⟩, hk.1⟩

theorem safe_getToken : Safe pan ok getToken := by
  intro s hs
  obtain ⟨t?, s', h, h1, _⟩ := getToken_ok hs
  rw [h]; exact h1

theorem safe_unget : Safe pan ok ungetToken := fun _ h => ⟨h.1, h.2.2.1, h.2.2.2, h.2.2.2⟩

theorem safe_nextToken : Safe pan ok nextToken := by
  unfold nextToken
  apply safe_bind safe_getToken
  intro a
  split
  · exact safe_pure _
  · exact safe_eofError

theorem safe_loop {body : σ → P (σ ⊕ α)} {x : σ} (hb : ∀ x, Safe pan ok (body x)) :
    Safe pan ok (P.loop body x) := by
  intro s hs
  have key : ∀ (k : Nat) (x : σ), Safe pan ok (P.loopN body k x) := by
    intro k
    induction k with
    | zero => intro x; exact safe_hang
    | succ k ih =>
      intro x
      unfold P.loopN
      apply safe_bind (hb x)
      intro r
      cases r with
      | inl y => exact ih y
      | inr a => exact safe_pure a
  exact key _ x s hs

theorem safe_recursion {f : Nat → P α} (h : ∀ n, Safe pan ok (f n)) : Safe pan ok (P.recursion f) :=
  fun s hs => h _ s hs

/-- One step of the logic; extended after each lemma. -/
syntax "safe_step" : tactic
macro_rules | `(tactic| safe_step) => `(tactic| split)
macro_rules | `(tactic| safe_step) => `(tactic| dsimp only)
macro_rules | `(tactic| safe_step) => `(tactic| with_reducible exact safe_fail _)
macro_rules | `(tactic| safe_step) => `(tactic| with_reducible exact safe_syntaxError)
macro_rules | `(tactic| safe_step) => `(tactic| with_reducible exact safe_eofError)
macro_rules | `(tactic| safe_step) => `(tactic| with_reducible exact safe_getToken)
macro_rules | `(tactic| safe_step) => `(tactic| with_reducible exact safe_unget)
macro_rules | `(tactic| safe_step) => `(tactic| with_reducible exact safe_nextToken)
macro_rules | `(tactic| safe_step) => `(tactic| with_reducible apply safe_loop)
macro_rules | `(tactic| safe_step) => `(tactic| with_reducible assumption)
macro "safe_go" : tactic => `(tactic| repeat' (first
  | with_reducible intro _
  | with_reducible apply safe_ite
  | with_reducible apply safe_bind
  | with_reducible exact safe_pure _
  | safe_step))

theorem safe_expectIdentifier : Safe pan ok (expectIdentifier) := by
  unfold expectIdentifier; safe_go
macro_rules | `(tactic| safe_step) => `(tactic| with_reducible exact safe_expectIdentifier )

theorem safe_expectCompoundIdentifier : Safe pan ok (expectCompoundIdentifier) := by
  unfold expectCompoundIdentifier compoundStep; safe_go
macro_rules | `(tactic| safe_step) => `(tactic| with_reducible exact safe_expectCompoundIdentifier )

theorem safe_expect (t : TokType) : Safe pan ok (expect t) := by
  unfold expect; safe_go
macro_rules | `(tactic| safe_step) => `(tactic| with_reducible exact safe_expect _)

theorem safe_expectEqualsIdentifier : Safe pan ok (expectEqualsIdentifier) := by
  unfold expectEqualsIdentifier; safe_go
macro_rules | `(tactic| safe_step) => `(tactic| with_reducible exact safe_expectEqualsIdentifier )

theorem safe_expectString : Safe pan ok (expectString) := by
  unfold expectString; safe_go
macro_rules | `(tactic| safe_step) => `(tactic| with_reducible exact safe_expectString )

theorem safe_expectEqualsString : Safe pan ok (expectEqualsString) := by
  unfold expectEqualsString; safe_go
macro_rules | `(tactic| safe_step) => `(tactic| with_reducible exact safe_expectEqualsString )

theorem safe_expectText : Safe pan ok (expectText) := by
  unfold expectText; safe_go
macro_rules | `(tactic| safe_step) => `(tactic| with_reducible exact safe_expectText )

theorem safe_expectInt (bits : Nat) : Safe pan ok (expectInt bits) := by
  unfold expectInt; safe_go
macro_rules | `(tactic| safe_step) => `(tactic| with_reducible exact safe_expectInt _)

theorem safe_expectEqualsInt64 : Safe pan ok (expectEqualsInt64) := by
  unfold expectEqualsInt64; safe_go
macro_rules | `(tactic| safe_step) => `(tactic| with_reducible exact safe_expectEqualsInt64 )

theorem safe_expectNumber (lib : PLib) : Safe pan ok (expectNumber lib) := by
  unfold expectNumber; safe_go
macro_rules | `(tactic| safe_step) => `(tactic| with_reducible exact safe_expectNumber _)

theorem safe_expectEqualsNumber (lib : PLib) : Safe pan ok (expectEqualsNumber lib) := by
  unfold expectEqualsNumber; safe_go
macro_rules | `(tactic| safe_step) => `(tactic| with_reducible exact safe_expectEqualsNumber _)

theorem safe_parseLiteralString (lib : PLib) (tok : Token) : Safe pan ok (parseLiteralString lib tok) := by
  unfold parseLiteralString; safe_go
macro_rules | `(tactic| safe_step) => `(tactic| with_reducible exact safe_parseLiteralString _ _)

theorem safe_parseLiteralN (lib : PLib) (m : Nat) : ∀ tok, Safe pan ok (parseLiteralN lib m tok) := by
  induction m with
  | zero => intro tok; exact safe_hang
  | succ m ih =>
    intro tok
    unfold parseLiteralN literalStep arrayStep objectStep
    repeat' (first
      | with_reducible intro _
      | with_reducible apply safe_ite
      | with_reducible apply safe_bind
      | with_reducible exact safe_pure _
      | with_reducible exact ih _
      | safe_step)

theorem safe_parseLiteral (lib : PLib) (tok : Token) : Safe pan ok (parseLiteral lib tok) :=
  safe_recursion (fun m => safe_parseLiteralN lib m tok)
macro_rules | `(tactic| safe_step) => `(tactic| with_reducible exact safe_parseLiteral _ _)

theorem safe_parseLiteralValue (lib : PLib) : Safe pan ok (parseLiteralValue lib) := by
  unfold parseLiteralValue; safe_go
macro_rules | `(tactic| safe_step) => `(tactic| with_reducible exact safe_parseLiteralValue _)

theorem safe_parseEqualsLiteral (lib : PLib) : Safe pan ok (parseEqualsLiteral lib) := by
  unfold parseEqualsLiteral; safe_go
macro_rules | `(tactic| safe_step) => `(tactic| with_reducible exact safe_parseEqualsLiteral _)

theorem safe_expectEqualsStringArray : Safe pan ok (expectEqualsStringArray) := by
  unfold expectEqualsStringArray stringArrayStep; safe_go
macro_rules | `(tactic| safe_step) => `(tactic| with_reducible exact safe_expectEqualsStringArray )

theorem safe_parseExtendedOption (annos : GoMap String) (anno : String) : Safe pan ok (parseExtendedOption annos anno) := by
  unfold parseExtendedOption; safe_go
macro_rules | `(tactic| safe_step) => `(tactic| with_reducible exact safe_parseExtendedOption _ _)

theorem safe_parseOption (lib : PLib) (o : Options) (name : String) : Safe pan ok (parseOption lib o name) := by
  unfold parseOption; safe_go
macro_rules | `(tactic| safe_step) => `(tactic| with_reducible exact safe_parseOption _ _ _)

theorem safe_parseOptions (lib : PLib) (acceptable : List String) : Safe pan ok (parseOptions lib acceptable) := by
  unfold parseOptions optionsStep; safe_go
macro_rules | `(tactic| safe_step) => `(tactic| with_reducible exact safe_parseOptions _ _)

theorem safe_endOfStatement (comment : String) : Safe pan ok (endOfStatement comment) := by
  unfold endOfStatement endStep; safe_go
macro_rules | `(tactic| safe_step) => `(tactic| with_reducible exact safe_endOfStatement _)

theorem safe_endOfStatement' (comment : String) : Safe pan ok (endOfStatement! comment) := by
  unfold endOfStatement!; safe_go
macro_rules | `(tactic| safe_step) => `(tactic| with_reducible exact safe_endOfStatement' _)

theorem safe_parseTrailingComment (comment : String) : Safe pan ok (parseTrailingComment comment) := by
  unfold parseTrailingComment; safe_go
macro_rules | `(tactic| safe_step) => `(tactic| with_reducible exact safe_parseTrailingComment _)

theorem safe_arrayParams (params : List String) : Safe pan ok (arrayParams params) := by
  unfold arrayParams; safe_go
macro_rules | `(tactic| safe_step) => `(tactic| with_reducible exact safe_arrayParams _)

theorem safe_mapParams (params : List String) : Safe pan ok (mapParams params) := by
  unfold mapParams; safe_go
macro_rules | `(tactic| safe_step) => `(tactic| with_reducible exact safe_mapParams _)

theorem safe_unitValueParams (params : List String) : Safe pan ok (unitValueParams params) := by
  unfold unitValueParams; safe_go
macro_rules | `(tactic| safe_step) => `(tactic| with_reducible exact safe_unitValueParams _)

theorem safe_parseEnumElementDef (lib : PLib) : Safe pan ok (parseEnumElementDef lib) := by
  unfold parseEnumElementDef enumSkipStep; safe_go
macro_rules | `(tactic| safe_step) => `(tactic| with_reducible exact safe_parseEnumElementDef _)

theorem safe_specOfElems (e : Elems) : Safe pan ok (specOfElems e) := by
  unfold specOfElems; safe_go
macro_rules | `(tactic| safe_step) => `(tactic| with_reducible exact safe_specOfElems _)

theorem safe_optNewline : Safe pan ok (optNewline) := by
  unfold optNewline; safe_go
macro_rules | `(tactic| safe_step) => `(tactic| with_reducible exact safe_optNewline )

theorem safe_typeSpecElementsN (lib : PLib) (m : Nat) : Safe pan ok (typeSpecElementsN lib m) := by
  induction m with
  | zero => exact safe_hang
  | succ m ih =>
    unfold typeSpecElementsN typeSpecElementsStep paramsStep parseBraces fieldsStep elementsStep
      parseStructFieldDef fieldSkipStep parseTypeSpecWith
    safe_go

theorem safe_parseTypeSpecElements (lib : PLib) : Safe pan ok (parseTypeSpecElements lib) :=
  safe_recursion (safe_typeSpecElementsN lib)
macro_rules | `(tactic| safe_step) => `(tactic| with_reducible exact safe_parseTypeSpecElements _)

theorem safe_parseTypeSpec (lib : PLib) (comment : String) : Safe pan ok (parseTypeSpec lib comment) := by
  unfold parseTypeSpec parseTypeSpecWith; safe_go
macro_rules | `(tactic| safe_step) => `(tactic| with_reducible exact safe_parseTypeSpec _ _)

theorem safe_parseTypeOptions (lib : PLib) (td : TypeDef) (acceptable : List String) : Safe pan ok (parseTypeOptions lib td acceptable) := by
  unfold parseTypeOptions; safe_go
macro_rules | `(tactic| safe_step) => `(tactic| with_reducible exact safe_parseTypeOptions _ _ _)

theorem safe_parseSimpleDef (lib : PLib) (td : TypeDef) (acceptable : List String) : Safe pan ok (parseSimpleDef lib td acceptable) := by
  unfold parseSimpleDef; safe_go
macro_rules | `(tactic| safe_step) => `(tactic| with_reducible exact safe_parseSimpleDef _ _ _)

theorem safe_parseStringDef (lib : PLib) (td : TypeDef) : Safe pan ok (parseStringDef lib td) := by
  unfold parseStringDef; safe_go
macro_rules | `(tactic| safe_step) => `(tactic| with_reducible exact safe_parseStringDef _ _)

theorem safe_parseUnitValueDef (lib : PLib) (td : TypeDef) (params : List String) : Safe pan ok (parseUnitValueDef lib td params) := by
  unfold parseUnitValueDef; safe_go
macro_rules | `(tactic| safe_step) => `(tactic| with_reducible exact safe_parseUnitValueDef _ _ _)

theorem safe_parseArrayDef (lib : PLib) (td : TypeDef) (params : List String) : Safe pan ok (parseArrayDef lib td params) := by
  unfold parseArrayDef; safe_go
macro_rules | `(tactic| safe_step) => `(tactic| with_reducible exact safe_parseArrayDef _ _ _)

theorem safe_parseMapDef (lib : PLib) (td : TypeDef) (params : List String) : Safe pan ok (parseMapDef lib td params) := by
  unfold parseMapDef; safe_go
macro_rules | `(tactic| safe_step) => `(tactic| with_reducible exact safe_parseMapDef _ _ _)

theorem safe_parseStructDef (lib : PLib) (td : TypeDef) (e : Elems) : Safe pan ok (parseStructDef lib td e) := by
  unfold parseStructDef; safe_go
macro_rules | `(tactic| safe_step) => `(tactic| with_reducible exact safe_parseStructDef _ _ _)

theorem safe_parseUnionDef (lib : PLib) (td : TypeDef) (e : Elems) : Safe pan ok (parseUnionDef lib td e) := by
  unfold parseUnionDef; safe_go
macro_rules | `(tactic| safe_step) => `(tactic| with_reducible exact safe_parseUnionDef _ _ _)

theorem safe_parseTypeDirective (lib : PLib) (comment : String) : Safe pan ok (parseTypeDirective lib comment) := by
  unfold parseTypeDirective; safe_go
macro_rules | `(tactic| safe_step) => `(tactic| with_reducible exact safe_parseTypeDirective _ _)

theorem safe_parseExampleDirective (lib : PLib) (comment : String) : Safe pan ok (parseExampleDirective lib comment) := by
  unfold parseExampleDirective; safe_go
macro_rules | `(tactic| safe_step) => `(tactic| with_reducible exact safe_parseExampleDirective _ _)

theorem safe_parseNamespaceDirective : Safe pan ok (parseNamespaceDirective) := by
  unfold parseNamespaceDirective namespaceStep; safe_go
macro_rules | `(tactic| safe_step) => `(tactic| with_reducible exact safe_parseNamespaceDirective )

theorem safe_parseVersionDirective : Safe pan ok (parseVersionDirective) := by
  unfold parseVersionDirective; safe_go
macro_rules | `(tactic| safe_step) => `(tactic| with_reducible exact safe_parseVersionDirective )

theorem safe_parseBaseDirective : Safe pan ok (parseBaseDirective) := by
  unfold parseBaseDirective; safe_go
macro_rules | `(tactic| safe_step) => `(tactic| with_reducible exact safe_parseBaseDirective )

theorem safe_isBlockDone (comment : String) : Safe pan ok (isBlockDone comment) := by
  unfold isBlockDone blockStep; safe_go
macro_rules | `(tactic| safe_step) => `(tactic| with_reducible exact safe_isBlockDone _)

theorem safe_parseHttpParam (lib : PLib) (path ename comment : String) : Safe pan ok (parseHttpParam lib path ename comment) := by
  unfold parseHttpParam; safe_go
macro_rules | `(tactic| safe_step) => `(tactic| with_reducible exact safe_parseHttpParam _ _ _ _)

theorem safe_parseHttpExpectedSpec (lib : PLib) (op : HttpDef) (comment : String) : Safe pan ok (parseHttpExpectedSpec lib op comment) := by
  unfold parseHttpExpectedSpec expectStep; safe_go
macro_rules | `(tactic| safe_step) => `(tactic| with_reducible exact safe_parseHttpExpectedSpec _ _ _)

theorem safe_parseHttpExceptionSpec (lib : PLib) (op : HttpDef) (comment : String) : Safe pan ok (parseHttpExceptionSpec lib op comment) := by
  unfold parseHttpExceptionSpec; safe_go
macro_rules | `(tactic| safe_step) => `(tactic| with_reducible exact safe_parseHttpExceptionSpec _ _ _)

theorem safe_parseHttpSpec (lib : PLib) (op : HttpDef) (comment : String) : Safe pan ok (parseHttpSpec lib op comment) := by
  unfold parseHttpSpec; safe_go
macro_rules | `(tactic| safe_step) => `(tactic| with_reducible exact safe_parseHttpSpec _ _ _)

theorem safe_parseHttpDirective (lib : PLib) (comment : String) : Safe pan ok (parseHttpDirective lib comment) := by
  unfold parseHttpDirective httpStep; safe_go
macro_rules | `(tactic| safe_step) => `(tactic| with_reducible exact safe_parseHttpDirective _ _)

theorem safe_parseStringToEndOfLine : Safe pan ok (parseStringToEndOfLine) := by
  unfold parseStringToEndOfLine; safe_go
macro_rules | `(tactic| safe_step) => `(tactic| with_reducible exact safe_parseStringToEndOfLine )

theorem keeps_crash (e : String) : Safe True ok (P.crash e : P α) := fun _ _ => trivial

theorem keeps_mustToken : Safe True ok mustToken := by
  unfold mustToken
  apply safe_bind safe_getToken
  intro a
  split
  · exact safe_pure _
  · exact keeps_crash _

theorem safe_attempt {p : P α} (h : Safe pan ok p) : Safe pan ok (P.attempt p) := by
  intro s hs
  have h1 := h s hs
  unfold P.attempt
  cases hp : p s <;> rw [hp] at h1 <;> exact h1

macro_rules | `(tactic| safe_step) => `(tactic| with_reducible apply safe_attempt)
macro_rules | `(tactic| safe_step) => `(tactic| with_reducible exact keeps_crash _)
macro_rules | `(tactic| safe_step) => `(tactic| with_reducible exact keeps_mustToken)

theorem keeps_parseOperationInputs : Safe True ok (parseOperationInputs) := by
  unfold parseOperationInputs inputsStep inputOptionStep; safe_go
macro_rules | `(tactic| safe_step) => `(tactic| with_reducible exact keeps_parseOperationInputs )

theorem keeps_parseOperationOutputs : Safe True ok (parseOperationOutputs) := by
  unfold parseOperationOutputs outputsStep; safe_go
macro_rules | `(tactic| safe_step) => `(tactic| with_reducible exact keeps_parseOperationOutputs )

theorem keeps_parseOperationExceptions : Safe True ok (parseOperationExceptions) := by
  unfold parseOperationExceptions exceptionsStep; safe_go
macro_rules | `(tactic| safe_step) => `(tactic| with_reducible exact keeps_parseOperationExceptions )

theorem keeps_parseOperationDirective (lib : PLib) (comment : String) : Safe True ok (parseOperationDirective lib comment) := by
  unfold parseOperationDirective operationStep; safe_go
macro_rules | `(tactic| safe_step) => `(tactic| with_reducible exact keeps_parseOperationDirective _ _)

end Sadl
