import Verif.Lemmas.ParserWp
/-
Every parsing function terminates and never lengthens the remaining input.
-/
namespace Sadl
variable {n : Nat} {s : TState}

/-- One step of the program logic; extended after each lemma. -/
syntax "wp_step" : tactic
macro_rules | `(tactic| wp_step) => `(tactic| omega)
macro_rules | `(tactic| wp_step) => `(tactic| (dsimp only; omega))
macro_rules | `(tactic| wp_step) => `(tactic| split)
macro_rules | `(tactic| wp_step) => `(tactic| dsimp only)
macro_rules | `(tactic| wp_step) => `(tactic| with_reducible apply wp_ite)
macro_rules | `(tactic| wp_step) => `(tactic| with_reducible apply wp_pure)
macro_rules | `(tactic| wp_step) => `(tactic| (with_reducible apply wp_fail; omega))
macro_rules | `(tactic| wp_step) => `(tactic| (with_reducible apply wp_syntaxError; omega))
macro_rules | `(tactic| wp_step) => `(tactic| (with_reducible apply wp_eofError; omega))
macro_rules | `(tactic| wp_step) => `(tactic| with_reducible apply wp_crash)
macro_rules | `(tactic| wp_step) => `(tactic| with_reducible apply wp_bind)
macro_rules | `(tactic| wp_step) => `(tactic| with_reducible apply wp_getToken)
macro_rules | `(tactic| wp_step) => `(tactic| with_reducible apply wp_nextToken)
macro_rules | `(tactic| wp_step) => `(tactic| with_reducible apply wp_mustToken)
macro_rules | `(tactic| wp_step) => `(tactic| with_reducible apply wp_unget)
macro_rules | `(tactic| wp_step) => `(tactic| with_reducible apply wp_loop)
macro_rules | `(tactic| wp_step) => `(tactic| with_reducible assumption)
macro_rules | `(tactic| wp_step) => `(tactic| (with_reducible apply_assumption; omega))
macro_rules | `(tactic| wp_step) => `(tactic| with_reducible intro _)
macro "wp_go" : tactic => `(tactic| repeat' (first
  | with_reducible intro _
  | with_reducible apply wp_ite
  | with_reducible apply wp_bind
  | with_reducible apply wp_pure
  | wp_step))

theorem wp_expectIdentifier {Q : String → TState → Prop} (hn : s.size ≤ n)
    (h : ∀ a s', s'.size + 1 ≤ s.size → Q a s') : wp n expectIdentifier s Q := by
  unfold expectIdentifier; wp_go
macro_rules | `(tactic| wp_step) => `(tactic| with_reducible apply wp_expectIdentifier)

theorem wp_compound {Q : String → TState → Prop} (hn : s.size ≤ n)
    (h : ∀ a s', s'.size ≤ s.size → Q a s') : wp n (expectCompoundIdentifier) s Q := by
  unfold expectCompoundIdentifier compoundStep; wp_go
macro_rules | `(tactic| wp_step) => `(tactic| with_reducible apply wp_compound)

theorem wp_expect {Q : Unit → TState → Prop} (t : TokType) (hn : s.size ≤ n)
    (h : ∀ a s', s'.size + 1 ≤ s.size → Q a s') : wp n (expect t) s Q := by
  unfold expect; wp_go
macro_rules | `(tactic| wp_step) => `(tactic| with_reducible apply wp_expect)

theorem wp_expectEqualsIdentifier {Q : String → TState → Prop} (hn : s.size ≤ n)
    (h : ∀ a s', s'.size + 1 ≤ s.size → Q a s') : wp n (expectEqualsIdentifier) s Q := by
  unfold expectEqualsIdentifier; wp_go
macro_rules | `(tactic| wp_step) => `(tactic| with_reducible apply wp_expectEqualsIdentifier)

theorem wp_expectString {Q : String → TState → Prop} (hn : s.size ≤ n)
    (h : ∀ a s', s'.size + 1 ≤ s.size → Q a s') : wp n (expectString) s Q := by
  unfold expectString; wp_go
macro_rules | `(tactic| wp_step) => `(tactic| with_reducible apply wp_expectString)

theorem wp_expectEqualsString {Q : String → TState → Prop} (hn : s.size ≤ n)
    (h : ∀ a s', s'.size + 1 ≤ s.size → Q a s') : wp n (expectEqualsString) s Q := by
  unfold expectEqualsString; wp_go
macro_rules | `(tactic| wp_step) => `(tactic| with_reducible apply wp_expectEqualsString)

theorem wp_expectText {Q : String → TState → Prop} (hn : s.size ≤ n)
    (h : ∀ a s', s'.size + 1 ≤ s.size → Q a s') : wp n (expectText) s Q := by
  unfold expectText; wp_go
macro_rules | `(tactic| wp_step) => `(tactic| with_reducible apply wp_expectText)

theorem wp_expectInt {Q : Int → TState → Prop} (bits : Nat) (hn : s.size ≤ n)
    (h : ∀ a s', s'.size + 1 ≤ s.size → Q a s') : wp n (expectInt bits) s Q := by
  unfold expectInt; wp_go
macro_rules | `(tactic| wp_step) => `(tactic| with_reducible apply wp_expectInt)

theorem wp_expectEqualsInt64 {Q : Int → TState → Prop} (hn : s.size ≤ n)
    (h : ∀ a s', s'.size + 1 ≤ s.size → Q a s') : wp n (expectEqualsInt64) s Q := by
  unfold expectEqualsInt64; wp_go
macro_rules | `(tactic| wp_step) => `(tactic| with_reducible apply wp_expectEqualsInt64)

theorem wp_expectNumber {Q : BigFloat → TState → Prop} (lib : PLib) (hn : s.size ≤ n)
    (h : ∀ a s', s'.size + 1 ≤ s.size → Q a s') : wp n (expectNumber lib) s Q := by
  unfold expectNumber; wp_go
macro_rules | `(tactic| wp_step) => `(tactic| with_reducible apply wp_expectNumber)

theorem wp_expectEqualsNumber {Q : BigFloat → TState → Prop} (lib : PLib) (hn : s.size ≤ n)
    (h : ∀ a s', s'.size + 1 ≤ s.size → Q a s') : wp n (expectEqualsNumber lib) s Q := by
  unfold expectEqualsNumber; wp_go
macro_rules | `(tactic| wp_step) => `(tactic| with_reducible apply wp_expectEqualsNumber)

theorem wp_parseLiteralString {Q : String → TState → Prop} (lib : PLib) (tok : Token) (hn : s.size ≤ n)
    (h : ∀ a s', s'.size ≤ s.size → Q a s') : wp n (parseLiteralString lib tok) s Q := by
  unfold parseLiteralString; wp_go
macro_rules | `(tactic| wp_step) => `(tactic| with_reducible apply wp_parseLiteralString)

theorem wp_parseLiteralN (lib : PLib) (m : Nat) : ∀ (tok : Token) (s : TState) (Q : Value → TState → Prop),
    s.size ≤ n → s.size < m → (∀ a s', s'.size ≤ s.size → Q a s') → wp n (parseLiteralN lib m tok) s Q := by
  induction m with
  | zero => intro _ _ _ _ h; omega
  | succ m ih =>
    intro tok s Q hn hm h
    unfold parseLiteralN literalStep arrayStep objectStep
    wp_go

theorem wp_parseLiteral {Q : Value → TState → Prop} (lib : PLib) (tok : Token) (hn : s.size ≤ n)
    (h : ∀ a s', s'.size ≤ s.size → Q a s') : wp n (parseLiteral lib tok) s Q :=
  wp_recursion (wp_parseLiteralN lib _ tok s Q hn (by omega) h)
macro_rules | `(tactic| wp_step) => `(tactic| with_reducible apply wp_parseLiteral)

theorem wp_parseLiteralValue {Q : Value → TState → Prop} (lib : PLib) (hn : s.size ≤ n)
    (h : ∀ a s', s'.size + 1 ≤ s.size → Q a s') : wp n (parseLiteralValue lib) s Q := by
  unfold parseLiteralValue; wp_go
macro_rules | `(tactic| wp_step) => `(tactic| with_reducible apply wp_parseLiteralValue)

theorem wp_parseEqualsLiteral {Q : Value → TState → Prop} (lib : PLib) (hn : s.size ≤ n)
    (h : ∀ a s', s'.size + 1 ≤ s.size → Q a s') : wp n (parseEqualsLiteral lib) s Q := by
  unfold parseEqualsLiteral; wp_go
macro_rules | `(tactic| wp_step) => `(tactic| with_reducible apply wp_parseEqualsLiteral)

theorem wp_expectEqualsStringArray {Q : Option (List String) → TState → Prop} (hn : s.size ≤ n)
    (h : ∀ a s', s'.size + 1 ≤ s.size → Q a s') : wp n (expectEqualsStringArray) s Q := by
  unfold expectEqualsStringArray stringArrayStep; wp_go
macro_rules | `(tactic| wp_step) => `(tactic| with_reducible apply wp_expectEqualsStringArray)

theorem wp_parseExtendedOption {Q : GoMap String → TState → Prop} (annos : GoMap String) (anno : String) (hn : s.size ≤ n)
    (h : ∀ a s', s'.size ≤ s.size → Q a s') : wp n (parseExtendedOption annos anno) s Q := by
  unfold parseExtendedOption; wp_go
macro_rules | `(tactic| wp_step) => `(tactic| with_reducible apply wp_parseExtendedOption)

theorem wp_parseOption {Q : Options → TState → Prop} (lib : PLib) (o : Options) (name : String) (hn : s.size ≤ n)
    (h : ∀ a s', s'.size ≤ s.size → Q a s') : wp n (parseOption lib o name) s Q := by
  unfold parseOption; wp_go
macro_rules | `(tactic| wp_step) => `(tactic| with_reducible apply wp_parseOption)

theorem wp_optionsStep {Q : Options ⊕ Options → TState → Prop} (lib : PLib) (acceptable : List String) (o : Options)
    (hn : s.size ≤ n) (h : ∀ a s', s'.size + 1 ≤ s.size → Q a s') : wp n (optionsStep lib acceptable o) s Q := by
  unfold optionsStep; wp_go
macro_rules | `(tactic| wp_step) => `(tactic| with_reducible apply wp_optionsStep)

theorem wp_parseOptions {Q : Options → TState → Prop} (lib : PLib) (acceptable : List String) (hn : s.size ≤ n)
    (h : ∀ a s', s'.size ≤ s.size → Q a s') : wp n (parseOptions lib acceptable) s Q := by
  unfold parseOptions; wp_go
macro_rules | `(tactic| wp_step) => `(tactic| with_reducible apply wp_parseOptions)

theorem wp_endOfStatement {Q : (String × Bool) → TState → Prop} (comment : String) (hn : s.size ≤ n)
    (h : ∀ a s', s'.size ≤ s.size → Q a s') : wp n (endOfStatement comment) s Q := by
  unfold endOfStatement endStep; wp_go
macro_rules | `(tactic| wp_step) => `(tactic| with_reducible apply wp_endOfStatement)

theorem wp_endOfStatement! {Q : String → TState → Prop} (comment : String) (hn : s.size ≤ n)
    (h : ∀ a s', s'.size ≤ s.size → Q a s') : wp n (endOfStatement! comment) s Q := by
  unfold endOfStatement!; wp_go
macro_rules | `(tactic| wp_step) => `(tactic| with_reducible apply wp_endOfStatement!)

theorem wp_parseTrailingComment {Q : String → TState → Prop} (comment : String) (hn : s.size ≤ n)
    (h : ∀ a s', s'.size ≤ s.size → Q a s') : wp n (parseTrailingComment comment) s Q := by
  unfold parseTrailingComment; wp_go
macro_rules | `(tactic| wp_step) => `(tactic| with_reducible apply wp_parseTrailingComment)

theorem wp_arrayParams {Q : String → TState → Prop} (params : List String) (hn : s.size ≤ n)
    (h : ∀ a s', s'.size ≤ s.size → Q a s') : wp n (arrayParams params) s Q := by
  unfold arrayParams; wp_go
macro_rules | `(tactic| wp_step) => `(tactic| with_reducible apply wp_arrayParams)

theorem wp_mapParams {Q : (String × String) → TState → Prop} (params : List String) (hn : s.size ≤ n)
    (h : ∀ a s', s'.size ≤ s.size → Q a s') : wp n (mapParams params) s Q := by
  unfold mapParams; wp_go
macro_rules | `(tactic| wp_step) => `(tactic| with_reducible apply wp_mapParams)

theorem wp_unitValueParams {Q : (String × String) → TState → Prop} (params : List String) (hn : s.size ≤ n)
    (h : ∀ a s', s'.size ≤ s.size → Q a s') : wp n (unitValueParams params) s Q := by
  unfold unitValueParams; wp_go
macro_rules | `(tactic| wp_step) => `(tactic| with_reducible apply wp_unitValueParams)

theorem wp_parseEnumElementDef {Q : Option EnumElementDef → TState → Prop} (lib : PLib) (hn : s.size ≤ n)
    (h : ∀ a s', s'.size + 1 ≤ s.size → Q a s') : wp n (parseEnumElementDef lib) s Q := by
  unfold parseEnumElementDef enumSkipStep
  wp_go
macro_rules | `(tactic| wp_step) => `(tactic| with_reducible apply wp_parseEnumElementDef)

theorem wp_specOfElems {Q : TypeSpec → TState → Prop} (e : Elems) (hn : s.size ≤ n)
    (h : ∀ a s', s'.size ≤ s.size → Q a s') : wp n (specOfElems e) s Q := by
  unfold specOfElems; wp_go
macro_rules | `(tactic| wp_step) => `(tactic| with_reducible apply wp_specOfElems)

theorem wp_optNewline {Q : Unit → TState → Prop} (hn : s.size ≤ n)
    (h : ∀ a s', s'.size ≤ s.size → Q a s') : wp n (optNewline) s Q := by
  unfold optNewline; wp_go
macro_rules | `(tactic| wp_step) => `(tactic| with_reducible apply wp_optNewline)

theorem wp_typeSpecElementsN (lib : PLib) (m : Nat) : ∀ (s : TState) (Q : Elems → TState → Prop),
    s.size ≤ n → s.size < m → (∀ a s', s'.size + 1 ≤ s.size → Q a s') → wp n (typeSpecElementsN lib m) s Q := by
  induction m with
  | zero => intro _ _ _ h; omega
  | succ m ih =>
    have hspec : ∀ (c : String) (s : TState) (Q : (TypeSpec × Options × String) → TState → Prop),
        s.size ≤ n → s.size < m → (∀ a s', s'.size + 1 ≤ s.size → Q a s') →
        wp n (parseTypeSpecWith (typeSpecElementsN lib m) c) s Q := by
      intro c s Q hn hm h
      unfold parseTypeSpecWith
      apply wp_bind
      apply ih _ _ hn hm
      wp_go
    have hfield : ∀ (s : TState) (Q : Option StructFieldDef → TState → Prop),
        s.size ≤ n → s.size < m → (∀ a s', s'.size + 1 ≤ s.size → Q a s') →
        wp n (parseStructFieldDef lib (typeSpecElementsN lib m)) s Q := by
      intro s Q hn hm h
      unfold parseStructFieldDef fieldSkipStep
      wp_go
    have hbraces : ∀ (t : String) (o : Options) (s : TState) (Q : Elems → TState → Prop),
        s.size ≤ n → s.size < m → (∀ a s', s'.size ≤ s.size + 1 → Q a s') →
        wp n (parseBraces lib (typeSpecElementsN lib m) t o) s Q := by
      intro t o s Q hn hm h
      unfold parseBraces fieldsStep elementsStep
      wp_go
    intro s Q hn hm h
    unfold typeSpecElementsN typeSpecElementsStep paramsStep
    wp_go

theorem wp_parseTypeSpecElements {Q : Elems → TState → Prop} (lib : PLib) (hn : s.size ≤ n)
    (h : ∀ a s', s'.size + 1 ≤ s.size → Q a s') : wp n (parseTypeSpecElements lib) s Q :=
  wp_recursion (wp_typeSpecElementsN lib _ s Q hn (by omega) h)
macro_rules | `(tactic| wp_step) => `(tactic| with_reducible apply wp_parseTypeSpecElements)

theorem wp_parseTypeSpec {Q : (TypeSpec × Options × String) → TState → Prop} (lib : PLib) (comment : String) (hn : s.size ≤ n)
    (h : ∀ a s', s'.size + 1 ≤ s.size → Q a s') : wp n (parseTypeSpec lib comment) s Q := by
  unfold parseTypeSpec parseTypeSpecWith; wp_go
macro_rules | `(tactic| wp_step) => `(tactic| with_reducible apply wp_parseTypeSpec)

theorem wp_parseTypeOptions {Q : TypeDef → TState → Prop} (lib : PLib) (td : TypeDef) (acceptable : List String) (hn : s.size ≤ n)
    (h : ∀ a s', s'.size ≤ s.size → Q a s') : wp n (parseTypeOptions lib td acceptable) s Q := by
  unfold parseTypeOptions; wp_go
macro_rules | `(tactic| wp_step) => `(tactic| with_reducible apply wp_parseTypeOptions)

theorem wp_parseSimpleDef {Q : TypeDef → TState → Prop} (lib : PLib) (td : TypeDef) (acceptable : List String) (hn : s.size ≤ n)
    (h : ∀ a s', s'.size ≤ s.size → Q a s') : wp n (parseSimpleDef lib td acceptable) s Q := by
  unfold parseSimpleDef; wp_go
macro_rules | `(tactic| wp_step) => `(tactic| with_reducible apply wp_parseSimpleDef)

theorem wp_parseStringDef {Q : TypeDef → TState → Prop} (lib : PLib) (td : TypeDef) (hn : s.size ≤ n)
    (h : ∀ a s', s'.size ≤ s.size → Q a s') : wp n (parseStringDef lib td) s Q := by
  unfold parseStringDef; wp_go
macro_rules | `(tactic| wp_step) => `(tactic| with_reducible apply wp_parseStringDef)

theorem wp_parseUnitValueDef {Q : TypeDef → TState → Prop} (lib : PLib) (td : TypeDef) (params : List String) (hn : s.size ≤ n)
    (h : ∀ a s', s'.size ≤ s.size → Q a s') : wp n (parseUnitValueDef lib td params) s Q := by
  unfold parseUnitValueDef; wp_go
macro_rules | `(tactic| wp_step) => `(tactic| with_reducible apply wp_parseUnitValueDef)

theorem wp_parseArrayDef {Q : TypeDef → TState → Prop} (lib : PLib) (td : TypeDef) (params : List String) (hn : s.size ≤ n)
    (h : ∀ a s', s'.size ≤ s.size → Q a s') : wp n (parseArrayDef lib td params) s Q := by
  unfold parseArrayDef; wp_go
macro_rules | `(tactic| wp_step) => `(tactic| with_reducible apply wp_parseArrayDef)

theorem wp_parseMapDef {Q : TypeDef → TState → Prop} (lib : PLib) (td : TypeDef) (params : List String) (hn : s.size ≤ n)
    (h : ∀ a s', s'.size ≤ s.size → Q a s') : wp n (parseMapDef lib td params) s Q := by
  unfold parseMapDef; wp_go
macro_rules | `(tactic| wp_step) => `(tactic| with_reducible apply wp_parseMapDef)

theorem wp_parseStructDef {Q : TypeDef → TState → Prop} (lib : PLib) (td : TypeDef) (e : Elems) (hn : s.size ≤ n)
    (h : ∀ a s', s'.size ≤ s.size → Q a s') : wp n (parseStructDef lib td e) s Q := by
  unfold parseStructDef; wp_go
macro_rules | `(tactic| wp_step) => `(tactic| with_reducible apply wp_parseStructDef)

theorem wp_parseUnionDef {Q : TypeDef → TState → Prop} (lib : PLib) (td : TypeDef) (e : Elems) (hn : s.size ≤ n)
    (h : ∀ a s', s'.size ≤ s.size → Q a s') : wp n (parseUnionDef lib td e) s Q := by
  unfold parseUnionDef; wp_go
macro_rules | `(tactic| wp_step) => `(tactic| with_reducible apply wp_parseUnionDef)

theorem wp_parseTypeDirective {Q : TypeDef → TState → Prop} (lib : PLib) (comment : String) (hn : s.size ≤ n)
    (h : ∀ a s', s'.size ≤ s.size → Q a s') : wp n (parseTypeDirective lib comment) s Q := by
  unfold parseTypeDirective; wp_go
macro_rules | `(tactic| wp_step) => `(tactic| with_reducible apply wp_parseTypeDirective)

theorem wp_parseExampleDirective {Q : ExampleDef → TState → Prop} (lib : PLib) (comment : String) (hn : s.size ≤ n)
    (h : ∀ a s', s'.size ≤ s.size → Q a s') : wp n (parseExampleDirective lib comment) s Q := by
  unfold parseExampleDirective; wp_go
macro_rules | `(tactic| wp_step) => `(tactic| with_reducible apply wp_parseExampleDirective)

theorem wp_parseNamespaceDirective {Q : String → TState → Prop} (hn : s.size ≤ n)
    (h : ∀ a s', s'.size ≤ s.size → Q a s') : wp n (parseNamespaceDirective) s Q := by
  unfold parseNamespaceDirective namespaceStep; wp_go
macro_rules | `(tactic| wp_step) => `(tactic| with_reducible apply wp_parseNamespaceDirective)

theorem wp_parseVersionDirective {Q : String → TState → Prop} (hn : s.size ≤ n)
    (h : ∀ a s', s'.size ≤ s.size → Q a s') : wp n (parseVersionDirective) s Q := by
  unfold parseVersionDirective; wp_go
macro_rules | `(tactic| wp_step) => `(tactic| with_reducible apply wp_parseVersionDirective)

theorem wp_parseBaseDirective {Q : String → TState → Prop} (hn : s.size ≤ n)
    (h : ∀ a s', s'.size ≤ s.size → Q a s') : wp n (parseBaseDirective) s Q := by
  unfold parseBaseDirective; wp_go
macro_rules | `(tactic| wp_step) => `(tactic| with_reducible apply wp_parseBaseDirective)

theorem wp_inputsStep {Q : ((List StructFieldDef × Bool) ⊕ List StructFieldDef) → TState → Prop}
    (st : List StructFieldDef × Bool) (hn : s.size ≤ n) (h0 : ∀ s', s'.size = 0 → Q (.inr []) s')
    (h : ∀ a s', s'.size + 1 ≤ s.size → Q a s') : wp n (inputsStep st) s Q := by
  unfold inputsStep inputOptionStep; wp_go
macro_rules | `(tactic| wp_step) => `(tactic| with_reducible apply wp_inputsStep)

theorem wp_parseOperationInputs {Q : List StructFieldDef → TState → Prop} (hn : s.size ≤ n)
    (h : ∀ a s', s'.size ≤ s.size → Q a s') : wp n (parseOperationInputs) s Q := by
  unfold parseOperationInputs; wp_go
macro_rules | `(tactic| wp_step) => `(tactic| with_reducible apply wp_parseOperationInputs)

theorem wp_parseOperationOutputs {Q : List OperationOutput → TState → Prop} (hn : s.size ≤ n)
    (h : ∀ a s', s'.size ≤ s.size → Q a s') : wp n (parseOperationOutputs) s Q := by
  unfold parseOperationOutputs outputsStep; wp_go
macro_rules | `(tactic| wp_step) => `(tactic| with_reducible apply wp_parseOperationOutputs)

theorem wp_parseOperationExceptions {Q : List String → TState → Prop} (hn : s.size ≤ n)
    (h : ∀ a s', s'.size ≤ s.size → Q a s') : wp n (parseOperationExceptions) s Q := by
  unfold parseOperationExceptions exceptionsStep; wp_go
macro_rules | `(tactic| wp_step) => `(tactic| with_reducible apply wp_parseOperationExceptions)

theorem wp_operationStep {Q : (OperationDef ⊕ OperationDef) → TState → Prop} (op : OperationDef) (hn : s.size ≤ n)
    (h : ∀ a s', s'.size + 1 ≤ s.size → Q a s') : wp n (operationStep op) s Q := by
  unfold operationStep; wp_go
macro_rules | `(tactic| wp_step) => `(tactic| with_reducible apply wp_operationStep)

macro_rules | `(tactic| wp_step) => `(tactic| with_reducible apply wp_attempt)

theorem wp_parseOperationDirective {Q : OperationDef → TState → Prop} (lib : PLib) (comment : String) (hn : s.size ≤ n)
    (h : ∀ a s', s'.size ≤ s.size → Q a s') : wp n (parseOperationDirective lib comment) s Q := by
  unfold parseOperationDirective; wp_go
macro_rules | `(tactic| wp_step) => `(tactic| with_reducible apply wp_parseOperationDirective)

theorem wp_isBlockDone {Q : (Bool × String) → TState → Prop} (comment : String) (hn : s.size ≤ n)
    (h : ∀ a s', s'.size ≤ s.size → Q a s') : wp n (isBlockDone comment) s Q := by
  unfold isBlockDone blockStep; wp_go
macro_rules | `(tactic| wp_step) => `(tactic| with_reducible apply wp_isBlockDone)

theorem wp_parseHttpParam {Q : HttpParamSpec → TState → Prop} (lib : PLib) (path ename comment : String) (hn : s.size ≤ n)
    (h : ∀ a s', s'.size ≤ s.size → Q a s') : wp n (parseHttpParam lib path ename comment) s Q := by
  unfold parseHttpParam; wp_go
macro_rules | `(tactic| wp_step) => `(tactic| with_reducible apply wp_parseHttpParam)

theorem wp_expectStep {Q : (HttpExpectedSpec ⊕ HttpExpectedSpec) → TState → Prop} (lib : PLib) (path : String)
    (e : HttpExpectedSpec) (hn : s.size ≤ n) (h0 : ∀ a s', s'.size ≤ s.size → Q (.inr a) s')
    (h : ∀ a s', s'.size + 1 ≤ s.size → Q a s') : wp n (expectStep lib path e) s Q := by
  unfold expectStep; wp_go
macro_rules | `(tactic| wp_step) => `(tactic| with_reducible apply wp_expectStep)

theorem wp_parseHttpExpectedSpec {Q : HttpDef → TState → Prop} (lib : PLib) (op : HttpDef) (comment : String) (hn : s.size ≤ n)
    (h : ∀ a s', s'.size ≤ s.size → Q a s') : wp n (parseHttpExpectedSpec lib op comment) s Q := by
  unfold parseHttpExpectedSpec; wp_go
macro_rules | `(tactic| wp_step) => `(tactic| with_reducible apply wp_parseHttpExpectedSpec)

theorem wp_parseHttpExceptionSpec {Q : HttpDef → TState → Prop} (lib : PLib) (op : HttpDef) (comment : String) (hn : s.size ≤ n)
    (h : ∀ a s', s'.size ≤ s.size → Q a s') : wp n (parseHttpExceptionSpec lib op comment) s Q := by
  unfold parseHttpExceptionSpec; wp_go
macro_rules | `(tactic| wp_step) => `(tactic| with_reducible apply wp_parseHttpExceptionSpec)

theorem wp_parseHttpSpec {Q : HttpDef → TState → Prop} (lib : PLib) (op : HttpDef) (comment : String) (hn : s.size ≤ n)
    (h : ∀ a s', s'.size + 1 ≤ s.size → Q a s') : wp n (parseHttpSpec lib op comment) s Q := by
  unfold parseHttpSpec; wp_go
macro_rules | `(tactic| wp_step) => `(tactic| with_reducible apply wp_parseHttpSpec)

theorem wp_httpStep {Q : (HttpDef ⊕ HttpDef) → TState → Prop} (lib : PLib)
    (op : HttpDef) (hn : s.size ≤ n) (h0 : ∀ a s', s'.size ≤ s.size → Q (.inr a) s')
    (h : ∀ a s', s'.size + 1 ≤ s.size → Q a s') : wp n (httpStep lib op) s Q := by
  unfold httpStep; wp_go
macro_rules | `(tactic| wp_step) => `(tactic| with_reducible apply wp_httpStep)

theorem wp_parseHttpDirective {Q : HttpDef → TState → Prop} (lib : PLib) (comment : String) (hn : s.size ≤ n)
    (h : ∀ a s', s'.size ≤ s.size → Q a s') : wp n (parseHttpDirective lib comment) s Q := by
  unfold parseHttpDirective; wp_go
macro_rules | `(tactic| wp_step) => `(tactic| with_reducible apply wp_parseHttpDirective)

theorem wp_parseStringToEndOfLine {Q : (String × String) → TState → Prop} (hn : s.size ≤ n)
    (h : ∀ a s', s'.size ≤ s.size → Q a s') : wp n (parseStringToEndOfLine) s Q := by
  unfold parseStringToEndOfLine; wp_go
macro_rules | `(tactic| wp_step) => `(tactic| with_reducible apply wp_parseStringToEndOfLine)

theorem wp_parseIncludeDirective {Q : Schema → TState → Prop} (incl : String → IncRes) (sch : Schema)
    (hi : ∀ f, incl f ≠ none) (hn : s.size ≤ n)
    (h : ∀ a s', s'.size ≤ s.size → Q a s') : wp n (parseIncludeDirective incl sch) s Q := by
  unfold parseIncludeDirective
  apply wp_bind
  apply wp_expectString hn
  intro f s' hs
  have := hi f
  split
  · contradiction
  all_goals wp_go

theorem wp_directive {Q : Schema → TState → Prop} (lib : PLib) (incl : String → IncRes) (sch : Schema)
    (comment word : String) (hi : ∀ f, incl f ≠ none) (hn : s.size ≤ n)
    (h : ∀ a s', s'.size ≤ s.size → Q a s') : wp n (directive lib incl sch comment word) s Q := by
  unfold directive
  dsimp only
  split
  case h_9 => exact wp_parseIncludeDirective incl _ hi hn h
  all_goals wp_go

theorem wp_topStep {Q : ((Schema × String) ⊕ Schema) → TState → Prop} (lib : PLib) (incl : String → IncRes)
    (st : Schema × String) (hi : ∀ f, incl f ≠ none) (hn : s.size ≤ n)
    (h0 : ∀ s', s'.size = 0 → Q (.inr st.1) s')
    (h : ∀ a s', s'.size + 1 ≤ s.size → Q a s') : wp n (topStep lib incl st) s Q := by
  unfold topStep
  apply wp_bind
  apply wp_getToken
  · intro s' hs'; exact wp_pure (h0 s' hs')
  · intro t s' hs'
    dsimp only
    split
    · apply wp_bind
      apply wp_directive lib incl _ _ _ hi (by omega)
      intro a s'' hs''
      exact wp_pure (h _ _ (by omega))
    all_goals wp_go

/-- The parsing loop never exceeds its bound. -/
theorem parseSchema_no_hang (lib : PLib) (incl : String → IncRes) (init : Schema) (toks : List Token)
    (hi : ∀ f, incl f ≠ none) : parseSchema lib incl init toks ≠ .hang := by
  intro h
  have : wp toks.length (P.loop (topStep lib incl) (init, "")) { toks := toks } (fun _ _ => True) := by
    apply wp_loop
    intro x s1 h1
    have h1' : s1.size ≤ toks.length := by simpa [TState.size] using h1
    exact wp_topStep lib incl x hi h1' (fun _ _ => trivial)
      (fun a s' hs' => by cases a <;> simp <;> omega)
  unfold wp at this
  unfold parseSchema at h
  rw [h] at this
  exact this


end Sadl
