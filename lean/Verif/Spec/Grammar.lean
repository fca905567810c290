import Verif.Spec.Options
import Verif.Spec.Paths
/-
The grammar of SADL sources, with the schema that a source denotes.

The grammar is over the tokens of a source without its block comments.  A phrase is a relation
`Phrase ts x rest`: the tokens `ts` begin with the phrase, it denotes `x`, and the tokens
`rest` follow it.  Where a phrase may only end if the source does not go on in a certain way
this is a condition on `rest` (`NotNext`).

Comments are part of the denotation.  `mergeComment` joins two comments (property C29).  A
phrase that may be preceded by a comment has that comment as a parameter.

What the grammar admits beyond the documented notation is marked "tolerated".
-/
namespace Sadl.Spec

/-- The next token, if there is one, is not of type `k`. -/
def NotNext (k : TokType) (ts : List Token) : Prop := ∀ t ∈ ts.head?, t.type ≠ k

/-! ### Options, comments and the end of statements -/

/-- Optional options in parentheses.  Without them no parenthesis may follow. -/
def Opts (lib : PLib) (acc : List String) (ts : List Token) (o : Options) (rest : List Token) : Prop :=
  ∃ us, ts = us ++ rest ∧ OptList lib (AnyLit lib) acc us o ∧ (us = [] → NotNext .openParen rest)

/-- An optional comment on the same line. -/
inductive Trailing (c : String) : List Token → String → List Token → Prop
  | comment {x r} : Trailing c (⟨.lineComment, x⟩ :: r) (mergeComment c x) r
  | none {r} : NotNext .lineComment r → Trailing c r c r

/-- The end of a statement: comments and semicolons, then a newline or the end of the source.
The flag is `false` for what is tolerated in some places: another token in place of the
newline, which is then passed over. -/
inductive Ends : String → List Token → String → Bool → List Token → Prop
  | semicolon {c x ts c' ok r} : Ends c ts c' ok r → Ends c (⟨.semicolon, x⟩ :: ts) c' ok r
  | comment {c x ts c' ok r} : Ends (mergeComment c x) ts c' ok r → Ends c (⟨.lineComment, x⟩ :: ts) c' ok r
  | newline {c x r} : Ends c (⟨.newline, x⟩ :: r) c true r
  | source {c} : Ends c [] c true []
  | stray {c t r} : t.type ≠ .semicolon → t.type ≠ .lineComment → t.type ≠ .newline → Ends c (t :: r) c false r

/-- What may follow the closing brace of a type: comments and semicolons.  If the source ends
there, the last token read counts once more: the brace itself, which leaves the source
incomplete, or a comment or semicolon, which is harmless. -/
inductive AfterBrace : Token → String → List Token → String → List Token → Prop
  | semicolon {b c x ts c' r} : AfterBrace ⟨.semicolon, x⟩ c ts c' r → AfterBrace b c (⟨.semicolon, x⟩ :: ts) c' r
  | comment {b c x ts c' r} : AfterBrace ⟨.lineComment, x⟩ (mergeComment c x) ts c' r →
      AfterBrace b c (⟨.lineComment, x⟩ :: ts) c' r
  | stop {b c t r} : t.type ≠ .semicolon → t.type ≠ .lineComment → AfterBrace b c (t :: r) c (t :: r)
  | source {b c} : AfterBrace b c [] c [b]

/-! ### Types -/

/-- Type parameters up to the closing angle bracket.  Commas are optional. -/
inductive Params : List Token → List String → List Token → Prop
  | close {x r} : Params (⟨.closeAngle, x⟩ :: r) [] r
  | comma {x ts ps r} : Params ts ps r → Params (⟨.comma, x⟩ :: ts) ps r
  | name {n ts ps r} : Params ts ps r → Params (⟨.symbol, n⟩ :: ts) (n :: ps) r

/-- The types with parameters, and how many they have. -/
inductive Generic : String → String → List String → Prop
  | array {t} : Generic "Array" "Array" [t]
  | list {t} : Generic "List" "Array" [t]
  | map {k t} : Generic "Map" "Map" [k, t]
  | unitValue {v u} : Generic "UnitValue" "UnitValue" [v, u]
  | union {ts} : Generic "Union" "Union" ts

/-- The types with a body. -/
def Bodied (n : String) : Prop := n = "Struct" ∨ n = "Enum" ∨ n = "Union"

/-- The elements of an enum, up to the closing brace (which is left over), with the comment
read so far. -/
inductive Elements (lib : PLib) : String → List Token → List EnumElementDef → List Token → Prop
  | close {c x r} : Elements lib c (⟨.closeBrace, x⟩ :: r) [] (⟨.closeBrace, x⟩ :: r)
  | comment {c x ts es r} : Elements lib (mergeComment c x) ts es r → Elements lib c (⟨.lineComment, x⟩ :: ts) es r
  | sep {c t ts es r} : t.type = .semicolon ∨ t.type = .newline ∨ t.type = .comma → Elements lib c ts es r →
      Elements lib c (t :: ts) es r
  | element {c n ts o ts1 c1 ts2 es r} : Opts lib [] ts o ts1 → Trailing c ts1 c1 ts2 → Elements lib "" ts2 es r →
      Elements lib c (⟨.symbol, n⟩ :: ts) ({ symbol := n, comment := c1, annotations := o.annotations } :: es) r

/-- The type parameters as parts of a type.  Without parameters there are defaults; only
array, map and unit value types have any here. -/
inductive HasParts (e : Elems) : TypeSpec → Prop
  | array {i} : e.type = "Array" ∨ e.type = "List" → (e.params = [] ∧ i = "Any" ∨ e.params = [i]) →
      HasParts e { type := e.type, items := i, fields := e.fields, elements := e.elements }
  | map {k i} : e.type = "Map" → (e.params = [] ∧ k = "String" ∧ i = "Any" ∨ e.params = [k, i]) →
      HasParts e { type := e.type, keys := k, items := i, fields := e.fields, elements := e.elements }
  | unitValue {v u} : e.type = "UnitValue" → (e.params = [] ∧ v = "Decimal" ∧ u = "String" ∨ e.params = [v, u]) →
      HasParts e { type := e.type, value := v, unit := u, fields := e.fields, elements := e.elements }
  | other : e.type ≠ "Array" → e.type ≠ "List" → e.type ≠ "Map" → e.type ≠ "UnitValue" → e.params = [] →
      HasParts e { type := e.type, fields := e.fields, elements := e.elements }

/-- The options of a field of the given type. -/
def fieldOptionNames (type : String) : List String :=
  (if type = "String" then ["pattern", "values", "minsize", "maxsize", "reference"]
   else if type = "UUID" then ["reference"]
   else if type ∈ numericTypes then ["min", "max"]
   else if type ∈ ["Bytes", "Array", "Map"] then ["minsize", "maxsize"]
   else []) ++ ["required", "default"]

/-- A field with its options.  Annotations among the options of an inline type belong to
the field. -/
def fieldOf (name comment : String) (ts : TypeSpec) (o : Options) (inner : GoMap String) : StructFieldDef :=
  { name := name, comment := comment, required := o.required, default := o.default,
    annotations := inner.foldl (fun a kv => mset a kv.1 kv.2) o.annotations,
    ts := { ts with pattern := o.pattern, values := o.values, minSize := o.minSize, maxSize := o.maxSize,
                    min := o.min, max := o.max, reference := o.reference } }

mutual
/-- A type: a name, a name with type parameters, or a type with a body. -/
inductive TypeExpr (lib : PLib) : List Token → Elems → List Token → Prop
  | plain {n r} : ¬ Bodied n → NotNext .openAngle r → TypeExpr lib (⟨.symbol, n⟩ :: r) { type := n } r
  | generic {n n' ps x ts r} : Generic n n' ps → Params ts ps r →
      TypeExpr lib (⟨.symbol, n⟩ :: ⟨.openAngle, x⟩ :: ts) { type := n', params := ps } r
  | fields {n ts o x ts1 c ts2 fs b ts3 c' r} : n = "Struct" ∨ n = "Union" → Opts lib [] ts o (⟨.openBrace, x⟩ :: ts1) →
      Trailing "" ts1 c ts2 → Fields lib "" ts2 fs (b :: ts3) → AfterBrace b c ts3 c' r →
      TypeExpr lib (⟨.symbol, n⟩ :: ts) { type := n, fields := fs, options := o, comment := c' } r
  | elements {ts o x ts1 c ts2 es b ts3 c' r} : Opts lib [] ts o (⟨.openBrace, x⟩ :: ts1) →
      Trailing "" ts1 c ts2 → Elements lib "" ts2 es (b :: ts3) → AfterBrace b c ts3 c' r →
      TypeExpr lib (⟨.symbol, "Enum"⟩ :: ts) { type := "Enum", elements := es, options := o, comment := c' } r
  /-- tolerated: no body -/
  | bare {n ts o t r} : Bodied n → ts ≠ [] → NotNext .openAngle ts → Opts lib [] ts o (t :: r) → t.type ≠ .openBrace →
      TypeExpr lib (⟨.symbol, n⟩ :: ts) { type := n, options := o } (t :: r)
  /-- tolerated: no body, at the end of the source -/
  | bareEnd {n} : Bodied n → TypeExpr lib [⟨.symbol, n⟩] { type := n } []
/-- The fields of a struct or union, up to the closing brace (which is left over), with the
last comment read. -/
inductive Fields (lib : PLib) : String → List Token → List StructFieldDef → List Token → Prop
  | close {c x r} : Fields lib c (⟨.closeBrace, x⟩ :: r) [] (⟨.closeBrace, x⟩ :: r)
  | comment {c x ts fs r} : Fields lib (mergeComment "" x) ts fs r → Fields lib c (⟨.lineComment, x⟩ :: ts) fs r
  | newline {c x ts fs r} : Fields lib c ts fs r → Fields lib c (⟨.newline, x⟩ :: ts) fs r
  | field {c n ts e ts1 s o ts2 c' ok ts3 fs r} : TypeExpr lib ts e ts1 → HasParts e s →
      Opts lib (fieldOptionNames s.type) ts1 o ts2 →
      Ends (mergeComment c (mergeComment c e.comment)) ts2 c' ok ts3 → Fields lib "" ts3 fs r →
      Fields lib c (⟨.symbol, n⟩ :: ts) (fieldOf n c' s o e.options.annotations :: fs) r
end

/-- A type definition with its options. -/
def typeOf (td : TypeDef) (o : Options) (comment : String) : TypeDef :=
  { td with
    annotations := o.annotations, comment := comment
    ts := { td.ts with pattern := o.pattern, values := o.values, minSize := o.minSize, maxSize := o.maxSize,
                       min := o.min, max := o.max, reference := o.reference } }

/-- The options of a type definition with the given supertype, a type without body. -/
def typeOptionNames (type : String) : List String :=
  if type ∈ numericTypes then ["min", "max"]
  else if type ∈ ["Bytes", "Array", "List", "Map"] then ["minsize", "maxsize"]
  else if type = "String" then ["minsize", "maxsize", "pattern", "values", "reference"]
  else if type = "UUID" then ["reference"]
  else []

/-- The pattern that makes a string type a UUID type. -/
def uuidPattern : String := "([a-f0-9]{8}(-[a-f0-9]{4}){4}[a-f0-9]{8})"

/-- A string type with the pattern of UUIDs is a UUID type. -/
def asUuid (td : TypeDef) : TypeDef :=
  if td.ts.type = "String" ∧ td.ts.pattern = uuidPattern then
    { td with ts := { td.ts with type := "UUID", pattern := "" } } else td

/-- The supertypes without a body. -/
def simpleTypes : List String :=
  ["Any", "Bool", "Timestamp", "Bytes", "String", "UUID", "UnitValue", "Array", "List", "Map"] ++ numericTypes

/-- A type definition, after the word `type`; `c` is the comment before it. -/
inductive TypeDirective (lib : PLib) (c : String) : List Token → TypeDef → List Token → Prop
  | simple {n ts e ts1 s o ts2 c' r} : TypeExpr lib ts e ts1 → e.type ∈ simpleTypes →
      (e.type ∉ ["Array", "List", "Map", "UnitValue"] → s = { type := e.type }) →
      (e.type ∈ ["Array", "List", "Map", "UnitValue"] → HasParts { type := e.type, params := e.params } s) →
      Opts lib (typeOptionNames e.type) ts1 o ts2 → Ends (mergeComment c e.comment) ts2 c' true r →
      TypeDirective lib c (⟨.symbol, n⟩ :: ts) (asUuid (typeOf { name := n, ts := s } o c')) r
  | struct {n ts e ts1 o r} : TypeExpr lib ts e ts1 → e.type = "Struct" → Opts lib [] ts1 o r →
      TypeDirective lib c (⟨.symbol, n⟩ :: ts)
        { name := n, comment := mergeComment c e.comment, annotations := e.options.annotations,
          ts := { type := "Struct", fields := e.fields } } r
  | enum {n ts e r} : TypeExpr lib ts e r → e.type = "Enum" →
      TypeDirective lib c (⟨.symbol, n⟩ :: ts)
        { name := n, comment := mergeComment c e.comment, annotations := e.options.annotations,
          ts := { type := "Enum", elements := e.elements } } r
  | union {n ts e ts1 o ts2 c' r vs} : TypeExpr lib ts e ts1 → e.type = "Union" → Opts lib [] ts1 o ts2 →
      Ends (mergeComment c e.comment) ts2 c' true r → vs ≠ [] →
      (e.params ≠ [] ∧ vs = e.params.map (fun p => { name := p, ts := { type := p } }) ∨
       e.params = [] ∧ vs = e.fields.map (fun f => { name := f.name, ts := { type := f.ts.type } })) →
      TypeDirective lib c (⟨.symbol, n⟩ :: ts)
        { name := n, comment := c', annotations := o.annotations, ts := { type := "Union", variants := vs } } r

/-! ### Examples -/

/-- Names joined by dots. -/
inductive Compound : List Token → String → List Token → Prop
  | last {n r} : NotNext .dot r → Compound (⟨.symbol, n⟩ :: r) n r
  | more {n x ts m r} : Compound ts m r → Compound (⟨.symbol, n⟩ :: ⟨.dot, x⟩ :: ts) (n ++ "." ++ m) r

/-- An example, after the word `example`. -/
inductive ExampleDirective (lib : PLib) (c : String) : List Token → ExampleDef → List Token → Prop
  | mk {ts target ts1 o us v r} : Compound ts target ts1 → Opts lib ["name"] ts1 o (us ++ r) → AnyLit lib us v →
      ExampleDirective lib c ts { target := target, «example» := v, comment := c, name := o.name } r

/-! ### Operations -/

/-- The options of an input, up to the closing parenthesis; tolerated: other tokens. -/
inductive InputOpts : List Token → Bool → List Token → Prop
  | close {x r} : InputOpts (⟨.closeParen, x⟩ :: r) false r
  | required {ts b r} : InputOpts ts b r → InputOpts (⟨.symbol, "required"⟩ :: ts) true r
  | skip {t ts b r} : t.type ≠ .closeParen → t.type ≠ .symbol → InputOpts ts b r → InputOpts (t :: ts) b r

/-- The inputs of an operation, up to the closing brace. -/
inductive Inputs : List Token → List StructFieldDef → List Token → Prop
  | close {x r} : Inputs (⟨.closeBrace, x⟩ :: r) [] r
  | newline {x ts is r} : Inputs ts is r → Inputs (⟨.newline, x⟩ :: ts) is r
  | plain {n t ts is r} : ts ≠ [] → NotNext .openParen ts → Inputs ts is r →
      Inputs (⟨.symbol, n⟩ :: ⟨.symbol, t⟩ :: ts) ({ name := n, ts := { type := t } } :: is) r
  | opts {n t x ts b ts1 is r} : InputOpts ts b ts1 → Inputs ts1 is r →
      Inputs (⟨.symbol, n⟩ :: ⟨.symbol, t⟩ :: ⟨.openParen, x⟩ :: ts) ({ name := n, required := b, ts := { type := t } } :: is) r

/-- The outputs of an operation, up to the closing brace. -/
inductive Outputs : List Token → List OperationOutput → List Token → Prop
  | close {x r} : Outputs (⟨.closeBrace, x⟩ :: r) [] r
  | newline {x ts os r} : Outputs ts os r → Outputs (⟨.newline, x⟩ :: ts) os r
  | output {n t ts os r} : Outputs ts os r →
      Outputs (⟨.symbol, n⟩ :: ⟨.symbol, t⟩ :: ts) ({ name := n, ts := { type := t } } :: os) r

/-- The exceptions of an operation, up to the closing brace. -/
inductive Exceptions : List Token → List String → List Token → Prop
  | close {x r} : Exceptions (⟨.closeBrace, x⟩ :: r) [] r
  | newline {x ts es r} : Exceptions ts es r → Exceptions (⟨.newline, x⟩ :: ts) es r
  | exc {n ts es r} : Exceptions ts es r → Exceptions (⟨.symbol, n⟩ :: ts) (n :: es) r

/-- The body of an operation, up to the closing brace; the last of several blocks of one kind
counts.  Tolerated: tokens other than symbols. -/
inductive OpBody : OperationDef → List Token → OperationDef → List Token → Prop
  | close {op x r} : OpBody op (⟨.closeBrace, x⟩ :: r) op r
  | skip {op t ts op' r} : t.type ≠ .closeBrace → t.type ≠ .symbol → OpBody op ts op' r → OpBody op (t :: ts) op' r
  | inputs {op x ts is ts1 op' r} : Inputs ts is ts1 → OpBody { op with inputs := is } ts1 op' r →
      OpBody op (⟨.symbol, "inputs"⟩ :: ⟨.openBrace, x⟩ :: ts) op' r
  | outputs {op x ts os ts1 op' r} : Outputs ts os ts1 → OpBody { op with outputs := os } ts1 op' r →
      OpBody op (⟨.symbol, "outputs"⟩ :: ⟨.openBrace, x⟩ :: ts) op' r
  | exceptions {op x ts es ts1 op' r} : Exceptions ts es ts1 → OpBody { op with exceptions := es } ts1 op' r →
      OpBody op (⟨.symbol, "exceptions"⟩ :: ⟨.openBrace, x⟩ :: ts) op' r

/-- An operation, after the word `operation`. -/
inductive OperationDirective (lib : PLib) (c : String) : List Token → OperationDef → List Token → Prop
  | mk {n ts o x ts1 op r} : Opts lib [] ts o (⟨.openBrace, x⟩ :: ts1) → OpBody { name := n, comment := c } ts1 op r →
      OperationDirective lib c (⟨.symbol, n⟩ :: ts) { op with annotations := o.annotations } r

/-! ### HTTP actions -/

/-- A parameter with its source (property C25). -/
def paramOf (path name comment : String) (ts : TypeSpec) (o : Options) : HttpParamSpec :=
  { field := { name := name, comment := comment, annotations := o.annotations, default := o.default, ts := ts }
    path := parameterSource path name o.header = .path
    query := match parameterSource path name o.header with | .query k => k | _ => ""
    header := o.header }

/-- A parameter of an action with the given path, or an output. -/
inductive Param (lib : PLib) (path c : String) : List Token → HttpParamSpec → List Token → Prop
  | mk {n ts e ts1 s o ts2 c' ok r} : n ≠ "expect" → n ≠ "except" → TypeExpr lib ts e ts1 → HasParts e s →
      Opts lib ["header", "default", "required"] ts1 o ts2 → Ends (mergeComment c e.comment) ts2 c' ok r →
      Param lib path c (⟨.symbol, n⟩ :: ts) (paramOf path n c' s o) r

/-- The outputs in the body of an `expect`, up to the closing brace, with the comment read so
far.  The result is the list of outputs and the comment before the closing brace. -/
inductive ExpectBody (lib : PLib) (path : String) : String → List Token → List HttpParamSpec × String → List Token → Prop
  | close {c x r} : ExpectBody lib path c (⟨.closeBrace, x⟩ :: r) ([], c) r
  | comment {c x ts q r} : ExpectBody lib path (mergeComment c x) ts q r → ExpectBody lib path c (⟨.lineComment, x⟩ :: ts) q r
  | newline {c x ts q r} : ExpectBody lib path c ts q r → ExpectBody lib path c (⟨.newline, x⟩ :: ts) q r
  | output {c ts p ts1 ps c' r} : Param lib path c ts p ts1 → ExpectBody lib path "" ts1 (ps, c') r →
      ExpectBody lib path c ts (p :: ps, c') r

/-- An expected response, after the word `expect`; `c` is the comment before it.  Tolerated: that
comment is dropped unless a body follows. -/
inductive Expect (lib : PLib) (path c : String) : List Token → HttpExpectedSpec → List Token → Prop
  | body {t st ts o x ts1 c1 ts2 ps c2 ts3 c' r} : parseInt 32 t = some st → Opts lib [] ts o (⟨.openBrace, x⟩ :: ts1) →
      Trailing c ts1 c1 ts2 → ExpectBody lib path "" ts2 (ps, c2) ts3 → Ends (mergeComment c1 c2) ts3 c' true r →
      Expect lib path c (⟨.number, t⟩ :: ts) { status := st, annotations := o.annotations, outputs := ps, comment := c' } r
  | entity {t st ts o n ts1 c' r} : parseInt 32 t = some st → Opts lib [] ts o (⟨.symbol, n⟩ :: ts1) →
      Ends "" ts1 c' true r →
      Expect lib path c (⟨.number, t⟩ :: ts)
        { status := st, annotations := o.annotations, outputs := [{ field := { name := "entity", ts := { type := n } } }],
          comment := c' } r
  | none {t st ts o u ts1 c' r} : parseInt 32 t = some st → Opts lib [] ts o (u :: ts1) → u.type ≠ .openBrace →
      u.type ≠ .symbol → Ends "" (u :: ts1) c' true r →
      Expect lib path c (⟨.number, t⟩ :: ts) { status := st, annotations := o.annotations, comment := c' } r

/-- An exception, after the word `except`. -/
inductive Except (lib : PLib) (c : String) : List Token → HttpExceptionSpec → List Token → Prop
  | status {t st n ts o ts1 c' r} : parseInt 32 t = some st → Opts lib [] ts o ts1 → Ends c ts1 c' true r →
      Except lib c (⟨.number, t⟩ :: ⟨.symbol, n⟩ :: ts) { type := n, status := st, annotations := o.annotations, comment := c' } r
  | noStatus {n ts o ts1 c' r} : Opts lib [] ts o ts1 → Ends c ts1 c' true r →
      Except lib c (⟨.symbol, n⟩ :: ts) { type := n, status := 0, annotations := o.annotations, comment := c' } r

/-- The body of an action, up to the closing brace, with the comment read so far: at most one
`expect`, and exceptions of distinct types. -/
inductive HttpBody (lib : PLib) : HttpDef → String → List Token → HttpDef → List Token → Prop
  | close {h c x r} : HttpBody lib h c (⟨.closeBrace, x⟩ :: r) h r
  | comment {h c x ts h' r} : HttpBody lib h (mergeComment c x) ts h' r → HttpBody lib h c (⟨.lineComment, x⟩ :: ts) h' r
  | newline {h c x ts h' r} : HttpBody lib h c ts h' r → HttpBody lib h c (⟨.newline, x⟩ :: ts) h' r
  | param {h c ts p ts1 h' r} : Param lib h.path c ts p ts1 →
      HttpBody lib { h with inputs := h.inputs ++ [p] } "" ts1 h' r → HttpBody lib h c ts h' r
  | expect {h c ts e ts1 h' r} : h.expected = none → Expect lib h.path c ts e ts1 →
      HttpBody lib { h with expected := some e } "" ts1 h' r → HttpBody lib h c (⟨.symbol, "expect"⟩ :: ts) h' r
  | except {h c ts e ts1 h' r} : (∀ e' ∈ h.exceptions, e'.type ≠ e.type) → Except lib c ts e ts1 →
      HttpBody lib { h with exceptions := h.exceptions ++ [e] } "" ts1 h' r →
      HttpBody lib h c (⟨.symbol, "except"⟩ :: ts) h' r

/-- The last segment of a path that has no variable; empty if all have one. -/
def LastSegment (path seg : List Char) : Prop :=
  (∃ before after, Pieces '/' path (before ++ seg :: after) ∧ '{' ∉ seg ∧ ∀ a ∈ after, '{' ∈ a) ∨
  (seg = [] ∧ ∃ ws, Pieces '/' path ws ∧ ∀ a ∈ ws, '{' ∈ a)

/-- An action gets a name from its method and resource, the resource from its path. -/
inductive NamedAction (h : HttpDef) : HttpDef → Prop
  | given : h.name ≠ "" → NamedAction h h
  | resource : h.name = "" → h.resource ≠ "" → NamedAction h { h with name := lowerS h.method ++ capitalize h.resource }
  | segment {seg} : h.name = "" → h.resource = "" → LastSegment h.path.toList seg → seg ≠ [] →
      NamedAction h { h with resource := String.ofList seg, name := lowerS h.method ++ capitalize (String.ofList seg) }
  | nothing : h.name = "" → h.resource = "" → LastSegment h.path.toList [] → NamedAction h h

/-- Header inputs, and the outputs in the body of a response that has one, are required. -/
def withRequired (h : HttpDef) : HttpDef :=
  { h with
    inputs := h.inputs.map fun p =>
      { p with field := { p.field with required := p.field.required || (p.query = "" ∧ p.header ≠ "") } }
    expected := h.expected.map fun e =>
      { e with outputs := e.outputs.map fun p =>
          { p with field := { p.field with
              required := p.field.required || (e.status ≠ 204 ∧ e.status ≠ 304 ∧ p.header = "") } } } }

/-- An HTTP action, after the word `http`. -/
inductive HttpDirective (lib : PLib) (c : String) : List Token → HttpDef → List Token → Prop
  | mk {m path ts o x ts1 c1 ts2 h ts3 c' ok r h'} :
      upperS m ∈ ["GET", "PUT", "POST", "DELETE", "PATCH", "HEAD", "OPTIONS"] →
      Opts lib ["action", "operation", "resource"] ts o (⟨.openBrace, x⟩ :: ts1) → Trailing c ts1 c1 ts2 →
      HttpBody lib { method := upperS m, path := path, name := o.action, resource := o.resource,
                     annotations := o.annotations, comment := c1 } "" ts2 h ts3 →
      Ends h.comment ts3 c' ok r → NamedAction { h with comment := c' } h' →
      HttpDirective lib c (⟨.symbol, m⟩ :: ⟨.string, path⟩ :: ts) (withRequired h') r

/-! ### Sources -/

/-- Words or strings joined by dots, as a namespace. -/
inductive Dotted : List Token → String → List Token → Prop
  | last {t r} : t.type = .symbol ∨ t.type = .string → NotNext .dot r → Dotted (t :: r) t.text r
  | more {t x ts m r} : t.type = .symbol ∨ t.type = .string → Dotted ts m r →
      Dotted (t :: ⟨.dot, x⟩ :: ts) (t.text ++ "." ++ m) r

/-- An optional value and an optional comment, up to the end of the line. -/
inductive ValueLine : List Token → String → String → List Token → Prop
  | end_ {x r} : ValueLine (⟨.newline, x⟩ :: r) "" "" r
  | source : ValueLine [] "" "" []
  | comment {c x r} : ValueLine (⟨.lineComment, c⟩ :: ⟨.newline, x⟩ :: r) "" c r
  | commentEnd {c} : ValueLine [⟨.lineComment, c⟩] "" c []
  | value {v c ts r} : ValueLine ts "" c r → ts.head?.all (fun t => t.type = .newline ∨ t.type = .lineComment) →
      ValueLine (⟨.string, v⟩ :: ts) v c r
  | equals {x v c ts r} : ValueLine ts v c r → ts ≠ [] → NotNext .equals ts → ValueLine (⟨.equals, x⟩ :: ts) v c r

/-- The names of the definitions of a schema are distinct, and none is a base type. -/
def DistinctNames (s : Schema) : Prop :=
  (s.types.map TypeDef.name).Nodup ∧ (∀ td ∈ s.types, td.name ∉ BaseTypes) ∧ (s.http.map HttpDef.name).Nodup

/-- The schema `sch` with the definitions of `inc`, marked with the name of the file they come from. -/
def withIncluded (sch : Schema) (f : String) (inc : Schema) : Schema :=
  { sch with
    types := sch.types ++ inc.types.map (fun td => { td with annotations := mset td.annotations "x_include" f })
    http := sch.http ++ inc.http.map (fun h => { h with annotations := mset h.annotations "x_include" f })
    operations := sch.operations ++ inc.operations.map (fun o => { o with annotations := mset o.annotations "x_include" f }) }

/-- A directive of a source: `Directive sch c w ts sch' rest`: the word `w` and the tokens `ts`
change the schema; `c` is the comment before the directive.  `incl` relates the name of a file
to the schema in it. -/
inductive Directive (lib : PLib) (incl : String → Schema → Prop) (sch : Schema) (c : String) :
    String → List Token → Schema → List Token → Prop
  | name {t r} : t.type = .symbol ∨ t.type = .string →
      Directive lib incl sch c "name" (t :: r) { sch with name := t.text, comment := mergeComment sch.comment c } r
  | namespace {ts n r} : Dotted ts n r →
      Directive lib incl sch c "namespace" ts { sch with «namespace» := n, comment := mergeComment sch.comment c } r
  | version {t r} : t.type = .number ∨ t.type = .symbol ∨ t.type = .string →
      Directive lib incl sch c "version" (t :: r) { sch with version := t.text, comment := mergeComment sch.comment c } r
  | base {b r} : b = "" ∨ b.toList.head? = some '/' →
      Directive lib incl sch c "base" (⟨.string, b⟩ :: r) { sch with base := b, comment := mergeComment sch.comment c } r
  | type {ts td r} : TypeDirective lib c ts td r → Directive lib incl sch c "type" ts { sch with types := sch.types ++ [td] } r
  | «example» {ts e r} : ExampleDirective lib c ts e r →
      Directive lib incl sch c "example" ts { sch with examples := sch.examples ++ [e] } r
  | operation {ts op r} : OperationDirective lib c ts op r →
      Directive lib incl sch c "operation" ts { sch with operations := sch.operations ++ [op] } r
  | http {ts h r} : HttpDirective lib c ts h r → Directive lib incl sch c "http" ts { sch with http := sch.http ++ [h] } r
  /-- the definitions of the file are added; the names so far must be distinct, and none of the types of the file may be
  defined already or be a base type -/
  | include {f r inc} : incl f inc → DistinctNames sch →
      (∀ td ∈ inc.types, td.name ∉ BaseTypes ∧ ∀ td' ∈ sch.types, td'.name ≠ td.name) →
      Directive lib incl sch c "include" (⟨.string, f⟩ :: r)
        (withIncluded { sch with comment := mergeComment sch.comment c } f inc) r
  | annotation {w ts v c' r} : w.toList.take 2 = ['x', '_'] → ValueLine ts v c' r →
      Directive lib incl sch c w ts
        { sch with annotations := mset sch.annotations w v, comment := mergeComment (mergeComment sch.comment c) c' } r
  /-- tolerated: an unknown word is passed over -/
  | unknown {w r} : w ∉ ["name", "namespace", "version", "base", "type", "example", "operation", "http", "include"] →
      w.toList.take 2 ≠ ['x', '_'] → Directive lib incl sch c w r sch r

/-- A source: directives, comments, newlines and semicolons. -/
inductive Source (lib : PLib) (incl : String → Schema → Prop) : Schema → String → List Token → Schema → Prop
  | done {sch c} : Source lib incl sch c [] sch
  | comment {sch c x ts sch'} : Source lib incl sch (mergeComment c x) ts sch' →
      Source lib incl sch c (⟨.lineComment, x⟩ :: ts) sch'
  | sep {sch c t ts sch'} : t.type = .semicolon ∨ t.type = .newline → Source lib incl sch c ts sch' →
      Source lib incl sch c (t :: ts) sch'
  | directive {sch c w ts sch1 ts1 sch'} : Directive lib incl sch c w ts sch1 ts1 → Source lib incl sch1 "" ts1 sch' →
      Source lib incl sch c (⟨.symbol, w⟩ :: ts) sch'

/-- The tokens of a source that matter: block comments do not. -/
def significant (toks : List Token) : List Token := toks.filter (fun t => decide (t.type ≠ .blockComment))

/-- The schema in a file, with includes nested at most to the given depth. -/
def FileSchemaN (lib : PLib) (files : String → Option (List Token)) : Nat → String → Schema → Prop
  | 0, _, _ => False
  | n + 1, f, sch => ∃ toks, files f = some toks ∧
      Source lib (FileSchemaN lib files n) { sadl := "development version" } "" (significant toks) sch ∧ DistinctNames sch

/-- The schema in a file, with includes nested to any depth. -/
def FileSchema (lib : PLib) (files : String → Option (List Token)) (f : String) (sch : Schema) : Prop :=
  ∃ n, FileSchemaN lib files n f sch

end Sadl.Spec
