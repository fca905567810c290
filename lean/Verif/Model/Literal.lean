import Verif.Model.Token
import Verif.Model.Validate
import Verif.Model.InlineEnums
/-
Comments, simple expectations, literals and options: parser.go:1231-1512, 1558-1579,
1633-1667, 1803-1918, 2005-2058.
-/
namespace Sadl

/-- Library behaviour used by the parser in addition to `Lib`: `strconv.Unquote` applied
to `"` + text + `"`; `none` on error. -/
structure PLib extends Lib where
  unquote : String → Option String

/-- `unicode.IsSpace` -/
def isSpaceCh (c : Char) : Bool :=
  let n := c.toNat
  (9 ≤ n && n ≤ 13) || n == 0x20 || n == 0x85 || n == 0xA0 || n == 0x1680 ||
  (0x2000 ≤ n && n ≤ 0x200A) || n == 0x2028 || n == 0x2029 || n == 0x202F || n == 0x205F || n == 0x3000

/-- `strings.TrimSpace` on characters -/
def trimSpaceL (s : List Char) : List Char :=
  ((s.dropWhile isSpaceCh).reverse.dropWhile isSpaceCh).reverse

/-- `strings.TrimSpace` -/
def trimSpace (s : String) : String := String.ofList (trimSpaceL s.toList)

/-- parser.go:2050-2058 `MergeComment`. -/
def mergeComment (c1 c2 : String) : String :=
  if c1 = "" then trimSpace c2
  else if c2 = "" then trimSpace c1
  else trimSpace c1 ++ " " ++ trimSpace c2

/-- `strings.ToLower`, on ASCII letters (the argument is a symbol). -/
def lowerS (s : String) : String := String.ofList (s.toList.map Char.toLower)

/-- `strings.ToUpper`, on ASCII letters (the argument is a symbol). -/
def upperS (s : String) : String := String.ofList (s.toList.map Char.toUpper)

/-- The value of a digit. -/
def decDigit (c : Char) : Option Nat :=
  if '0' ≤ c ∧ c ≤ '9' then some (c.toNat - 48) else none

/-- The value of a non-empty string of digits. -/
def decDigits : Nat → List Char → Option Nat
  | acc, [] => some acc
  | acc, c :: r =>
    match decDigit c with
    | some d => decDigits (acc * 10 + d) r
    | none => none

/-- `strconv.ParseInt(s, 10, bits)`; `none` on error (syntax or range). -/
def parseInt (bits : Nat) (s : String) : Option Int :=
  let mag (neg : Bool) (ds : List Char) : Option Int :=
    match ds with
    | [] => none
    | _ :: _ =>
      match decDigits 0 ds with
      | none => none
      | some n =>
        let v : Int := if neg then - (n : Int) else n
        if -(2 ^ (bits - 1) : Int) ≤ v ∧ v < 2 ^ (bits - 1) then some v else none
  match s.toList with
  | '-' :: ds => mag true ds
  | '+' :: ds => mag false ds
  | ds => mag false ds

/-- parser.go:1244-1252 `assertIdentifier`, parser.go:1254-1257 `ExpectIdentifier`. -/
def expectIdentifier : P String := do
  let tok ← nextToken
  if tok.type = .symbol then pure tok.text else P.fail "Expected symbol"

/-- One round of parser.go:1259-1278 `ExpectCompoundIdentifier` (the recursion is a loop
that collects the parts). -/
def compoundStep (acc : String) : P (String ⊕ String) := do
  let s ← expectIdentifier
  match ← getToken with
  | none => pure (.inr (acc ++ s))
  | some tok =>
    if tok.type ≠ .dot then do
      ungetToken
      pure (.inr (acc ++ s))
    else pure (.inl (acc ++ s ++ "."))

/-- parser.go:1259-1278 `ExpectCompoundIdentifier`. -/
def expectCompoundIdentifier : P String := P.loop compoundStep ""

/-- parser.go:1391-1400 `expect`. -/
def expect (t : TokType) : P Unit := do
  let tok ← nextToken
  if tok.type = t then pure () else P.fail "Unexpected token"

/-- parser.go:1280-1286 `expectEqualsIdentifier`. -/
def expectEqualsIdentifier : P String := do
  expect .equals
  expectIdentifier

/-- parser.go:1288-1296 `assertString`, parser.go:1298-1301 `ExpectString`. -/
def expectString : P String := do
  let tok ← nextToken
  if tok.type = .string then pure tok.text else P.fail "Expected string"

/-- parser.go:1303-1309 `expectEqualsString`. -/
def expectEqualsString : P String := do
  expect .equals
  expectString

/-- parser.go:1311-1320 `expectText`; the lexer's `IsText` holds of symbols and strings. -/
def expectText : P String := do
  let tok ← nextToken
  if tok.type = .symbol ∨ tok.type = .string then pure tok.text
  else P.fail "Expected symbol or string"

/-- parser.go:1322-1332, 1347-1357 `expectInt32`, `expectInt64`; the lexer's `IsNumeric`
holds of numbers. -/
def expectInt (bits : Nat) : P Int := do
  let tok ← nextToken
  if tok.type = .number then
    match parseInt bits tok.text with
    | some n => pure n
    | none => P.fail "strconv.ParseInt"
  else P.fail "Expected number"

/-- parser.go:1359-1370 `expectEqualsInt64`. -/
def expectEqualsInt64 : P Int := do
  expect .equals
  expectInt 64

/-- parser.go:1372-1381 `expectNumber`. -/
def expectNumber (lib : PLib) : P BigFloat := do
  let tok ← nextToken
  if tok.type = .number then
    match lib.parseDecimal tok.text with
    | some d => pure d
    | none => P.fail "Bad Decimal number"
  else P.fail "Expected number"

/-- parser.go:1383-1389 `expectEqualsNumber`. -/
def expectEqualsNumber (lib : PLib) : P BigFloat := do
  expect .equals
  expectNumber lib

/-- parser.go:1848-1855 `parseLiteralString`. -/
def parseLiteralString (lib : PLib) (tok : Token) : P String :=
  match lib.unquote tok.text with
  | some q => pure q
  | none => P.fail "Improperly escaped string"

section
variable (lib : PLib) (recur : Token → P Value)

/-- parser.go:1865-1885: the loop body of `parseLiteralArray`. -/
def arrayStep (ary : List Value) : P (List Value ⊕ Value) := do
  let tok ← nextToken
  if tok.type ≠ .newline then
    if tok.type = .closeBracket then pure (.inr (.arr ary))
    else if tok.type ≠ .comma then do
      let obj ← recur tok
      pure (.inl (ary ++ [obj]))
    else pure (.inl ary)
  else pure (.inl ary)

/-- parser.go:1887-1918: the loop body of `parseLiteralObject`.  Here the missing token
of `parseLiteralValue` (parser.go:1811-1817) is an error as well. -/
def objectStep (obj : GoMap Value) : P (GoMap Value ⊕ Value) := do
  let tok ← nextToken
  if tok.type = .closeBrace then pure (.inr (.obj obj))
  else if tok.type = .string then do
    let key ← parseLiteralString lib tok
    expect .colon
    let t ← nextToken
    let val ← recur t
    pure (.inl (mset obj key val))
  else if tok.type = .symbol then P.fail "Expected String key for JSON object"
  else pure (.inl obj)

/-- parser.go:1819-1863: one level of `parseLiteral`. -/
def literalStep (tok : Token) : P Value :=
  match tok.type with
  | .symbol =>
    match tok.text with
    | "true" => pure (.bool true)
    | "false" => pure (.bool false)
    | "null" => pure .null
    | _ => P.fail "Not a valid symbol"
  | .string => do
    let q ← parseLiteralString lib tok
    pure (.strPtr q)
  | .number =>
    match lib.parseDecimal tok.text with
    | some d => pure (.dec d)
    | none => P.fail "Not a valid number"
  | .openBracket => P.loop (arrayStep recur) []
  | .openBrace => P.loop (objectStep lib recur) []
  | _ => syntaxError
end

/-- parser.go:1819-1918, `parseLiteral` with at most `n` nested calls. -/
def parseLiteralN (lib : PLib) : Nat → Token → P Value
  | 0, _ => P.hang
  | n + 1, tok => literalStep lib (parseLiteralN lib n) tok

/-- parser.go:1819-1834 `parseLiteral`. -/
def parseLiteral (lib : PLib) (tok : Token) : P Value :=
  P.recursion (fun n => parseLiteralN lib n tok)

/-- parser.go:1811-1817 `parseLiteralValue`. -/
def parseLiteralValue (lib : PLib) : P Value := do
  match ← getToken with
  | none => syntaxError
  | some tok => parseLiteral lib tok

/-- parser.go:1803-1809 `parseEqualsLiteral`. -/
def parseEqualsLiteral (lib : PLib) : P Value := do
  expect .equals
  parseLiteralValue lib

/-- parser.go:1649-1665: the loop body of `expectEqualsStringArray`. -/
def stringArrayStep (values : List String) : P (List String ⊕ List String) := do
  let tok ← nextToken
  if tok.type = .closeBracket then pure (.inr values)
  else if tok.type = .string then pure (.inl (values ++ [tok.text]))
  else if tok.type = .comma ∨ tok.type = .newline then pure (.inl values)
  else syntaxError

/-- parser.go:1633-1667 `expectEqualsStringArray`; without any string the result is the
nil slice. -/
def expectEqualsStringArray : P (Option (List String)) := do
  let tok ← nextToken
  if tok.type ≠ .equals then syntaxError
  else do
    let tok ← nextToken
    if tok.type ≠ .openBracket then syntaxError
    else do
      let vs ← P.loop stringArrayStep []
      pure (if vs = [] then none else some vs)

/-- parser.go:1428-1443 `Options`; `default = null` is the nil interface. -/
structure Options where
  required : Bool := false
  default : Value := .null
  pattern : String := ""
  values : Option (List String) := none
  minSize : Option Int := none
  maxSize : Option Int := none
  min : Option BigFloat := none
  max : Option BigFloat := none
  action : String := ""
  resource : String := ""
  header : String := ""
  reference : String := ""
  name : String := ""
  annotations : GoMap String := []

/-- parser.go:1558-1579 `parseExtendedOption`. -/
def parseExtendedOption (annos : GoMap String) (anno : String) : P (GoMap String) := do
  let tok ← nextToken
  if tok.type = .equals then do
    let val ← expectString
    pure (mset annos anno val)
  else do
    ungetToken
    pure (mset annos anno "")

/-- parser.go:1463-1492: the switch over the option name. -/
def parseOption (lib : PLib) (o : Options) (name : String) : P Options :=
  match name with
  | "min" => do let v ← expectEqualsNumber lib; pure { o with min := some v }
  | "max" => do let v ← expectEqualsNumber lib; pure { o with max := some v }
  | "minsize" => do let v ← expectEqualsInt64; pure { o with minSize := some v }
  | "maxsize" => do let v ← expectEqualsInt64; pure { o with maxSize := some v }
  | "pattern" => do let v ← expectEqualsString; pure { o with pattern := v }
  | "values" => do let v ← expectEqualsStringArray; pure { o with values := v }
  | "required" => pure { o with required := true }
  | "default" => do let v ← parseEqualsLiteral lib; pure { o with default := v }
  | "action" => do let v ← expectEqualsIdentifier; pure { o with action := v }
  | "operation" => do let v ← expectEqualsIdentifier; pure { o with action := v }
  | "resource" => do let v ← expectEqualsIdentifier; pure { o with resource := v }
  | "reference" => do let v ← expectEqualsIdentifier; pure { o with reference := v }
  | "header" => do let v ← expectEqualsString; pure { o with header := v }
  | "name" => do let v ← expectEqualsIdentifier; pure { o with name := v }
  | _ => P.fail "Unrecognized option"

/-- parser.go:1453-1506: the loop body of `ParseOptions`. -/
def optionsStep (lib : PLib) (acceptable : List String) (o : Options) : P (Options ⊕ Options) := do
  match ← getToken with
  | none => syntaxError
  | some tok =>
    if tok.type = .closeParen then pure (.inr o)
    else if tok.type = .symbol then
      if hasPrefix (lowerS tok.text) "x_" then do
        let a ← parseExtendedOption o.annotations tok.text
        pure (.inl { o with annotations := a })
      else if lowerS tok.text ∈ acceptable then do
        let o' ← parseOption lib o (lowerS tok.text)
        pure (.inl o')
      else P.fail "Unrecognized option"
    else if tok.type = .comma then pure (.inl o)
    else syntaxError

/-- parser.go:1445-1512 `ParseOptions` (the type name only occurs in error texts). -/
def parseOptions (lib : PLib) (acceptable : List String) : P Options := do
  match ← getToken with
  | none => pure {}
  | some tok =>
    if tok.type = .openParen then P.loop (optionsStep lib acceptable) {}
    else do
      ungetToken
      pure {}

/-- parser.go:2005-2021: the loop body of `EndOfStatement`. -/
def endStep (comment : String) : P (String ⊕ (String × Bool)) := do
  match ← getToken with
  | none => pure (.inr (comment, true))
  | some tok =>
    if tok.type = .semicolon then pure (.inl comment)
    else if tok.type = .lineComment then pure (.inl (mergeComment comment tok.text))
    else if tok.type = .newline then pure (.inr (comment, true))
    else pure (.inr (comment, false))

/-- parser.go:2005-2021 `EndOfStatement`: the comment, and `false` if an error is
returned as well (several callers drop it). -/
def endOfStatement (comment : String) : P (String × Bool) := P.loop endStep comment

/-- `EndOfStatement` where the caller returns the error. -/
def endOfStatement! (comment : String) : P String := do
  let r ← endOfStatement comment
  if r.2 then pure r.1 else syntaxError

/-- parser.go:2038-2048 `ParseTrailingComment`. -/
def parseTrailingComment (comment : String) : P String := do
  match ← getToken with
  | none => pure comment
  | some tok =>
    if tok.type = .lineComment then pure (mergeComment comment tok.text)
    else do
      ungetToken
      pure comment

end Sadl
