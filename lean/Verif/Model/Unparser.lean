import Verif.Model.Parser
import Verif.Model.Timestamp
/-
The unparser: unparser.go.

The model prints tokens rather than characters: the blanks and the indentation, which the
lexer drops, are left out, every line break is a newline token, and every name, quoted
string, number and comment is the token the lexer makes of it.  (The lexer is not part of
the repository, see Model/Token.)  Where the printed text is not of the expected form, say
because a name is not a symbol, the tokens are those given by the parameter `lex`, about
which nothing is assumed.

Maps are printed in the order of their list, which stands for the order in which the
runtime enumerates them; the keys of JSON objects are printed sorted by Go, which is the
case of a sorted list.
-/
namespace Sadl

/-- Library behaviour used by the unparser: `decText` is `Decimal.String` (decimal.go:44-46),
`jsonText` the text between the quotes of a string in JSON, `jsonOther` the tokens of the
JSON text of values of the kinds the parser does not produce, `lex` the tokens of any
other text, and `wide` the decision of unparser.go:255, 275 and 370 (whether a comment, name,
type and options make a long line), which depends on the number of characters printed. -/
structure PrintLib where
  decText : BigFloat → String
  jsonText : String → String
  jsonOther : Value → List Token
  lex : String → List Token
  wide : String → String → TypeSpec → List Token → Bool

/-- The tokens used below. -/
def tSym (s : String) : Token := ⟨.symbol, s⟩
def tStr (s : String) : Token := ⟨.string, s⟩
def tNum (s : String) : Token := ⟨.number, s⟩
def tNl : Token := ⟨.newline, "\n"⟩
def tPunct (t : TokType) : Token := ⟨t, ""⟩

/-- Is the text a symbol, a letter followed by letters, digits and underscores (model.go:471-484
`IsSymbol`)? -/
def isSymbolText (s : String) : Bool :=
  match s.toList with
  | [] => false
  | c :: r => isSymbolChar c true && r.all (fun c => isSymbolChar c false)

/-- One character in `%q`.  (Unprintable characters outside ASCII, which are escaped as
well, are left alone here.) -/
def quoteCh (c : Char) : List Char :=
  if c = '"' then ['\\', '"']
  else if c = '\\' then ['\\', '\\']
  else if c = '\n' then ['\\', 'n']
  else if c = '\r' then ['\\', 'r']
  else if c = '\t' then ['\\', 't']
  else if c.toNat = 7 then ['\\', 'a']
  else if c.toNat = 8 then ['\\', 'b']
  else if c.toNat = 11 then ['\\', 'v']
  else if c.toNat = 12 then ['\\', 'f']
  else if c.toNat < 32 ∨ c.toNat = 127 then ['\\', 'x', Nat.digitChar (c.toNat / 16), Nat.digitChar (c.toNat % 16)]
  else [c]

/-- `fmt.Sprintf("%q", s)`, the text between the quotes. -/
def goQuote (s : String) : String := String.ofList (s.toList.flatMap quoteCh)

/-- The text of a number, `%d`. -/
def intText (n : Nat) : String := String.ofList (showNat n)

section
variable (pl : PrintLib)

/-- A name, printed by `%s`. -/
def bareToks (s : String) : List Token := if isSymbolText s then [tSym s] else pl.lex s

/-- A dotted name, printed by `%s`. -/
def dottedToks (s : String) : List Token :=
  let parts := splitAll '.' s.toList
  if parts.all (fun p => isSymbolText (String.ofList p)) then
    (parts.map (fun p => tSym (String.ofList p))).intersperse (tPunct .dot)
  else pl.lex s

/-- A string, printed by `%q`. -/
def quotedTok (s : String) : Token := tStr (goQuote s)

/-- A string, printed by `"%s"`. -/
def rawQuotedToks (s : String) : List Token :=
  if s.toList.all (fun c => c ≠ '"' && c ≠ '\\' && c ≠ '\n') then [tStr s] else pl.lex ("\"" ++ s ++ "\"")

/-- An integer, printed by `%d`. -/
def intToks : Int → List Token
  | .ofNat n => [tNum (intText n)]
  | .negSucc n => pl.lex ("-" ++ intText (n + 1))

/-- A decimal, printed by `Decimal.String`. -/
def decToks : BigFloat → List Token
  | .fin m e => [tNum (pl.decText (.fin m e))]
  | .inf neg => pl.lex (pl.decText (.inf neg))

/-- The tokens of a line of text that is blank or a comment. -/
def lineToks (line : List Char) : List Token :=
  match line.dropWhile (· == ' ') with
  | [] => [tNl]
  | '/' :: '/' :: r => [⟨.lineComment, String.ofList r⟩, tNl]
  | l => pl.lex (String.ofList l) ++ [tNl]

/-- The tokens of lines of text, each ended by a line break. -/
def textToks (text : List Char) : List Token := (splitAll '\n' text).dropLast.flatMap (lineToks pl)

/-- generator.go:117-119 `FormatComment` with 100 columns. -/
def commentToks (indent : String) (comment : String) (extraPad : Bool) : List Token :=
  textToks pl (formatComment indent.toList "// ".toList comment.toList 100 extraPad)

/-- unparser.go:35-40: the function `blockComment` of the template. -/
def blockCommentToks (comment : String) : List Token :=
  if comment = "" then [] else commentToks pl "" comment true

/-- unparser.go:95-98 and the like: the end of a line, with a trailing comment. -/
def endLineToks (comment : String) : List Token :=
  if comment = "" then [tNl] else textToks pl (" // ".toList ++ comment.toList ++ ['\n'])

/-- `" (" + strings.Join(opts, ", ") + ")"`, or nothing without options. -/
def optToks (opts : List (List Token)) : List Token :=
  if opts = [] then [] else tPunct .openParen :: (opts.intersperse [tPunct .comma]).flatten ++ [tPunct .closeParen]

/-- unparser.go:204-206 and the like: the options `key="value"`. -/
def annoOpts (annos : GoMap String) : List (List Token) :=
  annos.map (fun kv => bareToks pl kv.1 ++ [tPunct .equals, quotedTok kv.2])

/-- misc.go:178-189 `AnnotationsAsString`. -/
def annotationsToks (annos : GoMap String) : List Token := optToks (annoOpts pl annos)

/-- unparser.go:107-112 and the like: the options `minsize` and `maxsize`. -/
def sizeOpts (minSize maxSize : Option Int) : List (List Token) :=
  (match minSize with | some n => [tSym "minsize" :: tPunct .equals :: intToks pl n] | none => []) ++
  (match maxSize with | some n => [tSym "maxsize" :: tPunct .equals :: intToks pl n] | none => [])

/-- unparser.go:122-127: the options `min` and `max`. -/
def boundOpts (min max : Option BigFloat) : List (List Token) :=
  (match min with | some d => [tSym "min" :: tPunct .equals :: decToks pl d] | none => []) ++
  (match max with | some d => [tSym "max" :: tPunct .equals :: decToks pl d] | none => [])

/-- unparser.go:379-394 `stringList`. -/
def stringListToks (lst : List String) : List Token :=
  let delim := if 5 < lst.length then [tNl] else []
  tPunct .openBracket :: delim ++
    ((lst.map (fun s => [quotedTok s])).intersperse (tPunct .comma :: delim)).flatten ++ delim ++ [tPunct .closeBracket]

/-- unparser.go:104-106, 113-115: the options `pattern` and `values`. -/
def patternOpts (pattern : String) : List (List Token) :=
  if pattern = "" then [] else [[tSym "pattern", tPunct .equals, quotedTok pattern]]
def valuesOpts (values : Option (List String)) : List (List Token) :=
  match values with
  | some vs => [tSym "values" :: tPunct .equals :: stringListToks vs]
  | none => []

/-- unparser.go:94-101: the elements of an enumeration. -/
def elementToks (el : EnumElementDef) : List Token :=
  bareToks pl el.symbol ++ annotationsToks pl el.annotations ++ endLineToks pl el.comment

/-- unparser.go:161-167: is there a long comment among the fields? -/
def longComment (fields : List StructFieldDef) : Bool := fields.any (fun f => 60 < byteLen f.comment.toList)

mutual
/-- unparser.go:89-227 `sadlTypeSpec`.  The two block comments of variants and fields are
printed with their indentation, which the lexer drops. -/
def specToks : TypeSpec → List (List Token) → List Token
  | ⟨type, pattern, values, minSize, maxSize, fields, elements, min, max, items, keys, variants, _, _, _⟩, opts =>
    match type with
    | "Enum" => tSym "Enum" :: tPunct .openBrace :: tNl :: elements.flatMap (elementToks pl) ++ [tPunct .closeBrace]
    | "String" => tSym "String" :: optToks (opts ++ patternOpts pattern ++ sizeOpts pl minSize maxSize ++ valuesOpts values)
    | "Int8" => tSym "Int8" :: optToks (opts ++ boundOpts pl min max)
    | "Int16" => tSym "Int16" :: optToks (opts ++ boundOpts pl min max)
    | "Int32" => tSym "Int32" :: optToks (opts ++ boundOpts pl min max)
    | "Int64" => tSym "Int64" :: optToks (opts ++ boundOpts pl min max)
    | "Float32" => tSym "Float32" :: optToks (opts ++ boundOpts pl min max)
    | "Float64" => tSym "Float64" :: optToks (opts ++ boundOpts pl min max)
    | "Decimal" => tSym "Decimal" :: optToks (opts ++ boundOpts pl min max)
    | "Array" =>
      tSym "List" :: tPunct .openAngle :: bareToks pl items ++ tPunct .closeAngle ::
        optToks (opts ++ sizeOpts pl minSize maxSize)
    | "Map" =>
      tSym "Map" :: tPunct .openAngle :: bareToks pl keys ++ tPunct .comma :: bareToks pl items ++ tPunct .closeAngle ::
        optToks (opts ++ sizeOpts pl minSize maxSize)
    | "Struct" =>
      if fields.isEmpty then [tSym "Struct", tNl]
      else tSym "Struct" :: tPunct .openBrace :: tNl :: fieldsToks (longComment fields) fields ++ [tPunct .closeBrace]
    | "Union" => tSym "Union" :: tPunct .openBrace :: tNl :: variantsToks variants ++ [tPunct .closeBrace]
    | _ => bareToks pl type ++ optToks opts
/-- unparser.go:168-186: the fields of a structure. -/
def fieldsToks (long : Bool) : List StructFieldDef → List Token
  | [] => []
  | f :: r => fieldToks long f ++ fieldsToks long r
/-- unparser.go:168-186: one field.  Note that the default value is not printed. -/
def fieldToks (long : Bool) : StructFieldDef → List Token
  | ⟨name, comment, annotations, required, _, ts⟩ =>
    (if long then tNl :: (if comment = "" then [] else commentToks pl "    " comment false) else []) ++
    bareToks pl name ++ specToks ts ((if required then [[tSym "required"]] else []) ++ annoOpts pl annotations) ++
    endLineToks pl (if long then "" else comment)
/-- unparser.go:193-208: the variants of a union. -/
def variantsToks : List UnionVariantDef → List Token
  | [] => []
  | v :: r => variantToks v ++ variantsToks r
/-- unparser.go:193-208: one variant. -/
def variantToks : UnionVariantDef → List Token
  | ⟨name, comment, annotations, ts⟩ =>
    (if 100 < byteLen comment.toList then commentToks pl "    " comment false else []) ++
    bareToks pl name ++ specToks ts (annoOpts pl annotations) ++
    endLineToks pl (if 100 < byteLen comment.toList then "" else comment)
end

/-- unparser.go:58-60: the function `typedef` of the template.  Note that the annotations of
the type are not printed. -/
def typedefToks (td : TypeDef) : List Token :=
  tSym "type" :: bareToks pl td.name ++ specToks pl td.ts [] ++ [tNl]

/-- unparser.go:261-263: the options of an operation input. -/
def inputOptToks (f : StructFieldDef) : List Token := optToks (if f.required then [[tSym "required"]] else [])

/-- unparser.go:229-239, 246-247, 261-263: what is left in the variable `opt` when the outputs
are printed: the options of the last input, or of the operation itself. -/
def leftoverToks (op : OperationDef) : List Token :=
  match op.inputs.getLast? with
  | some f => inputOptToks f
  | none => annotationsToks pl op.annotations

/-- unparser.go:245-265: one input. -/
def inputToks (f : StructFieldDef) : List Token :=
  let long := pl.wide f.comment f.name f.ts [] && f.comment ≠ ""
  (if long then commentToks pl "   " f.comment false else []) ++
  bareToks pl f.name ++ bareToks pl f.ts.type ++ inputOptToks f ++ endLineToks pl (if long then "" else f.comment)

/-- unparser.go:270-282: one output. -/
def outputToks (left : List Token) (o : OperationOutput) : List Token :=
  let long := pl.wide o.comment o.name o.ts left && o.comment ≠ ""
  (if long then commentToks pl "   " o.comment false else []) ++
  bareToks pl o.name ++ bareToks pl o.ts.type ++ left ++ endLineToks pl (if long then "" else o.comment)

/-- unparser.go:243-267 and the like: a block, printed only if it has a line. -/
def blockToks (word : String) (lines : List (List Token)) : List Token :=
  if lines = [] then [] else tSym word :: tPunct .openBrace :: tNl :: lines.flatten ++ [tPunct .closeBrace, tNl]

/-- unparser.go:229-294 `sadlOperationSpec`. -/
def operationToks (op : OperationDef) : List Token :=
  tSym "operation" :: bareToks pl op.name ++ annotationsToks pl op.annotations ++ tPunct .openBrace :: tNl ::
    blockToks "inputs" (op.inputs.map (inputToks pl)) ++
    blockToks "outputs" (op.outputs.map (outputToks pl (leftoverToks pl op))) ++
    blockToks "exceptions" (op.exceptions.map (fun e => bareToks pl e ++ [tNl])) ++
    [tPunct .closeBrace, tNl]

mutual
/-- misc.go:94-103 `Pretty` without the final line break (`pretty`), and struct_helpers.go:10-20
`ToString`. -/
def jsonToks (pretty : Bool) : Value → List Token
  | .null => [tSym "null"]
  | .bool true | .boolPtr true => [tSym "true"]
  | .bool false | .boolPtr false => [tSym "false"]
  | .str s | .strPtr s | .uuid s => [tStr (pl.jsonText s)]
  | .dec d => decToks pl d
  | .int n | .int64 n => intToks pl n
  | .arr [] => [tPunct .openBracket, tPunct .closeBracket]
  | .arr (x :: r) => tPunct .openBracket :: (if pretty then [tNl] else []) ++ jsonToks pretty x ++ jsonItems pretty r
  | .obj [] => [tPunct .openBrace, tPunct .closeBrace]
  | .obj ((k, x) :: r) =>
    tPunct .openBrace :: (if pretty then [tNl] else []) ++ tStr (pl.jsonText k) :: tPunct .colon ::
      jsonToks pretty x ++ jsonMembers pretty r
  | v => pl.jsonOther v
def jsonItems (pretty : Bool) : List Value → List Token
  | [] => (if pretty then [tNl] else []) ++ [tPunct .closeBracket]
  | x :: r => tPunct .comma :: (if pretty then [tNl] else []) ++ jsonToks pretty x ++ jsonItems pretty r
def jsonMembers (pretty : Bool) : List (String × Value) → List Token
  | [] => (if pretty then [tNl] else []) ++ [tPunct .closeBrace]
  | (k, x) :: r =>
    tPunct .comma :: (if pretty then [tNl] else []) ++ tStr (pl.jsonText k) :: tPunct .colon ::
      jsonToks pretty x ++ jsonMembers pretty r
end

/-- unparser.go:356-358: the option `default`. -/
def defaultOpts (v : Value) : List (List Token) :=
  match v with
  | .null => []
  | v => [tSym "default" :: tPunct .equals :: jsonToks pl false v]

/-- unparser.go:352-361: the options of a parameter. -/
def paramOpts (p : HttpParamSpec) : List (List Token) :=
  (if p.field.required then [[tSym "required"]] else []) ++ defaultOpts pl p.field.default ++
  (if p.header = "" then [] else [[tSym "header", tPunct .equals, quotedTok p.header]])

/-- unparser.go:351-377 `sadlParamSpec`. -/
def paramToks (p : HttpParamSpec) : List Token :=
  let long := pl.wide p.field.comment p.field.name p.field.ts (optToks (paramOpts pl p)) && p.field.comment ≠ ""
  (if long then commentToks pl "   " p.field.comment false else []) ++
  bareToks pl p.field.name ++ specToks pl p.field.ts [] ++ optToks (paramOpts pl p) ++
  endLineToks pl (if long then "" else p.field.comment)

/-- unparser.go:324-326, 335-338: a comment before `expect` or `except`. -/
def innerCommentToks (comment : String) : List Token :=
  if comment = "" then [] else commentToks pl "    " comment false

/-- unparser.go:334-345: one exception.  Its annotations are not printed. -/
def exceptToks (exc : HttpExceptionSpec) : List Token :=
  innerCommentToks pl exc.comment ++ tSym "except" ::
    (if exc.status = 0 then [] else intToks pl exc.status) ++ bareToks pl exc.type ++ [tNl]

/-- unparser.go:298-307: the options of an action.  The resource is not printed. -/
def httpOpts (h : HttpDef) : List (List Token) :=
  (if h.name ≠ "" ∧ h.name ≠ actionName h then [tSym "operation" :: tPunct .equals :: bareToks pl h.name] else []) ++
  annoOpts pl h.annotations

/-- unparser.go:319-323: a missing `expect` is made up, and stored in the model. -/
def expectedOf (h : HttpDef) : HttpExpectedSpec := h.expected.getD { status := 200 }

/-- unparser.go:296-349 `sadlHttpSpec`. -/
def httpToks (h : HttpDef) : List Token :=
  tSym "http" :: bareToks pl h.method ++ quotedTok h.path :: optToks (httpOpts pl h) ++ tPunct .openBrace :: tNl ::
    h.inputs.flatMap (paramToks pl) ++
    tNl :: innerCommentToks pl (expectedOf h).comment ++ tSym "expect" :: intToks pl (expectedOf h).status ++
    tPunct .openBrace :: tNl :: (expectedOf h).outputs.flatMap (paramToks pl) ++ [tPunct .closeBrace, tNl] ++
    (if h.exceptions.isEmpty then [] else tNl :: h.exceptions.flatMap (exceptToks pl)) ++
    [tPunct .closeBrace, tNl]

/-- unparser.go:67-69: the function `example` of the template. -/
def exampleToks (ed : ExampleDef) : List Token :=
  tSym "example" :: dottedToks pl ed.target ++ tPunct .openParen :: tSym "name" :: tPunct .equals ::
    bareToks pl ed.name ++ tPunct .closeParen :: jsonToks pl true ed.example ++ [tNl, tNl]

/-- unparser.go:44-57: the function `annotations` of the template. -/
def headerAnnoToks (annos : GoMap String) : List Token :=
  if annos = [] then []
  else tNl :: annos.flatMap (fun kv => bareToks pl kv.1 ++ (if kv.2 = "" then [] else [quotedTok kv.2]) ++ [tNl])

/-- unparser.go:396-400: the part of the template before the types. -/
def headerToks (s : Schema) : List Token :=
  blockCommentToks pl s.comment ++
  (if s.namespace = "" then [] else tSym "namespace" :: dottedToks pl s.namespace ++ [tNl]) ++
  (if s.name = "" then [] else tSym "name" :: bareToks pl s.name ++ [tNl]) ++
  (if s.base = "" then [] else [tSym "base", quotedTok s.base, tNl]) ++
  (if s.version = "" then [] else tSym "version" :: rawQuotedToks pl s.version ++ [tNl]) ++
  headerAnnoToks pl s.annotations

/-- unparser.go:24-31, 33-74, 396-404 `DecompileSadl`: the tokens of the source. -/
def decompile (s : Schema) : List Token :=
  headerToks pl s ++
  s.types.flatMap (fun td => tNl :: blockCommentToks pl td.comment ++ typedefToks pl td) ++
  s.operations.flatMap (fun op => tNl :: blockCommentToks pl op.comment ++ operationToks pl op) ++
  s.http.flatMap (fun h => tNl :: blockCommentToks pl h.comment ++ httpToks pl h) ++
  s.examples.flatMap (fun ed => tNl :: blockCommentToks pl ed.comment ++ exampleToks pl ed)
end

end Sadl
