import Verif.Model.Http
/-
The parser proper: parser.go:146-1228, 1413-1424, 1515-1577, 1669-1801, 1920-2003.
Extensions (parser.go:73-78) are not modelled: the parser runs without any.
-/
namespace Sadl

/-- parser.go:1920-1931 `arrayParams`. -/
def arrayParams (params : List String) : P String :=
  match params with
  | [] => pure "Any"
  | [x] => pure x
  | _ => syntaxError

/-- parser.go:1972-1986 `mapParams`: keys and items. -/
def mapParams (params : List String) : P (String × String) :=
  match params with
  | [] => pure ("String", "Any")
  | [k, v] => pure (k, v)
  | _ => syntaxError

/-- parser.go:1988-2003 `unitValueParams`: value and unit. -/
def unitValueParams (params : List String) : P (String × String) :=
  match params with
  | [] => pure ("Decimal", "String")
  | [k, v] => pure (k, v)
  | _ => syntaxError

/-- The results of `ParseTypeSpecElements`.  A nil slice and an empty one are the same
here: the slices are only ever built by `append`. -/
structure Elems where
  type : String
  params : List String := []
  fields : List StructFieldDef := []
  elements : List EnumElementDef := []
  options : Options := {}
  comment : String := ""

/-- parser.go:1013-1031: the loop over the type parameters.  `expected = none` stands
for -1. -/
def paramsStep (expected : Option Nat) (params : List String) : P (List String ⊕ List String) := do
  let tok ← nextToken
  if tok.type ≠ .comma then
    if tok.type = .closeAngle then
      match expected with
      | some n => if n ≠ params.length then syntaxError else pure (.inr params)
      | none => pure (.inr params)
    else if tok.type ≠ .symbol then syntaxError
    else pure (.inl (params ++ [tok.text]))
  else pure (.inl params)

/-- parser.go:1001-1012: the canonical name and the number of parameters of a generic
type; `none` for the other types. -/
def genericArity (typeName : String) : Option (String × Option Nat) :=
  match typeName with
  | "Array" => some ("Array", some 1)
  | "List" => some ("Array", some 1)
  | "Map" => some ("Map", some 2)
  | "UnitValue" => some ("UnitValue", some 2)
  | "Union" => some ("Union", none)
  | _ => none

/-- parser.go:1672-1691: the loop of `parseEnumElementDef` up to the symbol; `none` at the
closing brace. -/
def enumSkipStep (comment : String) : P (String ⊕ Option (String × String)) := do
  let tok ← nextToken
  if tok.type = .closeBrace then pure (.inr none)
  else if tok.type = .lineComment then pure (.inl (mergeComment comment tok.text))
  else if tok.type = .semicolon ∨ tok.type = .newline ∨ tok.type = .comma then pure (.inl comment)
  else if tok.type = .symbol then pure (.inr (some (tok.text, comment)))
  else P.fail "Expected symbol"

/-- parser.go:1669-1702 `parseEnumElementDef`. -/
def parseEnumElementDef (lib : PLib) : P (Option EnumElementDef) := do
  match ← P.loop enumSkipStep "" with
  | none => pure none
  | some (sym, comment) => do
    let options ← parseOptions lib []
    let comment ← parseTrailingComment comment
    pure (some { symbol := sym, comment := comment, annotations := options.annotations })

/-- parser.go:1718-1741: the loop of `parseStructFieldDef` up to the field; `none` at the
closing brace.  A comment line replaces the previous one. -/
def fieldSkipStep (comment : String) : P (String ⊕ Option String) := do
  let tok ← nextToken
  if tok.type = .closeBrace then pure (.inr none)
  else if tok.type = .lineComment then pure (.inl (mergeComment "" tok.text))
  else if tok.type = .newline then pure (.inl comment)
  else do
    ungetToken
    pure (.inr (some comment))

/-- parser.go:1774-1787: the options acceptable for a struct field. -/
def fieldOptions (type : String) : List String :=
  (match type with
   | "String" => ["pattern", "values", "minsize", "maxsize", "reference"]
   | "UUID" => ["reference"]
   | "Int8" | "Int16" | "Int32" | "Int64" | "Float32" | "Float64" | "Decimal" => ["min", "max"]
   | "Bytes" | "Array" | "Map" => ["minsize", "maxsize"]
   | _ => []) ++ ["required", "default"]

/-- parser.go:1788-1799: the options stored in the field. -/
def applyFieldOptions (f : StructFieldDef) (o : Options) : StructFieldDef :=
  { f with
    required := o.required, default := o.default, annotations := o.annotations
    ts := { f.ts with pattern := o.pattern, values := o.values, minSize := o.minSize,
                      maxSize := o.maxSize, min := o.min, max := o.max, reference := o.reference } }

/-- parser.go:957-987: the second half of `ParseTypeSpec`. -/
def specOfElems (e : Elems) : P TypeSpec := do
  match e.type with
  | "Array" => do
    let items ← arrayParams e.params
    pure { type := e.type, items := items, fields := e.fields, elements := e.elements }
  | "List" => do
    let items ← arrayParams e.params
    pure { type := e.type, items := items, fields := e.fields, elements := e.elements }
  | "Map" => do
    let ki ← mapParams e.params
    pure { type := e.type, keys := ki.1, items := ki.2, fields := e.fields, elements := e.elements }
  | "UnitValue" => do
    let vu ← unitValueParams e.params
    pure { type := e.type, value := vu.1, unit := vu.2, fields := e.fields, elements := e.elements }
  | _ =>
    if e.params ≠ [] then syntaxError
    else pure { type := e.type, fields := e.fields, elements := e.elements }

section
variable (lib : PLib) (recur : P Elems)

/-- parser.go:953-987 `ParseTypeSpec`. -/
def parseTypeSpecWith (comment : String) : P (TypeSpec × Options × String) := do
  let e ← recur
  let ts ← specOfElems e
  pure (ts, e.options, mergeComment comment e.comment)

/-- parser.go:1757-1766: `field.Annotations[k] = v` for the annotations found by
`ParseTypeSpec`. -/
def addAnnotations (annos : GoMap String) (more : GoMap String) : GoMap String :=
  more.foldl (fun a kv => mset a kv.1 kv.2) annos

/-- parser.go:1716-1771 `parseStructFieldDef`; `none` at the closing brace. -/
def parseStructFieldDef : P (Option StructFieldDef) := do
  match ← P.loop fieldSkipStep "" with
  | none => pure none
  | some comment => do
    let fname ← expectIdentifier
    let (ts, foptions, fcomment) ← parseTypeSpecWith recur comment
    let comment := mergeComment comment fcomment
    let options ← parseOptions lib (fieldOptions ts.type)
    let field := applyFieldOptions { name := fname, comment := comment, ts := ts } options
    let field := { field with annotations := addAnnotations field.annotations foptions.annotations }
    let r ← endOfStatement field.comment
    pure (some { field with comment := r.1 })

/-- parser.go:1053-1062: the loop over the fields. -/
def fieldsStep (fields : List StructFieldDef) :
    P (List StructFieldDef ⊕ List StructFieldDef) := do
  match ← parseStructFieldDef lib recur with
  | none => pure (.inr fields)
  | some f => pure (.inl (fields ++ [f]))

/-- parser.go:1075-1084: the loop over the elements. -/
def elementsStep (elements : List EnumElementDef) :
    P (List EnumElementDef ⊕ List EnumElementDef) := do
  match ← parseEnumElementDef lib with
  | none => pure (.inr elements)
  | some f => pure (.inl (elements ++ [f]))

/-- parser.go:1046-1052, 1068-1074: an optional newline. -/
def optNewline : P Unit := do
  match ← getToken with
  | none => syntaxError
  | some tok => if tok.type ≠ .newline then ungetToken else pure ()

/-- parser.go:1043-1091: the part of `ParseTypeSpecElements` after an opening brace. -/
def parseBraces (typeName : String) (options : Options) : P Elems := do
  let comment ← parseTrailingComment ""
  if typeName = "Struct" ∨ typeName = "Union" then do
    optNewline
    let fields ← P.loop (fieldsStep lib recur) []
    let r ← endOfStatement comment
    ungetToken
    pure { type := typeName, fields := fields, options := options, comment := r.1 }
  else do
    optNewline
    let elements ← P.loop (elementsStep lib) []
    let r ← endOfStatement comment
    ungetToken
    pure { type := typeName, elements := elements, options := options, comment := r.1 }

/-- parser.go:989-1096: one level of `ParseTypeSpecElements`. -/
def typeSpecElementsStep : P Elems := do
  let typeName ← expectIdentifier
  match ← getToken with
  | none => pure { type := typeName }
  | some tok =>
    if tok.type = .openAngle then
      match genericArity typeName with
      | none => syntaxError
      | some (name, expected) => do
        let params ← P.loop (paramsStep expected) []
        pure { type := name, params := params }
    else if typeName = "Struct" ∨ typeName = "Enum" ∨ typeName = "Union" then
      if tok.type ≠ .openBrace then do
        ungetToken
        let options ← parseOptions lib []
        let tok ← nextToken
        if tok.type = .openBrace then parseBraces lib recur typeName options
        else do
          ungetToken
          pure { type := typeName, options := options }
      else parseBraces lib recur typeName {}
    else do
      ungetToken
      pure { type := typeName }
end

/-- parser.go:989-1096 `ParseTypeSpecElements` with at most `n` nested types. -/
def typeSpecElementsN (lib : PLib) : Nat → P Elems
  | 0 => P.hang
  | n + 1 => typeSpecElementsStep lib (typeSpecElementsN lib n)

/-- parser.go:989-1096 `ParseTypeSpecElements`. -/
def parseTypeSpecElements (lib : PLib) : P Elems := P.recursion (typeSpecElementsN lib)

/-- parser.go:953-987 `ParseTypeSpec`. -/
def parseTypeSpec (lib : PLib) (comment : String) : P (TypeSpec × Options × String) :=
  parseTypeSpecWith (parseTypeSpecElements lib) comment

/-- parser.go:1413-1426 `parseTypeOptions`. -/
def parseTypeOptions (lib : PLib) (td : TypeDef) (acceptable : List String) : P TypeDef := do
  let o ← parseOptions lib acceptable
  pure { td with
    annotations := o.annotations
    ts := { td.ts with pattern := o.pattern, values := o.values, minSize := o.minSize,
                       maxSize := o.maxSize, min := o.min, max := o.max, reference := o.reference } }

/-- parser.go:1098-1140 and the like: options, then the end of the statement. -/
def parseSimpleDef (lib : PLib) (td : TypeDef) (acceptable : List String) : P TypeDef := do
  let td ← parseTypeOptions lib td acceptable
  let c ← endOfStatement! td.comment
  pure { td with comment := c }

/-- model.go:10 `RegExUUID` -/
def regExUUID : String := "([a-f0-9]{8}(-[a-f0-9]{4}){4}[a-f0-9]{8})"

/-- parser.go:1130-1140 `parseStringDef`. -/
def parseStringDef (lib : PLib) (td : TypeDef) : P TypeDef := do
  let td ← parseSimpleDef lib td ["minsize", "maxsize", "pattern", "values", "reference"]
  pure (if td.ts.pattern = regExUUID then { td with ts := { td.ts with type := "UUID", pattern := "" } }
        else td)

/-- parser.go:1158-1167 `parseUnitValueDef`. -/
def parseUnitValueDef (lib : PLib) (td : TypeDef) (params : List String) : P TypeDef := do
  let td ← parseTypeOptions lib td []
  let vu ← unitValueParams params
  let td := { td with ts := { td.ts with value := vu.1, unit := vu.2 } }
  let c ← endOfStatement! td.comment
  pure { td with comment := c }

/-- parser.go:1169-1179 `parseArrayDef`. -/
def parseArrayDef (lib : PLib) (td : TypeDef) (params : List String) : P TypeDef := do
  let items ← arrayParams params
  parseSimpleDef lib { td with ts := { td.ts with items := items } } ["minsize", "maxsize"]

/-- parser.go:1181-1191 `parseMapDef`. -/
def parseMapDef (lib : PLib) (td : TypeDef) (params : List String) : P TypeDef := do
  let ki ← mapParams params
  parseSimpleDef lib { td with ts := { td.ts with keys := ki.1, items := ki.2 } } ["minsize", "maxsize"]

/-- parser.go:1193-1199 `parseStructDef`, and parser.go:938 in the caller. -/
def parseStructDef (lib : PLib) (td : TypeDef) (e : Elems) : P TypeDef := do
  let td ← parseTypeOptions lib td []
  pure { td with annotations := e.options.annotations, ts := { td.ts with fields := e.fields } }

/-- parser.go:1209-1224: the variants of a union, from type parameters or from fields. -/
def unionVariants (params : List String) (fields : List StructFieldDef) : List UnionVariantDef :=
  if params ≠ [] then params.map (fun v => { name := v, ts := { type := v } })
  else fields.map (fun f => { name := f.name, ts := { type := f.ts.type } })

/-- parser.go:1206-1229 `parseUnionDef`. -/
def parseUnionDef (lib : PLib) (td : TypeDef) (e : Elems) : P TypeDef := do
  let td ← parseTypeOptions lib td []
  if e.params = [] ∧ e.fields = [] then syntaxError
  else do
    let td := { td with ts := { td.ts with variants := unionVariants e.params e.fields } }
    let c ← endOfStatement! td.comment
    pure { td with comment := c }

/-- parser.go:897-951 `parseTypeDirective`: the new type definition. -/
def parseTypeDirective (lib : PLib) (comment : String) : P TypeDef := do
  let typeName ← expectIdentifier
  let e ← parseTypeSpecElements lib
  let comment := mergeComment comment e.comment
  let td : TypeDef := { name := typeName, comment := comment, ts := { type := e.type } }
  match e.type with
  | "Any" | "Bool" | "Timestamp" => parseSimpleDef lib td []
  | "Int8" | "Int16" | "Int32" | "Int64" | "Float32" | "Float64" | "Decimal" =>
    parseSimpleDef lib td ["min", "max"]
  | "Bytes" => parseSimpleDef lib td ["minsize", "maxsize"]
  | "String" => parseStringDef lib td
  | "UUID" => parseSimpleDef lib td ["reference"]
  | "UnitValue" => parseUnitValueDef lib td e.params
  | "Array" | "List" => parseArrayDef lib td e.params
  | "Map" => parseMapDef lib td e.params
  | "Struct" => parseStructDef lib td e
  | "Enum" => pure { td with annotations := e.options.annotations, ts := { td.ts with elements := e.elements } }
  | "Union" => parseUnionDef lib td e
  | _ => P.fail "Super type must be a base type"

/-- parser.go:873-895 `parseExampleDirective`: the new example. -/
def parseExampleDirective (lib : PLib) (comment : String) : P ExampleDef := do
  let target ← expectCompoundIdentifier
  let options ← parseOptions lib ["name"]
  let val ← parseLiteralValue lib
  pure { target := target, «example» := val, comment := comment, name := options.name }

/-- parser.go:247-271: the loop of `parseNamespaceDirective` after the first part. -/
def namespaceStep (ns : String) : P (String ⊕ String) := do
  match ← getToken with
  | none => pure (.inr ns)
  | some tok =>
    if tok.type ≠ .dot then do
      ungetToken
      pure (.inr ns)
    else do
      let txt ← expectText
      pure (.inl (ns ++ "." ++ txt))

/-- parser.go:246-272 `parseNamespaceDirective`. -/
def parseNamespaceDirective : P String := do
  let txt ← expectText
  P.loop namespaceStep txt

/-- parser.go:283-296 `parseVersionDirective`. -/
def parseVersionDirective : P String := do
  let tok ← nextToken
  if tok.type = .number ∨ tok.type = .symbol ∨ tok.type = .string then pure tok.text
  else P.fail "Bad version value"

/-- parser.go:298-308 `parseBaseDirective`. -/
def parseBaseDirective : P String := do
  let base ← expectString
  if base ≠ "" ∧ hasPrefix base "/" = false then P.fail "Bad base path value"
  else pure base

/-- parser.go:440-453: the loop over the options of an operation input; tokens other than
symbols and the closing parenthesis are skipped. -/
def inputOptionStep (required : Bool) : P (Bool ⊕ Bool) := do
  let tok ← mustToken
  if tok.type = .closeParen then pure (.inr required)
  else if tok.type = .symbol then
    if tok.text = "required" then pure (.inl true) else syntaxError
  else pure (.inl required)

/-- parser.go:416-458: the loop body of `parseOperationInputs`.  The flag says that the
previous token was a newline: then the end of the source is an error (parser.go:422),
otherwise the function returns (nil, nil). -/
def inputsStep (st : List StructFieldDef × Bool) :
    P ((List StructFieldDef × Bool) ⊕ List StructFieldDef) := do
  match ← getToken with
  | none => if st.2 then eofError else pure (.inr [])
  | some tok =>
    if tok.type = .closeBrace then pure (.inr st.1)
    else if tok.type = .newline then pure (.inl (st.1, true))
    else if tok.type ≠ .symbol then syntaxError
    else do
      let t ← mustToken
      if t.type ≠ .symbol then syntaxError
      else do
        let p ← mustToken
        let required ← (if p.type ≠ .openParen then do
            ungetToken
            pure false
          else P.loop inputOptionStep false)
        pure (.inl (st.1 ++ [{ name := tok.text, required := required, ts := { type := t.text } }], false))

/-- parser.go:410-460 `parseOperationInputs`. -/
def parseOperationInputs : P (List StructFieldDef) := do
  let tok ← mustToken
  if tok.type ≠ .openBrace then syntaxError
  else P.loop inputsStep ([], false)

/-- parser.go:468-495: the loop body of `parseOperationOutputs`. -/
def outputsStep (st : List OperationOutput × Bool) :
    P ((List OperationOutput × Bool) ⊕ List OperationOutput) := do
  match ← getToken with
  | none => if st.2 then eofError else pure (.inr [])
  | some tok =>
    if tok.type = .closeBrace then pure (.inr st.1)
    else if tok.type = .newline then pure (.inl (st.1, true))
    else if tok.type ≠ .symbol then syntaxError
    else do
      let t ← mustToken
      if t.type ≠ .symbol then syntaxError
      else pure (.inl (st.1 ++ [{ name := tok.text, ts := { type := t.text } }], false))

/-- parser.go:462-497 `parseOperationOutputs`. -/
def parseOperationOutputs : P (List OperationOutput) := do
  let tok ← mustToken
  if tok.type ≠ .openBrace then syntaxError
  else P.loop outputsStep ([], false)

/-- parser.go:505-521: the loop body of `parseOperationExceptions`. -/
def exceptionsStep (st : List String × Bool) : P ((List String × Bool) ⊕ List String) := do
  match ← getToken with
  | none => if st.2 then eofError else pure (.inr [])
  | some tok =>
    if tok.type = .closeBrace then pure (.inr st.1)
    else if tok.type = .newline then pure (.inl (st.1, true))
    else if tok.type ≠ .symbol then syntaxError
    else pure (.inl (st.1 ++ [tok.text], false))

/-- parser.go:499-524 `parseOperationExceptions`. -/
def parseOperationExceptions : P (List String) := do
  let tok ← mustToken
  if tok.type ≠ .openBrace then syntaxError
  else P.loop exceptionsStep ([], false)

/-- parser.go:374-396: the loop body of `parseOperationDirective`. -/
def operationStep (op : OperationDef) : P (OperationDef ⊕ OperationDef) := do
  let tok ← nextToken
  if tok.type = .closeBrace then pure (.inr op)
  else if tok.type = .symbol then
    match tok.text with
    | "inputs" => do let x ← parseOperationInputs; pure (.inl { op with inputs := x })
    | "outputs" => do let x ← parseOperationOutputs; pure (.inl { op with outputs := x })
    | "exceptions" => do let x ← parseOperationExceptions; pure (.inl { op with exceptions := x })
    | _ => P.fail "Expected 'inputs', 'outputs', or 'exceptions'"
  else pure (.inl op)

/-- parser.go:358-408 `parseOperationDirective`.  The error of `ParseOptions` is
overwritten (parser.go:367); the nil options are dereferenced at the end (parser.go:404). -/
def parseOperationDirective (lib : PLib) (comment : String) : P OperationDef := do
  let name ← expectIdentifier
  let options ← P.attempt (parseOptions lib ["http"])
  expect .openBrace
  let op ← P.loop operationStep { name := name, comment := comment }
  match options with
  | none => P.crash "nil options dereferenced"
  | some o => pure { op with annotations := o.annotations }

/-- parser.go:847-871 `IsBlockDone`, one token.  The error returned at the end of the
source is dropped by every caller. -/
def blockStep (comment : String) : P (String ⊕ (Bool × String)) := do
  match ← getToken with
  | none => pure (.inr (false, comment))
  | some tok =>
    if tok.type = .closeBrace then pure (.inr (true, comment))
    else if tok.type = .lineComment then pure (.inl (mergeComment comment tok.text))
    else if tok.type = .newline then pure (.inl comment)
    else do
      ungetToken
      pure (.inr (false, comment))

/-- parser.go:847-871 `IsBlockDone`. -/
def isBlockDone (comment : String) : P (Bool × String) := P.loop blockStep comment

/-- parser.go:700-717: the parameter with its source recorded.  Note that the `required`
option is accepted (parser.go:690) but not stored. -/
def mkParam (path ename comment : String) (ts : TypeSpec) (o : Options) : HttpParamSpec :=
  let f : StructFieldDef :=
    { name := ename, annotations := o.annotations, comment := comment, ts := ts, default := o.default }
  match parameterSource path ename o.header with
  | .path => { field := f, path := true }
  | .query q => { field := f, query := q }
  | .header h => { field := f, header := h }
  | .body => { field := f }

/-- parser.go:686-717: the parameter part of `parseHttpSpec`. -/
def parseHttpParam (lib : PLib) (path ename comment : String) : P HttpParamSpec := do
  let (ts, _, comment) ← parseTypeSpec lib comment
  let options ← parseOptions lib ["header", "default", "required"]
  let r ← endOfStatement comment
  pure (mkParam path ename r.1 ts options)

/-- parser.go:749-757: the loop over the outputs of an `expect` block (`parseHttpSpec` with
`top` false).  The comment of `IsBlockDone` is dropped between rounds because the
variable is shadowed (parser.go:750). -/
def expectStep (lib : PLib) (path : String) (e : HttpExpectedSpec) :
    P (HttpExpectedSpec ⊕ HttpExpectedSpec) := do
  let r ← isBlockDone ""
  if r.1 then pure (.inr { e with comment := mergeComment e.comment r.2 })
  else do
    let ename ← expectIdentifier
    if ename = "expect" ∨ ename = "except" then syntaxError
    else do
      let out ← parseHttpParam lib path ename r.2
      pure (.inl { e with outputs := e.outputs ++ [out] })

/-- parser.go:725-774 `parseHttpExpectedSpec`. -/
def parseHttpExpectedSpec (lib : PLib) (op : HttpDef) (comment : String) : P HttpDef := do
  match op.expected with
  | some _ => P.fail "Only a single 'expect' directive is allowed per HTTP action"
  | none => do
    let estatus ← expectInt 32
    let options ← parseOptions lib []
    let e : HttpExpectedSpec := { status := estatus, annotations := options.annotations }
    let tok ← nextToken
    let e ← (if tok.type = .openBrace then do
        let c ← parseTrailingComment comment
        P.loop (expectStep lib op.path) { e with comment := c }
      else if tok.type = .symbol then
        pure { e with outputs := [{ field := { name := "entity", ts := { type := tok.text } } }] }
      else do
        ungetToken
        pure e)
    let c ← endOfStatement! e.comment
    pure { op with expected := some { e with comment := c } }

/-- parser.go:776-821 `parseHttpExceptionSpec`. -/
def parseHttpExceptionSpec (lib : PLib) (op : HttpDef) (comment : String) : P HttpDef := do
  let tok ← nextToken
  ungetToken
  let estatus ← (if tok.type = .number then expectInt 32 else pure 0)
  let etype ← expectIdentifier
  if op.exceptions.any (fun exc => exc.type == etype) then P.fail "Duplicate HTTP action exception type"
  else do
    let options ← parseOptions lib []
    let c ← endOfStatement! comment
    pure { op with exceptions := op.exceptions ++
      [{ type := etype, status := estatus, annotations := options.annotations, comment := c }] }

/-- parser.go:664-723 `parseHttpSpec` with `top` true. -/
def parseHttpSpec (lib : PLib) (op : HttpDef) (comment : String) : P HttpDef := do
  let ename ← expectIdentifier
  if ename = "expect" then parseHttpExpectedSpec lib op comment
  else if ename = "except" then parseHttpExceptionSpec lib op comment
  else do
    let p ← parseHttpParam lib op.path ename comment
    pure { op with inputs := op.inputs ++ [p] }

/-- parser.go:587-598: the loop over the body of an `http` directive. -/
def httpStep (lib : PLib) (op : HttpDef) : P (HttpDef ⊕ HttpDef) := do
  let r ← isBlockDone ""
  if r.1 then pure (.inr op)
  else do
    let op ← parseHttpSpec lib op r.2
    pure (.inl op)

/-- parser.go:556-562: the methods. -/
def httpMethods : List String := ["POST", "GET", "PUT", "DELETE", "PATCH", "HEAD", "OPTIONS"]

/-- parser.go:550-608 `parseHttpDirective` (called with the empty name). -/
def parseHttpDirective (lib : PLib) (comment : String) : P HttpDef := do
  let sym ← expectIdentifier
  let method := upperS sym
  if method ∉ httpMethods then P.fail "HTTP 'method' invalid"
  else do
    let path ← expectString
    let options ← parseOptions lib ["action", "operation", "resource"]
    let op : HttpDef := { method := method, path := path, name := options.action, resource := options.resource, annotations := options.annotations }
    let tok ← nextToken
    if tok.type = .openBrace then do
      let c ← parseTrailingComment comment
      let op ← P.loop (httpStep lib) { op with comment := c }
      let r ← endOfStatement op.comment
      pure (ensureRequiredParams (ensureActionName { op with comment := r.1 }))
    else syntaxError

/-- parser.go:1515-1547 `parseStringToEndOfLine`: value and comment. -/
def parseStringToEndOfLine : P (String × String) := do
  match ← getToken with
  | none => pure ("", "")
  | some tok => do
    let tok ← (if tok.type = .equals then nextToken else pure tok)
    let (val, tok?) ← (if tok.type = .string then do
        let t ← getToken
        pure (tok.text, t)
      else pure ("", some tok))
    match tok? with
    | none => pure (val, "")
    | some tok => do
      let (comment, tok?) ← (if tok.type = .lineComment then do
          let t ← getToken
          pure (tok.text, t)
        else pure ("", some tok))
      match tok? with
      | none => pure (val, comment)
      | some tok => if tok.type ≠ .newline then syntaxError else pure (val, comment)

/-- Result of parsing an included file: `none` while it does not return. -/
abbrev IncRes := Option (Out Model)

/-- parser.go:334-353: merging the included model into the schema. -/
def mergeInclude (fname : String) (sch : Schema) (inc : Model) : Out Schema :=
  match newModel sch with
  | .err e => .err e
  | .panic e => .panic e
  | .ok tmp =>
    if inc.schema.types.any (fun td => (tmp.findType td.name).isSome) then
      .err "Duplicate Type definition in included file"
    else .ok
      { sch with
        types := sch.types ++ inc.schema.types.map (fun td => { td with annotations := mset td.annotations "x_include" fname })
        http := sch.http ++ inc.schema.http.map (fun h => { h with annotations := mset h.annotations "x_include" fname })
        operations := sch.operations ++ inc.schema.operations.map (fun o => { o with annotations := mset o.annotations "x_include" fname }) }

/-- parser.go:326-356 `parseIncludeDirective`; `incl` parses the named file. -/
def parseIncludeDirective (incl : String → IncRes) (sch : Schema) : P Schema := do
  let fname ← expectString
  match incl fname with
  | none => P.hang
  | some (.err e) => P.fail e
  | some (.panic e) => P.crash e
  | some (.ok inc) =>
    match mergeInclude fname sch inc with
    | .ok s => pure s
    | .err e => P.fail e
    | .panic e => P.crash e

/-- parser.go:184-216: the directives. -/
def directive (lib : PLib) (incl : String → IncRes) (sch : Schema) (comment word : String) : P Schema :=
  let schc := { sch with comment := mergeComment sch.comment comment }
  match word with
  | "name" => do let x ← expectText; pure { schc with name := x }
  | "namespace" => do let x ← parseNamespaceDirective; pure { schc with «namespace» := x }
  | "version" => do let x ← parseVersionDirective; pure { schc with version := x }
  | "type" => do let x ← parseTypeDirective lib comment; pure { sch with types := sch.types ++ [x] }
  | "example" => do let x ← parseExampleDirective lib comment; pure { sch with examples := sch.examples ++ [x] }
  | "base" => do let x ← parseBaseDirective; pure { schc with base := x }
  | "operation" => do let x ← parseOperationDirective lib comment; pure { sch with operations := sch.operations ++ [x] }
  | "http" => do let x ← parseHttpDirective lib comment; pure { sch with http := sch.http ++ [x] }
  | "include" => parseIncludeDirective incl schc
  | _ =>
    if hasPrefix word "x_" then do
      let vc ← parseStringToEndOfLine
      pure { schc with annotations := mset schc.annotations word vc.1, comment := mergeComment schc.comment vc.2 }
    else pure sch

/-- parser.go:176-231: the loop body of `ParseNoValidate`. -/
def topStep (lib : PLib) (incl : String → IncRes) (st : Schema × String) : P ((Schema × String) ⊕ Schema) := do
  match ← getToken with
  | none => pure (.inr st.1)
  | some tok =>
    match tok.type with
    | .symbol => do
      let sch ← directive lib incl st.1 st.2 tok.text
      pure (.inl (sch, ""))
    | .lineComment => pure (.inl (st.1, mergeComment st.2 tok.text))
    | .semicolon => pure (.inl st)
    | .newline => pure (.inl st)
    | _ => P.fail "Expected one of 'type', 'namespace', ..."

/-- The schema before the first directive, parser.go:161-175: the name and namespace come
from the configuration or the file name.  `Version` is the variable of version.go. -/
def initialSchema (name ns : String) : Schema := { sadl := "development version", name := name, «namespace» := ns }

/-- parser.go:154-231: the parsing loop of `ParseNoValidate` over the tokens of a source. -/
def parseSchema (lib : PLib) (incl : String → IncRes) (init : Schema) (toks : List Token) : PRes Schema :=
  P.loop (topStep lib incl) (init, "") { toks := toks }

/-- parser.go:154-244 `ParseNoValidate`. -/
def parseNoValidate (lib : PLib) (incl : String → IncRes) (init : Schema) (toks : List Token) : IncRes :=
  match parseSchema lib incl init toks with
  | .ok sch _ => some (newModel sch)
  | .err e _ => some (.err e)
  | .panic e => some (.panic e)
  | .hang => none

/-- parser.go:80-97 `parseFileNoValidate`, with at most `n` nested includes; `files` is the
file system, already tokenised.  The header data of an included file is not used, so its
name (parser.go:165-171) is left empty. -/
def parseFileN (lib : PLib) (files : String → Option (List Token)) : Nat → String → IncRes
  | 0, _ => none
  | n + 1, fname =>
    match files fname with
    | none => some (.err "no such file")
    | some toks => parseNoValidate lib (parseFileN lib files n) (initialSchema "" "") toks

end Sadl
