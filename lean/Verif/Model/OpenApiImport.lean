import Verif.Model.OpenApi
import Verif.Model.Unparser
/-
openapi/import_openapi.go: the import of an OpenAPI document.

Simplifications: the package variable `examples` is returned as part of the result; warnings
that are only printed are left out; the variable `EnumTypes`, which nothing assigns, is true.
Pointers inside the document are not nil, except where a field is an `Option`.
-/
namespace Sadl

/-- openapi/import_openapi.go:228-236 `oasTypeRef`, of a schema that is present. -/
def oasTypeRef (s : OSchema) : String :=
  if s.ref = "" then ""
  else if hasPrefix s.ref refPrefix then String.ofList (s.ref.toList.drop refPrefix.toList.length)
  else s.ref

/-- The result of `convertOasType`: the type, the error, if any (the type returned with an error
is sometimes used), and the examples recorded on the way. -/
structure Converted where
  ts : TypeSpec := {}
  err : Option String := none
  examples : List ExampleDef := []

/-- import_openapi.go:258-268: the values of an enumeration; `none` when one is not a string. -/
def enumStrings : List Value → Option (List String)
  | [] => some []
  | .str s :: rest => (enumStrings rest).map (s :: ·)
  | _ :: _ => none

/-- `nil` when nothing was appended to a nil slice. -/
def nilIfEmpty (xs : List String) : Option (List String) := if xs = [] then none else some xs

/-- import_openapi.go:252-283: the type of a string schema, from its enumeration; `none` on error. -/
def convertEnum (enum : Option (List Value)) : Option TypeSpec :=
  match enum with
  | none => some { type := "String" }
  | some vs =>
    match enumStrings vs with
    | none => none
    | some values =>
      if values.all isSymbolText then some { type := "Enum", elements := values.map fun v => { symbol := v } }
      else some { type := "String", values := nilIfEmpty values }

/-- import_openapi.go:284-303: the format and the limits of a string schema. -/
def convertString (format pattern : String) (minLength : Nat) (maxLength : Option Nat) (ts : TypeSpec) : TypeSpec :=
  if ts.type = "String" then
    if format = "uuid" then { ts with type := "UUID" }
    else if format = "date-time" then { ts with type := "Timestamp" }
    else { ts with pattern := pattern
                   minSize := if 0 < minLength then some (toInt64 minLength) else none
                   maxSize := maxLength.map toInt64 }
  else ts

/-- import_openapi.go:327-338: the type of an integer schema. -/
def convertInteger (format : String) : String :=
  match format with
  | "int8" => "Int8"
  | "int16" => "Int16"
  | "int32" => "Int32"
  | "int64" => "Int64"
  | _ => "Int64"

mutual
/-- import_openapi.go:238-369 `convertOasType`.  `NewDecimal` (decimal.go:40-42) keeps the value
of the float64; it panics on NaN, which is not modelled. -/
def convertOas (name : String) : OSchema → Out Converted
  | .mk _ type format _ enum ex min max minLength maxLength pattern _ items required properties _ =>
    let exs : List ExampleDef := match ex with
      | .null => []
      | v => [{ target := name, «example» := v }]
    if type = "boolean" then .ok { ts := { type := "Bool" }, examples := exs }
    else if type = "string" then
      match convertEnum enum with
      | none => .ok { err := some "string enum value is not a string", examples := exs }
      | some ts => .ok { ts := convertString format pattern minLength maxLength ts, examples := exs }
    else if type = "array" then convertItems name exs items
    else if type = "number" then .ok { ts := { type := "Decimal", min := min, max := max }, examples := exs }
    else if type = "integer" then .ok { ts := { type := convertInteger format, min := min, max := max }, examples := exs }
    else if type = "" ∨ type = "object" then convertProperties name required { ts := { type := "Struct" }, examples := exs } properties
    else .panic "oas type not handled"

/-- import_openapi.go:305-315: the items of an array schema; an error in them is dropped. -/
def convertItems (name : String) (exs : List ExampleDef) : Option OSchema → Out Converted
  | none => .ok { ts := { type := "Array" }, examples := exs }
  | some s =>
    if s.ref ≠ "" then .ok { ts := { type := "Array", items := oasTypeRef s }, examples := exs }
    else
      match convertOas (name ++ ".Items") s with
      | .ok c => .ok { ts := { type := "Array", items := if c.err = none then c.ts.type else "" }, examples := exs ++ c.examples }
      | .err e => .err e
      | .panic e => .panic e

/-- import_openapi.go:347: the properties of an object schema, if any. -/
def convertProperties (name : String) (required : List String) (acc : Converted) :
    Option (List (String × OSchema)) → Out Converted
  | none => .ok acc
  | some ps => convertProps name required acc ps

/-- import_openapi.go:349-362: the loop over the properties.  The error of one property is
overwritten by the next that is converted. -/
def convertProps (name : String) (required : List String) (acc : Converted) : List (String × OSchema) → Out Converted
  | [] => .ok acc
  | p :: rest =>
    match convertProp name required acc p with
    | .ok acc => convertProps name required acc rest
    | .err e => .err e
    | .panic e => .panic e

/-- import_openapi.go:350-361: one property. -/
def convertProp (name : String) (required : List String) (acc : Converted) : String × OSchema → Out Converted
  | (fname, s) =>
    if oasTypeRef s ≠ "" then
      .ok { acc with ts := { acc.ts with fields := acc.ts.fields ++
        [{ name := fname, comment := s.description, required := required.contains fname, ts := { type := oasTypeRef s } }] } }
    else
      match convertOas (name ++ "." ++ fname) s with
      | .ok c => .ok { ts := { acc.ts with fields := acc.ts.fields ++
          [{ name := fname, comment := s.description, required := required.contains fname, ts := c.ts }] },
                       err := c.err, examples := acc.examples ++ c.examples }
      | .err e => .err e
      | .panic e => .panic e
end

/-- import_openapi.go:217-226 `validSadlName`. -/
def validSadlName (name : String) (s : OSchema) : String :=
  if name = "Timestamp" then (if s.type = "string" then "" else name)
  else if name = "Decimal" then ""
  else name

/-- import_openapi.go:144-174: the loop over the schemas of the components; `all` is the whole map. -/
def importTypes (all : GoMap OSchema) : GoMap OSchema → Out (List TypeDef × List ExampleDef)
  | [] => .ok ([], [])
  | (name, s) :: rest =>
    let name := validSadlName name s
    if name = "" then importTypes all rest
    else
      let conv : Out (Converted × String) :=
        if oasTypeRef s ≠ "" then
          match mget all (oasTypeRef s) with
          | some d => (convertOas (oasTypeRef s) d).bind fun c => .ok (c, "")
          | none => .panic "hmm"
        else (convertOas name s).bind fun c => .ok (c, s.description)
      conv.bind fun (c, comment) =>
        match c.err with
        | some e => .err e
        | none => (importTypes all rest).bind fun (tds, exs) =>
            .ok ({ name := name, comment := comment, ts := c.ts } :: tds, c.examples ++ exs)

/-- import_openapi.go:388-391 `makeIdentifier`: removes the matches of
`[^a-zA-Z_][^a-zA-Z_0-9]*`.  The flag tells whether the previous character belongs to a match. -/
def makeIdentL : Bool → List Char → List Char
  | _, [] => []
  | inMatch, c :: r =>
    if inMatch && !(isLetterCh c || c == '_' || isDigitCh c) then makeIdentL true r
    else if isLetterCh c || c == '_' then c :: makeIdentL false r
    else makeIdentL true r

def makeIdentifier (s : String) : String := String.ofList (makeIdentL false s.toList)

/-- import_openapi.go:675-693 `sadlPrimitiveType`. -/
def sadlPrimitiveType (name : String) : Out String :=
  match name with
  | "string" => .ok "String"
  | "number" => .ok "Decimal"
  | "integer" => .ok "Int32"
  | "array" => .ok "Array"
  | "object" => .ok "Struct"
  | "boolean" => .ok "Bool"
  | _ => .panic "what?"

/-- import_openapi.go:403-413: the resource and the remaining tags. -/
def importTags : List String → String × String → String × String
  | [], acc => acc
  | tag :: rest, (rez, tmp) =>
    if rez = "" then importTags rest (tag, tmp)
    else if tmp = "" then importTags rest (rez, tag)
    else importTags rest (rez, tmp ++ "," ++ tag)

/-- import_openapi.go:445-476: the type of a parameter. -/
def importParamType : Option OSchema → Out TypeSpec
  | none => .ok {}
  | some s =>
    if oasTypeRef s ≠ "" then .ok { type := oasTypeRef s }
    else (sadlPrimitiveType s.type).bind fun t =>
      if t = "Struct" then .panic "Whoops, that can't be right"
      else
        let items := if t = "Array" then
            match s.items with
            | some i => if i.type = "string" then "String" else "Any"
            | none => "Any"
          else ""
        match s.enum with
        | none => .ok { type := t, items := items }
        | some vs =>
          match enumStrings vs with
          | some values => .ok { type := t, items := items, values := nilIfEmpty values }
          | none => .err "String enum values are not strings"

/-- import_openapi.go:421-478: one parameter. -/
def importParam (path : String) (p : OParam) : Out HttpParamSpec :=
  let name := makeIdentifier p.name
  let field (ts : TypeSpec) : StructFieldDef :=
    { name := name, comment := p.description, required := p.required, ts := ts }
  if p.in = "query" then (importParamType p.schema).bind fun ts => .ok { query := p.name, field := field ts }
  else if p.in = "path" then
    if containsSub ("{" ++ name ++ "}").toList path.toList then
      (importParamType p.schema).bind fun ts => .ok { path := true, field := field ts }
    else .panic "here"
  else if p.in = "header" then (importParamType p.schema).bind fun ts => .ok { header := p.name, field := field ts }
  else if p.in = "cookie" then .err "Cookie params NYI"
  else (importParamType p.schema).bind fun ts => .ok { field := field ts }

/-- import_openapi.go:421-478: the loop over the parameters. -/
def importParams (path : String) : List OParam → Out (List HttpParamSpec)
  | [] => .ok []
  | p :: rest => (importParam path p).bind fun spec => (importParams path rest).bind fun specs => .ok (spec :: specs)

/-- import_openapi.go:433: the query of a parameter. -/
def importQueries (ps : List OParam) : List (List Char) :=
  (ps.filter (fun p => p.in = "query")).map fun p => (p.name ++ "={" ++ makeIdentifier p.name ++ "}").toList

/-- import_openapi.go:482-503: the body. -/
def importBody (method : String) : Option OBody → List HttpParamSpec
  | none => []
  | some b =>
    if method = "POST" ∨ method = "PUT" ∨ method = "PATCH" then
      match (mget b.content "application/json").bind (·.schema) with
      | none => []
      | some s =>
        if oasTypeRef s ≠ "" then
          [{ field := { name := "body", comment := b.description, required := b.required, ts := { type := oasTypeRef s } } }]
        else []
    else []

/-- import_openapi.go:507-513: the first status that starts with 2 or 3. -/
def expectedStatus : GoMap OResponse → String
  | [] => "default"
  | (st, _) :: rest => if hasPrefix st "2" ∨ hasPrefix st "3" then st else expectedStatus rest

/-- The type of an output, from its schema: import_openapi.go:546-550, 560-564.  Errors are dropped. -/
def importOutputType (name : String) (s : OSchema) : Out (TypeSpec × List ExampleDef) :=
  if s.ref ≠ "" then .ok ({ type := oasTypeRef s }, [])
  else (convertOas name s).bind fun c => .ok (c.ts, c.examples)

/-- import_openapi.go:538-543: the name of a header parameter. -/
def headerName (header : String) : String :=
  makeIdentifier (if hasPrefix header "x-" ∨ hasPrefix header "X-" then String.ofList (header.toList.drop 2) else header)

/-- import_openapi.go:534-553: the loop over the headers of the expected response. -/
def importHeaders (action : String) : GoMap OHeader → Out (List HttpParamSpec × List ExampleDef)
  | [] => .ok ([], [])
  | (header, d) :: rest =>
    match d.schema with
    | none => importHeaders action rest
    | some s =>
      (importOutputType (action ++ ".Expected." ++ headerName header) s).bind fun (ts, exs) =>
        (importHeaders action rest).bind fun (ps, exs') =>
          .ok ({ header := header, field := { name := headerName header, comment := d.description, ts := ts } } :: ps, exs ++ exs')

/-- import_openapi.go:554-570: the body of the expected response. -/
def importResult (action : String) (content : GoMap OMedia) : Out (List HttpParamSpec × List ExampleDef) :=
  match (mget content "application/json").bind (·.schema) with
  | none => .ok ([], [])
  | some s =>
    (importOutputType (action ++ ".Expected.payload") s).bind fun (ts, exs) =>
      .ok ([{ field := { name := "body", ts := ts } }], exs)

/-- `int32(n)`. -/
def toInt32 (n : Int) : Int := let k := n % 2 ^ 32; if k < 2 ^ 31 then k else k - 2 ^ 32

/-- import_openapi.go:573-606: the loop over the other responses. -/
def importExceptions (expected : String) : GoMap OResponse → Out (List HttpExceptionSpec)
  | [] => .ok []
  | (st, r) :: rest =>
    if st = expected then importExceptions expected rest
    else
      let st := if st = "default" then "0" else st
      if containsSub ['X'] st.toList then .panic "wildcard response codes not supported"
      else
        match parseInt 64 st with
        | none => .err "Invalid status code"
        | some code =>
          let type : Out String := match (mget r.content "application/json").bind (·.schema) with
            | none => .ok ""
            | some s => if s.ref ≠ "" then .ok (oasTypeRef s) else .panic "inline response types not yet supported"
          type.bind fun t => (importExceptions expected rest).bind fun xs =>
            .ok ({ type := t, status := toInt32 code, comment := r.description } :: xs)

/-- import_openapi.go:523-529: the status code of the expected response. -/
def expectedCode (st : String) : Out Int :=
  if st ≠ "default" ∧ containsSub ['X'] st.toList = false then
    match parseInt 64 st with
    | some n => .ok n
    | none => .err "strconv.Atoi"
  else .ok 200

/-- import_openapi.go:393-609 `convertOasPath`. -/
def convertOasPath (path : String) (op : OOperation) (method : String) : Out (HttpDef × List ExampleDef) :=
  let tags := importTags op.tags ("", "")
  (importParams path op.parameters).bind fun params =>
  let queries := importQueries op.parameters
  let path' := if queries = [] then path else path ++ "?" ++ String.ofList (joinWith '&' queries)
  let st := expectedStatus op.responses
  match mget op.responses st with
  | none => .err "no response entity type provided for operation"
  | some er =>
    (expectedCode st).bind fun code =>
    (importHeaders op.operationId er.headers).bind fun (hs, exs1) =>
    (importResult op.operationId er.content).bind fun (rs, exs2) =>
    (importExceptions st op.responses).bind fun xs =>
    .ok ({ name := op.operationId, path := path', method := method, comment := op.summary
           resource := tags.1
           annotations := if tags.2 = "" then [] else [("x_tags", tags.2)]
           inputs := params ++ importBody method op.requestBody
           expected := some { status := toInt32 code, comment := er.description, outputs := hs ++ rs }
           exceptions := xs }, exs1 ++ exs2)

/-- import_openapi.go:611-638 `getPathOperation`, for the methods of line 124. -/
def importMethods : List (String × OMethod) :=
  [("GET", .get), ("PUT", .put), ("POST", .post), ("DELETE", .delete), ("HEAD", .head)]

/-- import_openapi.go:179-193: the operations of one path. -/
def importPath (path : String) (pi : OPathItem) : List (String × OMethod) → Out (List HttpDef × List ExampleDef)
  | [] => .ok ([], [])
  | (method, k) :: rest =>
    match pi.op k with
    | none => importPath path pi rest
    | some op =>
      if hasPrefix path "x-" then importPath path pi rest
      else (convertOasPath path op method).bind fun (h, exs) =>
        (importPath path pi rest).bind fun (hs, exs') => .ok (h :: hs, exs ++ exs')

/-- import_openapi.go:177-194: the loop over the paths. -/
def importPaths : GoMap OPathItem → Out (List HttpDef × List ExampleDef)
  | [] => .ok ([], [])
  | (path, pi) :: rest =>
    (importPath path pi importMethods).bind fun (hs, exs) =>
      (importPaths rest).bind fun (hs', exs') => .ok (hs ++ hs', exs ++ exs')

/-- import_openapi.go:131-138: the name and the comment of the model. -/
def importTitle (title description name : String) : String × String :=
  if title = "" then (name, description)
  else if isSymbolText title then (title, description)
  else (name, title ++ " - " ++ description)

/-- import_openapi.go:127-129, 195-210: the annotations of the model. -/
def importAnnotations (d : ODoc) : GoMap String :=
  let a : GoMap String := [("x_openapi_version", d.openapi)]
  let a := d.servers.foldl (fun a url => mset a "x_server" url) a
  match d.license with
  | none => a
  | some (lname, lurl) =>
    let a := if lname ≠ "" then mset a "x_license_name" lname else a
    if lurl ≠ "" then mset a "x_license_url" lurl else a

/-- import_openapi.go:126-215 `ToSadl`. -/
def toSadl (d : ODoc) (name : String) : Out Model :=
  let nc := importTitle d.title d.description name
  (importTypes d.schemas d.schemas).bind fun (tds, exs) =>
  (importPaths d.paths).bind fun (hs, exs') =>
  newModel { name := nc.1, comment := nc.2, version := d.version, types := tds, http := hs,
             annotations := importAnnotations d, examples := exs ++ exs' }

/-- openapi/model.go:32-76 `Validate`: the document is complete enough. -/
def validateDoc (d : ODoc) : Out Unit :=
  if d.openapi = "" then .err "Missing required field 'openapi' in OpenAPI object"
  else if d.title = "" then .err "Missing required field 'title' in Info object"
  else if d.version = "" then .err "Missing required field 'version' in Info object"
  else if d.license.any (fun l => l.1 = "") then .err "Missing required field 'name' in License object"
  else if d.paths.any (fun p => !hasPrefix p.1 "/") then .err "Key in Paths object must start with '/'"
  else .ok ()

end Sadl
