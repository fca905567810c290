import Verif.Model.SmithyExport
import Verif.Model.Data
import Verif.Model.OpenApiImport
/-
smithy/import_smithy.go:101-192 `ToSadl` and the functions it calls: the conversion of a Smithy
AST to a model.  The assumptions about github.com/boynton/smithy and github.com/boynton/data are
those of `SmithyExport.lean`; the conversions done by the typed getters of an object that are not
determined by the dynamic type alone are parameters (`SLib`).

Not modelled: what the functions print, the reading of files (`Import`, `AssembleModel`,
`expandPaths`, `IsValidFile`).
-/
namespace Sadl
namespace Smithy

/-- Functions of the libraries that are not part of /repo. -/
structure SLib where
  /-- `GetBool` of an object on a value that is not a bool. -/
  truth : Value → Bool
  /-- `GetInt` and `GetInt64` of an object. -/
  int : Value → Int
  /-- `fmt.Sprintf("%v", v)`. -/
  text : Value → String
  /-- Conversion of a float64 out of range, see `truncInt`. -/
  wild : Int

/-- `Traits.GetString(k)`: a string or nothing. -/
def Traits.str (t : Traits) (k : String) : String :=
  match mget t k with
  | some v => asString v
  | none => ""

/-- `Traits.GetBool(k)`. -/
def Traits.bool (lib : SLib) (t : Traits) (k : String) : Bool :=
  match mget t k with
  | some (.bool b) => b
  | some v => lib.truth v
  | none => false

/-- `Traits.GetMap(k)`, `Traits.GetObject(k)`; `none` is nil. -/
def Traits.map (t : Traits) (k : String) : Option (GoMap Value) :=
  match mget t k with
  | some v => asMap v
  | none => none

/-- `Traits.GetArray(k)`; `none` is nil. -/
def Traits.array (t : Traits) (k : String) : Option (List Value) :=
  match mget t k with
  | some v => asArray v
  | none => none

/-- `Traits.GetInt(k)`, `Traits.GetInt64(k)`. -/
def Traits.int (lib : SLib) (t : Traits) (k : String) : Int :=
  match mget t k with
  | some v => lib.int v
  | none => 0

/-- struct_helpers.go:119-126 `Get`; `null` is nil. -/
def getKey (m : GoMap Value) (k : String) : Value := (mget m k).getD .null

/-- smithy/import_smithy.go:233-243 `escapeComment`. -/
def escapeComment (doc : String) : String :=
  let lines := splitAll '\n' doc.toList
  if lines.length = 1 then doc else String.ofList (joinWith '\n' (lines.map trimBlanks))

/-- smithy/import_smithy.go:919-927 `WithAnnotation`. -/
def withAnnotation (annos : GoMap String) (key value : String) : GoMap String :=
  if value ≠ "" then mset annos key value else annos

/-- The traits that carry nothing into the annotations: smithy/import_smithy.go:441-449, 478-481. -/
def ignoredTraits : List String :=
  ["smithy.api#httpPayload", "smithy.api#httpLabel", "smithy.api#httpQuery", "smithy.api#httpHeader",
   "smithy.api#required", "smithy.api#documentation", "smithy.api#range", "smithy.api#length",
   "smithy.api#readonly", "smithy.api#idempotent", "smithy.api#sensitive", "smithy.api#box", "smithy.api#http",
   "aws.protocols#restJson1", "smithy.api#examples"]

/-- smithy/import_smithy.go:453-467: the annotations for a deprecation. -/
def importDeprecated (annos : GoMap String) (v : Value) : GoMap String :=
  let dv := (asMap v).getD []
  let annos := withAnnotation annos "x_deprecated" "true"
  let annos := withAnnotation annos "x_deprecated_message" (asString (getKey dv "message"))
  withAnnotation annos "x_deprecated_since" (asString (getKey dv "since"))

/-- smithy/import_smithy.go:468-475: the annotation for a paginated operation. -/
def importPaginated (v : Value) : String :=
  let dv := (asMap v).getD []
  "inputToken=" ++ asString (getKey dv "inputToken") ++ ",outputToken=" ++ asString (getKey dv "outputToken") ++
    ",pageSize=" ++ asString (getKey dv "pageSize") ++ ",items=" ++ asString (getKey dv "items")

/-- smithy/import_smithy.go:433-504 `importTraitsAsAnnotations`: one trait. -/
def importTrait (lib : SLib) (ast : Ast) (annos : GoMap String) (k : String) (v : Value) : Out (GoMap String) :=
  if k = "smithy.api#error" then .ok (withAnnotation annos "x_error" (asString v))
  else if k = "smithy.api#httpError" then .ok (withAnnotation annos "x_httpError" (lib.text v))
  else if k ∈ ignoredTraits then .ok annos
  else if k = "smithy.api#tags" then
    .ok (withAnnotation annos "x_tags" (String.ofList (joinWith ',' ((asStringArray v).map String.toList))))
  else if k = "smithy.api#timestampFormat" then .ok (withAnnotation annos "x_timestampFormat" (asString v))
  else if k = "smithy.api#enumValue" then .ok (withAnnotation annos "x_enumValue" (asString v))
  else if k = "smithy.api#deprecated" then .ok (importDeprecated annos v)
  else if k = "smithy.api#paginated" then .ok (withAnnotation annos "x_paginated" (importPaginated v))
  else match mget ast.shapes k with
    | some tshape => match tshape.traits.map "smithy.api#trait" with
      | some _ => .ok annos
      | none => .panic ("here: " ++ k)
    | none => .ok annos

/-- smithy/import_smithy.go:433-504 `importTraitsAsAnnotations`; the nil map is empty. -/
def importTraits (lib : SLib) (ast : Ast) : Traits → GoMap String → Out (GoMap String)
  | [], annos => .ok annos
  | (k, v) :: rest, annos => do importTraits lib ast rest (← importTrait lib ast annos k v)

/-- The documentation trait, as a comment. -/
def docOf (t : Traits) : String := escapeComment (t.str "smithy.api#documentation")

/-- smithy/import_smithy.go:253-271: the base type of a number shape. -/
def numberType (smithyType : String) : String :=
  match smithyType with
  | "byte" => "Int8"
  | "short" => "Int16"
  | "integer" => "Int32"
  | "long" => "Int64"
  | "float" => "Float32"
  | "double" => "Float64"
  | _ => "Decimal"

/-- smithy/import_smithy.go:245-284 `importNumericShape`. -/
def importNumericShape (lib : SLib) (ast : Ast) (name : String) (s : Shape) : Out TypeDef := do
  let annos ← importTraits lib ast s.traits []
  let annos := if s.type = "bigInteger" then withAnnotation annos "x_integer" "true" else annos
  let l := (s.traits.map "smithy.api#range").getD []
  .ok { name := stripNamespace name, comment := docOf s.traits, annotations := annos,
        ts := { type := numberType s.type, min := asDecimal (getKey l "min"), max := asDecimal (getKey l "max") } }

/-- A size that is kept only if it is not 0: smithy/import_smithy.go:304-311, 409-416, 616-623,
639-646. -/
def nonZero (n : Int) : Option Int := if n ≠ 0 then some n else none

/-- smithy/import_smithy.go:330-346 `isSmithyRecommendedEnumName`. -/
def isSmithyRecommendedEnumName (s : String) : Bool :=
  match s.toList with
  | [] => false
  | c :: r => isUpperCh c && r.all fun ch => isUpperCh ch || isDigitCh ch || ch == '_'

/-- smithy/import_smithy.go:348-389 `importEnum`: both flags are false from the beginning, so that
it never makes an enumeration. -/
def importEnum (_ : Shape) : Bool := false

/-- smithy/import_smithy.go:286-328 `importStringShape`; `none`: no type is made. -/
def importStringShape (lib : SLib) (name : String) (s : Shape) : Option TypeDef :=
  let sadlName := stripNamespace name
  if sadlName = "UUID" then none
  else if importEnum s then none
  else
    let pat := s.traits.str "smithy.api#pattern"
    let ts : TypeSpec :=
      if pat = uuidPattern then { type := "UUID" }
      else
        let l := (s.traits.map "smithy.api#length").getD []
        { type := "String", pattern := pat,
          minSize := nonZero (asInt64 lib.wild (getKey l "min")), maxSize := nonZero (asInt64 lib.wild (getKey l "max")),
          values := match s.traits.array "smithy.api#enum" with
            | some lst => nilIfEmpty (lst.map fun v => asString (getKey ((asMap v).getD []) "value"))
            | none => none }
    some { name := sadlName, comment := docOf s.traits, ts := ts }

/-- smithy/import_smithy.go:391-400 `importTimestampShape`. -/
def importTimestampShape (lib : SLib) (ast : Ast) (name : String) (s : Shape) : Out TypeDef := do
  let annos ← importTraits lib ast s.traits []
  .ok { name := stripNamespace name, comment := docOf s.traits, annotations := annos, ts := { type := "Timestamp" } }

/-- smithy/import_smithy.go:402-420 `importBlobShape`. -/
def importBlobShape (lib : SLib) (name : String) (s : Shape) : TypeDef :=
  let l := (s.traits.map "smithy.api#length").getD []
  { name := stripNamespace name, comment := docOf s.traits,
    ts := { type := "Bytes", minSize := nonZero (asInt64 lib.wild (getKey l "min")),
            maxSize := nonZero (asInt64 lib.wild (getKey l "max")) } }

/-- smithy/import_smithy.go:422-431 `importBooleanShape`. -/
def importBooleanShape (lib : SLib) (ast : Ast) (name : String) (s : Shape) : Out TypeDef := do
  let annos ← importTraits lib ast s.traits []
  .ok { name := stripNamespace name, comment := docOf s.traits, annotations := annos, ts := { type := "Boolean" } }

/-- smithy/import_smithy.go:514-524: the members of an enumeration. -/
def importElements (lib : SLib) (ast : Ast) : GoMap Member → Out (List EnumElementDef)
  | [] => .ok []
  | (k, mem) :: rest => do
    let annos ← importTraits lib ast mem.traits []
    let r ← importElements lib ast rest
    .ok ({ symbol := k, comment := docOf mem.traits, annotations := annos } :: r)

/-- smithy/import_smithy.go:506-528 `importEnumShape`. -/
def importEnumShape (lib : SLib) (ast : Ast) (name : String) (s : Shape) : Out TypeDef := do
  let annos ← importTraits lib ast s.traits []
  let elements ← importElements lib ast s.members
  .ok { name := stripNamespace name, comment := docOf s.traits, annotations := annos,
        ts := { type := "Enum", elements := elements } }

/-- smithy/import_smithy.go:539-561: the members of a union. -/
def importVariants (lib : SLib) (ast : Ast) : GoMap Member → Out (List UnionVariantDef)
  | [] => .ok []
  | (k, mem) :: rest => do
    let annos ← importTraits lib ast mem.traits []
    let r ← importVariants lib ast rest
    .ok ({ name := k, comment := docOf mem.traits, annotations := annos,
           ts := { type := shapeRefToTypeRef mem.target } } :: r)

/-- smithy/import_smithy.go:530-563 `importUnionShape`. -/
def importUnionShape (lib : SLib) (ast : Ast) (name : String) (s : Shape) : Out TypeDef := do
  let annos ← importTraits lib ast s.traits []
  let variants ← importVariants lib ast s.members
  .ok { name := stripNamespace name, comment := docOf s.traits, annotations := annos,
        ts := { type := "Union", variants := variants } }

/-- smithy/import_smithy.go:589-603: the members of a structure. -/
def importFields (lib : SLib) (ast : Ast) : GoMap Member → Out (List StructFieldDef)
  | [] => .ok []
  | (k, mem) :: rest => do
    let annos ← importTraits lib ast mem.traits []
    let r ← importFields lib ast rest
    .ok ({ name := k, comment := docOf mem.traits, annotations := annos,
           required := mem.traits.bool lib "smithy.api#required",
           ts := { type := shapeRefToTypeRef mem.target } } :: r)

/-- smithy/import_smithy.go:565-606 `importStructureShape`.  The test of lines 567-581 for input
and output structures never applies: `importShape` has left them out already. -/
def importStructureShape (lib : SLib) (ast : Ast) (name : String) (s : Shape) : Out TypeDef := do
  let annos ← importTraits lib ast s.traits []
  let fields ← importFields lib ast s.members
  .ok { name := stripNamespace name, comment := docOf s.traits, annotations := annos,
        ts := { type := "Struct", fields := fields } }

/-- smithy/import_smithy.go:608-628 `importListShape`. -/
def importListShape (lib : SLib) (name : String) (s : Shape) (unique : Bool) : Out TypeDef :=
  match s.member with
  | none => .panic "nil dereference"
  | some mem =>
    .ok { name := stripNamespace name, comment := docOf s.traits,
          annotations := if unique then withAnnotation [] "x_unique" "true" else [],
          ts := { type := "Array", items := shapeRefToTypeRef mem.target,
                  minSize := nonZero (s.traits.int lib "smithy.api#min"),
                  maxSize := nonZero (s.traits.int lib "smithy.api#max") } }

/-- smithy/import_smithy.go:630-648 `importMapShape`. -/
def importMapShape (lib : SLib) (name : String) (s : Shape) : Out TypeDef :=
  match s.key, s.value with
  | some k, some v =>
    .ok { name := stripNamespace name, comment := docOf s.traits,
          ts := { type := "Map", keys := shapeRefToTypeRef k.target, items := shapeRefToTypeRef v.target,
                  minSize := nonZero (s.traits.int lib "smithy.api#min"),
                  maxSize := nonZero (s.traits.int lib "smithy.api#max") } }
  | _, _ => .panic "nil dereference"

/-- smithy/import_smithy.go:733-755: the examples of an operation.  An element of the trait that is
not an object is skipped. -/
def importOpExamples (reqType resType : String) : List Value → List ExampleDef
  | [] => []
  | .obj opex :: rest =>
    let title := asString (getKey opex "title")
    (match mget opex "input" with
     | some input => [{ target := reqType, name := title, comment := asString (getKey opex "documentation"), «example» := input }]
     | none => []) ++
    (match mget opex "output" with
     | some output => [{ target := resType, name := title, «example» := output }]
     | none => []) ++ importOpExamples reqType resType rest
  | _ :: rest => importOpExamples reqType resType rest

/-- smithy/import_smithy.go:768-777: the inputs of an operation without HTTP binding. -/
def importOpInputs (lib : SLib) (ms : GoMap Member) : List StructFieldDef :=
  ms.map fun km => { name := km.1, required := km.2.traits.bool lib "smithy.api#required",
                     ts := { type := shapeRefToTypeRef km.2.target } }

/-- smithy/import_smithy.go:782-790: the outputs of an operation without HTTP binding. -/
def importOpOutputs (ms : GoMap Member) : List OperationOutput :=
  ms.map fun km => { name := km.1, ts := { type := shapeRefToTypeRef km.2.target } }

/-- The members of a referenced structure; a dangling reference is a nil dereference. -/
def membersOf (ast : Ast) (name : String) : Out (GoMap Member) :=
  match mget ast.shapes name with
  | some s => .ok s.members
  | none => .panic "nil dereference"

/-- smithy/import_smithy.go:764-777: the inputs of an operation without HTTP binding, if it has any. -/
def plainInputs (lib : SLib) (ast : Ast) : Option String → Out (List StructFieldDef)
  | some i => do .ok (importOpInputs lib (← membersOf ast i))
  | none => .ok []

/-- smithy/import_smithy.go:778-790: the outputs of an operation without HTTP binding, if it has any. -/
def plainOutputs (ast : Ast) : Option String → Out (List OperationOutput)
  | some o => do .ok (importOpOutputs (← membersOf ast o))
  | none => .ok []

/-- smithy/import_smithy.go:759-802: an operation without HTTP binding. -/
def importPlainOperation (lib : SLib) (ast : Ast) (name : String) (s : Shape) : Out OperationDef := do
  let annos ← importTraits lib ast s.traits []
  let inputs ← plainInputs lib ast s.input
  let outputs ← plainOutputs ast s.output
  .ok { name := uncapitalize (stripNamespace name), comment := docOf s.traits, annotations := annos,
        inputs := inputs, outputs := outputs, exceptions := s.errors.map shapeRefToTypeRef }

/-- smithy/import_smithy.go:815-829: whether some member of the input binds to the body, the path
or the query.  Simplified: a member with the empty name counts like any other. -/
def bindsInput (lib : SLib) (ms : GoMap Member) : Bool :=
  ms.any fun km => km.2.traits.bool lib "smithy.api#httpPayload" || km.2.traits.bool lib "smithy.api#httpLabel" ||
    km.2.traits.bool lib "smithy.api#httpQuery"

/-- smithy/import_smithy.go:832-850: an input. -/
def importInput (lib : SLib) (km : String × Member) : HttpParamSpec :=
  { query := km.2.traits.str "smithy.api#httpQuery", header := km.2.traits.str "smithy.api#httpHeader",
    path := km.2.traits.bool lib "smithy.api#httpLabel",
    field := { name := km.1, required := km.2.traits.bool lib "smithy.api#required",
               ts := { type := shapeRefToTypeRef km.2.target } } }

/-- smithy/import_smithy.go:838-846: the query string of the path. -/
def queryString : List (String × Member) → String → String
  | [], qs => qs
  | (k, mem) :: rest, qs =>
    queryString rest
      (if mem.traits.str "smithy.api#httpQuery" ≠ "" then
        (if qs = "" then "?" else qs ++ "&") ++ k ++ "={" ++ k ++ "}"
       else qs)

/-- The parameter that stands for a whole structure: smithy/import_smithy.go:852-856 and 882-886. -/
def bodyParam (type : String) : HttpParamSpec := { field := { name := "body", ts := { type := type } } }

/-- smithy/import_smithy.go:813-860: the inputs of an action, and what is added to its path. -/
def importInputs (lib : SLib) (ast : Ast) : Option String → List HttpParamSpec × String
  | none => ([], "")
  | some target =>
    if target = "smithy.api#Unit" then ([], "")
    else match mget ast.shapes target with
      | none => ([], "")
      | some st =>
        if bindsInput lib st.members then (st.members.map (importInput lib), queryString st.members "")
        else ([bodyParam (shapeRefToTypeRef target)], "")

/-- smithy/import_smithy.go:870-879: whether some member of the output binds to the body or the
path.  Simplified: a member with the empty name counts like any other. -/
def bindsOutput (lib : SLib) (ms : GoMap Member) : Bool :=
  ms.any fun km => km.2.traits.bool lib "smithy.api#httpPayload" || km.2.traits.bool lib "smithy.api#httpLabel"

/-- smithy/import_smithy.go:888-898: an output. -/
def importOutput (lib : SLib) (km : String × Member) : HttpParamSpec := importInput lib km

/-- smithy/import_smithy.go:865-900: the outputs of an action.  (The type of a whole structure is
converted twice, lines 724 and 885.) -/
def importOutputs (lib : SLib) (ast : Ast) : Option String → Out (List HttpParamSpec)
  | none => .ok []
  | some target =>
    if target = "smithy.api#Unit" then .ok []
    else match membersOf ast target with
      | .ok ms =>
        if bindsOutput lib ms then
          .ok (ms.map (importOutput lib))
        else .ok [bodyParam (shapeRefToTypeRef (shapeRefToTypeRef target))]
      | .err e => .err e
      | .panic e => .panic e

/-- smithy/import_smithy.go:901-915: the exceptions of an action. -/
def importErrors (lib : SLib) (ast : Ast) : List String → Out (List HttpExceptionSpec)
  | [] => .ok []
  | target :: rest =>
    match mget ast.shapes target with
    | none => .panic ("error type not found: " ++ target)
    | some st => do
      let r ← importErrors lib ast rest
      .ok ({ type := shapeRefToTypeRef target, status := toInt32 (st.traits.int lib "smithy.api#httpError"),
             comment := docOf st.traits } :: r)

/-- smithy/import_smithy.go:803-917: an action. -/
def importAction (lib : SLib) (ast : Ast) (name : String) (s : Shape) (method uri : String) (code : Int) : Out HttpDef := do
  let annos ← importTraits lib ast s.traits []
  let code := if code = 0 then 200 else code
  let (inputs, qs) := importInputs lib ast s.input
  let outputs ← importOutputs lib ast s.output
  let exceptions ← importErrors lib ast s.errors
  .ok { method := method, path := uri ++ qs, name := uncapitalize (stripNamespace name), comment := docOf s.traits,
        annotations := annos, inputs := inputs, exceptions := exceptions,
        expected := some { status := toInt32 code, outputs := outputs } }

/-- What the import has made so far: the lists of the schema that it fills. -/
structure Imported where
  types : List TypeDef := []
  examples : List ExampleDef := []
  operations : List OperationDef := []
  http : List HttpDef := []

/-- smithy/import_smithy.go:709-917 `importOperationShape`. -/
def importOperationShape (lib : SLib) (suf : Suffixes) (ast : Ast) (name : String) (s : Shape) (acc : Imported) :
    Out Imported := do
  let ht := (s.traits.map "smithy.api#http").getD []
  let method := asString (getKey ht "method")
  let uri := asString (getKey ht "uri")
  let code := match mget ht "code" with
    | some v => lib.int v
    | none => 0
  let exs := importOpExamples (capitalize name ++ suf.input) (capitalize name ++ suf.output)
    ((s.traits.array "smithy.api#examples").getD [])
  let acc := { acc with examples := acc.examples ++ exs }
  if method = "" then do
    .ok { acc with operations := acc.operations ++ [← importPlainOperation lib ast name s] }
  else do
    .ok { acc with http := acc.http ++ [← importAction lib ast name s method uri code] }

/-- The number shapes: smithy/import_smithy.go:199. -/
def numberShapes : List String := ["byte", "short", "integer", "long", "float", "double", "bigInteger", "bigDecimal"]

/-- Adds a type. -/
def Imported.add (acc : Imported) (td : TypeDef) : Imported := { acc with types := acc.types ++ [td] }

/-- smithy/import_smithy.go:194-231 `importShape`; `io` are the keys of `ioParams`. -/
def importShape (lib : SLib) (suf : Suffixes) (ast : Ast) (io : List String) (name : String) (s : Shape) (acc : Imported) :
    Out Imported :=
  if name ∈ io then .ok acc
  else if s.type ∈ numberShapes then do .ok (acc.add (← importNumericShape lib ast name s))
  else if s.type = "string" then
    match importStringShape lib name s with
    | some td => .ok (acc.add td)
    | none => .ok acc
  else if s.type = "timestamp" then do .ok (acc.add (← importTimestampShape lib ast name s))
  else if s.type = "boolean" then do .ok (acc.add (← importBooleanShape lib ast name s))
  else if s.type = "list" then do .ok (acc.add (← importListShape lib name s false))
  else if s.type = "set" then do .ok (acc.add (← importListShape lib name s true))
  else if s.type = "map" then do .ok (acc.add (← importMapShape lib name s))
  else if s.type = "structure" then do .ok (acc.add (← importStructureShape lib ast name s))
  else if s.type = "union" then do .ok (acc.add (← importUnionShape lib ast name s))
  else if s.type = "blob" then .ok (acc.add (importBlobShape lib name s))
  else if s.type = "enum" then do .ok (acc.add (← importEnumShape lib ast name s))
  else if s.type = "service" then .ok acc
  else if s.type = "operation" then importOperationShape lib suf ast name s acc
  else if s.type = "resource" then .ok acc
  else .panic "whoa"

/-- smithy/import_smithy.go:154-177: the service to import, and the input and output structures
found on the way.  `found` is the name of the service found so far. -/
def scanShapes (service : String) : GoMap Shape → String × String → List String → Out ((String × String) × List String)
  | [], found, io => .ok (found, io)
  | (k, s) :: rest, found, io =>
    if s.type = "service" then
      if service ≠ "" then
        if k ≠ service then scanShapes service rest found io else scanShapes service rest (k, s.version) io
      else if found.1 ≠ "" then .err "SADL only supports one service per model"
      else scanShapes service rest (k, s.version) io
    else if s.type = "operation" then scanShapes service rest found (io ++ s.input.toList ++ s.output.toList)
    else scanShapes service rest found io

/-- smithy/import_smithy.go:184-190: the loop over the shapes. -/
def importShapes (lib : SLib) (suf : Suffixes) (ast : Ast) (io : List String) (service : String) :
    GoMap Shape → Imported → Out Imported
  | [], acc => .ok acc
  | (k, s) :: rest, acc =>
    if s.type ≠ "service" ∨ k = service then do
      importShapes lib suf ast io service rest (← importShape lib suf ast io k s acc)
    else importShapes lib suf ast io service rest acc

/-- smithy/import_smithy.go:120-134: the annotations made of the metadata. -/
def importMetadata : GoMap Value → GoMap String → GoMap String
  | [], annos => annos
  | (k, v) :: rest, annos =>
    importMetadata rest
      (if k = "name" then annos
       else if k = "base" then mset annos k (asString v)
       else mset annos ("x_" ++ k) (asString v))

/-- The members of the configuration that `ToSadl` reads. -/
structure SConf where
  name : String := ""
  service : String := ""
  «namespace» : String := ""
  base : String := ""

/-- smithy/import_smithy.go:101-192 `ToSadl`; `version` is `sadl.Version`. -/
def toSadl (lib : SLib) (suf : Suffixes) (version : String) (ast : Ast) (conf : SConf) : Out Model := do
  let (found, io) ← scanShapes conf.service ast.shapes ("", "") []
  let imported ← importShapes lib suf ast io found.1 ast.shapes {}
  newModel
    { sadl := version, name := if conf.name = "" then stripNamespace found.1 else conf.name,
      «namespace» := if conf.namespace = "example" then "" else conf.namespace,
      version := found.2, base := conf.base, annotations := importMetadata ast.metadata [],
      types := imported.types, examples := imported.examples, operations := imported.operations, http := imported.http }

end Smithy
end Sadl
