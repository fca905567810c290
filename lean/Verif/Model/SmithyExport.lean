import Verif.Model.Model
import Verif.Model.Misc
import Verif.Model.Smithy
/-
smithy/export_smithy.go:85-303 `FromSADL` and the functions it calls: the conversion of a model
to a Smithy AST.

The types `AST`, `Shape`, `Member` and the ordered maps come from github.com/boynton/smithy and
github.com/boynton/data, which are not part of /repo.  What the code relies on is assumed: `Put`
adds a key at the end or replaces the value of a key in place, `Get` returns the value of a key or
nil, `Keys` lists the keys in order, and all of these and the typed getters may be called on a nil
object, which behaves like an empty one.  Nil and empty objects, members and lists are therefore
not distinguished.  Pointers are stored as values; `FromSADL` only writes through a pointer it has
just read from the AST, where the model writes back.
-/
namespace Sadl
namespace Smithy

/-- A `*data.Object` holding the traits of a shape or of a member. -/
abbrev Traits := GoMap Value

/-- smithylib.Member. -/
structure Member where
  target : String
  traits : Traits := []

/-- smithylib.Shape, the members used here; references to shapes (`ShapeRef`) are their targets. -/
structure Shape where
  type : String := ""
  version : String := ""
  member : Option Member := none
  key : Option Member := none
  value : Option Member := none
  members : GoMap Member := []
  input : Option String := none
  output : Option String := none
  errors : List String := []
  operations : List String := []
  traits : Traits := []

/-- smithylib.AST. -/
structure Ast where
  metadata : GoMap Value := []
  shapes : GoMap Shape := []

/-- smithy/export_smithy.go:489-494 `ensureShapeTraits`, followed by `Put`. -/
def Shape.put (s : Shape) (k : String) (v : Value) : Shape := { s with traits := mset s.traits k v }

/-- smithy/export_smithy.go:496-501 `ensureMemberTraits`, followed by `Put`. -/
def Member.put (m : Member) (k : String) (v : Value) : Member := { m with traits := mset m.traits k v }

/-- smithy/export_smithy.go:795-808 `EnsureNamespaced`. -/
def ensureNamespaced (ns name : String) : String :=
  if name ∈ ["Boolean", "Byte", "Short", "Integer", "Long", "Float", "Double", "BigInteger", "BigDecimal",
      "Blob", "String", "Timestamp", "UUID", "Enum", "List", "Map", "Set", "Document", "Structure", "Union"] then name
  else if '#' ∈ name.toList then name
  else ns ++ "#" ++ name

/-- smithy/export_smithy.go:750-762 `lengthTrait`; `none` is the nil map. -/
def lengthTrait (min max : Option Int) : Option Value :=
  if min = none ∧ max = none then none
  else some (.obj ((match min with | some n => [("min", .int64 n)] | none => []) ++
    (match max with | some n => [("max", .int64 n)] | none => [])))

/-- smithy/export_smithy.go:764-776 `rangeTrait`; a `Decimal` in an interface is `Value.dec`, like
a pointer to one. -/
def rangeTrait (min max : Option BigFloat) : Option Value :=
  if min = none ∧ max = none then none
  else some (.obj ((match min with | some n => [("min", .dec n)] | none => []) ++
    (match max with | some n => [("max", .dec n)] | none => [])))

/-- smithy/export_smithy.go:707-728 `enumTrait`. -/
def enumTrait (ts : TypeSpec) : Value :=
  if ts.elements ≠ [] then
    .arr (ts.elements.map fun e => .obj ([("value", .str e.symbol), ("name", .str e.symbol)] ++
      (if e.comment ≠ "" then [("documentation", .str e.comment)] else [])))
  else .arr ((ts.values.getD []).map fun s => .obj [("value", .str s)])

/-- smithy/export_smithy.go:730-738 `paginatedTrait`: an item without `=` is an index out of
range. -/
def paginatedItems : List (List Char) → GoMap Value → Out (GoMap Value)
  | [], m => .ok m
  | item :: rest, m =>
    match splitAll '=' item with
    | k :: v :: _ => paginatedItems rest (mset m (String.ofList k) (.str (String.ofList v)))
    | _ => .panic "index out of range"

/-- smithy/export_smithy.go:730-738 `paginatedTrait`. -/
def paginatedTrait (sval : String) : Out Value :=
  match paginatedItems (splitAll ',' sval.toList) [] with
  | .ok m => .ok (.obj m)
  | .err e => .err e
  | .panic e => .panic e

/-- smithy/export_smithy.go:740-748 `httpTrait`. -/
def httpTrait (path method : String) (code : Int) : Value :=
  .obj ([("uri", .str path), ("method", .str method)] ++ (if code ≠ 0 then [("code", .int code)] else []))

/-- `strings.Split(s, ",")` as a trait value, a `[]string`. -/
def splitTags (s : String) : Value := .strArr ((splitAll ',' s.toList).map String.ofList)

/-- smithy/export_smithy.go:655-677 `shapeFromNumber`: the Smithy type. -/
def numberShapeType (t : String) : String :=
  match t with
  | "Int8" => "byte"
  | "Int16" => "short"
  | "Int32" => "integer"
  | "Int64" => "long"
  | "Float32" => "float"
  | "Float64" => "double"
  | "Decimal" => "bigDecimal"
  | _ => ""

/-- Adds a trait that may be absent. -/
def Shape.putOpt (s : Shape) (k : String) : Option Value → Shape
  | some v => s.put k v
  | none => s

/-- smithy/export_smithy.go:655-677 `shapeFromNumber`. -/
def shapeFromNumber (ts : TypeSpec) : Shape :=
  ({ type := numberShapeType ts.type } : Shape).putOpt "smithy.api#range" (rangeTrait ts.min ts.max)

/-- smithy/export_smithy.go:638-653 `shapeFromString`. -/
def shapeFromString (ts : TypeSpec) : Shape :=
  let s := ({ type := "string" } : Shape).putOpt "smithy.api#length" (lengthTrait ts.minSize ts.maxSize)
  let s := if ts.pattern ≠ "" then s.put "smithy.api#pattern" (.str ts.pattern) else s
  if ts.values.getD [] ≠ [] then s.put "smithy.api#enum" (enumTrait ts) else s

/-- The pattern that stands for UUIDs in both directions. -/
def uuidPattern : String := "([a-f0-9]{8}(-[a-f0-9]{4}){4}[a-f0-9]{8})"

/-- smithy/export_smithy.go:679-685 `uuidShape`. -/
def uuidShape : Shape := ({ type := "string" } : Shape).put "smithy.api#pattern" (.str uuidPattern)

/-- smithy/export_smithy.go:690-702: the members of an enumeration. -/
def enumMembers : List EnumElementDef → GoMap Member → GoMap Member
  | [], ms => ms
  | el :: rest, ms =>
    let mem : Member := { target := "smithy.api#Unit" }
    let mem := match mget el.annotations "x_enumValue" with
      | some val => mem.put "smithy.api#enumValue" (.str val)
      | none => mem
    enumMembers rest (mset ms el.symbol mem)

/-- smithy/export_smithy.go:687-705 `shapeFromEnum`. -/
def shapeFromEnum (ts : TypeSpec) : Shape := { type := "enum", members := enumMembers ts.elements [] }

/-- smithy/export_smithy.go:624-633: the members of a union. -/
def unionMembers (ns : String) : List UnionVariantDef → GoMap Member → GoMap Member
  | [], ms => ms
  | vd :: rest, ms =>
    let mem : Member := { target := ensureNamespaced ns vd.ts.type }
    unionMembers ns rest (mset ms vd.name (mem.put "smithy.api#documentation" (.str vd.comment)))

/-- smithy/export_smithy.go:620-636 `shapeFromUnion`. -/
def shapeFromUnion (ns : String) (ts : TypeSpec) : Shape :=
  { type := "union", members := unionMembers ns ts.variants [] }

/-- smithy/export_smithy.go:407-417 `getAnnotation`, the same function as in misc.go; a nil map is
an empty one. -/
def annotation (annos : GoMap String) (key : String) : String := getAnnotation (some annos) key

/-- smithy/export_smithy.go:555-572 `shapeFromArray`. -/
def shapeFromArray (ns : String) (ts : TypeSpec) (annos : GoMap String) : Shape :=
  let ltype := if annotation annos "x_unique" = "true" then "set" else "list"
  ({ type := ltype, member := some { target := ensureNamespaced ns (typeReferenceByName ns ts.items) } } : Shape).putOpt
    "smithy.api#length" (lengthTrait ts.minSize ts.maxSize)

/-- smithy/export_smithy.go:574-591 `shapeFromMap`. -/
def shapeFromMap (ns : String) (ts : TypeSpec) : Shape :=
  { type := "map", key := some { target := ensureNamespaced ns (typeReferenceByName ns ts.keys) },
    value := some { target := ensureNamespaced ns (typeReferenceByName ns ts.items) } }

/-- The remark written on shapes made for fields: smithy/export_smithy.go:436, 457, 477. -/
def autogenerated (fd : StructFieldDef) (pre : String) : Value :=
  .str ("[autogenerated for field '" ++ fd.name ++ "' in struct '" ++ pre ++ "']")

/-- smithy/export_smithy.go:419-480 `listTypeReference`, `mapTypeReference` and
`enumTypeReference`: what they share. -/
def fieldShape (m : Model) (ns : String) (shapes : GoMap Shape) (pre : String) (fd : StructFieldDef) (shape : Shape) :
    Out (GoMap Shape × String) :=
  let ftype := capitalize pre ++ capitalize fd.name
  match m.findType ftype with
  | some _ => .panic "Already have one with that name!!!"
  | none => .ok (mset shapes (ns ++ "#" ++ ftype) (shape.put "smithy.api#documentation" (autogenerated fd pre)), ftype)

/-- smithy/export_smithy.go:419-439 `listTypeReference`. -/
def listTypeReference (m : Model) (ns : String) (shapes : GoMap Shape) (pre : String) (fd : StructFieldDef) :
    Out (GoMap Shape × String) :=
  fieldShape m ns shapes pre fd
    { type := if annotation fd.annotations "x_unique" = "true" then "set" else "list",
      member := some { target := typeReferenceByName ns fd.ts.items } }

/-- smithy/export_smithy.go:441-460 `mapTypeReference`. -/
def mapTypeReference (m : Model) (ns : String) (shapes : GoMap Shape) (pre : String) (fd : StructFieldDef) :
    Out (GoMap Shape × String) :=
  fieldShape m ns shapes pre fd
    { type := "map", key := some { target := typeReferenceByName ns fd.ts.keys },
      value := some { target := typeReferenceByName ns fd.ts.items } }

/-- smithy/export_smithy.go:462-480 `enumTypeReference`. -/
def enumTypeReference (m : Model) (ns : String) (shapes : GoMap Shape) (pre : String) (fd : StructFieldDef) :
    Out (GoMap Shape × String) :=
  fieldShape m ns shapes pre fd
    (({ type := "string", member := some { target := typeReferenceByName ns fd.ts.items } } : Shape).put
      "smithy.api#enum" (enumTrait fd.ts))

/-- smithy/export_smithy.go:599-607: the type of a field, which may add a shape. -/
def fieldTarget (m : Model) (ns : String) (shapes : GoMap Shape) (tname : String) (fd : StructFieldDef) :
    Out (GoMap Shape × String) :=
  let ftype := typeReferenceByName ns fd.ts.type
  if ftype = "List" then listTypeReference m ns shapes tname fd
  else if ftype = "Map" then mapTypeReference m ns shapes tname fd
  else if ftype = "Enum" then enumTypeReference m ns shapes tname fd
  else .ok (shapes, ftype)

/-- smithy/export_smithy.go:597-615: the fields of a structure. -/
def structMembers (m : Model) (ns tname : String) :
    List StructFieldDef → GoMap Shape → GoMap Member → Out (GoMap Shape × GoMap Member)
  | [], shapes, ms => .ok (shapes, ms)
  | fd :: rest, shapes, ms => do
    let (shapes, target) ← fieldTarget m ns shapes tname fd
    let mem : Member := { target := target }
    let mem := if fd.required then mem.put "smithy.api#required" (.bool true) else mem
    structMembers m ns tname rest shapes (mset ms fd.name mem)

/-- smithy/export_smithy.go:593-618 `shapeFromStruct`. -/
def shapeFromStruct (m : Model) (ns : String) (shapes : GoMap Shape) (tname : String) (ts : TypeSpec) :
    Out (GoMap Shape × Shape) := do
  let (shapes, ms) ← structMembers m ns tname ts.fields shapes []
  .ok (shapes, { type := "structure", members := ms })

/-- smithy/export_smithy.go:535-545: the trait for a deprecation. -/
def deprecatedTrait (v : String) : Value :=
  match splitFirst '|' v.toList with
  | some (a, b) => .obj [("since", .str (String.ofList a)), ("message", .str (String.ofList b))]
  | none => .obj [("message", .str v)]

/-- smithy/export_smithy.go:530-548: the traits for the annotations of a type. -/
def annotationTraits : GoMap String → Shape → Shape
  | [], s => s
  | (k, v) :: rest, s =>
    annotationTraits rest
      (if k = "x_tags" then s.put "smithy.api#tags" (splitTags v)
       else if k = "x_sensitive" then s.put "smithy.api#sensitive" (.bool true)
       else if k = "x_deprecated" ∧ v ≠ "" then s.put "smithy.api#deprecated" (deprecatedTrait v)
       else s)

/-- The types that a type definition can be based on: smithy/export_smithy.go:506-521. -/
def numberTypes : List String := ["Int8", "Int16", "Int32", "Int64", "Float32", "Float64", "Decimal"]

/-- smithy/export_smithy.go:505-525: the shape for a type specification. -/
def shapeFromTypeSpec (m : Model) (ns : String) (shapes : GoMap Shape) (td : TypeDef) : Out (GoMap Shape × Shape) :=
  let ts := td.ts
  if ts.type ∈ numberTypes then .ok (shapes, shapeFromNumber ts)
  else if ts.type = "String" then .ok (shapes, shapeFromString ts)
  else if ts.type = "Enum" then .ok (shapes, shapeFromEnum ts)
  else if ts.type = "Struct" then shapeFromStruct m ns shapes td.name ts
  else if ts.type = "Array" then .ok (shapes, shapeFromArray ns ts td.annotations)
  else if ts.type = "Union" then .ok (shapes, shapeFromUnion ns ts)
  else if ts.type = "Map" then .ok (shapes, shapeFromMap ns ts)
  else if ts.type = "UUID" then .ok (shapes, uuidShape)
  else .panic "handle this type"

/-- smithy/export_smithy.go:503-553 `defineShapeFromTypeSpec`. -/
def defineShapeFromTypeSpec (m : Model) (ns : String) (shapes : GoMap Shape) (td : TypeDef) : Out (GoMap Shape) := do
  let (shapes, shape) ← shapeFromTypeSpec m ns shapes td
  let shape := if td.comment ≠ "" then shape.put "smithy.api#documentation" (.str td.comment) else shape
  .ok (mset shapes (ns ++ "#" ++ td.name) (annotationTraits td.annotations shape))

/-- smithy/export_smithy.go:97-102: the loop over the types. -/
def defineShapes (m : Model) (ns : String) : List TypeDef → GoMap Shape → Out (GoMap Shape)
  | [], shapes => .ok shapes
  | td :: rest, shapes => do defineShapes m ns rest (← defineShapeFromTypeSpec m ns shapes td)

/-- smithy/export_smithy.go:12-13 and 16-19: the suffixes of the names of input and output
structures. -/
structure Suffixes where
  input : String := "Request"
  output : String := "Response"

/-- smithy/export_smithy.go:153-166: the member for an input of an action. -/
def inputMember (ns : String) (p : HttpParamSpec) : Member :=
  let mem : Member := { target := typeReferenceByName ns p.field.ts.type }
  if p.path then (mem.put "smithy.api#httpLabel" (.bool true)).put "smithy.api#required" (.bool true)
  else if p.query ≠ "" then mem.put "smithy.api#httpQuery" (.str p.query)
  else if p.header ≠ "" then mem.put "smithy.api#httpHeader" (.str p.header)
  else mem.put "smithy.api#httpPayload" (.bool true)

/-- smithy/export_smithy.go:181-189: the member for an output of an action. -/
def outputMember (ns : String) (p : HttpParamSpec) : Member :=
  let mem : Member := { target := typeReferenceByName ns p.field.ts.type }
  if p.header ≠ "" then mem.put "smithy.api#httpHeader" (.str p.header)
  else mem.put "smithy.api#httpPayload" (.bool true)

/-- The members for a list of parameters: smithy/export_smithy.go:152-168 and 180-190. -/
def paramMembers (f : HttpParamSpec → Member) : List HttpParamSpec → GoMap Member → GoMap Member
  | [], ms => ms
  | p :: rest, ms => paramMembers f rest (mset ms p.field.name (f p))

/-- `strings.ToLower` on ASCII text; method names are ASCII. -/
def lowerAscii (s : String) : String := String.ofList (s.toList.map Char.toLower)

/-- smithy/export_smithy.go:114-122: the name of the shape for an action (`capitalize` of lines
482-487 is the function of misc.go). -/
def actionName (h : HttpDef) : String :=
  if capitalize h.name = "" then capitalize (lowerAscii h.method) ++ "Something" else capitalize h.name

/-- smithy/export_smithy.go:110-117: the path of an action. -/
def actionUri (base : String) (h : HttpDef) : String :=
  let path := if base ≠ "" then base ++ h.path else h.path
  match splitFirst '?' path.toList with
  | some (a, _) => String.ofList a
  | none => path

/-- smithy/export_smithy.go:125-146: the operation shape with its traits. -/
def actionShape (base : String) (h : HttpDef) : Out Shape := do
  let code := match h.expected with
    | some e => e.status
    | none => 200
  let shape : Shape := { type := "operation" }
  let shape := shape.put "smithy.api#documentation" (.str h.comment)
  let shape := shape.put "smithy.api#http" (httpTrait (actionUri base h) h.method code)
  let shape := match mget h.annotations "x_tags" with
    | some tags => shape.put "smithy.api#tags" (splitTags tags)
    | none => shape
  let shape ← match mget h.annotations "x_paginated" with
    | some pagi => do .ok (shape.put "smithy.api#paginated" (← paginatedTrait pagi))
    | none => .ok shape
  .ok (if h.method = "GET" then shape.put "smithy.api#readonly" (.bool true)
    else if h.method = "PUT" ∨ h.method = "DELETE" then shape.put "smithy.api#idempotent" (.bool true)
    else shape)

/-- smithy/export_smithy.go:214-223: what an exception adds to the shape of its type. -/
def markError (x : HttpExceptionSpec) (s : Shape) : Shape :=
  let s := (s.put "smithy.api#httpError" (.int x.status)).put "smithy.api#error" (.str (httpErrorCategory x.status))
  match s.members with
  | [(k, mem)] => { s with members := [(k, mem.put "smithy.api#httpPayload" (.bool true))] }
  | _ => s

/-- smithy/export_smithy.go:195-228: the exceptions of an action. -/
def actionErrors (ns : String) : List HttpExceptionSpec → GoMap Shape → Out (GoMap Shape)
  | [], shapes => .ok shapes
  | x :: rest, shapes =>
    match mget shapes (ns ++ "#" ++ x.type) with
    | some s => actionErrors ns rest (mset shapes (ns ++ "#" ++ x.type) (markError x s))
    | none => .err ("Cannot find shape for error declaration type " ++ x.type)

/-- smithy/export_smithy.go:105-234: an action.  An action without an expected response is a nil
dereference (line 172). -/
def exportAction (suf : Suffixes) (ns base : String) (h : HttpDef) (shapes : GoMap Shape) : Out (GoMap Shape) := do
  let name := ns ++ "#" ++ actionName h
  let shape ← actionShape base h
  let (shape, shapes) :=
    if h.inputs ≠ [] then
      ({ shape with input := some (name ++ suf.input) },
       mset shapes (name ++ suf.input)
         (({ type := "structure", members := paramMembers (inputMember ns) h.inputs [] } : Shape).put
           "smithy.api#input" (.bool true)))
    else (shape, shapes)
  match h.expected with
  | none => .panic "nil dereference"
  | some e => do
    let (shape, shapes) :=
      if e.outputs ≠ [] then
        ({ shape with output := some (name ++ suf.output) },
         mset shapes (name ++ suf.output)
           (({ type := "structure", members := paramMembers (outputMember ns) e.outputs [] } : Shape).put
             "smithy.api#output" (.bool true)))
      else (shape, shapes)
    let shapes ← actionErrors ns h.exceptions shapes
    .ok (mset shapes name { shape with errors := h.exceptions.map fun x => ns ++ "#" ++ x.type })

/-- smithy/export_smithy.go:105-234: the loop over the actions. -/
def exportActions (suf : Suffixes) (ns base : String) : List HttpDef → GoMap Shape → Out (GoMap Shape)
  | [], shapes => .ok shapes
  | h :: rest, shapes => do exportActions suf ns base rest (← exportAction suf ns base h shapes)

/-- The members for the inputs or outputs of an operation: smithy/export_smithy.go:247-252 and
262-267. -/
def plainMembers (ns : String) : List (String × String) → GoMap Member → GoMap Member
  | [], ms => ms
  | (name, type) :: rest, ms => plainMembers ns rest (mset ms name { target := typeReferenceByName ns type })

/-- smithy/export_smithy.go:235-282: an operation without HTTP binding.  Its exceptions are
ignored. -/
def exportOperation (suf : Suffixes) (ns : String) (od : OperationDef) (shapes : GoMap Shape) : GoMap Shape :=
  let name := ns ++ "#" ++ capitalize od.name
  let shape : Shape := { type := "operation" }
  let (shape, shapes) :=
    if od.inputs ≠ [] then
      ({ shape with input := some (name ++ suf.input) },
       mset shapes (name ++ suf.input)
         { type := "structure", members := plainMembers ns (od.inputs.map fun p => (p.name, p.ts.type)) [] })
    else (shape, shapes)
  let (shape, shapes) :=
    if od.outputs ≠ [] then
      ({ shape with output := some (name ++ suf.output) },
       mset shapes (name ++ suf.output)
         { type := "structure", members := plainMembers ns (od.outputs.map fun p => (p.name, p.ts.type)) [] })
    else (shape, shapes)
  mset shapes name (shape.put "smithy.api#documentation" (.str od.comment))

/-- smithy/export_smithy.go:235-282: the loop over the operations. -/
def exportOperations (suf : Suffixes) (ns : String) : List OperationDef → GoMap Shape → GoMap Shape
  | [], shapes => shapes
  | od :: rest, shapes => exportOperations suf ns rest (exportOperation suf ns od shapes)

/-- smithy/export_smithy.go:284-297: the service shape. -/
def serviceShape (s : Schema) (ops : List String) : Shape :=
  let service : Shape :=
    { type := "service", version := if s.version = "" then "0.0" else s.version, operations := ops }
  if s.comment ≠ "" then service.put "smithy.api#documentation" (.str s.comment) else service

/-- smithy/export_smithy.go:310-321: the request examples of an action by name. -/
def requestExamples (reqType : String) : List ExampleDef → GoMap (GoMap Value) → Out (GoMap (GoMap Value))
  | [], acc => .ok acc
  | ex :: rest, acc =>
    if ex.target = reqType then
      match ex.example with
      | .obj _ =>
        requestExamples reqType rest (mset acc ex.name
          ([("input", ex.example)] ++ if ex.comment ≠ "" then [("documentation", .str ex.comment)] else []))
      | _ => .panic "interface conversion"
    else requestExamples reqType rest acc

/-- smithy/export_smithy.go:322-341: the responses added to the request examples. -/
def responseExamples (reqType resType : String) (excs : List HttpExceptionSpec) :
    List ExampleDef → GoMap (GoMap Value) → Out (GoMap (GoMap Value))
  | [], acc => .ok acc
  | ex :: rest, acc =>
    if ex.target = reqType then responseExamples reqType resType excs rest acc
    else match mget acc ex.name with
      | none => responseExamples reqType resType excs rest acc
      | some d =>
        if ex.target = resType then
          match ex.example with
          | .obj _ => responseExamples reqType resType excs rest (mset acc ex.name (mset d "output" ex.example))
          | _ => .panic "interface conversion"
        else if excs.any (fun x => x.type == ex.target) then
          match ex.example with
          | .obj _ => responseExamples reqType resType excs rest (mset acc ex.name
              (mset d "error" (.obj [("error", ex.example), ("shapeId", .str ex.target)])))
          | _ => .panic "interface conversion"
        else responseExamples reqType resType excs rest acc

/-- smithy/export_smithy.go:305-347 `sadlExamplesForAction`; `order` enumerates a Go map. -/
def sadlExamplesForAction (order : GoMap (GoMap Value) → GoMap (GoMap Value)) (s : Schema) (h : HttpDef) :
    Out (List Value) := do
  let opName := capitalize h.name
  let named ← requestExamples (opName ++ "Request") s.examples []
  let named ← responseExamples (opName ++ "Request") (opName ++ "Response") h.exceptions s.examples named
  .ok ((order named).map fun kv => .obj (mset kv.2 "title" (.str kv.1)))

/-- smithy/export_smithy.go:349-364 `examplesFromSADL`.  Simplified: the trait holds a
`[]map[string]interface{}`, which is what a reader of the written AST sees as an array of objects;
the model stores that array. -/
def examplesFromSADL (order : GoMap (GoMap Value) → GoMap (GoMap Value)) (ns : String) (s : Schema) :
    List HttpDef → GoMap Shape → Out (GoMap Shape)
  | [], shapes => .ok shapes
  | h :: rest, shapes => do
    let name := if ns ≠ "" then ns ++ "#" ++ capitalize h.name else capitalize h.name
    let examples ← sadlExamplesForAction order s h
    examplesFromSADL order ns s rest
      (match mget shapes name with
       | none => shapes
       | some shape => if examples ≠ [] then mset shapes name (shape.put "smithy.api#examples" (.arr examples)) else shapes)

/-- smithy/export_smithy.go:299-301: the examples. -/
def withExamples (order : GoMap (GoMap Value) → GoMap (GoMap Value)) (ns : String) (s : Schema) (shapes : GoMap Shape) :
    Out (GoMap Shape) :=
  if s.examples ≠ [] then examplesFromSADL order ns s s.http shapes else .ok shapes

/-- smithy/export_smithy.go:85-303 `FromSADL`. -/
def fromSadl (order : GoMap (GoMap Value) → GoMap (GoMap Value)) (suf : Suffixes) (m : Model) (ns : String) : Out Ast := do
  let s := m.schema
  let metadata := if s.base ≠ "" then [("base", Value.str s.base)] else []
  let shapes ← defineShapes m ns s.types []
  let shapes ← exportActions suf ns s.base s.http shapes
  let shapes := exportOperations suf ns s.operations shapes
  let ops := s.http.map (fun h => ns ++ "#" ++ actionName h) ++ s.operations.map (fun od => ns ++ "#" ++ capitalize od.name)
  let shapes := if ops ≠ [] then mset shapes (ns ++ "#" ++ capitalize s.name) (serviceShape s ops) else shapes
  let shapes ← withExamples order ns s shapes
  .ok { metadata := metadata, shapes := shapes }

/-- smithy/export_smithy.go:15-38 `Export`: the suffixes and the namespace. -/
def exportSmithy (order : GoMap (GoMap Value) → GoMap (GoMap Value)) (useInputOutput : Bool) (confNs : String) (m : Model) :
    Out Ast :=
  let suf : Suffixes := if useInputOutput then { input := "Input", output := "Output" } else {}
  let ns := if confNs ≠ "" then confNs else if m.schema.namespace ≠ "" then m.schema.namespace else "example"
  fromSadl order suf m ns

end Smithy
end Sadl
