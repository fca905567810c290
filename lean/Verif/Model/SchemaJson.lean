import Verif.Model.Json
import Verif.Model.Model
import Verif.Model.Literal
/-
A model printed as JSON (`sadl -g json`) and loaded again: encoding/json on the structures of
schema.go, and `LoadModel`.

Simplifications: the names of members are compared exactly (encoding/json falls back to
comparing them without case); of several members with the same name the last one counts; an
element of a list that is `null` (a nil pointer in Go) is an error here; the result of reading
does not keep what was decoded before an error.
-/
namespace Sadl

abbrev JMembers := List (String × JDoc)

/-! ### Writing -/

/-- A field without `omitempty`. -/
def jStr (k s : String) : JMembers := [(k, .str s)]

/-- A text with `omitempty`. -/
def jOptStr (k s : String) : JMembers := if s = "" then [] else [(k, .str s)]

/-- A slice with `omitempty`. -/
def jOptArr (k : String) (ds : List JDoc) : JMembers := if ds.isEmpty then [] else [(k, .arr ds)]

/-- A boolean with `omitempty`. -/
def jOptBool (k : String) (b : Bool) : JMembers := if b then [(k, .bool true)] else []

/-- A number without `omitempty`. -/
def jInt32 (k : String) (n : Int) : JMembers := [(k, .num (showInt n))]

/-- A pointer to a number with `omitempty`: left out only if it is nil. -/
def jOptInt (k : String) : Option Int → JMembers
  | none => []
  | some n => [(k, .num (showInt n))]

/-- A `*Decimal` with `omitempty` (decimal.go:16-19): encoding/json rejects a text that is not a
number.  The option `string` of the fields has no effect on a structure. -/
def jOptDec (L : JLib) (k : String) : Option BigFloat → Option JMembers
  | none => some []
  | some d =>
    let t := (L.showDecimal d).toList
    if jIsNumber t then some [(k, .num t)] else none

/-- An `interface{}` with `omitempty`: left out only if it is nil. -/
def jOptVal (L : JLib) (k : String) : Value → Option JMembers
  | .null => some []
  | v => (jEncode L v).map fun d => [(k, d)]

/-- The `annotations` of every structure: a map with `omitempty`, written in the order of the keys. -/
def jAnnotations (m : GoMap String) : JMembers :=
  if m.isEmpty then [] else [("annotations", .obj (jSort (m.map fun p => (p.1, .str p.2))))]

/-- schema.go:64-68 `EnumElementDef`. -/
def elementDoc (e : EnumElementDef) : JDoc :=
  .obj (jStr "symbol" e.symbol ++ jOptStr "comment" e.comment ++ jAnnotations e.annotations)

mutual
/-- schema.go:39-55 `TypeSpec`: the members it contributes to the structure it is embedded in. -/
def specMembers (L : JLib) : TypeSpec → Option JMembers
  | ⟨type, pattern, values, minSize, maxSize, fields, elements, min, max, items, keys, variants, unit, value, reference⟩ =>
    (fieldDocs L fields).bind fun fs =>
    (jOptDec L "min" min).bind fun mn =>
    (jOptDec L "max" max).bind fun mx =>
    (variantDocs L variants).map fun vs =>
    jStr "type" type ++ jOptStr "pattern" pattern ++ jOptArr "values" ((values.getD []).map .str) ++
      jOptInt "minSize" minSize ++ jOptInt "maxSize" maxSize ++ jOptArr "fields" fs ++
      jOptArr "elements" (elements.map elementDoc) ++ mn ++ mx ++ jOptStr "items" items ++ jOptStr "keys" keys ++
      jOptArr "variants" vs ++ jOptStr "unit" unit ++ jOptStr "value" value ++ jOptStr "reference" reference
/-- schema.go:70-77 `StructFieldDef`. -/
def fieldMembers (L : JLib) : StructFieldDef → Option JMembers
  | ⟨name, comment, annotations, required, default, ts⟩ =>
    (jOptVal L "default" default).bind fun df =>
    (specMembers L ts).map fun sp =>
    jStr "name" name ++ jOptStr "comment" comment ++ jAnnotations annotations ++ jOptBool "required" required ++ df ++ sp
/-- schema.go:45: the fields of a structure. -/
def fieldDocs (L : JLib) : List StructFieldDef → Option (List JDoc)
  | [] => some []
  | f :: r => (fieldMembers L f).bind fun d => (fieldDocs L r).map fun ds => .obj d :: ds
/-- schema.go:79-84 `UnionVariantDef`. -/
def variantMembers (L : JLib) : UnionVariantDef → Option JMembers
  | ⟨name, comment, annotations, ts⟩ =>
    (specMembers L ts).map fun sp => jStr "name" name ++ jOptStr "comment" comment ++ jAnnotations annotations ++ sp
/-- schema.go:51: the variants of a union. -/
def variantDocs (L : JLib) : List UnionVariantDef → Option (List JDoc)
  | [] => some []
  | v :: r => (variantMembers L v).bind fun d => (variantDocs L r).map fun ds => .obj d :: ds
end

/-- The elements of a slice, in order; the first error ends it. -/
def docsOf {α : Type} (f : α → Option JMembers) : List α → Option (List JDoc)
  | [] => some []
  | x :: r => (f x).bind fun d => (docsOf f r).map fun ds => .obj d :: ds

/-- schema.go:57-62 `TypeDef`. -/
def typeMembers (L : JLib) (t : TypeDef) : Option JMembers :=
  (specMembers L t.ts).map fun sp =>
    jStr "name" t.name ++ jOptStr "comment" t.comment ++ jAnnotations t.annotations ++ sp

/-- schema.go:86-92 `ExampleDef`. -/
def exampleMembers (L : JLib) (e : ExampleDef) : Option JMembers :=
  (jOptVal L "example" e.example).map fun x =>
    jStr "target" e.target ++ jOptStr "name" e.name ++ x ++ jOptStr "comment" e.comment ++ jAnnotations e.annotations

/-- schema.go:107-112 `OperationOutput`. -/
def outputMembers (L : JLib) (o : OperationOutput) : Option JMembers :=
  (specMembers L o.ts).map fun sp =>
    jStr "name" o.name ++ jOptStr "comment" o.comment ++ jAnnotations o.annotations ++ sp

/-- schema.go:94-105 `OperationDef`, `OperationInput`. -/
def operationMembers (L : JLib) (o : OperationDef) : Option JMembers :=
  (docsOf (fieldMembers L) o.inputs).bind fun ins =>
  (docsOf (outputMembers L) o.outputs).map fun outs =>
    jOptStr "name" o.name ++ jOptStr "comment" o.comment ++ jAnnotations o.annotations ++ jOptArr "inputs" ins ++
      jOptArr "outputs" outs ++ jOptArr "exceptions" (o.exceptions.map .str)

/-- schema.go:126-131 `HttpParamSpec`. -/
def paramMembers (L : JLib) (p : HttpParamSpec) : Option JMembers :=
  (fieldMembers L p.field).map fun f =>
    jOptStr "header" p.header ++ jOptStr "query" p.query ++ jOptBool "path" p.path ++ f

/-- schema.go:133-138 `HttpExpectedSpec`. -/
def expectedMembers (L : JLib) (e : HttpExpectedSpec) : Option JMembers :=
  (docsOf (paramMembers L) e.outputs).map fun outs =>
    jOptArr "outputs" outs ++ jInt32 "status" e.status ++ jOptStr "comment" e.comment ++ jAnnotations e.annotations

/-- A pointer to a structure with `omitempty`. -/
def jOptExpected (L : JLib) : Option HttpExpectedSpec → Option JMembers
  | none => some []
  | some e => (expectedMembers L e).map fun d => [("expected", .obj d)]

/-- schema.go:140-145 `HttpExceptionSpec`. -/
def exceptionMembers (e : HttpExceptionSpec) : JMembers :=
  jStr "type" e.type ++ jInt32 "status" e.status ++ jOptStr "comment" e.comment ++ jAnnotations e.annotations

/-- schema.go:114-124 `HttpDef`. -/
def httpMembers (L : JLib) (h : HttpDef) : Option JMembers :=
  (docsOf (paramMembers L) h.inputs).bind fun ins =>
  (jOptExpected L h.expected).map fun ex =>
    jOptStr "name" h.name ++ jOptStr "resource" h.resource ++ jOptStr "comment" h.comment ++
      jAnnotations h.annotations ++ jStr "method" h.method ++ jStr "path" h.path ++ jOptArr "inputs" ins ++ ex ++
      jOptArr "exceptions" (h.exceptions.map fun e => .obj (exceptionMembers e))

/-- schema.go:25-37 `Schema`, which is embedded in `Model` (model.go:12-17); a model without
extensions has no other member. -/
def schemaMembers (L : JLib) (s : Schema) : Option JMembers :=
  (docsOf (typeMembers L) s.types).bind fun ts =>
  (docsOf (exampleMembers L) s.examples).bind fun xs =>
  (docsOf (operationMembers L) s.operations).bind fun os =>
  (docsOf (httpMembers L) s.http).map fun hs =>
    jStr "sadl" s.sadl ++ jStr "name" s.name ++ jOptStr "namespace" s.namespace ++ jOptStr "version" s.version ++
      jOptStr "comment" s.comment ++ jOptArr "types" ts ++ jOptArr "examples" xs ++ jOptArr "operations" os ++
      jOptArr "http" hs ++ jOptStr "base" s.base ++ jAnnotations s.annotations

/-- cmd/sadl/export.go:28-30, misc.go:94-103: the text printed for a model; `none` if it cannot be
encoded, in which case `fmt.Sprint` of the Go structure is printed instead. -/
def modelText (L : JLib) (m : Model) : Option String :=
  (schemaMembers L m.schema).map fun d => String.ofList (jPretty false 0 (.obj d) ++ ['\n'])

/-! ### Reading -/

/-- The value of a member. -/
def jLook (k : String) : JMembers → Option JDoc
  | [] => none
  | (k', d) :: r =>
    match jLook k r with
    | some x => some x
    | none => if k' = k then some d else none

/-- A field of type string. -/
def readStr (k : String) (m : JMembers) : Option String :=
  match jLook k m with
  | none | some .null => some ""
  | some (.str s) => some s
  | _ => none

/-- A field of type bool. -/
def readBool (k : String) (m : JMembers) : Option Bool :=
  match jLook k m with
  | none | some .null => some false
  | some (.bool b) => some b
  | _ => none

/-- A field that points to an integer of so many bits. -/
def readInt (bits : Nat) (k : String) (m : JMembers) : Option (Option Int) :=
  match jLook k m with
  | none | some .null => some none
  | some (.num t) => (parseInt bits (String.ofList t)).map some
  | _ => none

/-- A field that points to a `Decimal` (decimal.go:21-29). -/
def readDec (lib : Lib) (k : String) (m : JMembers) : Option (Option BigFloat) :=
  match jLook k m with
  | none | some .null => some none
  | some (.num t) => (decimalUnmarshal lib t).map some
  | _ => none

/-- A field of type `interface{}`. -/
def readVal (L : JLib) (k : String) (m : JMembers) : Option Value :=
  match jLook k m with
  | none => some .null
  | some d => jDecode L d

/-- A text in a list. -/
def readJText : JDoc → Option String
  | .str s => some s
  | _ => none

/-- All elements of a list. -/
def readAll {α : Type} (f : JDoc → Option α) : List JDoc → Option (List α)
  | [] => some []
  | d :: r => (f d).bind fun x => (readAll f r).map (x :: ·)

/-- A field that is a slice; `none` inside is the nil slice. -/
def readSlice {α : Type} (f : JDoc → Option α) (k : String) (m : JMembers) : Option (Option (List α)) :=
  match jLook k m with
  | none | some .null => some none
  | some (.arr ds) => (readAll f ds).map some
  | _ => none

/-- A slice for which nil and empty are the same. -/
def readList {α : Type} (f : JDoc → Option α) (k : String) (m : JMembers) : Option (List α) :=
  (readSlice f k m).map fun o => o.getD []

/-- The entries of a map of texts. -/
def readEntries (acc : GoMap String) : JMembers → Option (GoMap String)
  | [] => some acc
  | (k, d) :: r => (readJText d).bind fun s => readEntries (mset acc k s) r

/-- The `annotations` of every structure. -/
def readAnnotations (m : JMembers) : Option (GoMap String) :=
  match jLook "annotations" m with
  | none | some .null => some []
  | some (.obj kvs) => readEntries [] kvs
  | _ => none

/-- A structure in a list. -/
def readObj {α : Type} (f : JMembers → Option α) : JDoc → Option α
  | .obj m => f m
  | _ => none

/-- schema.go:64-68 `EnumElementDef`. -/
def readElement (m : JMembers) : Option EnumElementDef :=
  (readStr "symbol" m).bind fun symbol =>
  (readStr "comment" m).bind fun comment =>
  (readAnnotations m).map fun annotations => { symbol, comment, annotations }

/-- schema.go:70-77 `StructFieldDef`, given how its `TypeSpec` is read. -/
def readField (L : JLib) (spec : JMembers → Option TypeSpec) (m : JMembers) : Option StructFieldDef :=
  (readStr "name" m).bind fun name =>
  (readStr "comment" m).bind fun comment =>
  (readAnnotations m).bind fun annotations =>
  (readBool "required" m).bind fun required =>
  (readVal L "default" m).bind fun default =>
  (spec m).map fun ts => { name, comment, annotations, required, default, ts }

/-- schema.go:79-84 `UnionVariantDef`, given how its `TypeSpec` is read. -/
def readVariant (spec : JMembers → Option TypeSpec) (m : JMembers) : Option UnionVariantDef :=
  (readStr "name" m).bind fun name =>
  (readStr "comment" m).bind fun comment =>
  (readAnnotations m).bind fun annotations =>
  (spec m).map fun ts => { name, comment, annotations, ts }

/-- schema.go:39-55 `TypeSpec`, given how the specifications inside it are read. -/
def readSpecWith (lib : Lib) (L : JLib) (spec : JMembers → Option TypeSpec) (m : JMembers) : Option TypeSpec :=
  (readStr "type" m).bind fun type =>
  (readStr "pattern" m).bind fun pattern =>
  (readSlice readJText "values" m).bind fun values =>
  (readInt 64 "minSize" m).bind fun minSize =>
  (readInt 64 "maxSize" m).bind fun maxSize =>
  (readList (readObj (readField L spec)) "fields" m).bind fun fields =>
  (readList (readObj readElement) "elements" m).bind fun elements =>
  (readDec lib "min" m).bind fun min =>
  (readDec lib "max" m).bind fun max =>
  (readStr "items" m).bind fun items =>
  (readStr "keys" m).bind fun keys =>
  (readList (readObj (readVariant spec)) "variants" m).bind fun variants =>
  (readStr "unit" m).bind fun unit =>
  (readStr "value" m).bind fun value =>
  (readStr "reference" m).map fun reference =>
  { type, pattern, values, minSize, maxSize, fields, elements, min, max, items, keys, variants, unit, value, reference }

/-- schema.go:39-55 `TypeSpec`.  The number bounds the nesting of type specifications. -/
def readSpec (lib : Lib) (L : JLib) : Nat → JMembers → Option TypeSpec
  | 0, _ => none
  | n + 1, m => readSpecWith lib L (readSpec lib L n) m

/-- A document holds type specifications nested less deep than the document itself, and no
document nested deeper than `jMaxDepth` is read at all. -/
def readTypeSpec (lib : Lib) (L : JLib) : JMembers → Option TypeSpec := readSpec lib L jMaxDepth

/-- schema.go:57-62 `TypeDef`. -/
def readType (lib : Lib) (L : JLib) (m : JMembers) : Option TypeDef :=
  (readStr "name" m).bind fun name =>
  (readStr "comment" m).bind fun comment =>
  (readAnnotations m).bind fun annotations =>
  (readTypeSpec lib L m).map fun ts => { name, comment, annotations, ts }

/-- schema.go:86-92 `ExampleDef`. -/
def readExample (L : JLib) (m : JMembers) : Option ExampleDef :=
  (readStr "target" m).bind fun target =>
  (readStr "name" m).bind fun name =>
  (readVal L "example" m).bind fun x =>
  (readStr "comment" m).bind fun comment =>
  (readAnnotations m).map fun annotations => { target, name, «example» := x, comment, annotations }

/-- schema.go:107-112 `OperationOutput`. -/
def readOutput (lib : Lib) (L : JLib) (m : JMembers) : Option OperationOutput :=
  (readStr "name" m).bind fun name =>
  (readStr "comment" m).bind fun comment =>
  (readAnnotations m).bind fun annotations =>
  (readTypeSpec lib L m).map fun ts => { name, comment, annotations, ts }

/-- schema.go:94-105 `OperationDef`, `OperationInput`. -/
def readOperation (lib : Lib) (L : JLib) (m : JMembers) : Option OperationDef :=
  (readStr "name" m).bind fun name =>
  (readStr "comment" m).bind fun comment =>
  (readAnnotations m).bind fun annotations =>
  (readList (readObj (readField L (readTypeSpec lib L))) "inputs" m).bind fun inputs =>
  (readList (readObj (readOutput lib L)) "outputs" m).bind fun outputs =>
  (readList readJText "exceptions" m).map fun exceptions =>
  { name, comment, annotations, inputs, outputs, exceptions }

/-- schema.go:126-131 `HttpParamSpec`. -/
def readParam (lib : Lib) (L : JLib) (m : JMembers) : Option HttpParamSpec :=
  (readStr "header" m).bind fun header =>
  (readStr "query" m).bind fun query =>
  (readBool "path" m).bind fun path =>
  (readField L (readTypeSpec lib L) m).map fun field => { header, query, path, field }

/-- schema.go:133-138 `HttpExpectedSpec`. -/
def readExpected (lib : Lib) (L : JLib) (m : JMembers) : Option HttpExpectedSpec :=
  (readList (readObj (readParam lib L)) "outputs" m).bind fun outputs =>
  (readInt 32 "status" m).bind fun status =>
  (readStr "comment" m).bind fun comment =>
  (readAnnotations m).map fun annotations => { outputs, status := status.getD 0, comment, annotations }

/-- A field that points to a `HttpExpectedSpec`. -/
def readOptExpected (lib : Lib) (L : JLib) (m : JMembers) : Option (Option HttpExpectedSpec) :=
  match jLook "expected" m with
  | none | some .null => some none
  | some d => (readObj (readExpected lib L) d).map some

/-- schema.go:140-145 `HttpExceptionSpec`. -/
def readException (m : JMembers) : Option HttpExceptionSpec :=
  (readStr "type" m).bind fun type =>
  (readInt 32 "status" m).bind fun status =>
  (readStr "comment" m).bind fun comment =>
  (readAnnotations m).map fun annotations => { type, status := status.getD 0, comment, annotations }

/-- schema.go:114-124 `HttpDef`. -/
def readHttp (lib : Lib) (L : JLib) (m : JMembers) : Option HttpDef :=
  (readStr "name" m).bind fun name =>
  (readStr "resource" m).bind fun resource =>
  (readStr "comment" m).bind fun comment =>
  (readAnnotations m).bind fun annotations =>
  (readStr "method" m).bind fun method =>
  (readStr "path" m).bind fun path =>
  (readList (readObj (readParam lib L)) "inputs" m).bind fun inputs =>
  (readOptExpected lib L m).bind fun expected =>
  (readList (readObj readException) "exceptions" m).map fun exceptions =>
  { name, resource, comment, annotations, method, path, inputs, expected, exceptions }

/-- schema.go:25-37 `Schema`. -/
def readSchema (lib : Lib) (L : JLib) (m : JMembers) : Option Schema :=
  (readStr "sadl" m).bind fun sadl =>
  (readStr "name" m).bind fun name =>
  (readStr "namespace" m).bind fun ns =>
  (readStr "version" m).bind fun version =>
  (readStr "comment" m).bind fun comment =>
  (readList (readObj (readType lib L)) "types" m).bind fun types =>
  (readList (readObj (readExample L)) "examples" m).bind fun examples =>
  (readList (readObj (readOperation lib L)) "operations" m).bind fun operations =>
  (readList (readObj (readHttp lib L)) "http" m).bind fun http =>
  (readStr "base" m).bind fun base =>
  (readAnnotations m).map fun annotations =>
  { sadl, name, «namespace» := ns, version, comment, types, examples, operations, http, base, annotations }

/-- parser.go:21-35 `LoadModel`, given the text of the file.  The document `null` leaves the
schema empty, and is refused by the next test. -/
def loadModel (lib : Lib) (L : JLib) (text : String) : Out Model :=
  match (jRead text.toList).bind (readObj (readSchema lib L)) with
  | none => .err "Cannot parse file"
  | some s => if s.sadl = "" then .err "Cannot load file" else newModel s

end Sadl
