import Verif.Model.Data
import Verif.Model.HttpTrace
import Verif.Model.OpenApiImport
/-
openapi/import_swagger.go: the import of a Swagger 2.0 document.

Simplifications: reading the file and decoding JSON or YAML are outside; the document is the
decoded value, where the order of the members of an object is the order in which the runtime
will enumerate the map built from it.  `externalDocs`, `termsOfService` and `contact`, which the
import does not read, are left out.
-/
namespace Sadl

/-- struct_helpers.go:101-106 `AsFloat64`. -/
def asFloat64 : Value → BigFloat
  | .float64 f => f
  | _ => .fin 0 0

/-- data.go:126-128 `GetString`, for one key. -/
def getString (v : Value) (key : String) : String := asString (dataGet v [key])

/-- data.go:146-148 `GetArray`, for one key: the nil slice is empty. -/
def getArray (v : Value) (key : String) : List Value := (asArray (dataGet v [key])).getD []

/-- data.go:159-161 `GetMap`, for one key: the nil map is empty. -/
def getMap (v : Value) (key : String) : GoMap Value := (asMap (dataGet v [key])).getD []

/-- openapi/import_swagger.go:243: the reference, in the place where OpenAPI 3 has it. -/
def v3Ref (r : String) : String :=
  String.ofList (replaceAll "#/definitions/".toList "#/components/schemas/".toList r.toList)

/-- openapi/import_swagger.go:222-228: the values of an enumeration; the ones that are not
strings become empty. -/
def v3Enum (v : Value) : Option (List Value) :=
  match dataGetStringArray v ["enum"] with
  | [] => none
  | xs => some (xs.map .str)

/-- openapi/import_swagger.go:198-201, 210-247: a schema that is neither an object nor an array.
`wild` is the result of converting a number outside of the range of int64. -/
def v3Simple (wild : Int) (v : Value) : Out OSchema :=
  let type := getString v "type"
  let s : OSchema := { description := getString v "description", type := type
                       required := dataGetStringArray v ["required"] }
  if type = "string" then
    .ok { s with format := getString v "format", pattern := getString v "pattern"
                 maxLength := if dataHas v ["maxLength"] then some (toUint64 (asInt64 wild (dataGet v ["maxLength"]))) else none
                 minLength := if dataHas v ["minLength"] then toUint64 (asInt64 wild (dataGet v ["minLength"])) else 0
                 enum := if dataHas v ["enum"] then v3Enum v else none }
  else if type = "integer" ∨ type = "number" then
    .ok { s with format := getString v "format"
                 min := if dataHas v ["min"] then some (asFloat64 (dataGet v ["min"])) else none
                 max := if dataHas v ["max"] then some (asFloat64 (dataGet v ["max"])) else none }
  else if type = "boolean" then .ok s
  else if dataHas v ["$ref"] then .ok { s with ref := v3Ref (getString v "$ref") }
  else .panic "fix this schema"

mutual
/-- openapi/import_swagger.go:192-250 `toV3Schema`. -/
def toV3Schema (wild : Int) : Value → Out OSchema
  | .str s => .ok { type := s }
  | .obj kvs =>
    let v : Value := .obj kvs
    let type := getString v "type"
    let s : OSchema := { description := getString v "description", type := type
                         required := dataGetStringArray v ["required"] }
    if type = "object" then (v3PropertiesAt wild kvs).bind fun ps => .ok { s with properties := some ps }
    else if type = "array" then (v3ItemsAt wild kvs).bind fun i => .ok { s with items := some i }
    else v3Simple wild v
  | v => v3Simple wild v

/-- openapi/import_swagger.go:209: the member `items`, which may be missing. -/
def v3ItemsAt (wild : Int) : List (String × Value) → Out OSchema
  | [] => v3Simple wild .null
  | kv :: rest => if kv.1 = "items" then v3Member wild kv else v3ItemsAt wild rest

/-- openapi/import_swagger.go:205: the member `properties`, which may be missing. -/
def v3PropertiesAt (wild : Int) : List (String × Value) → Out (List (String × OSchema))
  | [] => .ok []
  | kv :: rest => if kv.1 = "properties" then v3PropertiesOf wild kv else v3PropertiesAt wild rest

/-- openapi/import_swagger.go:205: its members, if it is an object. -/
def v3PropertiesOf (wild : Int) : String × Value → Out (List (String × OSchema))
  | (_, .obj ps) => v3Properties wild ps
  | _ => .ok []

/-- openapi/import_swagger.go:205-207: the loop over the properties. -/
def v3Properties (wild : Int) : List (String × Value) → Out (List (String × OSchema))
  | [] => .ok []
  | kv :: rest => (v3Member wild kv).bind fun s => (v3Properties wild rest).bind fun ss => .ok ((kv.1, s) :: ss)

/-- openapi/import_swagger.go:206, 209: the schema of a member. -/
def v3Member (wild : Int) : String × Value → Out OSchema
  | (_, v) => toV3Schema wild v
end

/-- openapi/import_swagger.go:164-179 `toV3Content`. -/
def toV3Content (wild : Int) (mediaTypes : List String) (v : Value) : Out (GoMap OMedia) :=
  match v with
  | .null => .ok []
  | v => (toV3Schema wild v).bind fun s =>
      .ok (mediaTypes.foldl (fun c mt => mset c mt ({ schema := some s } : OMedia)) [])

/-- openapi/import_swagger.go:149-162 `toV3Headers`. -/
def toV3Headers (v : GoMap Value) : GoMap OHeader :=
  v.map fun kv => (kv.1, { description := getString kv.2 "description", schema := some { type := getString kv.2 "type" } })

/-- openapi/import_swagger.go:141-147 `toV3Response`. -/
def toV3Response (wild : Int) (mediaTypes : List String) (v : Value) : Out OResponse :=
  (toV3Content wild mediaTypes (dataGet v ["schema"])).bind fun c =>
    .ok { description := getString v "description", headers := toV3Headers (getMap v "headers"), content := c }

/-- openapi/import_swagger.go:129-137: the loop over the responses. -/
def toV3Responses (wild : Int) (produces : List String) : GoMap Value → Out (GoMap OResponse)
  | [] => .ok []
  | (k, v) :: rest => (toV3Response wild produces v).bind fun r =>
      (toV3Responses wild produces rest).bind fun rs => .ok ((k, r) :: rs)

/-- openapi/import_swagger.go:110-121: a parameter that is not the body. -/
def toV3Param (wild : Int) (v : Value) : Out OParam :=
  let tp : Value := if getString v "type" = "" then dataGet v ["schema"] else .str (getString v "type")
  (toV3Schema wild tp).bind fun s =>
    .ok { «in» := getString v "in", name := getString v "name", required := asBool (dataGet v ["required"]), schema := some s }

/-- openapi/import_swagger.go:100-123: the loop over the parameters; the last body counts. -/
def toV3Params (wild : Int) (consumes : List String) : List Value → Option OBody → Out (List OParam × Option OBody)
  | [], body => .ok ([], body)
  | v :: rest, body =>
    if getString v "in" = "body" then
      (toV3Content wild consumes (dataGet v ["schema"])).bind fun c =>
        toV3Params wild consumes rest
          (some { description := getString v "description", required := asBool (dataGet v ["required"]), content := c })
    else (toV3Param wild v).bind fun p =>
      (toV3Params wild consumes rest body).bind fun (ps, b) => .ok (p :: ps, b)

/-- openapi/import_swagger.go:96-99, 125-128: the media types of an operation, or else the ones
of the document. -/
def orDefault (own defaults : List String) : List String := if own = [] then defaults else own

/-- openapi/import_swagger.go:85-139 `toV3Operation`. -/
def toV3Operation (wild : Int) (defConsumes defProduces : List String) (v : Value) : Out (Option OOperation) :=
  match v with
  | .null => .ok none
  | v =>
    (toV3Params wild (orDefault (dataGetStringArray v ["consumes"]) defConsumes) (getArray v "parameters") none).bind fun (ps, b) =>
    (toV3Responses wild (orDefault (dataGetStringArray v ["produces"]) defProduces) (getMap v "responses")).bind fun rs =>
    .ok (some { operationId := getString v "operationId", tags := dataGetStringArray v ["tags"]
                summary := getString v "summary", parameters := ps, requestBody := b, responses := rs })

/-- openapi/import_swagger.go:70-79: one path. -/
def toV3Path (wild : Int) (defConsumes defProduces : List String) (v : Value) : Out OPathItem :=
  let op (k : String) := toV3Operation wild defConsumes defProduces (dataGet v [k])
  (op "get").bind fun get => (op "delete").bind fun delete => (op "put").bind fun put =>
  (op "post").bind fun post => (op "patch").bind fun patch => (op "head").bind fun head =>
  .ok { get := get, delete := delete, put := put, post := post, patch := patch, head := head }

/-- openapi/import_swagger.go:67-83 `toV3Paths`. -/
def toV3Paths (wild : Int) (defConsumes defProduces : List String) : GoMap Value → Out (GoMap OPathItem)
  | [] => .ok []
  | (k, v) :: rest => (toV3Path wild defConsumes defProduces v).bind fun pi =>
      (toV3Paths wild defConsumes defProduces rest).bind fun pis => .ok ((k, pi) :: pis)

/-- openapi/import_swagger.go:181-190 `toV3Components`: the loop over the definitions. -/
def toV3Definitions (wild : Int) : GoMap Value → Out (GoMap OSchema)
  | [] => .ok []
  | (k, v) :: rest => (toV3Schema wild v).bind fun s =>
      (toV3Definitions wild rest).bind fun ss => .ok ((k, s) :: ss)

/-- openapi/import_swagger.go:252-262 `toV3Servers`. -/
def toV3Servers (v : Value) : List String :=
  if dataHas v ["host"] then ["https://" ++ getString v "host" ++ getString v "basePath"] else []

/-- openapi/import_swagger.go:37-58 `toV3`, 264-273 `toV3Info`, 283-288 `toV3License`. -/
def toV3 (wild : Int) (v : Value) : Out ODoc :=
  if getString v "swagger" = "2.0" then
    let info := dataGet v ["info"]
    (toV3Definitions wild (getMap v "definitions")).bind fun schemas =>
    (toV3Paths wild (dataGetStringArray v ["consumes"]) (dataGetStringArray v ["produces"]) (getMap v "paths")).bind fun paths =>
    .ok { openapi := "3.0.0", title := getString info "title", description := getString info "description"
          version := getString info "version"
          license := some (getString (dataGet info ["license"]) "name", getString (dataGet info ["license"]) "url")
          servers := toV3Servers v, paths := paths, schemas := schemas }
  else .err "Not valid Swagger file"

/-- openapi/import_swagger.go:296-300: `name[n+1:]` for the last index n of `c` in the name; the name itself when there is none. -/
def afterLast (c : Char) (s : List Char) : List Char := (s.reverse.takeWhile (· ≠ c)).reverse

/-- openapi/import_swagger.go:301-304: `name[:n]` for the last index n of `c` in the name; `none` when there is none. -/
def beforeLast (c : Char) (s : List Char) : Option (List Char) :=
  match s.reverse.dropWhile (· ≠ c) with
  | [] => none
  | _ :: r => some r.reverse

/-- openapi/import_swagger.go:294-307 `ImportSwagger`: the name of the model, from the path. -/
def swaggerName (path : String) : String :=
  let name := afterLast '/' path.toList
  let name := match beforeLast '.' name with
    | none => name
    | some n => n.map fun c => if c = '.' then '_' else c
  String.ofList (name.map fun c => if c = '-' then '_' else c)

/-- openapi/import_swagger.go:290-318 `ImportSwagger`, of the decoded document. -/
def importSwagger (wild : Int) (path : String) (v : Value) : Out Model :=
  (toV3 wild v).bind fun d => toSadl d (swaggerName path)

end Sadl
