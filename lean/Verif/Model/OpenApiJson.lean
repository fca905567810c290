import Verif.Model.SchemaJson
import Verif.Model.OpenApiFile
/-
An OpenAPI document printed as JSON (`sadl -g openapi`) and read again: encoding/json on the
structures of openapi/model.go, and `Load` of a file that is not YAML.

Simplifications: those of Model/SchemaJson.lean for reading; members that the model of the
document does not have (Model/OpenApi.lean) are not written, as the export leaves them empty, and
skipped when read; `additionalProperties`, an `interface{}` that nothing looks at after reading, is
skipped when read; an example, a schema or a response that is `null` is an error here.
-/
namespace Sadl

/-! ### Writing -/

/-- A pointer to a structure with `omitempty`. -/
def jOptObj {α : Type} (f : α → Option JMembers) (k : String) : Option α → Option JMembers
  | none => some []
  | some x => (f x).map fun d => [(k, .obj d)]

/-- A pointer to a float64 with `omitempty`; an infinite one is an error. -/
def jOptFloat (L : JLib) (k : String) : Option BigFloat → Option JMembers
  | none => some []
  | some (.inf _) => none
  | some f => some [(k, .num (L.showFloat f))]

/-- A uint64 with `omitempty`. -/
def jUint (k : String) (n : Nat) : JMembers := if n = 0 then [] else [(k, .num (showNat n))]

/-- A pointer to a uint64 with `omitempty`. -/
def jOptUint (k : String) : Option Nat → JMembers
  | none => []
  | some n => [(k, .num (showNat n))]

/-- A map with `omitempty`, written in the order of the keys. -/
def jOptMap (k : String) (ms : JMembers) : JMembers := if ms.isEmpty then [] else [(k, .obj (jSort ms))]

/-- The entries of a map of structures. -/
def mapDocs {α : Type} (f : α → Option JMembers) : List (String × α) → Option JMembers
  | [] => some []
  | (k, x) :: r => (f x).bind fun d => (mapDocs f r).map fun ds => (k, .obj d) :: ds

mutual
/-- openapi/model.go:232-281 `Schema`. -/
def oschemaMembers (L : JLib) : OSchema → Option JMembers
  | .mk ref type format description enum ex min max minLength maxLength pattern oneOf items required properties additional =>
    (oschemaDocs L oneOf).bind fun one =>
    (jEncodeItems L (enum.getD [])).bind fun en =>
    (jOptVal L "example" ex).bind fun x =>
    (jOptFloat L "minimum" min).bind fun mn =>
    (jOptFloat L "maximum" max).bind fun mx =>
    (oschemaOpt L "items" items).bind fun it =>
    (oschemaEntries L properties).bind fun ps =>
    (oschemaOpt L "additionalProperties" additional).map fun ad =>
    jOptStr "$ref" ref ++ jOptArr "oneOf" one ++ jOptStr "type" type ++ jOptStr "format" format ++
      jOptStr "description" description ++ jOptArr "enum" en ++ x ++ mn ++ mx ++ jUint "minLength" minLength ++
      jOptUint "maxLength" maxLength ++ jOptStr "pattern" pattern ++ it ++ jOptArr "required" (required.map .str) ++
      jOptMap "properties" ps ++ ad
/-- openapi/model.go:234: the alternatives. -/
def oschemaDocs (L : JLib) : List OSchema → Option (List JDoc)
  | [] => some []
  | s :: r => (oschemaMembers L s).bind fun d => (oschemaDocs L r).map fun ds => .obj d :: ds
/-- openapi/model.go:270, 277: a schema inside a schema. -/
def oschemaOpt (L : JLib) (k : String) : Option OSchema → Option JMembers
  | none => some []
  | some s => (oschemaMembers L s).map fun d => [(k, .obj d)]
/-- openapi/model.go:274: the properties. -/
def oschemaEntries (L : JLib) : Option (List (String × OSchema)) → Option JMembers
  | none => some []
  | some ps => oschemaProps L ps
/-- openapi/model.go:274: the properties. -/
def oschemaProps (L : JLib) : List (String × OSchema) → Option JMembers
  | [] => some []
  | p :: r => (oschemaProp L p).bind fun d => (oschemaProps L r).map fun ds => d :: ds
/-- openapi/model.go:274: a property. -/
def oschemaProp (L : JLib) : String × OSchema → Option (String × JDoc)
  | (k, s) => (oschemaMembers L s).map fun d => (k, .obj d)
end

/-- openapi/model.go:209-215 `Example`. -/
def oexampleMembers (L : JLib) (v : Value) : Option JMembers := jOptVal L "value" v

/-- openapi/model.go:201-207 `MediaType`. -/
def omediaMembers (L : JLib) (c : OMedia) : Option JMembers :=
  (jOptObj (oschemaMembers L) "schema" c.schema).bind fun s =>
  (jOptVal L "example" c.example).bind fun x =>
  (mapDocs (oexampleMembers L) c.examples).map fun xs => s ++ x ++ jOptMap "examples" xs

/-- openapi/model.go:165-180 `Parameter`. -/
def oparamMembers (L : JLib) (p : OParam) : Option JMembers :=
  (jOptObj (oschemaMembers L) "schema" p.schema).bind fun s =>
  (jOptVal L "example" p.example).bind fun x =>
  (mapDocs (oexampleMembers L) p.examples).map fun xs =>
    jOptStr "name" p.name ++ jOptStr "in" p.in ++ jOptStr "description" p.description ++ jOptBool "required" p.required ++
      s ++ x ++ jOptMap "examples" xs

/-- openapi/model.go:226-230 `Header`. -/
def oheaderMembers (L : JLib) (h : OHeader) : Option JMembers :=
  (jOptObj (oschemaMembers L) "schema" h.schema).map fun s => jOptStr "description" h.description ++ s

/-- openapi/model.go:182-188 `Response`. -/
def oresponseMembers (L : JLib) (r : OResponse) : Option JMembers :=
  (mapDocs (oheaderMembers L) r.headers).bind fun hs =>
  (mapDocs (omediaMembers L) r.content).map fun cs =>
    jOptStr "description" r.description ++ jOptMap "headers" hs ++ jOptMap "content" cs

/-- openapi/model.go:332-337 `RequestBody`. -/
def obodyMembers (L : JLib) (b : OBody) : Option JMembers :=
  (mapDocs (omediaMembers L) b.content).map fun cs =>
    jOptStr "description" b.description ++ jOptBool "required" b.required ++ jOptMap "content" cs

/-- openapi/model.go:150-163 `Operation`. -/
def ooperationMembers (L : JLib) (o : OOperation) : Option JMembers :=
  (docsOf (oparamMembers L) o.parameters).bind fun ps =>
  (jOptObj (obodyMembers L) "requestBody" o.requestBody).bind fun b =>
  (mapDocs (oresponseMembers L) o.responses).map fun rs =>
    jOptArr "tags" (o.tags.map .str) ++ jOptStr "summary" o.summary ++ jOptStr "operationId" o.operationId ++
      jOptArr "parameters" ps ++ b ++ jOptMap "responses" rs

/-- openapi/model.go:133-148 `PathItem`. -/
def opathMembers (L : JLib) (i : OPathItem) : Option JMembers :=
  (jOptObj (ooperationMembers L) "delete" i.delete).bind fun de =>
  (jOptObj (ooperationMembers L) "get" i.get).bind fun ge =>
  (jOptObj (ooperationMembers L) "head" i.head).bind fun he =>
  (jOptObj (ooperationMembers L) "patch" i.patch).bind fun pa =>
  (jOptObj (ooperationMembers L) "post" i.post).bind fun po =>
  (jOptObj (ooperationMembers L) "put" i.put).map fun pu => de ++ ge ++ he ++ pa ++ po ++ pu

/-- openapi/model.go:108-112 `License`. -/
def olicenseMembers (l : String × String) : Option JMembers := some (jOptStr "name" l.1 ++ jOptStr "url" l.2)

/-- openapi/model.go:91-99 `Info`. -/
def oinfoMembers (d : ODoc) : Option JMembers :=
  (jOptObj olicenseMembers "license" d.license).map fun l =>
    jOptStr "title" d.title ++ jOptStr "description" d.description ++ l ++ jOptStr "version" d.version

/-- openapi/model.go:395-418 `MarshalJSON`: a map, whose keys are sorted, in which `paths` and
`components` are always there (openapi/export_openapi.go:66, 76). -/
def odocMembers (L : JLib) (d : ODoc) : Option JMembers :=
  (mapDocs (oschemaMembers L) d.schemas).bind fun cs =>
  (oinfoMembers d).bind fun info =>
  (mapDocs (opathMembers L) d.paths).map fun ps =>
    [("components", .obj (jOptMap "schemas" cs)), ("info", .obj info), ("openapi", .str d.openapi), ("paths", .obj (jSort ps))] ++
      jOptArr "servers" (d.servers.map fun u => .obj (jOptStr "url" u))

/-- openapi/export_openapi.go:12-19, misc.go:94-103: the text printed for a document; `none` if it
cannot be encoded, in which case `fmt.Sprint` of the Go structure is printed instead.  As
`MarshalJSON` calls `json.Marshal`, the characters `<`, `>` and `&` are escaped. -/
def docText (L : JLib) (d : ODoc) : Option String :=
  (odocMembers L d).map fun ms => String.ofList (jPretty true 0 (.obj ms) ++ ['\n'])

/-! ### Reading -/

/-- A field that points to a structure. -/
def readOptObj {α : Type} (f : JMembers → Option α) (k : String) (m : JMembers) : Option (Option α) :=
  match jLook k m with
  | none | some .null => some none
  | some d => (readObj f d).map some

/-- A field that points to a float64. -/
def readFloat (L : JLib) (k : String) (m : JMembers) : Option (Option BigFloat) :=
  match jLook k m with
  | none | some .null => some none
  | some (.num t) => (L.parseFloat t).map some
  | _ => none

/-- strconv.ParseUint(text, 10, 64), of the text of a JSON number. -/
def parseUint (t : List Char) : Option Nat :=
  if t.head? = some '-' then none
  else (parseInt 65 (String.ofList t)).map Int.toNat

/-- A field that points to a uint64. -/
def readUint (k : String) (m : JMembers) : Option (Option Nat) :=
  match jLook k m with
  | none | some .null => some none
  | some (.num t) => (parseUint t).map some
  | _ => none

/-- The entries of a map of structures. -/
def readMapEntries {α : Type} (f : JMembers → Option α) (acc : GoMap α) : JMembers → Option (GoMap α)
  | [] => some acc
  | (k, d) :: r => (readObj f d).bind fun x => readMapEntries f (mset acc k x) r

/-- A field that is a map of structures; `none` inside is the nil map. -/
def readMap {α : Type} (f : JMembers → Option α) (k : String) (m : JMembers) : Option (Option (GoMap α)) :=
  match jLook k m with
  | none | some .null => some none
  | some (.obj kvs) => (readMapEntries f [] kvs).map some
  | _ => none

/-- A map for which nil and empty are the same. -/
def readMapD {α : Type} (f : JMembers → Option α) (k : String) (m : JMembers) : Option (GoMap α) :=
  (readMap f k m).map fun o => o.getD []

/-- openapi/model.go:232-281 `Schema`, given how the schemas inside it are read. -/
def readOSchemaWith (L : JLib) (sub : JMembers → Option OSchema) (m : JMembers) : Option OSchema :=
  (readStr "$ref" m).bind fun ref =>
  (readList (readObj sub) "oneOf" m).bind fun oneOf =>
  (readStr "type" m).bind fun type =>
  (readStr "format" m).bind fun format =>
  (readStr "description" m).bind fun description =>
  (readSlice (jDecode L) "enum" m).bind fun enum =>
  (readVal L "example" m).bind fun ex =>
  (readFloat L "minimum" m).bind fun min =>
  (readFloat L "maximum" m).bind fun max =>
  (readUint "minLength" m).bind fun minLength =>
  (readUint "maxLength" m).bind fun maxLength =>
  (readStr "pattern" m).bind fun pattern =>
  (readOptObj sub "items" m).bind fun items =>
  (readList readJText "required" m).bind fun required =>
  (readMap sub "properties" m).map fun properties =>
  { ref, type, format, description, enum, «example» := ex, min, max, minLength := minLength.getD 0, maxLength, pattern, oneOf, items,
    required, properties }

/-- openapi/model.go:232-281 `Schema`.  The number bounds the nesting of schemas. -/
def readOSchemaN (L : JLib) : Nat → JMembers → Option OSchema
  | 0, _ => none
  | n + 1, m => readOSchemaWith L (readOSchemaN L n) m

/-- A document holds schemas nested less deep than the document itself, and no document nested
deeper than `jMaxDepth` is read at all. -/
def readOSchema (L : JLib) : JMembers → Option OSchema := readOSchemaN L jMaxDepth

/-- openapi/model.go:209-215 `Example`. -/
def readOExample (L : JLib) (m : JMembers) : Option Value := readVal L "value" m

/-- openapi/model.go:201-207 `MediaType`. -/
def readOMedia (L : JLib) (m : JMembers) : Option OMedia :=
  (readOptObj (readOSchema L) "schema" m).bind fun schema =>
  (readVal L "example" m).bind fun ex =>
  (readMapD (readOExample L) "examples" m).map fun examples => { schema, «example» := ex, examples }

/-- openapi/model.go:165-180 `Parameter`. -/
def readOParam (L : JLib) (m : JMembers) : Option OParam :=
  (readStr "name" m).bind fun name =>
  (readStr "in" m).bind fun «in» =>
  (readStr "description" m).bind fun description =>
  (readBool "required" m).bind fun required =>
  (readOptObj (readOSchema L) "schema" m).bind fun schema =>
  (readVal L "example" m).bind fun ex =>
  (readMapD (readOExample L) "examples" m).map fun examples =>
  { name, «in», description, required, schema, «example» := ex, examples }

/-- openapi/model.go:226-230 `Header`. -/
def readOHeader (L : JLib) (m : JMembers) : Option OHeader :=
  (readStr "description" m).bind fun description =>
  (readOptObj (readOSchema L) "schema" m).map fun schema => { description, schema }

/-- openapi/model.go:182-188 `Response`. -/
def readOResponse (L : JLib) (m : JMembers) : Option OResponse :=
  (readStr "description" m).bind fun description =>
  (readMapD (readOHeader L) "headers" m).bind fun headers =>
  (readMapD (readOMedia L) "content" m).map fun content => { description, headers, content }

/-- openapi/model.go:332-337 `RequestBody`. -/
def readOBody (L : JLib) (m : JMembers) : Option OBody :=
  (readStr "description" m).bind fun description =>
  (readBool "required" m).bind fun required =>
  (readMapD (readOMedia L) "content" m).map fun content => { description, required, content }

/-- openapi/model.go:150-163 `Operation`. -/
def readOOperation (L : JLib) (m : JMembers) : Option OOperation :=
  (readList readJText "tags" m).bind fun tags =>
  (readStr "summary" m).bind fun summary =>
  (readStr "operationId" m).bind fun operationId =>
  (readList (readObj (readOParam L)) "parameters" m).bind fun parameters =>
  (readOptObj (readOBody L) "requestBody" m).bind fun requestBody =>
  (readMapD (readOResponse L) "responses" m).map fun responses =>
  { tags, summary, operationId, parameters, requestBody, responses }

/-- openapi/model.go:133-148 `PathItem`. -/
def readOPath (L : JLib) (m : JMembers) : Option OPathItem :=
  (readOptObj (readOOperation L) "delete" m).bind fun delete =>
  (readOptObj (readOOperation L) "get" m).bind fun get =>
  (readOptObj (readOOperation L) "head" m).bind fun head =>
  (readOptObj (readOOperation L) "patch" m).bind fun patch =>
  (readOptObj (readOOperation L) "post" m).bind fun post =>
  (readOptObj (readOOperation L) "put" m).map fun put => { delete, get, head, patch, post, put }

/-- openapi/model.go:108-112 `License`. -/
def readOLicense (m : JMembers) : Option (String × String) :=
  (readStr "name" m).bind fun name => (readStr "url" m).map fun url => (name, url)

/-- What is kept of `info` (openapi/model.go:91-99). -/
structure OInfo where
  title : String := ""
  description : String := ""
  version : String := ""
  license : Option (String × String) := none

/-- openapi/model.go:91-99 `Info`. -/
def readOInfo (m : JMembers) : Option OInfo :=
  (readStr "title" m).bind fun title =>
  (readStr "description" m).bind fun description =>
  (readStr "version" m).bind fun version =>
  (readOptObj readOLicense "license" m).map fun license => { title, description, version, license }

/-- The paths whose item is `null` (nil pointers in the map). -/
def nullKeys : JMembers → List String
  | [] => []
  | (k, .null) :: r => k :: nullKeys r
  | _ :: r => nullKeys r

/-- The members that are not `null`. -/
def nonNull : JMembers → JMembers
  | [] => []
  | (_, .null) :: r => nonNull r
  | p :: r => p :: nonNull r

/-- The map of paths, and the paths whose item is `null`; `none` inside if there is no map.  Of
several members for the same path all are kept, which no document printed by this program has. -/
def readOPaths (L : JLib) (m : JMembers) : Option (Option (GoMap OPathItem × List String)) :=
  match jLook "paths" m with
  | none | some .null => some none
  | some (.obj kvs) => (readMapEntries (readOPath L) [] (nonNull kvs)).map fun ps => some (ps, nullKeys kvs)
  | _ => none

/-- openapi/model.go:78-87 `Model`, 289-300 `Components`, 114-119 `Server`. -/
def readOFile (L : JLib) (m : JMembers) : Option OFile :=
  (readStr "openapi" m).bind fun openapi =>
  (readOptObj readOInfo "info" m).bind fun info =>
  (readList (readObj (readStr "url")) "servers" m).bind fun servers =>
  (readOPaths L m).bind fun paths =>
  (readOptObj (readMapD (readOSchema L) "schemas") "components" m).map fun components =>
  { doc := { openapi, title := (info.getD {}).title, description := (info.getD {}).description
             version := (info.getD {}).version, license := (info.getD {}).license, servers
             paths := (paths.getD ([], [])).1, schemas := components.getD [] }
    info := info.isSome, paths := paths.isSome, components := components.isSome, nullPaths := (paths.getD ([], [])).2 }

/-- openapi/import_openapi.go:23-39 `Load` of a file that is not YAML, before the document is
validated, given the text of the file.  The document `null` makes the pointer to the model nil,
which `Validate` (openapi/model.go:32-34) follows. -/
def loadOas (L : JLib) (text : String) : Out OFile :=
  match jRead text.toList with
  | none => .err "invalid JSON"
  | some .null => .panic "nil Model"
  | some d =>
    match readObj (readOFile L) d with
    | none => .err "cannot unmarshal"
    | some f => .ok f

end Sadl
