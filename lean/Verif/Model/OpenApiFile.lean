import Verif.Model.OpenApiImport
/-
openapi/import_openapi.go: the import of a file, and what is missing in documents.

Reading the file and decoding JSON and YAML are not modelled: `load` stands for them.
-/
namespace Sadl

/-- What a file decodes to: the document, and whether the objects `info`, `paths` and `components` are there (openapi/model.go:78-87:
pointers and a map, nil if they are not).  `nullPaths` are the paths whose item is `null`; they are not in the document. -/
structure OFile where
  doc : ODoc := {}
  info : Bool := true
  paths : Bool := true
  components : Bool := true
  nullPaths : List String := []

/-- openapi/model.go:32-76 `Validate`, `ValidateInfo`, `ValidatePaths`, of a document that may be incomplete. -/
def validateFile (f : OFile) : Out Unit :=
  if f.doc.openapi = "" then .err "Missing required field 'openapi' in OpenAPI object"
  else if f.info = false then .err "Missing required field 'info' in OpenAPI object"
  else if f.doc.title = "" then .err "Missing required field 'title' in Info object"
  else if f.doc.version = "" then .err "Missing required field 'version' in Info object"
  else if f.doc.license.any (fun l => l.1 = "") then .err "Missing required field 'name' in License object"
  else if f.paths = false then .err "Missing required field 'paths' in OpenAPI object"
  else if (f.doc.paths.map Prod.fst ++ f.nullPaths).any (fun p => !hasPrefix p "/") then .err "Key in Paths object must start with '/'"
  else .ok ()

/-- openapi/model.go:395-418 `MarshalJSON`: what an exported document (openapi/export_openapi.go:35-36, 66, 76: with `info`, `components` and
`paths`, which may be empty) is read back as after it was written as JSON.  The texts and values in it are taken to come back as they are. -/
def writtenFile (d : ODoc) : OFile := { doc := d }

/-- openapi/import_openapi.go:126-215 `ToSadl`, of a document that may be incomplete: line 144 follows the pointer to the components,
line 178 the one to a path item.  Items that are `null` are taken to be met before the others. -/
def toSadlFile (f : OFile) (name : String) : Out Model :=
  if f.components = false then .panic "nil Components"
  else if f.nullPaths ≠ [] then
    (importTypes f.doc.schemas f.doc.schemas).bind fun _ => .panic "nil PathItem"
  else toSadl f.doc name

/-- openapi/import_openapi.go:45-57: the name of the model, from the path of the file: the part after the last slash, without the part after the
last dot; other dots become underscores. -/
def importName (path : List Char) : List Char :=
  let base := ((splitAll '/' path).getLast?).getD []
  let parts := splitAll '.' base
  if parts.length < 2 then base else joinWith '_' parts.dropLast

/-- openapi/import_openapi.go:23-68 `Load` and `Import`. -/
def importOpenApi (load : String → Out OFile) (paths : List String) : Out Model :=
  match paths with
  | [path] =>
    match load path with
    | .panic e => .panic e
    | .err e => .err e
    | .ok f =>
      match validateFile f with
      | .panic e => .panic e
      | .err e => .err e
      | .ok () =>
        match toSadlFile f (String.ofList (importName path.toList)) with
        | .err e => .err ("Cannot convert to SADL: " ++ e)
        | r => r
  | _ => .err "Cannot merge multiple OpenAPI files"

end Sadl
