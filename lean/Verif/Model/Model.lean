import Verif.Model.Schema
/-
model.go:12-59: the model and its indexes.
-/
namespace Sadl

/-- schema.go:3-23 `BaseTypes`. -/
def BaseTypes : List String :=
  ["Bool", "Int8", "Int16", "Int32", "Int64", "Float32", "Float64", "Decimal", "Bytes",
   "String", "Timestamp", "UnitValue", "UUID", "Array", "Map", "Struct", "Enum", "Union", "Any"]

/-- model.go:12-17 `Model` (the `Extensions` map is not modelled).  The index maps a
name to a copy of the definition; Go shares a pointer, which matters only for
`ConvertInlineEnums`, modelled separately in `InlineEnums.lean`. -/
structure Model where
  schema : Schema := {}
  typeIndex : GoMap TypeDef := []
  httpIndex : GoMap HttpDef := []

/-- model.go:25-27: the entry made for a built-in type. -/
def baseTypeDef (name : String) : TypeDef := { name := name, ts := { type := name } }

/-- model.go:28-33: the loop over `schema.Types`. -/
def indexTypes (idx : GoMap TypeDef) : List TypeDef → Out (GoMap TypeDef)
  | [] => .ok idx
  | td :: rest =>
    match mget idx td.name with
    | some _ => .err ("Duplicate type: " ++ td.name)
    | none => indexTypes (mset idx td.name td) rest

/-- model.go:34-39: the loop over `schema.Http`. -/
def indexHttp (idx : GoMap HttpDef) : List HttpDef → Out (GoMap HttpDef)
  | [] => .ok idx
  | hd :: rest =>
    match mget idx hd.name with
    | some _ => .err ("Duplicate http action: " ++ hd.name)
    | none => indexHttp (mset idx hd.name hd) rest

/-- model.go:19-41 `NewModel`. -/
def newModel (schema : Schema) : Out Model := do
  let base : GoMap TypeDef := BaseTypes.foldl (fun idx n => mset idx n (baseTypeDef n)) []
  let tidx ← indexTypes base schema.types
  let hidx ← indexHttp [] schema.http
  pure { schema := schema, typeIndex := tidx, httpIndex := hidx }

/-- model.go:43-50 `FindType` (the nil-map check is subsumed by the empty map). -/
def Model.findType (m : Model) (name : String) : Option TypeDef := mget m.typeIndex name

/-- model.go:52-59 `FindHttp`. -/
def Model.findHttp (m : Model) (name : String) : Option HttpDef := mget m.httpIndex name

end Sadl
