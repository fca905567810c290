import Verif.Model.Model
/-
Type references in the GraphQL exporter and importer: graphql/export_graphql.go,
graphql/import_graphql.go.
-/
namespace Sadl
namespace GraphQL

/-- graphql/export_graphql.go:109-116 `customScalar`; `custom name` is the configured
scalar name, `""` if there is none. -/
def customScalar (custom : String → String) (name defaultMapping : String) : String :=
  if custom name ≠ "" then custom name else defaultMapping

/-- graphql/export_graphql.go:112, 55-57: the custom scalar that exporting the scalar type
`name` makes the exporter declare. -/
def declaredScalar (custom : String → String) (name : String) : Option String :=
  match name with
  | "UUID" | "Timestamp" | "Int64" | "Decimal" => if custom name ≠ "" then some (custom name) else none
  | _ => none

/-- graphql/export_graphql.go:118-135 `scalarType`. -/
def scalarType (custom : String → String) (name : String) : String :=
  match name with
  | "Bool" => "Boolean"
  | "String" => "String"
  | "UUID" | "Timestamp" => customScalar custom name "String"
  | "Int32" | "Int16" | "Int8" => "Int"
  | "Float64" | "Float32" => "Float"
  | "Int64" | "Decimal" => customScalar custom name "Float"
  | _ => ""

/-- A GraphQL type reference as the exporter writes it: a name, or `[name!]`. -/
inductive GType where
  | named (n : String)
  | list (item : String)
  deriving Repr, DecidableEq

/-- graphql/export_graphql.go:31-35: the type definitions that are arrays. -/
def arrays (m : Model) : GoMap TypeDef :=
  (m.schema.types.filter (fun td => td.ts.type == "Array")).foldl (fun acc td => mset acc td.name td) []

/-- graphql/export_graphql.go:137-158 `typeRef`. -/
def typeRef (m : Model) (custom : String → String) (ts : TypeSpec) : GType :=
  let ts := match mget (arrays m) ts.type with
    | some td => td.ts
    | none => ts
  let n := scalarType custom ts.type
  if n ≠ "" then .named n
  else if ts.type = "Array" then .list ts.items
  else match m.findType ts.type with
    | some td =>
      let n := scalarType custom td.ts.type
      if n ≠ "" then .named n else .named ts.type
    | none => .named ts.type

/-- graphql/export_graphql.go:91-107: the type of a field as written by `EmitStructDef`,
with the required mark. -/
def exportField (m : Model) (custom : String → String) (fd : StructFieldDef) : GType × Bool :=
  (typeRef m custom fd.ts, fd.required)

/-- graphql/import_graphql.go:119-133 `convertTypeName`. -/
def convertTypeName (n : String) : String :=
  match n with
  | "Int" => "Int32"
  | "Float" => "Float64"
  | "Boolean" => "Bool"
  | _ => n

/-- graphql/import_graphql.go:199-243: the type and items of an imported field; the
exporter only writes named types and lists of non-null named types, the other forms of
the importer are not modelled. -/
def importField : GType × Bool → String × String × Bool
  | (.named n, req) => (convertTypeName n, "", req)
  | (.list item, req) => ("Array", convertTypeName item, req)

/-- graphql/import_graphql.go:89-97: a custom scalar definition is accepted. -/
def scalarAccepted (n : String) : Bool := n == "Timestamp" || n == "UUID"

end GraphQL
end Sadl
