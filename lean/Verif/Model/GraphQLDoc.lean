import Verif.Model.GraphQL
import Verif.Model.Command
/-
Whole documents in the GraphQL exporter and importer: graphql/export_graphql.go,
graphql/import_graphql.go.  The exporter writes text; the importer works on the syntax tree built
by github.com/graphql-go/graphql, which is not in the repository: its types of nodes are `GDef`,
`GFieldDef`, `GTyp`, and its parser is a parameter of `gqlImport`.
-/
namespace Sadl
namespace GraphQL

/-- graphql/export_graphql.go:110: the configured scalar name of a base type. -/
def customOf (conf : Value) (name : String) : String := dataGetString conf ["custom-scalars", name]

/-- graphql/export_graphql.go:143-157: a type reference as text. -/
def GType.text : GType → String
  | .named n => n
  | .list i => "[" ++ i ++ "!]"

/-- graphql/export_graphql.go:82-89 `EmitEnumDef`. -/
def emitEnumDef (td : TypeDef) : String :=
  "enum " ++ td.name ++ " {\n" ++ String.join (td.ts.elements.map fun e => "  " ++ e.symbol ++ "\n") ++ "}\n\n"

/-- graphql/export_graphql.go:92-104: one field of `EmitStructDef`. -/
def emitField (m : Model) (custom : String → String) (fd : StructFieldDef) : String :=
  (if fd.comment ≠ "" then "  # " ++ fd.comment ++ "\n" else "") ++
    "  " ++ fd.name ++ ": " ++ (typeRef m custom fd.ts).text ++ (if fd.required then "!" else "") ++ "\n"

/-- graphql/export_graphql.go:91-107 `EmitStructDef`. -/
def emitStructDef (m : Model) (custom : String → String) (td : TypeDef) : String :=
  "type " ++ td.name ++ " {\n" ++ String.join (td.ts.fields.map (emitField m custom)) ++ "}\n\n"

/-- graphql/export_graphql.go:162-171: the variants after the first. -/
def emitVariants : List UnionVariantDef → String
  | [] => ""
  | v :: r => "  | " ++ v.ts.type ++ "\n" ++ emitVariants r

/-- graphql/export_graphql.go:160-173 `EmitUnionDef`. -/
def emitUnionDef (td : TypeDef) : String :=
  "union " ++ td.name ++ " =\n" ++
    (match td.ts.variants with
     | [] => ""
     | v :: r => "    " ++ v.ts.type ++ "\n" ++ emitVariants r) ++ "\n"

/-- graphql/export_graphql.go:36-51: the text of one type definition; other base types end in a
panic. -/
def emitTypeDef (m : Model) (custom : String → String) (td : TypeDef) : Out String :=
  if td.ts.type = "Enum" then .ok (emitEnumDef td)
  else if td.ts.type = "Struct" then .ok (emitStructDef m custom td)
  else if td.ts.type = "Union" then .ok (emitUnionDef td)
  else if td.ts.type ∈ ["String", "Bool", "Int8", "Int16", "Int32", "Int64", "Float32", "Float64", "Decimal"] then .ok ""
  else if td.ts.type = "Array" then .ok ""
  else .panic ("fixme: " ++ td.ts.type)

/-- graphql/export_graphql.go:36-54: the loop over the types. -/
def emitTypeDefs (m : Model) (custom : String → String) : List TypeDef → Out String
  | [] => .ok ""
  | td :: r => (emitTypeDef m custom td).bind fun t => (emitTypeDefs m custom r).bind fun u => .ok (t ++ u)

/-- graphql/export_graphql.go:137-158, 112: the custom scalar that writing a reference records. -/
def refScalar (m : Model) (custom : String → String) (ts : TypeSpec) : Option String :=
  let ts := match mget (arrays m) ts.type with
    | some td => td.ts
    | none => ts
  if scalarType custom ts.type ≠ "" then declaredScalar custom ts.type
  else if ts.type = "Array" then none
  else match m.findType ts.type with
    | some td => declaredScalar custom td.ts.type
    | none => none

/-- graphql/export_graphql.go:112: the keys of `customScalars` after the types have been written,
each once. -/
def usedScalars (m : Model) (custom : String → String) : List String :=
  ((m.schema.types.filter fun td => td.ts.type == "Struct").flatMap fun td =>
    td.ts.fields.filterMap fun fd => refScalar m custom fd.ts).eraseDups

/-- graphql/export_graphql.go:21-59 `FromSadl`.  Go ranges over the map `customScalars` in an
arbitrary order: `order` arranges its keys. -/
def fromSadl (order : List String → List String) (m : Model) (conf : Value) : Out String :=
  let custom := customOf conf
  (emitTypeDefs m custom m.schema.types).bind fun t =>
    .ok (t ++ String.join ((order (usedScalars m custom)).map fun k => "scalar " ++ k ++ "\n"))

/-- graphql/export_graphql.go:11-19 `Export`: what is printed; `FromSadl` never returns an error. -/
def exportText (order : List String → List String) (m : Model) (conf : Value) : Out String :=
  match fromSadl order m conf with
  | .err e => .panic ("*** " ++ e ++ "\n")
  | r => r

/-! ### The syntax tree of graphql-go -/

/-- `ast.Type`: `Named`, `List`, `NonNull`. -/
inductive GTyp where
  | named (n : String)
  | list (t : GTyp)
  | nonNull (t : GTyp)
  deriving Repr, DecidableEq

/-- `ast.FieldDefinition`: name, description (nil is `none`) and type. -/
structure GFieldDef where
  name : String
  description : Option String := none
  type : GTyp
  deriving Repr, DecidableEq

/-- `ast.EnumValueDefinition`. -/
structure GValueDef where
  name : String
  description : Option String := none
  deriving Repr, DecidableEq

/-- `ast.Node`: the definitions a document is made of. -/
inductive GDef where
  | object (name : String) (description : Option String) (fields : List GFieldDef)
  | schema (types : List String)
  | enum (name : String) (description : Option String) (values : List GValueDef)
  | union (name : String) (description : Option String) (types : List String)
  | interface (name : String)
  | inputObject (name : String)
  | scalar (name : String)
  | other (kind : String)
  deriving Repr, DecidableEq

/-- graphql/import_graphql.go:142-145 `commentValue`. -/
def commentValue (descr : String) : String := String.ofList (descr.toList.map fun c => if c = '\n' then ' ' else c)

/-- graphql/import_graphql.go:135-140 `stringValue`. -/
def stringValue (sv : Option String) : String := sv.getD ""

/-- graphql/import_graphql.go:108-117 `typeName`. -/
def typeName : GTyp → Out String
  | .named n => .ok n
  | .list _ => .ok "Array"
  | .nonNull _ => .panic "FixMe"

/-- graphql/import_graphql.go:203-240: type, items and required mark of a field. -/
def fieldType : GTyp → Out (String × String × Bool)
  | .named n => .ok (convertTypeName n, "", false)
  | .list (.named n) => .ok ("Array", convertTypeName n, false)
  | .list (.nonNull (.named n)) => .ok ("Array", convertTypeName n, false)
  | .list (.nonNull _) => .panic "inline list type not supported"
  | .list (.list _) => .panic "list type not supported"
  | .nonNull (.named n) => .ok (convertTypeName n, "", true)
  | .nonNull (.list (.named n)) => .ok ("Array", convertTypeName n, true)
  | .nonNull (.list (.nonNull t)) => (typeName t).bind fun n => .ok ("Array", convertTypeName n, true)
  | .nonNull (.list (.list _)) => .panic "inline list type not supported"
  | .nonNull (.nonNull t) => (typeName (.nonNull t)).bind fun n => .ok (convertTypeName n, "", true)

/-- graphql/import_graphql.go:197-241: one field of `gqlStruct`. -/
def gqlField (f : GFieldDef) : Out StructFieldDef :=
  (fieldType f.type).bind fun t =>
    .ok { name := f.name, comment := commentValue (stringValue f.description), required := t.2.2,
          ts := { type := t.1, items := t.2.1 } }

/-- graphql/import_graphql.go:196-242: the loop over the fields. -/
def gqlFields : List GFieldDef → Out (List StructFieldDef)
  | [] => .ok []
  | f :: r => (gqlField f).bind fun fd => (gqlFields r).bind fun fs => .ok (fd :: fs)

/-- graphql/import_graphql.go:191-246 `gqlStruct`. -/
def gqlStruct (name : String) (description : Option String) (fields : List GFieldDef) : Out TypeDef :=
  (gqlFields fields).bind fun fs =>
    .ok { name := name, comment := commentValue (stringValue description), ts := { type := "Struct", fields := fs } }

/-- graphql/import_graphql.go:147-168 `gqlEnum` (an absent description and an empty one give the
same comment). -/
def gqlEnum (name : String) (description : Option String) (values : List GValueDef) : TypeDef :=
  { name := name, comment := commentValue (stringValue description)
    ts := { type := "Enum"
            elements := values.map fun v => { symbol := v.name, comment := commentValue (stringValue v.description) } } }

/-- graphql/import_graphql.go:170-189 `gqlUnion`. -/
def gqlUnion (name : String) (description : Option String) (types : List String) : TypeDef :=
  { name := name, comment := commentValue (stringValue description)
    ts := { type := "Union", variants := types.map fun t => { name := t, ts := { type := t } } } }

/-- graphql/import_graphql.go:61-67: the first type of every imported schema. -/
def idTypeDef : TypeDef := { name := "ID", comment := "The GraphQL 'ID' type", ts := { type := "String" } }

/-- graphql/import_graphql.go:69-104: the loop over the definitions; `ignore` is the set of names
of root types seen so far.  The texts of the errors are simplified. -/
def gqlDefs (ignore : List String) : List GDef → Out (List TypeDef)
  | [] => .ok []
  | .object n d fs :: r =>
    if n ∈ ignore then gqlDefs ignore r
    else (gqlStruct n d fs).bind fun td => (gqlDefs ignore r).bind fun tds => .ok (td :: tds)
  | .schema ts :: r => gqlDefs (ts ++ ignore) r
  | .enum n d vs :: r => (gqlDefs ignore r).bind fun tds => .ok (gqlEnum n d vs :: tds)
  | .union n d ts :: r => (gqlDefs ignore r).bind fun tds => .ok (gqlUnion n d ts :: tds)
  | .interface _ :: r => gqlDefs ignore r
  | .inputObject _ :: r => gqlDefs ignore r
  | .scalar n :: r => if scalarAccepted n then gqlDefs ignore r else .err "Unsupported custom scalar"
  | .other k :: _ => .err ("Unsupported definition: " ++ k)

/-- graphql/import_graphql.go:50-106 `gqlSchema`. -/
def gqlSchema (doc : List GDef) (conf : Value) : Out Schema :=
  let name := dataGetString conf ["name"]
  (gqlDefs [] doc).bind fun tds =>
    .ok { name := if name = "" then "generatedFromGraphQL" else name
          «namespace» := dataGetString conf ["namespace"]
          types := idTypeDef :: tds }

/-- graphql/import_graphql.go:21-48 `Import`; `readFile` and `parse` stand for the file system
and the parser of graphql-go. -/
def gqlImport (readFile : String → Option String) (parse : String → Option (List GDef))
    (paths : List String) (conf : Value) : Out Model :=
  match paths with
  | [path] => match readFile path with
    | none => .err "cannot read"
    | some src => match parse src with
      | none => .err "Cannot parse GraphQL"
      | some doc => (gqlSchema doc conf).bind newModel
  | _ => .err "GraphQL file merging NYI"

end GraphQL
end Sadl
