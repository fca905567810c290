import Verif.Spec.Valid
import Verif.Model.Golang
import Mathlib.Logic.Relation
/-
What a user relies on about the generated Go types: when they can be generated at all, and the
rules of Go that the generated file has to respect.  The rules are stated on the declarations of
the file; what a schema has to look like is stated on the schema alone.
-/
namespace Sadl.Spec
open Sadl

/-! ### When the types can be written -/

/-- A name that can be an item or a key of an inline array or map. -/
def GoPlain (s : Schema) (n : String) : Prop := Known s n ∧ n ≠ "Array" ∧ n ≠ "Map"

/-- The type of a field, variant, input or output can be written. -/
structure GoWritable (s : Schema) (ts : TypeSpec) : Prop where
  known : Known s ts.type
  array : ts.type = "Array" → GoPlain s ts.items
  map : ts.type = "Map" → GoPlain s ts.keys ∧ GoPlain s ts.items

/-- The supertypes of the types that can be written. -/
def GoKinds : List String :=
  ["Struct", "Union", "Enum", "String", "UUID", "Decimal", "Array", "Map",
   "Int8", "Int16", "Int32", "Int64", "Float32", "Float64"]

/-- The type can be written. -/
structure GoTypeReady (s : Schema) (td : TypeDef) : Prop where
  kind : td.ts.type ∈ GoKinds
  struct : td.ts.type = "Struct" → ∀ f ∈ td.ts.fields, f.name ≠ "" ∧ GoWritable s f.ts
  union : td.ts.type = "Union" → ∀ v ∈ td.ts.variants, v.name ≠ "" ∧ GoWritable s v.ts
  array : td.ts.type = "Array" → GoPlain s td.ts.items
  map : td.ts.type = "Map" → GoPlain s td.ts.items ∧ Known s td.ts.keys ∧ td.ts.keys ≠ "Map"

/-- The request and response of the action can be written. -/
structure GoActionReady (s : Schema) (h : HttpDef) : Prop where
  name : h.name ≠ ""
  inputs : ∀ p ∈ h.inputs, p.field.name ≠ "" ∧ GoWritable s p.field.ts
  expected : ∃ e, h.expected = some e ∧ ∀ p ∈ e.outputs, p.field.name ≠ "" ∧ GoWritable s p.field.ts

/-! ### Which type names the schema mentions -/

/-- The types given to fields, variants, inputs and outputs. -/
inductive GoTyped (s : Schema) (ts : TypeSpec) : Prop
  | field {td f} : td ∈ s.types → td.ts.type = "Struct" → f ∈ td.ts.fields → f.ts = ts → GoTyped s ts
  | variant {td v} : td ∈ s.types → td.ts.type = "Union" → v ∈ td.ts.variants → v.ts = ts → GoTyped s ts
  | input {h p} : h ∈ s.http → p ∈ h.inputs → p.field.ts = ts → GoTyped s ts
  | output {h e p} : h ∈ s.http → h.expected = some e → p ∈ e.outputs → p.field.ts = ts → GoTyped s ts

/-- The name is the type of a field, variant, input or output, or of an item or key of an array or map. -/
inductive Mentions (s : Schema) (n : String) : Prop
  | direct {ts} : GoTyped s ts → ts.type = n → Mentions s n
  | item {ts} : GoTyped s ts → ts.type = "Array" ∨ ts.type = "Map" → ts.items = n → Mentions s n
  | key {ts} : GoTyped s ts → ts.type = "Map" → ts.keys = n → Mentions s n
  | itemOf {td} : td ∈ s.types → td.ts.type = "Array" ∨ td.ts.type = "Map" → td.ts.items = n → Mentions s n
  | keyOf {td} : td ∈ s.types → td.ts.type = "Map" → td.ts.keys = n → Mentions s n

/-! ### Rules of Go -/

/-- The keywords of Go. -/
def GoKeywords : List String :=
  ["break", "case", "chan", "const", "continue", "default", "defer", "else", "fallthrough", "for", "func", "go", "goto",
   "if", "import", "interface", "map", "package", "range", "return", "select", "struct", "switch", "type", "var"]

/-- An identifier of Go made of ASCII characters. -/
def GoIdent (n : String) : Prop :=
  n ∉ GoKeywords ∧ ∃ c r, n.toList = c :: r ∧ (c.isAlpha ∨ c = '_') ∧ ∀ d ∈ r, d.isAlphanum ∨ d = '_'

/-- Text that can stand between double quotes. -/
def GoQuotable (t : String) : Prop := ∀ c ∈ t.toList, c ≠ '"' ∧ c ≠ '\\' ∧ c ≠ '\n'

/-- The predeclared types that the generator uses. -/
def GoPredeclared : List String := ["int8", "int16", "int32", "int64", "float32", "float64", "bool", "string"]

/-- The names of types in a type expression that are not from another package. -/
def GoTyNames : GoTy → List String
  | .ident n => [n]
  | .qual _ _ => []
  | .ptr t => GoTyNames t
  | .slice t => GoTyNames t
  | .map k t => GoTyNames k ++ GoTyNames t

/-- The packages in a type expression, by their path. -/
def GoTyPackages : GoTy → List String
  | .ident _ => []
  | .qual _ _ => ["github.com/boynton/sadl"]
  | .ptr t => GoTyPackages t
  | .slice t => GoTyPackages t
  | .map k t => GoTyPackages k ++ GoTyPackages t

/-- The types a declaration declares. -/
def DeclaredTypes : GoDecl → List String
  | .iface n _ => [n]
  | .struct n _ => [n]
  | .union n _ _ => [n ++ "VariantTag", n]
  | .enum n _ => [n]
  | .defn n _ _ => [n]
  | .timestamp => ["Timestamp"]
  | .decimal => ["Decimal"]
  | _ => []

/-- All the names a declaration declares at the level of the file. -/
def DeclaredNames : GoDecl → List String
  | .iface n _ => [n]
  | .struct n _ => [n]
  | .union n tags _ => (n ++ "VariantTag") :: (tags.map fun t => n ++ "VariantTag" ++ t) ++ [n]
  | .enum n els => n :: els.map (·.1) ++ ["names" ++ n]
  | .defn n _ _ => [n]
  | .fromString n => [n ++ "FromString"]
  | .timestamp => ["Timestamp", "RFC3339Milli", "TimestampFromString", "ParseTimestamp"]
  | .decimal => ["DecimalPrecision", "Decimal", "DecimalFromString", "ParseDecimal", "NewDecimal"]
  | _ => []

/-- The names declared inside a declaration: methods of an interface, fields of a struct. -/
def InnerNames : GoDecl → List String
  | .iface _ ms => ms
  | .struct _ fs => fs.map (·.name)
  | .union _ _ fs => "Variant" :: fs.map (·.name)
  | _ => []

/-- The types a declaration refers to. -/
def UsedTypes : GoDecl → List String
  | .iface _ ms => ms.flatMap fun k => [k ++ "Request", k ++ "Response"]
  | .struct _ fs => fs.flatMap fun f => GoTyNames f.type
  | .union _ _ fs => fs.flatMap fun f => GoTyNames f.type
  | .defn _ t _ => GoTyNames t
  | .errorMethod n => [n]
  | .fromString n => [n]
  | _ => []

/-- The packages a declaration refers to. -/
def UsedPackages : GoDecl → List String
  | .struct _ fs => fs.flatMap fun f => GoTyPackages f.type
  | .union _ _ fs => fs.flatMap fun f => GoTyPackages f.type
  | .defn _ t _ => GoTyPackages t
  | .enum _ _ => ["encoding/json", "fmt"]
  | .fromString _ => ["strconv"]
  | .timestamp => ["encoding/json", "fmt", "strings", "time"]
  | .decimal => ["encoding/json", "fmt", "math/big"]
  | _ => []

/-- What is returned has the type that is declared.  `fromString` returns the `int64` of `strconv.ParseInt`
as a value of the declared type, which is another type. -/
def ReturnsMatch : GoDecl → Prop
  | .fromString _ => False
  | _ => True

/-- The texts of an enumeration are put between quotes. -/
def QuotedTexts : GoDecl → List String
  | .enum _ els => els.map (·.2)
  | _ => []

/-- The type `n` has a component of type `t`: a field, or the type it is defined as. -/
inductive GoHasPart (f : GoFile) : String → GoTy → Prop
  | struct {n fs fd} : .struct n fs ∈ f.decls → fd ∈ fs → GoHasPart f n fd.type
  | union {n tags fs fd} : .union n tags fs ∈ f.decls → fd ∈ fs → GoHasPart f n fd.type
  | defn {n t note} : .defn n t note ∈ f.decls → GoHasPart f n t

/-- The types that cannot be keys of a map: slices, maps, and what contains them. -/
inductive GoNoKey (part : String → GoTy → Prop) : GoTy → Prop
  | slice {t} : GoNoKey part (.slice t)
  | map {k t} : GoNoKey part (.map k t)
  | named {n t} : part n t → GoNoKey part t → GoNoKey part (.ident n)

/-- The keys of the maps in a type expression. -/
def GoTyKeys : GoTy → List GoTy
  | .map k t => k :: GoTyKeys k ++ GoTyKeys t
  | .ptr t => GoTyKeys t
  | .slice t => GoTyKeys t
  | _ => []

/-- No type contains itself, and keys of maps can be compared. -/
structure GoLayout (part : String → GoTy → Prop) : Prop where
  finite : ∀ n, ¬ Relation.TransGen (fun a b => part a (.ident b)) n n
  keys : ∀ n t, part n t → ∀ k ∈ GoTyKeys t, ¬ GoNoKey part k

/-- Rules that the Go compiler checks: names are identifiers, each is declared once, every type used is declared,
the packages imported are those used, functions return what they declare, no type contains itself, and keys of maps
can be compared. -/
structure GoCompiles (f : GoFile) : Prop where
  idents : ∀ d ∈ f.decls, ∀ n, n ∈ DeclaredNames d ∨ n ∈ InnerNames d → GoIdent n
  quoted : ∀ d ∈ f.decls, ∀ t ∈ QuotedTexts d, GoQuotable t
  once : (f.decls.flatMap DeclaredNames).Nodup
  onceInside : ∀ d ∈ f.decls, (InnerNames d).Nodup
  errorField : ∀ d ∈ f.decls, ∀ n, n ∈ DeclaredTypes d → .errorMethod n ∈ f.decls → "Error" ∉ InnerNames d
  resolved : ∀ d ∈ f.decls, ∀ n ∈ UsedTypes d, n ∈ GoPredeclared ∨ ∃ d' ∈ f.decls, n ∈ DeclaredTypes d'
  packages : ∀ p, p ∈ f.imports ↔ ∃ d ∈ f.decls, p ∈ UsedPackages d
  returns : ∀ d ∈ f.decls, ReturnsMatch d
  layout : GoLayout (GoHasPart f)

/-! ### The Go types of the schema -/

/-- The Go type of a name that is not an array or a map. -/
inductive GoLeafOf (s : Schema) (runtime : Bool) : String → GoTy → Prop
  | primitive {n t} : (n, t) ∈ [("Int8", "int8"), ("Int16", "int16"), ("Int32", "int32"), ("Int64", "int64"), ("Float32", "float32"),
      ("Float64", "float64"), ("Bool", "bool"), ("String", "string")] → GoLeafOf s runtime n (.ident t)
  | own {n} : n ∈ ["Decimal", "Timestamp", "UnitValue"] → runtime = false → GoLeafOf s runtime n (.ptr (.ident n))
  | library {n} : n ∈ ["Decimal", "Timestamp", "UnitValue"] → runtime = true → GoLeafOf s runtime n (.ptr (.qual "sadl" n))
  | struct {td} : td ∈ s.types → td.ts.type = "Struct" → GoLeafOf s runtime td.name (.ptr (.ident td.name))
  | other {td} : td ∈ s.types → td.ts.type ≠ "Struct" → GoLeafOf s runtime td.name (.ident td.name)
  | anonymous : GoLeafOf s runtime "Struct" (.ptr (.ident "Struct"))
  | builtin {n} : n ∈ ["Bytes", "UUID", "Enum", "Union", "Any"] → GoLeafOf s runtime n (.ident n)

/-- The Go type of a field, variant, input or output. -/
inductive GoTypeOf (s : Schema) (runtime : Bool) (ts : TypeSpec) : GoTy → Prop
  | array {t} : ts.type = "Array" → GoLeafOf s runtime ts.items t → GoTypeOf s runtime ts (.slice t)
  | map {k t} : ts.type = "Map" → GoLeafOf s runtime ts.keys k → GoLeafOf s runtime ts.items t → GoTypeOf s runtime ts (.map k t)
  | leaf {t} : ts.type ≠ "Array" → ts.type ≠ "Map" → GoLeafOf s runtime ts.type t → GoTypeOf s runtime ts t

/-- The components of the Go types of the schema. -/
inductive GoPart (s : Schema) (runtime : Bool) : String → GoTy → Prop
  | field {td f t} : td ∈ s.types → td.ts.type = "Struct" → f ∈ td.ts.fields → GoTypeOf s runtime f.ts t → GoPart s runtime td.name t
  | variant {td v t} : td ∈ s.types → td.ts.type = "Union" → v ∈ td.ts.variants → GoTypeOf s runtime v.ts t → GoPart s runtime td.name t
  | input {h p t} : h ∈ s.http → p ∈ h.inputs → GoTypeOf s runtime p.field.ts t → GoPart s runtime (capitalize h.name ++ "Request") t
  | output {h e p t} : h ∈ s.http → h.expected = some e → p ∈ e.outputs → GoTypeOf s runtime p.field.ts t →
      GoPart s runtime (capitalize h.name ++ "Response") t
  | text {td} : td ∈ s.types → td.ts.type = "String" ∨ td.ts.type = "UUID" → GoPart s runtime td.name (.ident "string")
  | decimal {td} : td ∈ s.types → td.ts.type = "Decimal" → GoPart s runtime td.name (.ident "Decimal")
  | number {td t} : td ∈ s.types → (td.ts.type, t) ∈ [("Int8", "int8"), ("Int16", "int16"), ("Int32", "int32"), ("Int64", "int64"),
      ("Float32", "float32"), ("Float64", "float64")] → GoPart s runtime td.name (.ident t)
  | array {td t} : td ∈ s.types → td.ts.type = "Array" → GoLeafOf s runtime td.ts.items t → GoPart s runtime td.name (.slice t)
  | map {td k t} : td ∈ s.types → td.ts.type = "Map" → GoTypeOf s runtime { td.ts with type := td.ts.keys } k →
      GoLeafOf s runtime td.ts.items t → GoPart s runtime td.name (.map k t)

/-! ### The schemas whose Go types respect the rules -/

/-- The type `Decimal` is written. -/
def WritesDecimal (runtime : Bool) (s : Schema) : Prop :=
  (∃ td ∈ s.types, td.ts.type = "Decimal") ∨ (runtime = false ∧ Mentions s "Decimal")

/-- The type `Timestamp` is written. -/
def WritesTimestamp (runtime : Bool) (s : Schema) : Prop := runtime = false ∧ Mentions s "Timestamp"

/-- The names that a type of the schema adds to the file. -/
def GoNamesOf (td : TypeDef) : List String :=
  if td.ts.type = "Union" then
    (td.name ++ "VariantTag") :: (td.ts.variants.map fun v => td.name ++ "VariantTag" ++ capitalize v.name) ++ [td.name]
  else if td.ts.type = "Enum" then td.name :: (td.ts.elements.map fun e => e.symbol) ++ ["names" ++ td.name]
  else if td.ts.type ∈ ["Int8", "Int16", "Int32", "Int64", "Float32", "Float64"] then [td.name, td.name ++ "FromString"]
  else [td.name]

/-- The names that the service and its actions and types add to the file. -/
def GoNames (service : String) (s : Schema) : List String :=
  service :: (s.http.flatMap fun h => [capitalize h.name ++ "Request", capitalize h.name ++ "Response"]) ++
    s.types.flatMap GoNamesOf

/-- The names of the fields of the Go struct of a type. -/
def GoFieldsOf (td : TypeDef) : List String :=
  if td.ts.type = "Struct" then td.ts.fields.map fun f => capitalize f.name
  else if td.ts.type = "Union" then "Variant" :: td.ts.variants.map fun v => capitalize v.name
  else []

/-- The text that stands for an element of an enumeration in JSON. -/
def EnumText (el : EnumElementDef) (t : String) : Prop :=
  match mget el.annotations "x_enumValue" with
  | none => t = el.symbol
  | some "" => t = "true"
  | some v => t = v

/-- The schema's Go types respect the rules of Go. -/
structure GoSound (service : String) (runtime : Bool) (s : Schema) : Prop where
  idents : ∀ n ∈ GoNames service s, GoIdent n
  fieldIdents : ∀ td ∈ s.types, ∀ n ∈ GoFieldsOf td, GoIdent n
  actionIdents : ∀ h ∈ s.http, GoIdent (capitalize h.name) ∧ (∀ p ∈ h.inputs, GoIdent (capitalize p.field.name)) ∧
    ∀ e, h.expected = some e → ∀ p ∈ e.outputs, GoIdent (capitalize p.field.name)
  quoted : ∀ td ∈ s.types, td.ts.type = "Enum" → ∀ el ∈ td.ts.elements, ∀ t, EnumText el t → GoQuotable t
  once : (GoNames service s).Nodup
  decimalOnce : WritesDecimal runtime s → ∀ n ∈ GoNames service s,
    n ∉ ["DecimalPrecision", "Decimal", "DecimalFromString", "ParseDecimal", "NewDecimal"]
  timestampOnce : WritesTimestamp runtime s → ∀ n ∈ GoNames service s,
    n ∉ ["Timestamp", "RFC3339Milli", "TimestampFromString", "ParseTimestamp"]
  fieldsOnce : ∀ td ∈ s.types, (GoFieldsOf td).Nodup
  actionsOnce : ∀ h ∈ s.http, (h.inputs.map fun p => capitalize p.field.name).Nodup ∧
    ∀ e, h.expected = some e → (e.outputs.map fun p => capitalize p.field.name).Nodup
  methodsOnce : (s.http.map fun h => capitalize h.name).Nodup
  errorField : ∀ h ∈ s.http, ∀ x ∈ h.exceptions, ∀ td ∈ s.types, td.name = x.type → "Error" ∉ GoFieldsOf td
  resolved : ∀ n ∈ ["UUID", "Bytes", "Any", "Struct", "Enum", "Union"], ¬ Mentions s n
  unitValue : Mentions s "UnitValue" → runtime = true
  enums : (∃ td ∈ s.types, td.ts.type = "Enum") → WritesDecimal runtime s ∨ WritesTimestamp runtime s
  numbers : ∀ td ∈ s.types, td.ts.type ∉ ["Int8", "Int16", "Int32", "Int64", "Float32", "Float64"]
  layout : GoLayout (GoPart s runtime)

/-! ### How the Go types mirror the schema -/

/-- The Go field of a field: capitalized, the same name in JSON, left out when it is empty unless it is required. -/
def GoFieldOf (s : Schema) (runtime : Bool) (fd : StructFieldDef) (f : GoField) : Prop :=
  f.name = capitalize fd.name ∧ f.json = fd.name ∧ (f.omitEmpty = true ↔ fd.required = false) ∧ GoTypeOf s runtime fd.ts f.type

/-- The Go field of a variant. -/
def GoVariantOf (s : Schema) (runtime : Bool) (v : UnionVariantDef) (f : GoField) : Prop :=
  f.name = capitalize v.name ∧ f.json = v.name ∧ f.omitEmpty = true ∧ GoTypeOf s runtime v.ts f.type

/-- The type is an exception of some action. -/
def GoIsError (s : Schema) (n : String) : Prop := ∃ h ∈ s.http, ∃ x ∈ h.exceptions, x.type = n

/-- After a type, the method that makes it an error, if some action has it as an exception. -/
def GoErrorOf (s : Schema) (n : String) (l : List GoDecl) : Prop :=
  (GoIsError s n ∧ l = [.errorMethod n]) ∨ (¬ GoIsError s n ∧ l = [])

/-- The declarations that a type of the schema becomes. -/
inductive GoDeclsOf (s : Schema) (runtime : Bool) (td : TypeDef) : List GoDecl → Prop
  | struct {fs l} : td.ts.type = "Struct" → List.Forall₂ (GoFieldOf s runtime) td.ts.fields fs → GoErrorOf s td.name l →
      GoDeclsOf s runtime td (.heading td.name :: .struct td.name fs :: l)
  | union {fs l} : td.ts.type = "Union" → List.Forall₂ (GoVariantOf s runtime) td.ts.variants fs → GoErrorOf s td.name l →
      GoDeclsOf s runtime td (.heading td.name :: .union td.name (fs.map (·.name)) fs :: l)
  | enum {els} : td.ts.type = "Enum" → List.Forall₂ (fun el e => e.1 = el.symbol ∧ EnumText el e.2) td.ts.elements els →
      GoDeclsOf s runtime td [.heading td.name, .enum td.name els]
  | string : td.ts.type = "String" → GoDeclsOf s runtime td [.heading td.name, .defn td.name (.ident "string") ""]
  | uuid : td.ts.type = "UUID" → GoDeclsOf s runtime td [.heading td.name, .defn td.name (.ident "string") " //UUID"]
  | decimal : td.ts.type = "Decimal" → GoDeclsOf s runtime td [.heading td.name, .defn td.name (.ident "Decimal") ""]
  | array {t} : td.ts.type = "Array" → GoLeafOf s runtime td.ts.items t →
      GoDeclsOf s runtime td [.heading td.name, .defn td.name (.slice t) ""]
  | map {k t} : td.ts.type = "Map" → GoTypeOf s runtime { td.ts with type := td.ts.keys } k → GoLeafOf s runtime td.ts.items t →
      GoDeclsOf s runtime td [.heading td.name, .defn td.name (.map k t) ""]
  | number {t} : (td.ts.type, t) ∈ [("Int8", "int8"), ("Int16", "int16"), ("Int32", "int32"), ("Int64", "int64"), ("Float32", "float32"),
      ("Float64", "float64")] → GoDeclsOf s runtime td [.heading td.name, .defn td.name (.ident t) "", .fromString td.name]

/-- The declarations that an action of the schema becomes: the request has its inputs, the response its outputs. -/
def GoActionDeclsOf (s : Schema) (runtime : Bool) (h : HttpDef) (ds : List GoDecl) : Prop :=
  ∃ e is os, h.expected = some e ∧ List.Forall₂ (fun p f => GoFieldOf s runtime p.field f) h.inputs is ∧
    List.Forall₂ (fun p f => GoFieldOf s runtime p.field f) e.outputs os ∧
    ds = [.struct (capitalize h.name ++ "Request") is, .struct (capitalize h.name ++ "Response") os]

/-- The file holds the interface with a method for each action, the types of each action, the declarations of each type,
and the types Timestamp and Decimal where they are used and not taken from the run-time library. -/
structure GoMirrors (service : String) (runtime : Bool) (s : Schema) (decls : List GoDecl) : Prop where
  parts : ∃ as ts l, decls = .iface service (s.http.map fun h => capitalize h.name) :: (as.flatten ++ ts.flatten ++ l) ∧
    List.Forall₂ (GoActionDeclsOf s runtime) s.http as ∧ List.Forall₂ (GoDeclsOf s runtime) s.types ts ∧
    l.Sublist [.timestamp, .decimal] ∧ (.timestamp ∈ l ↔ WritesTimestamp runtime s) ∧ (.decimal ∈ l ↔ WritesDecimal runtime s)

end Sadl.Spec
