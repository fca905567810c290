import Verif.Model.Model
import Verif.Model.Misc
import Verif.Model.Generator
/-
golang/export_golang.go and golang/golang_model.go: the generation of Go types.

The generator writes text into a buffer.  The model keeps the pieces it writes as a list of
declarations, `GoDecl`, with `GoDecl.text` the exact text of each; the field `imports` and the
flags `createDecimal` and `createTimestamp` of the generator, which are only ever added to while
types are written, are a list of notes taken along the way.
-/
namespace Sadl

/-- A Go type expression, as `nativeTypeName` writes it. -/
inductive GoTy where
  | ident (name : String)
  | qual (pkg name : String)
  | ptr (t : GoTy)
  | slice (t : GoTy)
  | map (k t : GoTy)
  deriving Repr, DecidableEq

/-- The text of a type expression (golang/export_golang.go:169-217). -/
def GoTy.text : GoTy → String
  | .ident n => n
  | .qual p n => p ++ "." ++ n
  | .ptr t => "*" ++ t.text
  | .slice t => "[]" ++ t.text
  | .map k t => "map[" ++ k.text ++ "]" ++ t.text

/-- What the generator remembers while it writes types: an import, or that the type Decimal or
Timestamp has to be written at the end (golang/export_golang.go:38-42). -/
inductive GoNote where
  | pack (path : String)
  | decimal
  | timestamp
  deriving Repr, DecidableEq

/-- golang/export_golang.go:33-48: the part of the generator's settings that the text depends on. -/
structure GoConf where
  name : String := ""
  pkg : String := ""
  runtime : Bool := false

/-- The types that `nativeTypeName` writes with a lower-case initial (golang/export_golang.go:172). -/
def goPrimitives : List String :=
  ["Int8", "Int16", "Int32", "Int64", "Float32", "Float64", "Bool", "String"]

/-- golang/export_golang.go:174-182, 190-206: the three types that come from a run-time package or are
written at the end; UnitValue is never written. -/
def goRuntimeType (conf : GoConf) (name : String) (note : List GoNote) : GoTy × List GoNote :=
  if conf.runtime then (.ptr (.qual "sadl" name), [.pack "github.com/boynton/sadl"])
  else (.ptr (.ident name), note)

/-- golang/export_golang.go:169-217 `nativeTypeName`.  The first argument bounds the recursion: a
built-in type has neither items nor keys, so three levels are enough (`goType_fuel`). -/
def goTypeN (m : Model) (conf : GoConf) : Nat → TypeSpec → String → Out (GoTy × List GoNote)
  | 0, _, _ => .panic "unreachable"
  | n + 1, ts, name =>
    if name ∈ goPrimitives then .ok (.ident (uncapitalize name), [])
    else if name = "Decimal" then .ok (goRuntimeType conf name [.decimal])
    else if name = "Array" then
      match m.findType ts.items with
      | none => .panic "invalid memory address or nil pointer dereference"
      | some its => (goTypeN m conf n its.ts ts.items).bind fun i => .ok (.slice i.1, i.2)
    else if name = "Map" then
      match m.findType ts.keys, m.findType ts.items with
      | some kts, some its =>
        (goTypeN m conf n kts.ts ts.keys).bind fun k =>
        (goTypeN m conf n its.ts ts.items).bind fun i => .ok (.map k.1 i.1, k.2 ++ i.2)
      | _, _ => .panic "invalid memory address or nil pointer dereference"
    else if name = "Timestamp" then .ok (goRuntimeType conf name [.timestamp])
    else if name = "UnitValue" then .ok (goRuntimeType conf name [])
    else
      match m.findType name with
      | none => .panic ("Unresolved type, parser should have caught this: " ++ name)
      | some td => .ok (if td.ts.type = "Struct" then .ptr (.ident name) else .ident name, [])

/-- golang/export_golang.go:169-217 `nativeTypeName`. -/
def goType (m : Model) (conf : GoConf) (ts : TypeSpec) (name : String) : Out (GoTy × List GoNote) :=
  goTypeN m conf 3 ts name

/-- A field of a generated struct: its Go name, its type, and its `json` tag. -/
structure GoField where
  name : String
  type : GoTy
  json : String
  omitEmpty : Bool
  deriving Repr, DecidableEq

/-- golang/golang_model.go:157-161. -/
def GoField.text (f : GoField) : String :=
  "    " ++ f.name ++ " " ++ f.type.text ++ " `json:\"" ++ f.json ++ (if f.omitEmpty then ",omitempty" else "") ++ "\"`\n"

/-- A piece of a generated file. -/
inductive GoDecl where
  | heading (name : String)
  | iface (name : String) (methods : List String)
  | struct (name : String) (fields : List GoField)
  | errorMethod (name : String)
  | union (name : String) (tags : List String) (fields : List GoField)
  | enum (name : String) (elements : List (String × String))
  | defn (name : String) (type : GoTy) (note : String)
  | fromString (name : String)
  | timestamp
  | decimal
  deriving Repr, DecidableEq

/-- golang/golang_model.go:259-339 `decimalType`, the text of the generated Decimal type. -/
def goDecimalText : String :=
  "// Decimal is a big.Float equivalent, but marshals to JSON as strings to preserve precision.\n" ++
  "\n" ++
  "const DecimalPrecision = uint(250)\n" ++
  "\n" ++
  "type Decimal struct {\n" ++
  "\tbig.Float\n" ++
  "}\n" ++
  "\n" ++
  "// Encode as a string. Encoding as a JSON number works fine, but the Unbmarshal doesn't. If we use string as the representation in JSON, it works fine.\n" ++
  "// What a shame.\n" ++
  "func (d *Decimal) MarshalJSON() ([]byte, error) {\n" ++
  "\trepr := d.Text('f', -1)\n" ++
  "\tstringRepr := \"\\\"\" + repr + \"\\\"\"\n" ++
  "\treturn []byte(stringRepr), nil\n" ++
  "}\n" ++
  "\n" ++
  "func (d *Decimal) UnmarshalJSON(b []byte) error {\n" ++
  "\tvar stringRepr string\n" ++
  "\terr := json.Unmarshal(b, &stringRepr)\n" ++
  "\tif err == nil {\n" ++
  "\t\tvar num *Decimal\n" ++
  "\t\tnum, err = ParseDecimal(stringRepr)\n" ++
  "\t\tif err == nil {\n" ++
  "\t\t\t*d = *num\n" ++
  "\t\t\treturn nil\n" ++
  "\t\t}\n" ++
  "\t} else {\n" ++
  "\t\tvar floatRepr float64\n" ++
  "\t\terr = json.Unmarshal(b, &floatRepr)\n" ++
  "\t\tif err == nil {\n" ++
  "         *d = *NewDecimal(floatRepr)\n" ++
  "\t\t\treturn nil\n" ++
  "\t\t}\n" ++
  "\t}\n" ++
  "\treturn fmt.Errorf(\"Bad Decimal number: %s\", string(b))\n" ++
  "}\n" ++
  "\n" ++
  "func DecimalFromString(text string) *Decimal {\n" ++
  "   dec, err := ParseDecimal(text)\n" ++
  "   if err != nil {\n" ++
  "\t\treturn nil\n" ++
  "\t}\n" ++
  "\treturn dec\n" ++
  "}\n" ++
  "\n" ++
  "func ParseDecimal(text string) (*Decimal, error) {\n" ++
  "\tnum, _, err := big.ParseFloat(text, 10, DecimalPrecision, big.ToNearestEven)\n" ++
  "\tif err != nil {\n" ++
  "\t\treturn nil, fmt.Errorf(\"Bad Decimal number: %s\", text)\n" ++
  "\t}\n" ++
  "   return &Decimal{Float:*num}, nil\n" ++
  "}\n" ++
  "\n" ++
  "func NewDecimal(val float64) *Decimal {\n" ++
  "   return &Decimal{Float:*big.NewFloat(val)}\n" ++
  "}\n" ++
  "\n" ++
  "func (d *Decimal) String() string {\n" ++
  "\treturn fmt.Sprint(d)\n" ++
  "}\n" ++
  "\n" ++
  "func (d *Decimal) AsInt32() int32 {\n" ++
  "\tn := d.AsInt64()\n" ++
  "\treturn int32(n)\n" ++
  "}\n" ++
  "\n" ++
  "func (d *Decimal) AsInt64() int64 {\n" ++
  "\ti, _ := d.Int64()\n" ++
  "\treturn i\n" ++
  "}\n" ++
  "\n" ++
  "func (d *Decimal) AsFloat64() float64 {\n" ++
  "\tf, _ := d.Float64()\n" ++
  "\treturn f\n" ++
  "}\n" ++
  "\n" ++
  "func (d *Decimal) AsBigFloat() *big.Float {\n" ++
  "   return &d.Float\n" ++
  "}\n" ++
  "\n"

/-- golang/golang_model.go:352-410 `timestamp`, the text of the generated Timestamp type. -/
def goTimestampText : String :=
  "\n" ++
  "\n" ++
  "type Timestamp struct {\n" ++
  "\ttime.Time\n" ++
  "}\n" ++
  "\n" ++
  "const RFC3339Milli = \"%d-%02d-%02dT%02d:%02d:%02d.%03dZ\"\n" ++
  "\n" ++
  "func (ts Timestamp) String() string {\n" ++
  "\tif ts.IsZero() {\n" ++
  "\t\treturn \"\"\n" ++
  "\t}\n" ++
  "\treturn fmt.Sprintf(RFC3339Milli, ts.Year(), ts.Month(), ts.Day(), ts.Hour(), ts.Minute(), ts.Second(), ts.Nanosecond()/1000000)\n" ++
  "}\n" ++
  "\n" ++
  "func (ts Timestamp) MarshalJSON() ([]byte, error) {\n" ++
  "\treturn []byte(\"\\\"\" + ts.String() + \"\\\"\"), nil\n" ++
  "}\n" ++
  "\n" ++
  "func (ts *Timestamp) UnmarshalJSON(b []byte) error {\n" ++
  "\tvar j string\n" ++
  "\terr := json.Unmarshal(b, &j)\n" ++
  "\tif err == nil {\n" ++
  "\t\tvar tsp Timestamp\n" ++
  "\t\ttsp, err = ParseTimestamp(string(j))\n" ++
  "\t\tif err == nil {\n" ++
  "\t\t\t*ts = tsp\n" ++
  "\t\t}\n" ++
  "\t}\n" ++
  "\treturn err\n" ++
  "}\n" ++
  "\n" ++
  "func TimestampFromString(s string) *Timestamp {\n" ++
  "\tts, err := ParseTimestamp(s)\n" ++
  "   if err != nil {\n" ++
  "\t\treturn nil\n" ++
  "\t}\n" ++
  "\treturn &ts\n" ++
  "}\n" ++
  "\n" ++
  "func ParseTimestamp(s string) (Timestamp, error) {\n" ++
  "\tlayout := \"2006-01-02T15:04:05.999Z\" //derive this from the spec used for output?\n" ++
  "\tt, e := time.Parse(layout, s)\n" ++
  "\tif e != nil {\n" ++
  "\t\tif strings.HasSuffix(s, \"+00:00\") || strings.HasSuffix(s, \"-00:00\") {\n" ++
  "\t\t\tt, e = time.Parse(layout, s[:len(s)-6]+\"Z\")\n" ++
  "\t\t} else if strings.HasSuffix(s, \"+0000\") || strings.HasSuffix(s, \"-0000\") {\n" ++
  "\t\t\tt, e = time.Parse(layout, s[:len(s)-5]+\"Z\")\n" ++
  "\t\t} else {\n" ++
  "\t\t\tt, e = time.Parse(\"Mon, 02 Jan 2006 15:04:05 GMT\", s) //Last-Modified, etc are of in RFC2616 format\n" ++
  "\t\t}\n" ++
  "\t\tif e != nil {\n" ++
  "\t\t\tvar ts Timestamp\n" ++
  "\t\t\treturn ts, fmt.Errorf(\"Bad Timestamp: %q\", s)\n" ++
  "\t\t}\n" ++
  "\t}\n" ++
  "\treturn Timestamp{t}, nil\n" ++
  "}\n"

/-- golang/golang_model.go:43-51 and 33-38: a method of the interface. -/
def goSignature (method : String) : String :=
  method ++ "(req *" ++ method ++ "Request) (*" ++ method ++ "Response, error)"

/-- golang/golang_model.go:214-247 `enumTemplate`. -/
def goEnumText (name : String) (elements : List (String × String)) : String :=
  "type " ++ name ++ " int\n\nconst (\n    _ " ++ name ++ " = iota" ++
  String.join (elements.map fun e => "\n    " ++ e.1) ++
  "\n)\n\nvar names" ++ name ++ " = []string{" ++
  String.join (elements.map fun e => "\n    " ++ e.1 ++ ": \"" ++ e.2 ++ "\",") ++
  "\n}\n\nfunc (e " ++ name ++ ") String() string {\n    return names" ++ name ++
  "[e]\n}\n\nfunc (e " ++ name ++ ") MarshalJSON() ([]byte, error) {\n    return json.Marshal(e.String())\n}\n\nfunc (e *" ++ name ++
  ") UnmarshalJSON(b []byte) error {\n    var s string\n    err := json.Unmarshal(b, &s)\n    if err == nil {\n        for v, s2 := range names" ++ name ++
  " {\n            if s == s2 {\n                *e = " ++ name ++
  "(v)\n                return nil\n             }\n        }\n        err = fmt.Errorf(\"Bad enum symbol for type " ++ name ++
  ": %s\", s)\n    }\n    return err\n}\n"

/-- The text of a piece of a file, as the `Emit` calls of golang/golang_model.go write it. -/
def GoDecl.text : GoDecl → String
  | .heading n => "\n//\n// " ++ n ++ "\n//\n"
  | .iface n ms => "\n//\n// " ++ n ++ " is the interface that the service implementation must conform to\n//\ntype " ++ n ++
      " interface {" ++ String.join (ms.map fun k => "\n    " ++ goSignature k) ++ "\n}\n\n"
  | .struct n fs => "type " ++ n ++ " struct {\n" ++ String.join (fs.map GoField.text) ++ "}\n\n"
  | .errorMethod n => "func (e *" ++ n ++ ") Error() string {\n\treturn \"" ++ n ++ "\"\n}\n\n"
  | .union n tags fs => "type " ++ n ++ "VariantTag int\nconst (\n    _ " ++ n ++ "VariantTag = iota\n" ++
      String.join (tags.map fun t => "    " ++ n ++ "VariantTag" ++ t ++ "\n") ++ ")\n\ntype " ++ n ++
      " struct {\n    Variant " ++ n ++ "VariantTag `json:\"-\"`\n" ++ String.join (fs.map GoField.text) ++ "}\n\n"
  | .enum n els => goEnumText n els
  | .defn n t note => "type " ++ n ++ " " ++ t.text ++ note ++ "\n"
  | .fromString n => "func " ++ n ++ "FromString(s string) " ++ n ++
      "{\n\tn, err := strconv.ParseInt(s, 10, 64)\n\tif err != nil {\n\t\treturn 0\n\t}\n\treturn n\n}\n"
  | .timestamp => goTimestampText
  | .decimal => goDecimalText

/-- golang/export_golang.go:219-221 `capitalize` and generator.go:102-104 `Capitalize`: the slice `s[0:1]`
of an empty string panics.  A first character that is not ASCII is left alone, see `capitalizeL`. -/
def goCapitalize (s : String) : Out String :=
  if s = "" then .panic "slice bounds out of range" else .ok (capitalize s)

/-- golang/golang_model.go:154-162: the fields of a struct. -/
def goFields (m : Model) (conf : GoConf) : List StructFieldDef → Out (List GoField × List GoNote)
  | [] => .ok ([], [])
  | fd :: rest =>
    (goCapitalize fd.name).bind fun n =>
    (goType m conf fd.ts fd.ts.type).bind fun t =>
    (goFields m conf rest).bind fun r =>
    .ok (⟨n, t.1, fd.name, !fd.required⟩ :: r.1, t.2 ++ r.2)

/-- golang/golang_model.go:183-188: the fields of a union. -/
def goVariants (m : Model) (conf : GoConf) : List UnionVariantDef → Out (List GoField × List GoNote)
  | [] => .ok ([], [])
  | fd :: rest =>
    (goCapitalize fd.name).bind fun n =>
    (goType m conf fd.ts fd.ts.type).bind fun t =>
    (goVariants m conf rest).bind fun r =>
    .ok (⟨n, t.1, fd.name, true⟩ :: r.1, t.2 ++ r.2)

/-- golang/golang_model.go:165-169, 190-194: the method that makes a type an error; `errors` are the
types that are exceptions of some action. -/
def goErrorMethod (errors : List String) (name : String) : List GoDecl :=
  if name ∈ errors then [.errorMethod name] else []

/-- golang/golang_model.go:203-209 `enumValue`. -/
def goEnumValue (el : EnumElementDef) : String :=
  let val := getAnnotation (some el.annotations) "x_enumValue"
  if val = "" then el.symbol else val

/-- golang/golang_model.go:129. -/
def goNumbers : List String := ["Int8", "Int16", "Int32", "Int64", "Float32", "Float64"]

/-- golang/golang_model.go:103-139 `EmitType`, after the heading, with `EmitStructType`, `EmitUnionType`,
`EmitEnumType`, `EmitArrayType` and `EmitMapType`.  Note that lines 142, 147 and 148 pass the array or map
itself as the specification of its items. -/
def goTypeDecls (m : Model) (conf : GoConf) (errors : List String) (td : TypeDef) : Out (List GoDecl × List GoNote) :=
  if td.ts.type = "Struct" then
    (goFields m conf td.ts.fields).bind fun fs => .ok (.struct td.name fs.1 :: goErrorMethod errors td.name, fs.2)
  else if td.ts.type = "Union" then
    (goVariants m conf td.ts.variants).bind fun fs =>
    .ok (.union td.name (td.ts.variants.map fun v => capitalize v.name) fs.1 :: goErrorMethod errors td.name, fs.2)
  else if td.ts.type = "UnitValue" then .panic "emitUnitValueType NYI"
  else if td.ts.type = "Enum" then .ok ([.enum td.name (td.ts.elements.map fun e => (e.symbol, goEnumValue e))], [])
  else if td.ts.type = "String" then .ok ([.defn td.name (.ident "string") ""], [])
  else if td.ts.type = "UUID" then .ok ([.defn td.name (.ident "string") " //UUID"], [])
  else if td.ts.type = "Decimal" then .ok ([.defn td.name (.ident "Decimal") ""], [.decimal])
  else if td.ts.type = "Array" then
    (goType m conf td.ts td.ts.items).bind fun t => .ok ([.defn td.name (.slice t.1) ""], t.2)
  else if td.ts.type = "Map" then
    (goType m conf td.ts td.ts.keys).bind fun k =>
    (goType m conf td.ts td.ts.items).bind fun t => .ok ([.defn td.name (.map k.1 t.1) ""], k.2 ++ t.2)
  else if td.ts.type ∈ goNumbers then
    .ok ([.defn td.name (.ident (uncapitalize td.ts.type)) "", .fromString td.name], [.pack "strconv"])
  else .panic ("EmitType NYI: " ++ td.ts.type)

/-- golang/golang_model.go:61-87 `EmitRequestType` and `EmitResponseType`; `hd.Expected` may be nil. -/
def goActionTypes (m : Model) (conf : GoConf) (hd : HttpDef) : Out (List GoDecl × List GoNote) :=
  (goCapitalize hd.name).bind fun n =>
  (goFields m conf (hd.inputs.map (·.field))).bind fun i =>
  match hd.expected with
  | none => .panic "invalid memory address or nil pointer dereference"
  | some e =>
    (goFields m conf (e.outputs.map (·.field))).bind fun o =>
    .ok ([.struct (n ++ "Request") i.1, .struct (n ++ "Response") o.1], i.2 ++ o.2)

/-- golang/golang_model.go:91-98: the loop over the actions. -/
def goActionsLoop (m : Model) (conf : GoConf) : List HttpDef → Out (List GoDecl × List GoNote)
  | [] => .ok ([], [])
  | hd :: rest =>
    (goActionTypes m conf hd).bind fun a =>
    (goActionsLoop m conf rest).bind fun r => .ok (a.1 ++ r.1, a.2 ++ r.2)

/-- golang/golang_model.go:99-101: the loop over the types. -/
def goTypesLoop (m : Model) (conf : GoConf) (errors : List String) : List TypeDef → Out (List GoDecl × List GoNote)
  | [] => .ok ([], [])
  | td :: rest =>
    (goTypeDecls m conf errors td).bind fun a =>
    (goTypesLoop m conf errors rest).bind fun r => .ok (.heading td.name :: a.1 ++ r.1, a.2 ++ r.2)

/-- golang/export_golang.go:112-119 `adjoin`. -/
def adjoin (lst : List String) (val : String) : List String := if val ∈ lst then lst else lst ++ [val]

/-- golang/export_golang.go:121-123 `addImport`, for a note that is an import. -/
def addImport (l : List String) : GoNote → List String
  | .pack p => adjoin l p
  | _ => l

/-- The imports among the notes (golang/export_golang.go:121-123). -/
def goImports (notes : List GoNote) : List String := notes.foldl addImport []

/-- A generated Go file. -/
structure GoFile where
  pkg : String
  imports : List String
  decls : List GoDecl
  deriving Repr, DecidableEq

/-- golang/golang_model.go:341-350 and 249-257: the imports of the Timestamp and Decimal types. -/
def goTimestampNotes : List GoNote := [.pack "encoding/json", .pack "fmt", .pack "strings", .pack "time"]
def goDecimalNotes : List GoNote := [.pack "encoding/json", .pack "fmt", .pack "math/big"]

/-- golang/golang_model.go:17-22: the types written at the end, and their imports. -/
def goClosing (notes : List GoNote) : List GoDecl × List GoNote :=
  let ts := if GoNote.timestamp ∈ notes then ([GoDecl.timestamp], goTimestampNotes) else ([], [])
  let d := if GoNote.decimal ∈ notes then ([GoDecl.decimal], goDecimalNotes) else ([], [])
  (ts.1 ++ d.1, ts.2 ++ d.2)

/-- golang/golang_model.go:10-41 and 89-101 `CreateModel`, `EmitInterface` and `EmitTypeDefs`.  The
template of the interface fails for an action without a name, and then `EmitRequestType` panics. -/
def goModel (m : Model) (conf : GoConf) : Out GoFile :=
  (goActionsLoop m conf m.schema.http).bind fun a =>
  (goTypesLoop m conf (m.schema.http.flatMap fun hd => hd.exceptions.map (·.type)) m.schema.types).bind fun t =>
  let notes := a.2 ++ t.2
  let c := goClosing notes
  .ok ⟨conf.pkg, goImports (notes ++ c.2),
    .iface conf.name (m.schema.http.map fun hd => capitalize hd.name) :: a.1 ++ t.1 ++ c.1⟩

/-- golang/export_golang.go:85-99 `WriteGoFile`, with the header of line 55. -/
def GoFile.text (f : GoFile) : String :=
  "//\n// Generated by sadl\n//\n" ++ "package " ++ f.pkg ++ "\n" ++
  (if f.imports = [] then "" else "\nimport(\n" ++ String.join (f.imports.map fun p => "\t\"" ++ p ++ "\"\n") ++ ")\n") ++
  String.join (f.decls.map GoDecl.text)

end Sadl
