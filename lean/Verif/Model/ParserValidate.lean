import Verif.Model.Parser
import Verif.Model.Equiv
/-
Validation of a parsed model: parser.go:2060-2462 (extensions excepted), and
`Parser.Parse`, parser.go:146-152.

The result of a check is `Res Unit`: `none` means that the check does not return within
the fuel (values are validated against types, which may run forever, see C05).
-/
namespace Sadl

/-- no error -/
def rok : Res Unit := some (.ok ())
/-- an error -/
def rerr (e : String) : Res Unit := some (.err e)

/-- Go's `if err != nil { return err }; k`. -/
def Res.andThen (r k : Res Unit) : Res Unit :=
  match r with
  | none => none
  | some (.err e) => some (.err e)
  | some (.panic e) => some (.panic e)
  | some (.ok _) => k

/-- A Go loop returning the first error of its body. -/
def checkAll {α : Type} (f : α → Res Unit) : List α → Res Unit
  | [] => rok
  | x :: xs => (f x).andThen (checkAll f xs)

/-- A validation of a value, which cannot panic, as a check. -/
def ofVRes (v : VRes) : Res Unit :=
  match v with
  | none => none
  | some (.error e) => some (.err e)
  | some (.ok _) => rok

/-- model.go:486-492 `IsNumericType`. -/
def isNumericType (ts : TypeSpec) : Bool :=
  match ts.type with
  | "Int8" | "Int16" | "Int32" | "Int64" | "Float32" | "Float64" | "Decimal" => true
  | _ => false

section
variable (lib : Lib) (m : Model) (fuel : Nat)

/-- `if m.FindType(name) == nil { return error }` -/
def defined (name : String) : Res Unit :=
  match m.findType name with
  | none => rerr "Undefined type"
  | some _ => rok

/-- parser.go:2394-2416: the parameters of an inline Array or Map field. -/
def checkFieldParams (ts : TypeSpec) : Res Unit :=
  match ts.type with
  | "Array" => if ts.items ≠ "" ∧ ts.items ≠ "Any" then defined m ts.items else rok
  | "Map" =>
    (if ts.keys ≠ "" ∧ ts.keys ≠ "Any" then defined m ts.keys else rok).andThen
      (if ts.items ≠ "" ∧ ts.items ≠ "Any" then defined m ts.items else rok)
  | _ => rok

/-- Is the interface value not nil? -/
def notNil (v : Value) : Bool :=
  match v with
  | .null => false
  | _ => true

/-- parser.go:2417-2425: the default of a field. -/
def checkDefault (f : StructFieldDef) : Res Unit :=
  if notNil f.default then
    if f.required then rerr "Cannot have a default value for required field"
    else ofVRes (validateSpec lib m fuel f.ts f.default)
  else rok

/-- parser.go:2389-2429: the loop body of `validateStruct`. -/
def checkField (f : StructFieldDef) : Res Unit :=
  (defined m f.ts.type).andThen <|
  (checkFieldParams m f.ts).andThen <|
  (checkDefault lib m fuel f).andThen <|
  if f.ts.values.isSome ∧ f.ts.pattern ≠ "" then rerr "Cannot have both 'values' and 'pattern'" else rok

/-- parser.go:2387-2431 `validateStruct`. -/
def checkStruct (td : TypeDef) : Res Unit := checkAll (checkField lib m fuel) td.ts.fields

/-- parser.go:2433-2443 `validateArray`. -/
def checkArray (td : TypeDef) : Res Unit :=
  if td.ts.items = "Any" then rok else defined m td.ts.items

/-- parser.go:2445-2462 `validateMap`. -/
def checkMap (td : TypeDef) : Res Unit :=
  if td.ts.items = "Any" then rok
  else (defined m td.ts.items).andThen (if td.ts.keys = "String" then rok else defined m td.ts.keys)

/-- parser.go:2369-2385 `validateUnitValue`. -/
def checkUnitValue (td : TypeDef) : Res Unit :=
  match m.findType td.ts.value with
  | none => rerr "Undefined value type"
  | some vt =>
    if isNumericType vt.ts then
      match m.findType td.ts.unit with
      | none => rerr "Undefined unit type"
      | some ut => if ut.ts.type ≠ "String" ∧ ut.ts.type ≠ "Enum" then rerr "not String or Enum" else rok
    else rerr "not numeric"

/-- parser.go:2359-2367 `validateReference`. -/
def checkReference (td : TypeDef) : Res Unit :=
  if td.ts.reference ≠ "" then defined m td.ts.reference else rok

/-- parser.go:2350-2357 `validateStringDef`. -/
def checkStringDef (td : TypeDef) : Res Unit :=
  if td.ts.pattern ≠ "" ∧ td.ts.values.isSome then rerr "Both 'pattern' and 'values'"
  else checkReference m td

/-- parser.go:2062-2081: the check of one type. -/
def checkType (td : TypeDef) : Res Unit :=
  match td.ts.type with
  | "Struct" => checkStruct lib m fuel td
  | "Array" => checkArray m td
  | "Map" => checkMap m td
  | "UnitValue" => checkUnitValue m td
  | "String" => checkStringDef m td
  | "UUID" => checkReference m td
  | _ => rok

/-- `strings.HasSuffix(s, suffix)`, and the part before it. -/
def cutSuffixS (suffix s : String) : Option String :=
  if suffix.toList.isSuffixOf s.toList then
    some (String.ofList (s.toList.take (s.toList.length - suffix.toList.length)))
  else none

/-- parser.go:2123-2145: the type specification an example is checked against. -/
def exampleSpec (target : String) : Option TypeSpec :=
  match m.findType target with
  | some td => some td.ts
  | none =>
    match splitFirst '.' target.toList with
    | some (tname, mname) =>
      if tname = [] then none
      else match m.findType (String.ofList tname) with
        | some td =>
          if td.ts.type = "Struct" then
            (td.ts.fields.reverse.find? (fun f => f.name == String.ofList mname)).map (·.ts)
          else none
        | none => none
    | none => none

/-- parser.go:2180-2193, 2211-2224: the check of one member of an HTTP example. -/
def checkMember (params : List HttpParamSpec) (kv : String × Value) : Res Unit :=
  checkAll (fun p =>
    if p.field.name = kv.1 then
      match m.findType p.field.ts.type with
      | none => rerr "Type not found in example"
      | some td => ofVRes (validateSpec lib m fuel td.ts kv.2)
    else rok) params

/-- parser.go:2195-2201, 2226-2232: the required parameters.  `present` holds exactly the
keys of the example that name a parameter. -/
def checkPresent (params : List HttpParamSpec) (kvs : GoMap Value) : Res Unit :=
  checkAll (fun p =>
    if p.field.required ∧ (mget kvs p.field.name).isNone then rerr "Required parameter missing" else rok) params

/-- parser.go:2173-2202 `validateExampleAgainstHttpRequest` and
parser.go:2204-2233 `validateExampleAgainstHttpResponse` for the given parameters. -/
def checkHttpExample (params : List HttpParamSpec) (v : Value) : Res Unit :=
  match v with
  | .obj kvs => (checkAll (checkMember lib m fuel params) kvs).andThen (checkPresent params kvs)
  | _ => rerr "Example for an HTTP request must be a JSON object"

/-- parser.go:2204-2233 `validateExampleAgainstHttpResponse`: the missing expectation is
dereferenced unless the example is not an object (parser.go:2207) . -/
def checkHttpResponse (h : HttpDef) (v : Value) : Res Unit :=
  match v with
  | .obj kvs =>
    match h.expected with
    | none => some (.panic "nil Expected dereferenced")
    | some e => checkHttpExample lib m fuel e.outputs (.obj kvs)
  | _ => rerr "Example for an HTTP response must be a JSON object"

/-- parser.go:2118-2171 `validateExample`. -/
def checkExample (ex : ExampleDef) : Res Unit :=
  match exampleSpec m ex.target with
  | some ts => ofVRes (validateSpec lib m fuel ts ex.example)
  | none =>
    match cutSuffixS "Request" ex.target with
    | some base =>
      match m.findHttp (uncapitalize base) with
      | none => rerr "Example target not found"
      | some h => checkHttpExample lib m fuel h.inputs ex.example
    | none =>
      match cutSuffixS "Response" ex.target with
      | some base =>
        match m.findHttp (uncapitalize base) with
        | none => rerr "Example target not found"
        | some h => checkHttpResponse lib m fuel h ex.example
      | none => rerr "Cannot find example target"

/-- parser.go:2273-2290: the loop over the inputs; `body` is the name of the body
parameter found so far, empty if none. -/
def checkInputs (needsBody : Bool) : String → List HttpParamSpec → Res Unit
  | _, [] => rok
  | body, p :: rest =>
    (defined m p.field.ts.type).andThen <|
      if p.path = false ∧ p.query = "" ∧ p.header = "" then
        if needsBody then
          if body ≠ "" then rerr "more than one body parameter"
          else checkInputs needsBody p.field.name rest
        else rerr "not a header or a variable in the path"
      else checkInputs needsBody body rest

/-- parser.go:2297-2312: the loop over the outputs. -/
def checkOutputs (needsBody : Bool) : String → List HttpParamSpec → Res Unit
  | _, [] => rok
  | body, p :: rest =>
    (defined m p.field.ts.type).andThen <|
      if p.header = "" then
        if needsBody then
          if body ≠ "" then rerr "duplicate body parameter"
          else checkOutputs needsBody p.field.name rest
        else rerr "cannot have a body in expected output for status codes 204 or 304"
      else checkOutputs needsBody body rest

/-- parser.go:2266-2319 `validateHttp`. -/
def checkHttp (h : HttpDef) : Res Unit :=
  (if pathTemplateOk h.path then rok else rerr "Bad http path template syntax").andThen <|
  (checkInputs m (decide (h.method = "POST" ∨ h.method = "PUT" ∨ h.method = "PATCH")) "" h.inputs).andThen <|
  match h.expected with
  | none => rok
  | some e =>
    (checkOutputs m (decide (e.status ≠ 204 ∧ e.status ≠ 304)) "" e.outputs).andThen <|
    checkAll (fun exc => defined m exc.type) h.exceptions

/-- parser.go:2060-2116 `Validate` (`validateOperation`, parser.go:2345-2348, checks
nothing). -/
def checkModel : Res Unit :=
  (checkAll (checkType lib m fuel) m.schema.types).andThen <|
  (checkAll (checkExample lib m fuel) m.schema.examples).andThen <|
  checkAll (checkHttp m) m.schema.http
end

/-- parser.go:146-152 `Parse`. -/
def parse (lib : PLib) (incl : String → IncRes) (init : Schema) (toks : List Token) (fuel : Nat) : Res Model :=
  match parseNoValidate lib incl init toks with
  | none => none
  | some (.err e) => some (.err e)
  | some (.panic e) => some (.panic e)
  | some (.ok m) =>
    match checkModel lib.toLib m fuel with
    | none => none
    | some (.err e) => some (.err e)
    | some (.panic e) => some (.panic e)
    | some (.ok _) => some (.ok m)

/-- The call `Parse` (parser.go:146-152) returns the model `m`. -/
def Parses (lib : PLib) (incl : String → IncRes) (init : Schema) (toks : List Token) (m : Model) : Prop :=
  ∃ fuel, parse lib incl init toks fuel = some (.ok m)

end Sadl
