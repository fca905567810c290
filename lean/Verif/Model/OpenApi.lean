import Verif.Model.Model
import Verif.Model.Misc
import Verif.Model.ParserValidate
import Verif.Model.Timestamp
/-
openapi/model.go and openapi/export_openapi.go: the OpenAPI document and the export of a
model to it.

Simplifications: `Extensions` and the members of the OpenAPI objects that neither the export
nor the import touches are left out.  A pointer that Go stores in two places is stored as a
value; where the code later writes through it (the examples), the model updates the document.
-/
namespace Sadl

/-- Outcome of a Go function that returns `(value, error)`, may panic, or may never return
(`hang`: the model ran out of steps; the Go program overflows its stack). -/
inductive Ran (α : Type) where
  | ok (a : α)
  | err (msg : String)
  | panic (msg : String)
  | hang
  deriving Repr, DecidableEq

namespace Ran
variable {α β : Type}

/-- Sequencing: the first outcome that is not a value ends the computation. -/
def bind (x : Ran α) (f : α → Ran β) : Ran β :=
  match x with
  | .ok a => f a
  | .err e => .err e
  | .panic e => .panic e
  | .hang => .hang

instance : Monad Ran where
  pure := .ok
  bind := Ran.bind

@[simp] theorem bind_ok (a : α) (f : α → Ran β) : (Ran.ok a >>= f) = f a := rfl
@[simp] theorem bind_err (e : String) (f : α → Ran β) : (Ran.err e >>= f) = .err e := rfl
@[simp] theorem bind_panic (e : String) (f : α → Ran β) : (Ran.panic e >>= f) = .panic e := rfl
@[simp] theorem bind_hang (f : α → Ran β) : (Ran.hang >>= f) = .hang := rfl
@[simp] theorem pure_eq (a : α) : (pure a : Ran α) = .ok a := rfl

end Ran

/-- openapi/model.go:232-281 `Schema`.  `min`/`max` hold the float64; `enum = none` and
`properties = none` are the nil slice and map. -/
structure OSchema where
  ref : String := ""
  type : String := ""
  format : String := ""
  description : String := ""
  enum : Option (List Value) := none
  «example» : Value := .null
  min : Option BigFloat := none
  max : Option BigFloat := none
  minLength : Nat := 0
  maxLength : Option Nat := none
  pattern : String := ""
  oneOf : List OSchema := []
  items : Option OSchema := none
  required : List String := []
  properties : Option (List (String × OSchema)) := none
  additionalProperties : Option OSchema := none

/-- openapi/model.go:201-207 `MediaType`; `examples` maps a name to the value of the example. -/
structure OMedia where
  schema : Option OSchema := none
  «example» : Value := .null
  examples : GoMap Value := []

/-- openapi/model.go:165-180 `Parameter`. -/
structure OParam where
  name : String := ""
  «in» : String := ""
  description : String := ""
  required : Bool := false
  schema : Option OSchema := none
  «example» : Value := .null
  examples : GoMap Value := []

/-- openapi/model.go:226-230 `Header`. -/
structure OHeader where
  description : String := ""
  schema : Option OSchema := none

/-- openapi/model.go:182-188 `Response`. -/
structure OResponse where
  description : String := ""
  headers : GoMap OHeader := []
  content : GoMap OMedia := []

/-- openapi/model.go:332-337 `RequestBody`. -/
structure OBody where
  description : String := ""
  required : Bool := false
  content : GoMap OMedia := []

/-- openapi/model.go:150-163 `Operation`. -/
structure OOperation where
  tags : List String := []
  summary : String := ""
  operationId : String := ""
  parameters : List OParam := []
  requestBody : Option OBody := none
  responses : GoMap OResponse := []

/-- openapi/model.go:133-148 `PathItem`. -/
structure OPathItem where
  get : Option OOperation := none
  put : Option OOperation := none
  post : Option OOperation := none
  delete : Option OOperation := none
  head : Option OOperation := none
  patch : Option OOperation := none

/-- The members of a path item that hold an operation. -/
inductive OMethod where
  | get | put | post | delete | head | patch
  deriving Repr, DecidableEq

/-- The operation of a path item for a method. -/
def OPathItem.op (pi : OPathItem) : OMethod → Option OOperation
  | .get => pi.get
  | .put => pi.put
  | .post => pi.post
  | .delete => pi.delete
  | .head => pi.head
  | .patch => pi.patch

/-- The path item with the operation for a method replaced. -/
def OPathItem.setOp (pi : OPathItem) (k : OMethod) (op : OOperation) : OPathItem :=
  match k with
  | .get => { pi with get := some op }
  | .put => { pi with put := some op }
  | .post => { pi with post := some op }
  | .delete => { pi with delete := some op }
  | .head => { pi with head := some op }
  | .patch => { pi with patch := some op }

/-- openapi/model.go:78-119 `Model`, `Info`, `License`, `Server`: the document. -/
structure ODoc where
  openapi : String := ""
  title : String := ""
  description : String := ""
  version : String := ""
  license : Option (String × String) := none
  servers : List String := []
  paths : GoMap OPathItem := []
  schemas : GoMap OSchema := []

/-- What the export takes from outside: the conversion of a `big.Float` to a float64
(decimal.go:58-61), and the order in which the runtime enumerates the map of paths. -/
structure OLib where
  asFloat64 : BigFloat → BigFloat
  order : GoMap OPathItem → GoMap OPathItem

/-- `uint64(n)` for an `int64` n. -/
def toUint64 (n : Int) : Nat := (n % 2 ^ 64).toNat
/-- `int64(n)` for a `uint64` n. -/
def toInt64 (n : Nat) : Int := if n < 2 ^ 63 then n else (n : Int) - 2 ^ 64

/-- `fmt.Sprint(n)` for an integer. -/
def sprintInt (n : Int) : String := String.ofList (showInt n)

/-- The prefix of references within the document (export_openapi.go:457, 621, 649, 668). -/
def refPrefix : String := "#/components/schemas/"

/-- export_openapi.go:520-543 `oasNumericEquivalent`. -/
def oasNumericEquivalent (t : String) : String × String × String :=
  match t with
  | "Int8" => ("integer", "int32", t)
  | "Int16" => ("integer", "int32", t)
  | "Int32" => ("integer", "int32", "")
  | "Int64" => ("integer", "int64", "")
  | "Float32" => ("number", "float", "")
  | "Float64" => ("number", "double", "")
  | "Decimal" => ("number", "", t)
  | _ => ("", "", "")

/-- export_openapi.go:391-406, 561-575: the schema of a numeric type. -/
def oasNumeric (lib : OLib) (ts : TypeSpec) : OSchema :=
  let (t, f, c) := oasNumericEquivalent ts.type
  { type := t, format := f, description := c, min := ts.min.map lib.asFloat64, max := ts.max.map lib.asFloat64 }

/-- export_openapi.go:584-597: the schema of a string type. -/
def oasString (ts : TypeSpec) : OSchema :=
  { type := "string", pattern := ts.pattern
    minLength := match ts.minSize with
      | some n => toUint64 n
      | none => 0
    maxLength := ts.maxSize.map toUint64 }

/-- export_openapi.go:435-445, 655-662: the loop that fills the map of properties. -/
def oasProps (conv : TypeSpec → Ran OSchema) : List StructFieldDef → GoMap OSchema → Ran (GoMap OSchema)
  | [], acc => .ok acc
  | fd :: rest, acc => do
    let s ← conv fd.ts
    oasProps conv rest (mset acc fd.name s)

/-- export_openapi.go:545-671 `oasSchema`, where `rec` stands for its recursive calls.  A missing
item type is a nil pointer, whose dereference panics. -/
def oasSchemaStep (lib : OLib) (m : Model) (rec : TypeSpec → String → Ran OSchema) (ts : TypeSpec) (name : String) :
    Ran OSchema :=
  if ts.type = "Bool" then .ok { type := "boolean" }
  else if ts.type ∈ ["Int32", "Int16", "Int8", "Int64", "Float32", "Float64", "Decimal"] then
    if ts.type = "Float64" ∧ name ≠ "" then .panic ("here? " ++ name) else .ok (oasNumeric lib ts)
  else if ts.type = "Bytes" then .ok { type := "string", format := "byte" }
  else if ts.type = "String" then .ok (oasString ts)
  else if ts.type = "Timestamp" then .ok { type := "string", format := "date-time" }
  else if ts.type = "UnitValue" then .ok { type := "string", description := "UnitValue" }
  else if ts.type = "UUID" then .ok { type := "string", description := "UUID" }
  else if ts.type = "Enum" then .ok { ref := refPrefix ++ name }
  else if ts.type = "Array" then
    match m.findType ts.items with
    | none => .panic "nil pointer"
    | some itd => do
      let s ← rec itd.ts ts.items
      pure { type := "array", items := some s }
  else if ts.type = "Map" then
    match m.findType ts.items with
    | none => .panic "nil pointer"
    | some itd => do
      let s ← rec itd.ts ""
      pure { type := "object", additionalProperties := some s }
  else if ts.type = "Struct" then
    if name ≠ "" then .ok { ref := refPrefix ++ name }
    else do
      let ps ← oasProps (fun ts => rec ts "") ts.fields []
      pure { type := "object", properties := some ps }
  else .ok { ref := refPrefix ++ ts.type }

/-- export_openapi.go:545-671 `oasSchema`; the first argument bounds the depth of the recursion. -/
def oasSchemaN : Nat → OLib → Model → TypeSpec → String → Ran OSchema
  | 0, _, _, _, _ => .hang
  | n + 1, lib, m, ts, name => oasSchemaStep lib m (oasSchemaN n lib m) ts name

/-- export_openapi.go:428-449 `exportStructTypeDef`. -/
def exportStruct (conv : TypeSpec → String → Ran OSchema) (td : TypeDef) : Ran OSchema := do
  let ps ← oasProps (fun ts => conv ts "") td.ts.fields []
  pure { type := "object", description := td.comment,
         required := (td.ts.fields.filter (·.required)).map (·.name), properties := some ps }

/-- export_openapi.go:451-462 `exportUnionTypeDef`. -/
def exportUnion (td : TypeDef) : OSchema :=
  { description := td.comment, oneOf := td.ts.variants.map fun vd => { ref := refPrefix ++ vd.ts.type } }

/-- export_openapi.go:464-476 `exportArrayTypeDef`. -/
def exportArray (m : Model) (conv : TypeSpec → String → Ran OSchema) (td : TypeDef) : Ran OSchema :=
  match m.findType td.ts.items with
  | none => .panic "nil pointer"
  | some itd => do
    let s ← conv itd.ts td.ts.items
    pure { type := "array", description := td.comment, items := some s }

/-- export_openapi.go:478-489 `exportMapTypeDef`. -/
def exportMap (m : Model) (conv : TypeSpec → String → Ran OSchema) (td : TypeDef) : Ran OSchema :=
  match m.findType td.ts.items with
  | none => .panic "nil pointer"
  | some itd => do
    let s ← conv itd.ts ""
    pure { type := "object", description := td.comment, additionalProperties := some s }

/-- export_openapi.go:497-503: the values of a string type; `len(nil)` is 0. -/
def enumOfValues (ts : TypeSpec) : Option (List Value) :=
  match ts.values with
  | some (v :: vs) => some ((v :: vs).map .str)
  | _ => none

/-- export_openapi.go:491-505 `exportStringTypeDef`. -/
def exportString (conv : TypeSpec → String → Ran OSchema) (td : TypeDef) : Ran OSchema := do
  let s ← conv td.ts td.name
  pure { s with description := td.comment
                enum := match enumOfValues td.ts with
                  | some e => some e
                  | none => s.enum }

/-- export_openapi.go:507-518 `exportEnumTypeDef`. -/
def exportEnum (td : TypeDef) : OSchema :=
  { type := "string", description := td.comment, enum := some (td.ts.elements.map fun el => .str el.symbol) }

/-- export_openapi.go:372-426 `exportTypeDef`. -/
def exportTypeDefN (n : Nat) (lib : OLib) (m : Model) (td : TypeDef) : Ran OSchema :=
  let conv := oasSchemaN n lib m
  if td.ts.type = "Struct" then exportStruct conv td
  else if td.ts.type = "Array" then exportArray m conv td
  else if td.ts.type = "Map" then exportMap m conv td
  else if td.ts.type = "String" then exportString conv td
  else if td.ts.type = "Bool" then .ok { description := td.comment, type := "boolean" }
  else if td.ts.type = "Enum" then .ok (exportEnum td)
  else if td.ts.type ∈ ["Int8", "Int16", "Int32", "Int64", "Float32", "Float64", "Decimal"] then .ok (oasNumeric lib td.ts)
  else if td.ts.type = "UUID" then do
    let s ← exportString conv td
    pure { s with format := "uuid" }
  else if td.ts.type = "Union" then .ok (exportUnion td)
  else if td.ts.type = "Timestamp" then do
    let s ← exportString conv td
    pure { s with format := "date-time" }
  else .err ("Implement export of this type: " ++ td.ts.type)

/-- export_openapi.go:66-74: the loop over the types. -/
def exportTypesN (n : Nat) (lib : OLib) (m : Model) : List TypeDef → GoMap OSchema → Ran (GoMap OSchema)
  | [], acc => .ok acc
  | td :: rest, acc => do
    let s ← exportTypeDefN n lib m td
    exportTypesN n lib m rest (mset acc td.name s)

/-- export_openapi.go:79-83: the key of the path of an action. -/
def oasPath (base : String) (h : HttpDef) : String :=
  String.ofList ((base ++ h.path).toList.takeWhile (· != '?'))

/-- export_openapi.go:105-117: the tags of an action. -/
def oasTags (h : HttpDef) : List String :=
  (if h.resource ≠ "" then [h.resource] else []) ++
  match mget h.annotations "x_tags" with
  | some v => (splitAll ',' v.toList).map String.ofList
  | none => []

/-- export_openapi.go:118-139: the member of the path item for a method; other methods have none. -/
def oasMethod (method : String) : Option OMethod :=
  match method with
  | "GET" => some .get
  | "PUT" => some .put
  | "DELETE" => some .delete
  | "POST" => some .post
  | _ => none

/-- The content of a request or response with one JSON body. -/
def jsonContent (s : OSchema) : GoMap OMedia := [("application/json", { schema := some s })]

/-- export_openapi.go:141-178: an input of an action, whose type has the schema `s`. -/
def exportInput (p : HttpParamSpec) (s : OSchema) (op : OOperation) : OOperation :=
  let d := p.field.comment
  let r := p.field.required
  if p.path then
    { op with parameters := op.parameters ++
        [{ name := p.field.name, «in» := "path", description := d, required := true, schema := some s }] }
  else if p.query ≠ "" then
    { op with parameters := op.parameters ++
        [{ name := p.query, «in» := "query", description := d, required := r, schema := some s }] }
  else if p.header ≠ "" then
    { op with parameters := op.parameters ++
        [{ name := p.header, «in» := "header", description := d, required := r, schema := some s }] }
  else
    let b : OBody := { description := d, required := true, content := jsonContent s }
    { op with requestBody := some b }

/-- export_openapi.go:140-179: the loop over the inputs of an action. -/
def exportInputs (conv : TypeSpec → String → Ran OSchema) : List HttpParamSpec → OOperation → Ran OOperation
  | [], op => .ok op
  | p :: rest, op => do
    let s ← conv p.field.ts ""
    exportInputs conv rest (exportInput p s op)

/-- export_openapi.go:193-215: an output of an action, whose type has the schema `s`. -/
def exportOutput (p : HttpParamSpec) (s : OSchema) (r : OResponse) : OResponse :=
  if p.header ≠ "" then
    let h : OHeader := { description := p.field.comment, schema := some s }
    { r with headers := mset r.headers p.header h }
  else
    let mt : OMedia := { schema := some s }
    { r with content := mset r.content "application/json" mt }

/-- export_openapi.go:192-216: the loop over the outputs of an action. -/
def exportOutputs (conv : TypeSpec → String → Ran OSchema) : List HttpParamSpec → OResponse → Ran OResponse
  | [], r => .ok r
  | p :: rest, r => do
    let s ← conv p.field.ts ""
    exportOutputs conv rest (exportOutput p s r)

/-- export_openapi.go:223-241: the key and the response of an exception. -/
def exportException (x : HttpExceptionSpec) : String × OResponse :=
  (if x.status ≠ 0 then sprintInt x.status else "default",
   { description := if x.comment = "" then "Exceptional response" else x.comment
     content := jsonContent { ref := refPrefix ++ x.type } })

/-- export_openapi.go:222-244: the loop over the exceptions of an action. -/
def exportExceptions : List HttpExceptionSpec → GoMap OResponse → GoMap OResponse
  | [], rs => rs
  | x :: rest, rs => exportExceptions rest (mset rs (exportException x).1 (exportException x).2)

/-- export_openapi.go:96-117, 140-244: the operation of an action. -/
def exportOp (conv : TypeSpec → String → Ran OSchema) (h : HttpDef) : Ran OOperation := do
  let op ← exportInputs conv h.inputs { operationId := h.name, summary := h.comment, tags := oasTags h }
  match h.expected with
  | none => .panic "nil pointer"
  | some e => do
    let r ← exportOutputs conv e.outputs
      { description := if e.comment = "" then "Expected response" else e.comment }
    pure { op with responses := exportExceptions h.exceptions [(sprintInt e.status, r)] }

/-- export_openapi.go:77-245: the loop over the actions. -/
def exportHttpN (n : Nat) (lib : OLib) (m : Model) : List HttpDef → GoMap OPathItem → Ran (GoMap OPathItem)
  | [], paths => .ok paths
  | h :: rest, paths =>
    let p := oasPath m.schema.base h
    let pi := (mget paths p).getD {}
    match oasMethod h.method with
    | some k =>
      match pi.op k with
      | some _ => .err ("Duplicate HTTP Method spec (" ++ h.method ++ ") for path: " ++ h.path)
      | none => do
        let op ← exportOp (oasSchemaN n lib m) h
        exportHttpN n lib m rest (mset paths p (pi.setOp k op))
    | none => do
      let _ ← exportOp (oasSchemaN n lib m) h
      exportHttpN n lib m rest (mset paths p pi)

/-- export_openapi.go:349-364: the operation that `FindOperation` looks at in a path item. -/
def OPathItem.first (pi : OPathItem) : Option (OMethod × OOperation) :=
  match pi.get, pi.put, pi.delete, pi.post, pi.head, pi.patch with
  | some op, _, _, _, _, _ => some (.get, op)
  | _, some op, _, _, _, _ => some (.put, op)
  | _, _, some op, _, _, _ => some (.delete, op)
  | _, _, _, some op, _, _ => some (.post, op)
  | _, _, _, _, some op, _ => some (.head, op)
  | _, _, _, _, _, some op => some (.patch, op)
  | none, none, none, none, none, none => none

/-- export_openapi.go:347-370 `FindOperation`: the path and the method of the operation. -/
def findOperation (opId : String) : GoMap OPathItem → Ran (Option (String × OMethod))
  | [] => .ok none
  | (p, pi) :: rest =>
    match pi.first with
    | none => .panic "fix me"
    | some (k, op) => if op.operationId = opId then .ok (some (p, k)) else findOperation opId rest

/-- export_openapi.go:269-278, 308-317: an example of a JSON body. -/
def OMedia.addExample (name : String) (v : Value) (mt : OMedia) : OMedia :=
  if name = "" then { mt with «example» := v } else { mt with examples := mset mt.examples name v }

/-- export_openapi.go:280-293, 320-333: an example of a parameter. -/
def paramExample (name k : String) (v : Value) (p : OParam) : OParam :=
  if p.name = k then
    if name = "" then { p with «example» := v } else { p with examples := mset p.examples name v }
  else p

/-- export_openapi.go:268-278, 307-317: an example of the JSON body in a content map.  A
missing entry is a nil pointer. -/
def contentExample (name : String) (v : Value) (c : GoMap OMedia) : Ran (GoMap OMedia) :=
  match mget c "application/json" with
  | none => .panic "nil pointer"
  | some mt => .ok (mset c "application/json" (mt.addExample name v))

/-- export_openapi.go:267-278: an example of the body of the request. -/
def requestBodyExample (name : String) (v : Value) (op : OOperation) : Ran OOperation :=
  match op.requestBody with
  | none => .panic "nil pointer"
  | some b => do
    let c ← contentExample name v b.content
    let b' : OBody := { b with content := c }
    pure { op with requestBody := some b' }

/-- export_openapi.go:302-317: an example of the body of the expected response. -/
def responseBodyExample (m : Model) (hdefName name : String) (v : Value) (op : OOperation) : Ran OOperation :=
  match (m.findHttp hdefName).bind (·.expected) with
  | none => .panic "nil pointer"
  | some e =>
    match mget op.responses (sprintInt e.status) with
    | none => .panic "nil pointer"
    | some r => do
      let c ← contentExample name v r.content
      let r' : OResponse := { r with content := c }
      pure { op with responses := mset op.responses (sprintInt e.status) r' }

/-- export_openapi.go:266-295, 301-335: the loop over the members of an example; `body` says
what to do with the member of that name. -/
def membersExample (body : Value → OOperation → Ran OOperation) (name : String) :
    List (String × Value) → OOperation → Ran OOperation
  | [], op => .ok op
  | (k, v) :: rest, op =>
    if k = "body" then do
      let op ← body v op
      membersExample body name rest op
    else membersExample body name rest { op with parameters := op.parameters.map (paramExample name k v) }

/-- `ed.Example.(map[string]interface{})`: panics on anything else. -/
def asObject : Value → Ran (List (String × Value))
  | .obj kvs => .ok kvs
  | _ => .panic "interface conversion"

/-- Write an operation back in its place. -/
def ODoc.setOp (d : ODoc) (p : String) (k : OMethod) (op : OOperation) : ODoc :=
  { d with paths := mset d.paths p (((mget d.paths p).getD {}).setOp k op) }

/-- The operation at a place. -/
def ODoc.opAt (d : ODoc) (p : String) (k : OMethod) : Option OOperation := ((mget d.paths p).getD {}).op k

/-- export_openapi.go:252-342: one example. -/
def exportExample (lib : OLib) (m : Model) (ed : ExampleDef) (d : ODoc) : Ran ODoc :=
  match mget d.schemas ed.target with
  | some s => .ok { d with schemas := mset d.schemas ed.target { s with «example» := ed.example } }
  | none =>
    match cutSuffixS "Request" ed.target with
    | some base => do
      match ← findOperation (uncapitalize base) (lib.order d.paths) with
      | none => pure d
      | some (p, k) => do
        let kvs ← asObject ed.example
        let op ← membersExample (requestBodyExample ed.name) ed.name kvs ((d.opAt p k).getD {})
        pure (d.setOp p k op)
    | none =>
      match cutSuffixS "Response" ed.target with
      | some base => do
        match ← findOperation (uncapitalize base) (lib.order d.paths) with
        | none => .panic "no"
        | some (p, k) => do
          let kvs ← asObject ed.example
          let op ← membersExample (responseBodyExample m (uncapitalize base) ed.name) ed.name kvs ((d.opAt p k).getD {})
          pure (d.setOp p k op)
      | none => .ok d

/-- export_openapi.go:247-343: the loop over the examples. -/
def exportExamples (lib : OLib) (m : Model) : List ExampleDef → ODoc → Ran ODoc
  | [], d => .ok d
  | ed :: rest, d => do
    let d ← exportExample lib m ed d
    exportExamples lib m rest d

/-- export_openapi.go:35-65: the head of the document.  `Annotations` is nil or a map; a nil
map has no entries. -/
def exportHead (s : Schema) : ODoc :=
  let lname := (mget s.annotations "x_license_name").getD ""
  let lurl := (mget s.annotations "x_license_url").getD ""
  { openapi := "3.0.0", title := s.name, description := s.comment
    version := if s.version = "" then "dev" else s.version
    servers := "http://localhost:8000" :: (mget s.annotations "x_server").toList
    license := if lurl ≠ "" ∨ lname ≠ "" then some (lname, lurl) else none }

/-- export_openapi.go:33-345 `ExportToOAS3`. -/
def exportOasN (n : Nat) (lib : OLib) (m : Model) : Ran ODoc := do
  let schemas ← exportTypesN n lib m m.schema.types []
  let paths ← exportHttpN n lib m m.schema.http []
  exportExamples lib m m.schema.examples { exportHead m.schema with schemas := schemas, paths := paths }

end Sadl
