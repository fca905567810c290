import Verif.Model.GoServer
/-
golang/golang_client.go: the generation of a Go client.
-/
namespace Sadl

/-- A query parameter of a call: the field of the request, the text it is compared with, the name that is sent, and the format
of its value (golang/golang_client.go:62-68). -/
structure GoArg where
  field : String
  zero : String
  name : String
  format : String
  deriving Repr, DecidableEq

/-- What a call does with an output: it decodes the body, or reads a header, as a timestamp or as it is
(golang/golang_client.go:91-110). -/
inductive GoOutput where
  | body (field : String) (type : GoTy)
  | header (field key : String) (time : Bool)
  deriving Repr, DecidableEq

/-- A method of the client: the function of golang/golang_client.go:173-194. -/
structure GoCall where
  method : String
  path : String
  args : List GoArg
  verb : String
  body : Option String
  json : Bool
  status : Int
  outputs : List GoOutput
  cases : List (GoTy × Int)
  deriving Repr, DecidableEq

/-- A generated client. -/
structure GoClient where
  pkg : String
  imports : List String
  name : String
  calls : List GoCall
  deriving Repr, DecidableEq

/-- golang/golang_client.go:132-146 `notSet`. -/
def goNotSet (m : Model) (type : String) : String :=
  let bt := goBaseType m type
  if bt = "String" then "\"\""
  else if bt = "Int8" ∨ bt = "Int16" ∨ bt = "Int32" ∨ bt = "Int64" then "0"
  else if bt = "Float32" ∨ bt = "Float64" ∨ bt = "Decimal" then "0.0"
  else if bt = "Bool" then "false"
  else "nil"

/-- golang/golang_client.go:148-160 `typeFormat`.  The format of floating point numbers is `&g`, as in the code. -/
def goTypeFormat (m : Model) (type : String) : String :=
  let bt := goBaseType m type
  if bt = "String" then "%s"
  else if bt = "Int8" ∨ bt = "Int16" ∨ bt = "Int32" ∨ bt = "Int64" then "%d"
  else if bt = "Float32" ∨ bt = "Float64" ∨ bt = "Decimal" then "&g"
  else "%v"

/-- golang/golang_client.go:60-70 `queryParams`. -/
def goArgs (m : Model) : List HttpParamSpec → List GoArg
  | [] => []
  | p :: rest =>
    if p.query ≠ "" then
      ⟨capitalize p.field.name, goNotSet m p.field.ts.type, p.field.name, goTypeFormat m p.field.ts.type⟩ :: goArgs m rest
    else goArgs m rest

/-- golang/golang_client.go:43, 50: the methods whose requests have a body. -/
def goBodyVerbs : List String := ["PUT", "POST", "PATCH"]

/-- golang/golang_client.go:48-59 `reqBodyReader`: the field of the first input that is the body. -/
def goReader : List HttpParamSpec → Option String
  | [] => none
  | p :: rest =>
    if p.path = false ∧ p.query = "" ∧ p.header = "" then some (capitalize p.field.name)
    else goReader rest

/-- golang/golang_client.go:83-113 `expectedResults`: the loop over the outputs. -/
def goOutputs (m : Model) (conf : GoConf) : List HttpParamSpec → Out (List GoOutput × List GoNote)
  | [] => .ok ([], [])
  | p :: rest =>
    (goNativeType m conf p.field.ts.type).bind fun t =>
    let name := capitalize p.field.name
    (goOutputs m conf rest).bind fun r =>
    .ok ((if p.header = "" then .body name t.1 else .header name p.header (t.1.text = "*Timestamp")) :: r.1, t.2 ++ r.2)

/-- golang/golang_client.go:172-195, for one action; the exceptions are those of `exceptionResults`, which writes a case for
each as `exceptions` of the server does. -/
def goCall (m : Model) (conf : GoConf) (hd : HttpDef) : Out (GoCall × List GoNote) :=
  let body := if hd.method ∈ goBodyVerbs then goReader hd.inputs else none
  match hd.expected with
  | none => .panic "invalid memory address or nil pointer dereference"
  | some e =>
    (goOutputs m conf e.outputs).bind fun outputs =>
    (goCases m conf hd.exceptions).bind fun cases =>
    .ok ({ method := capitalize hd.name, path := goRoutePath hd.path, args := goArgs m hd.inputs, verb := hd.method, body := body, json := hd.method ∈ goBodyVerbs,
           status := e.status, outputs := outputs.1, cases := cases.1 },
         (if body.isSome then [.pack "bytes"] else []) ++ outputs.2 ++ cases.2)

/-- golang/golang_client.go:172: the loop over the actions. -/
def goCalls (m : Model) (conf : GoConf) : List HttpDef → Out (List GoCall × List GoNote)
  | [] => .ok ([], [])
  | hd :: rest =>
    (goCall m conf hd).bind fun h =>
    (goCalls m conf rest).bind fun r => .ok (h.1 :: r.1, h.2 ++ r.2)

/-- golang/golang_client.go:25-30. -/
def goClientImports : List String := ["encoding/json", "fmt", "net/http", "strings"]

/-- golang/golang_client.go:13-130 `CreateClient` and `EmitClient`. -/
def goClient (m : Model) (conf : GoConf) : Out GoClient :=
  goTemplate <|
    (goCalls m conf m.schema.http).bind fun cs =>
    .ok { pkg := conf.pkg, imports := cs.2.foldl addImport goClientImports, name := capitalize conf.name ++ "Client", calls := cs.1 }

/-- golang/golang_client.go:64-66. -/
def GoArg.text (a : GoArg) : String :=
  "\tif req." ++ a.field ++ " != " ++ a.zero ++ " {\n" ++
  "\t\targs = append(args, fmt.Sprintf(\"" ++ a.name ++ "=" ++ a.format ++ "\", req." ++ a.field ++ "))\n" ++
  "\t}\n"

/-- golang/golang_client.go:94-109. -/
def GoOutput.text : GoOutput → String
  | .body f t =>
    "\t\tvar entity " ++ t.text ++ "\n" ++
    "\t\terr = json.NewDecoder(res.Body).Decode(&entity)\n" ++
    "\t\tif err != nil {\n\t\t\treturn nil, err\n\t\t}\n" ++
    "\t\tresponse." ++ f ++ " = entity\n"
  | .header f k time =>
    let i := "res.Header.Get(\"" ++ goQuote k ++ "\")"
    "\t\tresponse." ++ f ++ " = " ++ (if time then "TimestampFromString(" ++ i ++ ")" else i) ++ "\n"

/-- golang/golang_client.go:173-194: the text of a method. -/
def GoCall.text (client : String) (c : GoCall) : String :=
  "\nfunc (client *" ++ client ++ ") " ++ c.method ++ "(req *" ++ c.method ++ "Request) (*" ++ c.method ++ "Response, error) {\n" ++
  "\turl := client.Target + \"" ++ c.path ++ "\"\n" ++
  "\tvar args []string\n" ++
  String.join (c.args.map GoArg.text) ++
  "\tif len(args) > 0 {\n\t\turl = url + \"?\" + strings.Join(args, \"&\")\n\t}\n" ++
  "\threq, err := http.NewRequest(\"" ++ c.verb ++ "\", url, " ++
    (match c.body with | some f => "bytes.NewReader([]byte(Json(req." ++ f ++ ")))" | none => "nil") ++ ")\n" ++
  "\tif err != nil {\n\t\treturn nil, err\n\t}\n" ++
  (if c.json then "\threq.Header.Add(\"Content-Type\", \"application/json\")" else "") ++ "\n" ++
  "\tres, err := http.DefaultClient.Do(hreq)\n" ++
  "\tif err != nil {\n\t\treturn nil, err\n\t}\n" ++
  "\tdefer res.Body.Close()\n" ++
  "\tswitch res.StatusCode {\n" ++
  "\tcase " ++ sprintInt c.status ++ ":\n" ++
  "\t\tresponse := &" ++ c.method ++ "Response{}\n" ++
  String.join (c.outputs.map GoOutput.text) ++
  "\t\treturn response, nil\n" ++ "\n" ++
  String.join (c.cases.map fun x =>
    "\tcase " ++ sprintInt x.2 ++ ":\n" ++
    "\t\tvar errEntity " ++ x.1.text ++ "\n" ++
    "\t\terr = json.NewDecoder(res.Body).Decode(&errEntity)\n" ++
    "\t\tif err != nil {\n\t\t\treturn nil, err\n\t\t}\n" ++
    "\t\treturn nil, errEntity\n") ++ "\n" ++
  "\t}\n" ++
  "   return nil,fmt.Errorf(\"whoops\")\n" ++
  "}\n"

/-- golang/golang_client.go:162-197 `clientTemplate` and golang/export_golang.go:85-99 `WriteGoFile`: the text of a client.
`NewClient` returns a `CrudlClient`, whatever the name of the client is. -/
def GoClient.text (c : GoClient) : String :=
  "//\n// Generated by sadl\n//\n" ++ "package " ++ c.pkg ++ "\n" ++
  "\nimport(\n" ++ String.join (c.imports.map fun p => "\t\"" ++ p ++ "\"\n") ++ ")\n" ++
  "\ntype " ++ c.name ++ " struct {\n\tTarget string\n}\n\n" ++
  "func NewClient(target string) (*CrudlClient, error) {\n\treturn &CrudlClient{\n\t\tTarget: target,\n\t}, nil\n}\n" ++
  String.join (c.calls.map (GoCall.text c.name)) ++ "\n\n"

end Sadl
