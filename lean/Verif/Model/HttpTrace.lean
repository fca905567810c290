import Verif.Model.Text
import Verif.Model.Misc
import Verif.Model.Json
/-
httptrace/export_http_examples.go: the traces of HTTP exchanges made from examples.
-/
namespace Sadl

/-- httptrace/export_http_examples.go:143-161 `stripMissingOptionalQueryParams`. -/
def stripMissing (uri : List Char) : List Char :=
  match splitFirst '?' uri with
  | none => uri
  | some (path, query) =>
    let newItems := (splitAll '&' query).filter (fun item => !endsWith '=' item)
    if newItems = [] then path
    else path ++ '?' :: joinWith '&' newItems

/-- The library functions used for traces: encoding/json, `http.StatusText`, and the text of the
clock read by `dateHeader` (httptrace/export_http_examples.go:138-141) while the response of the
example with the given name is written. -/
structure TLib where
  json : JLib
  statusText : Int → String
  date : String → String

/-- httptrace/export_http_examples.go:25-33 `stringExample`.  The key of a map that is not there
gives nil. -/
def stringExample (L : TLib) : Option Value → String
  | some (.strPtr s) => s
  | some (.dec d) => L.json.showDecimal d
  | _ => ""

/-- httptrace/export_http_examples.go:35-39 `exampleData`.  `req` is never nil here. -/
structure TraceEx where
  req : GoMap Value
  exc : Option HttpExceptionSpec := none
  res : Option (GoMap Value) := none

/-- httptrace/export_http_examples.go:49-54: the request examples by name. -/
def traceRequests (reqType : String) : List ExampleDef → GoMap TraceEx → Out (GoMap TraceEx)
  | [], acc => .ok acc
  | ex :: rest, acc =>
    if ex.target = reqType then
      match ex.example with
      | .obj kvs => traceRequests reqType rest (mset acc ex.name { req := kvs })
      | _ => .panic "interface conversion"
    else traceRequests reqType rest acc

/-- httptrace/export_http_examples.go:61-66: the loop over the exceptions. -/
def traceExceptions (ex : ExampleDef) : List HttpExceptionSpec → TraceEx → Out TraceEx
  | [], d => .ok d
  | exc :: rest, d =>
    if exc.type = ex.target then
      match ex.example with
      | .obj kvs => traceExceptions ex rest { d with res := some kvs, exc := some exc }
      | _ => .panic "interface conversion"
    else traceExceptions ex rest d

/-- httptrace/export_http_examples.go:55-70: the responses. -/
def traceResponses (reqType resType : String) (excs : List HttpExceptionSpec) :
    List ExampleDef → GoMap TraceEx → Out (GoMap TraceEx)
  | [], acc => .ok acc
  | ex :: rest, acc =>
    if ex.target = reqType then traceResponses reqType resType excs rest acc
    else match mget acc ex.name with
      | none => traceResponses reqType resType excs rest acc
      | some d =>
        if ex.target = resType then
          match ex.example with
          | .obj kvs => traceResponses reqType resType excs rest (mset acc ex.name { d with res := some kvs })
          | _ => .panic "interface conversion"
        else do
          let d ← traceExceptions ex excs d
          traceResponses reqType resType excs rest (mset acc ex.name d)

/-- `strings.Replace(s, pat, val, -1)` for a pattern that is not empty; the number of characters
still to be skipped comes first. -/
def replaceFrom (pat val : List Char) : Nat → List Char → List Char
  | _, [] => []
  | k + 1, _ :: r => replaceFrom pat val k r
  | 0, c :: r =>
    if pat.isPrefixOf (c :: r) then val ++ replaceFrom pat val (pat.length - 1) r
    else c :: replaceFrom pat val 0 r

/-- `strings.Replace(s, pat, val, -1)` for a pattern that is not empty. -/
def replaceAll (pat val s : List Char) : List Char := replaceFrom pat val 0 s

/-- The local variables `path`, `headers` and `bodyExample` of
httptrace/export_http_examples.go:80-83. -/
structure TraceReq where
  path : List Char
  headers : List Char := []
  body : List Char := []

/-- httptrace/export_http_examples.go:85-100: the loop over the inputs. -/
def traceInputs (L : TLib) (req : GoMap Value) : List HttpParamSpec → TraceReq → TraceReq
  | [], t => t
  | p :: rest, t =>
    let ex := mget req p.field.name
    traceInputs L req rest <|
      if p.path ∨ p.query ≠ "" then
        { t with path := replaceAll ('{' :: p.field.name.toList ++ ['}']) (stringExample L ex).toList t.path }
      else if p.header ≠ "" then
        { t with headers := t.headers ++ p.header.toList ++ ": ".toList ++ (stringExample L ex).toList ++ ['\n'] }
      else { t with body := (prettyText L.json (ex.getD .null)).toList }

/-- httptrace/export_http_examples.go:77-104: the request. -/
def traceRequest (L : TLib) (h : HttpDef) (req : GoMap Value) : List Char :=
  let t := traceInputs L req h.inputs { path := h.path.toList }
  h.method.toList ++ ' ' :: stripMissing t.path ++ " HTTP/1.1\n".toList ++
    (t.headers ++ "Accept: application/json\n".toList) ++ '\n' :: t.body

/-- httptrace/export_http_examples.go:114-124: the loop over the outputs; the headers and the
body. -/
def traceOutputs (L : TLib) (status : Int) (res : GoMap Value) :
    List HttpParamSpec → List Char × List Char → List Char × List Char
  | [], t => t
  | p :: rest, (headers, body) =>
    let ex := mget res p.field.name
    traceOutputs L status res rest <|
      if p.header ≠ "" then
        (headers ++ p.header.toList ++ ": ".toList ++ (stringExample L ex).toList ++ ['\n'], body)
      else if status ≠ 204 then (headers, (prettyText L.json (ex.getD .null)).toList)
      else (headers, body)

/-- httptrace/export_http_examples.go:108-132: the response. -/
def traceResponse (L : TLib) (h : HttpDef) (name : String) (d : TraceEx) (res : GoMap Value) : Out (List Char) :=
  match h.expected with
  | none => .panic "nil Expected dereferenced"
  | some e =>
    let headers := "Content-Type: application/json; charset=utf-8\n".toList
    let (status, headers, body) :=
      match d.exc with
      | none =>
        let (headers, body) := traceOutputs L e.status res e.outputs (headers, [])
        (e.status, headers, body)
      | some exc => (exc.status, headers, (prettyText L.json (.obj res)).toList)
    let headers := headers ++ "Date: ".toList ++ (L.date name).toList ++ ['\n']
    let headers := "Content-Length: ".toList ++ (toString (byteLen body)).toList ++ '\n' :: headers
    .ok ("HTTP/1.1 ".toList ++ (toString status).toList ++ ' ' :: (L.statusText status).toList ++ '\n' ::
      headers ++ '\n' :: body)

/-- httptrace/export_http_examples.go:72-134: the trace of one example. -/
def traceSection (L : TLib) (h : HttpDef) (name : String) (d : TraceEx) : Out (List Char) := do
  let head := "#\n# ".toList ++ name.toList ++ " (action=".toList ++ h.name.toList ++ ")\n#\n".toList ++
    "#   Request:".toList ++ '\n' :: traceRequest L h d.req ++ ['\n']
  match d.res with
  | none => .ok head
  | some res => do
    let r ← traceResponse L h name d res
    .ok (head ++ "#   Response:".toList ++ '\n' :: r ++ ['\n'])

/-- httptrace/export_http_examples.go:72-135: the loop over the named examples. -/
def traceSections (L : TLib) (h : HttpDef) : List (String × TraceEx) → Out (List Char)
  | [] => .ok []
  | (name, d) :: rest => do
    let s ← traceSection L h name d
    let r ← traceSections L h rest
    .ok (s ++ r)

/-- httptrace/export_http_examples.go:41-136 `generateHttpTrace`; `order` enumerates a Go map. -/
def generateHttpTrace (L : TLib) (order : GoMap TraceEx → GoMap TraceEx) (m : Model) (h : HttpDef) : Out (List Char) := do
  let named ← traceRequests (capitalize h.name ++ "Request") m.schema.examples []
  let named ← traceResponses (capitalize h.name ++ "Request") (capitalize h.name ++ "Response") h.exceptions m.schema.examples named
  traceSections L h (order named)

/-- httptrace/export_http_examples.go:13-23: the loop of `Export` over the actions. -/
def traceActions (L : TLib) (order : GoMap TraceEx → GoMap TraceEx) (m : Model) : List HttpDef → Out (List Char)
  | [] => .ok []
  | h :: rest => do
    let s ← generateHttpTrace L order m h
    let r ← traceActions L order m rest
    .ok (s ++ '\n' :: r)

/-- httptrace/export_http_examples.go:13-23 `Export`: what is printed.  Simplified: a panic in a
later action is reported without the text printed before it. -/
def traceExport (L : TLib) (order : GoMap TraceEx → GoMap TraceEx) (m : Model) : Out (List Char) :=
  traceActions L order m m.schema.http

end Sadl
