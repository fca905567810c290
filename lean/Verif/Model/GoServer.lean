import Verif.Model.Golang
import Verif.Model.Http
import Verif.Model.Timestamp
import Verif.Model.Unparser
import Verif.Model.OpenApi
/-
golang/golang_server.go: the generation of a Go server.

As in Model/Golang, the pieces of the file are kept as data, with functions that give the exact text.
-/
namespace Sadl

/-- What the generator takes from Go's library: `fmt.Sprint` of a value, `Time.IsZero`, and the text of a
`*sadl.Timestamp`, whose value the model does not have. -/
structure GoLib where
  sprint : Value → String
  isZero : Civil → Bool
  stampText : String

/-- Where a handler finds the text of a parameter (golang/golang_server.go:83-88). -/
inductive GoSource where
  | form (key : String)
  | header (key : String)
  | var (name : String)
  deriving Repr, DecidableEq

/-- golang/golang_server.go:84, 86, 88. -/
def GoSource.text : GoSource → String
  | .form k => "r.Form.Get(\"" ++ goQuote k ++ "\")"
  | .header k => "r.Header.Get(\"" ++ goQuote k ++ "\")"
  | .var n => "mux.Vars(r)[\"" ++ goQuote n ++ "\"]"

/-- The expressions that `paramAccessor` writes; `conv` is the conversion to a type. -/
inductive GoExpr where
  | str (src : GoSource) (default : String)
  | time (src : GoSource) (default : Option String)
  | int (src : GoSource) (default : Int)
  | conv (type : String) (e : GoExpr)
  deriving Repr, DecidableEq

/-- golang/golang_server.go:150-161. -/
def GoExpr.text : GoExpr → String
  | .str s d => "stringParam(" ++ s.text ++ ", \"" ++ goQuote d ++ "\")"
  | .time s none => "timestampParam(" ++ s.text ++ ", nil)"
  | .time s (some d) => "timestampParam(" ++ s.text ++ ", \"" ++ goQuote d ++ "\")"
  | .int s d => "intParam(" ++ s.text ++ ", " ++ sprintInt d ++ ")"
  | .conv t e => t ++ "(" ++ e.text ++ ")"

/-- golang/golang_server.go:173-179 `nativeType`. -/
def goNativeType (m : Model) (conf : GoConf) (name : String) : Out (GoTy × List GoNote) :=
  match m.findType name with
  | none => .ok (.ident name, [])
  | some td => goType m conf td.ts name

/-- golang/golang_server.go:181-187 `baseType`. -/
def goBaseType (m : Model) (name : String) : String :=
  match m.findType name with
  | none => ""
  | some td => td.ts.type

/-- golang/golang_server.go:189-199 `stringDefault`. -/
def goStringDefault (lib : GoLib) : Value → String
  | .null => ""
  | .str s => s
  | v => lib.sprint v

/-- golang/golang_server.go:201-212 `timestampDefault`; `none` is the text `nil`. -/
def goTimeDefault (lib : GoLib) : Value → Option String
  | .tsPtr => some lib.stampText
  | .str s => (parseTimestamp s.toList).map fun t => String.ofList (showTimestamp lib.isZero t)
  | _ => none

/-- decimal.go:53-56 `AsInt64`, with `(*big.Float).Int64`: the fraction is cut off, and numbers out of the range
of an int64 become the nearest number in the range. -/
def decAsInt64 : BigFloat → Int
  | .fin m e =>
    let n := if 0 ≤ e then m * 2 ^ e.toNat else m.tdiv (2 ^ (-e).toNat)
    if n < -(2 : Int) ^ 63 then -(2 : Int) ^ 63 else if (2 : Int) ^ 63 ≤ n then (2 : Int) ^ 63 - 1 else n
  | .inf neg => if neg then -(2 : Int) ^ 63 else (2 : Int) ^ 63 - 1

/-- golang/golang_server.go:214-222 `intDefault`. -/
def goIntDefault : Value → Int
  | .dec d => decAsInt64 d
  | _ => 0

/-- golang/golang_server.go:143-146: the type to convert to, where `*` at the beginning becomes `&`. -/
def goCoerce (t : String) : String :=
  match t.toList with
  | '*' :: r => String.ofList ('&' :: r)
  | _ => t

/-- golang/golang_server.go:142-171 `paramAccessor`. -/
def goAccessor (m : Model) (conf : GoConf) (lib : GoLib) (p : HttpParamSpec) (src : GoSource) : Out (GoExpr × List GoNote) :=
  (goNativeType m conf p.field.ts.type).bind fun t =>
  let coerceTo := goCoerce t.1.text
  let bt := goBaseType m p.field.ts.type
  if bt = "String" ∨ bt = "UUID" then
    let vv := GoExpr.str src (goStringDefault lib p.field.default)
    .ok (if coerceTo ≠ bt then .conv coerceTo vv else vv, t.2)
  else if bt = "Timestamp" then .ok (.time src (goTimeDefault lib p.field.default), t.2)
  else if bt = "Int32" ∨ bt = "Int8" ∨ bt = "Int16" ∨ bt = "Int64" then
    let vv := GoExpr.int src (goIntDefault p.field.default)
    .ok (if coerceTo ≠ bt then .conv coerceTo vv else vv, t.2)
  else .panic ("Fix this: " ++ p.field.ts.type)

/-- What a handler does for an input: a field of the request is assigned, or decoded from the body. -/
inductive GoStep where
  | assign (field : String) (e : GoExpr)
  | decode (field : String)
  deriving Repr, DecidableEq

/-- golang/golang_server.go:79 and 91: what follows an assignment to `err`. -/
def goRefuse : String := "\tif err != nil {\n\t\terrorResponse(w, 400, fmt.Sprint(err))\n\t\treturn\n\t}\n"

/-- golang/golang_server.go:84-91. -/
def GoStep.text : GoStep → String
  | .assign f e => "\treq." ++ f ++ " = " ++ e.text ++ "\n"
  | .decode f => "\terr := json.NewDecoder(r.Body).Decode(&req." ++ f ++ ")\n" ++ goRefuse

/-- golang/golang_server.go:81-93: the step for an input. -/
def goStep (m : Model) (conf : GoConf) (lib : GoLib) (p : HttpParamSpec) : Out (GoStep × List GoNote) :=
  let name := capitalize p.field.name
  if p.query ≠ "" then (goAccessor m conf lib p (.form p.query)).bind fun e => .ok (.assign name e.1, e.2)
  else if p.header ≠ "" then (goAccessor m conf lib p (.header p.header)).bind fun e => .ok (.assign name e.1, e.2)
  else if p.path then (goAccessor m conf lib p (.var p.field.name)).bind fun e => .ok (.assign name e.1, e.2)
  else .ok (.decode name, [])

/-- golang/golang_server.go:81-93: the loop over the inputs. -/
def goSteps (m : Model) (conf : GoConf) (lib : GoLib) : List HttpParamSpec → Out (List GoStep × List GoNote)
  | [] => .ok ([], [])
  | p :: rest =>
    (goStep m conf lib p).bind fun s =>
    (goSteps m conf lib rest).bind fun r => .ok (s.1 :: r.1, s.2 ++ r.2)

/-- golang/golang_server.go:96-105 `outputs`: the outputs that are headers, with their fields. -/
def goHeaders : List HttpParamSpec → List (String × String)
  | [] => []
  | p :: rest => if p.header ≠ "" then (p.header, capitalize p.field.name) :: goHeaders rest else goHeaders rest

/-- golang/golang_server.go:122-130 `expectedEntity`: the field of the first output that is not a header. -/
def goEntity : List HttpParamSpec → Option String
  | [] => none
  | p :: rest => if p.header = "" then some (capitalize p.field.name) else goEntity rest

/-- golang/golang_server.go:106-113 `exceptions`: the cases of the switch. -/
def goCases (m : Model) (conf : GoConf) : List HttpExceptionSpec → Out (List (GoTy × Int) × List GoNote)
  | [] => .ok ([], [])
  | x :: rest =>
    (goNativeType m conf x.type).bind fun t =>
    (goCases m conf rest).bind fun r => .ok ((t.1, x.status) :: r.1, t.2 ++ r.2)

/-- A handler of the server: the function of golang/golang_server.go:230-242. -/
structure GoHandler where
  method : String
  form : Bool
  steps : List GoStep
  result : String
  cases : List (GoTy × Int)
  headers : List (String × String)
  status : Int
  entity : Option String
  deriving Repr, DecidableEq

/-- golang/golang_server.go:229-243, for one action.  The name of the request type, made with `gen.Capitalize` (generator.go:102-104),
is what cannot be written for an action without a name; the other names are made with `sadl.Capitalize`. -/
def goHandler (m : Model) (conf : GoConf) (lib : GoLib) (hd : HttpDef) : Out (GoHandler × List GoNote) :=
  (goCapitalize hd.name).bind fun method =>
  (goSteps m conf lib hd.inputs).bind fun steps =>
  match hd.expected with
  | none => .panic "invalid memory address or nil pointer dereference"
  | some e =>
    (goCases m conf hd.exceptions).bind fun cases =>
    .ok ({ method := method, form := hd.inputs.any (fun p => p.query ≠ ""), steps := steps.1,
           result := if e.status = 204 ∨ e.status = 304 then "_" else "res",
           cases := cases.1, headers := goHeaders e.outputs, status := e.status, entity := goEntity e.outputs }, steps.2 ++ cases.2)

/-- golang/golang_server.go:229: the loop over the actions. -/
def goHandlers (m : Model) (conf : GoConf) (lib : GoLib) : List HttpDef → Out (List GoHandler × List GoNote)
  | [] => .ok ([], [])
  | hd :: rest =>
    (goHandler m conf lib hd).bind fun h =>
    (goHandlers m conf lib rest).bind fun r => .ok (h.1 :: r.1, h.2 ++ r.2)

/-- A route: the path and the HTTP method of the requests that go to a handler. -/
structure GoRoute where
  path : String
  handler : String
  method : String
  deriving Repr, DecidableEq

/-- golang/golang_server.go:47-54 `routePath`. -/
def goRoutePath (path : String) : String := String.ofList (pathPart path.toList)

/-- golang/golang_server.go:255-258, for one action. -/
def goRoute (hd : HttpDef) : GoRoute := ⟨goRoutePath hd.path, capitalize hd.name, hd.method⟩

/-- A generated server. -/
structure GoServer where
  pkg : String
  imports : List String
  service : String
  adaptor : String
  handlers : List GoHandler
  routes : List GoRoute
  deriving Repr, DecidableEq

/-- golang/golang_server.go:25-38. -/
def goServerImports : List String :=
  ["bytes", "encoding/json", "fmt", "github.com/gorilla/mux", "github.com/gorilla/handlers", "io", "log", "net/http", "net/url",
   "os", "strconv", "strings", "time"]

/-- text/template turns a panic of a function that a template calls into an error (Go 1.18, `safeCall`), and
golang/export_golang.go:227-248 `EmitTemplate` keeps the error. -/
def goTemplate {α : Type} : Out α → Out α
  | .panic e => .err e
  | r => r

/-- golang/golang_server.go:12-140 `CreateServer` and `EmitServerAdaptor`. -/
def goServer (m : Model) (conf : GoConf) (lib : GoLib) : Out GoServer :=
  goTemplate <|
    (goHandlers m conf lib m.schema.http).bind fun hs =>
    .ok { pkg := conf.pkg, imports := (hs.2).foldl addImport goServerImports, service := capitalize conf.name,
          adaptor := uncapitalize conf.name ++ "Adaptor", handlers := hs.1, routes := m.schema.http.map goRoute }

/-- golang/golang_server.go:230-242: the text of a handler. -/
def GoHandler.text (adaptor : String) (h : GoHandler) : String :=
  "\nfunc (handler *" ++ adaptor ++ ") " ++ h.method ++ "Handler(w http.ResponseWriter, r *http.Request) {\n" ++
  "\treq := new(" ++ h.method ++ "Request)\n" ++
  (if h.form then "\terr := r.ParseForm()\n" ++ goRefuse else "") ++ String.join (h.steps.map GoStep.text) ++ "\n" ++
  "\t" ++ h.result ++ ", err := handler.impl." ++ h.method ++ "(req)\n" ++
  "\tif err != nil {\n" ++
  "\t\tswitch err.(type) {\n" ++
  String.join (h.cases.map fun c => "\t\tcase " ++ c.1.text ++ ":\n\t\t\tjsonResponse(w, " ++ sprintInt c.2 ++ ", err)\n") ++
  "\t\tdefault:\n" ++
  "\t\t\tjsonResponse(w, 500, &serverError{Message: fmt.Sprint(err)})\n" ++
  "\t\t}\n" ++
  "\t} else {\n" ++
  String.join (h.headers.map fun e => "\t\tw.Header().Add(\"" ++ e.1 ++ "\", normalizeHeaderValue(\"" ++ e.1 ++ "\", res." ++ e.2 ++ "))\n") ++
  "\t\tjsonResponse(w, " ++ sprintInt h.status ++ ", " ++ (match h.entity with | some f => "res." ++ f | none => "nil") ++ ")\n" ++
  "\t}\n" ++
  "}\n"

/-- golang/golang_server.go:256-258: the text of a route. -/
def GoRoute.text (r : GoRoute) : String :=
  "\n\tr.HandleFunc(b+\"" ++ r.path ++ "\", func (w http.ResponseWriter, r *http.Request) {\n" ++
  "      adaptor." ++ r.handler ++ "Handler(w, r)\n" ++
  "\t}).Methods(\"" ++ r.method ++ "\")"

/-- golang/golang_server.go:265-385: the functions that every server has. -/
def goServerTail : String :=
  "func stringParam(val string, def string) string {\n" ++
  "\tif val == \"\" {\n" ++
  "\t\treturn def\n" ++
  "\t}\n" ++
  "\treturn val\n" ++
  "}\n" ++
  "\n" ++
  "func timestampParam(val string, def *Timestamp) *Timestamp {\n" ++
  "\tif val != \"\" {\n" ++
  "\t\tts, err := ParseTimestamp(val)\n" ++
  "\t\tif err == nil {\n" ++
  "\t\t\treturn &ts\n" ++
  "\t\t}\n" ++
  "\t}\n" ++
  "\treturn def\n" ++
  "}\n" ++
  "\n" ++
  "func intParam(val string, def int64) int64 {\n" ++
  "\tif val != \"\" {\n" ++
  "\t\ti, err := strconv.ParseInt(val, 10, 64)\n" ++
  "\t\tif err == nil {\n" ++
  "\t\t\treturn i\n" ++
  "\t\t}\n" ++
  "\t}\n" ++
  "\treturn def\n" ++
  "}\n" ++
  "\n" ++
  "func Pretty(obj interface{}) string {\n" ++
  "\tbuf := new(bytes.Buffer)\n" ++
  "\tenc := json.NewEncoder(buf)\n" ++
  "\tenc.SetEscapeHTML(false)\n" ++
  "\tenc.SetIndent(\"\", \"  \")\n" ++
  "\tif err := enc.Encode(&obj); err != nil {\n" ++
  "\t\treturn fmt.Sprint(obj)\n" ++
  "\t}\n" ++
  "\treturn string(buf.String())\n" ++
  "}\n" ++
  "\n" ++
  "func Json(obj interface{}) string {\n" ++
  "   buf := new(bytes.Buffer)\n" ++
  "   enc := json.NewEncoder(buf)\n" ++
  "   enc.SetEscapeHTML(false)\n" ++
  "   if err := enc.Encode(&obj); err != nil {\n" ++
  "      return fmt.Sprint(obj)\n" ++
  "   }\n" ++
  "   return string(buf.String())\n" ++
  "}\n" ++
  "\n" ++
  "func jsonResponse(w http.ResponseWriter, status int, entity interface{}) {\n" ++
  "   w.Header().Set(\"Content-Type\", \"application/json\")\n" ++
  "\tw.WriteHeader(status)\n" ++
  "\tio.WriteString(w, Pretty(entity))\n" ++
  "}\n" ++
  "\n" ++
  "func errorResponse(w http.ResponseWriter, status int, message string) {\n" ++
  "\tjsonResponse(w, status, &serverError{Error: http.StatusText(status), Message: message})\n" ++
  "}\n" ++
  "\n" ++
  "func normalizeHeaderValue(key string, value interface{}) string {\n" ++
  "   switch strings.ToLower(key) {\n" ++
  "   case \"last-modified\", \"date\", \"expires\":\n" ++
  "      switch ts := value.(type) {\n" ++
  "      case time.Time:\n" ++
  "         return timestampRfc2616(ts)\n" ++
  "      case *Timestamp:\n" ++
  "         return timestampRfc2616(ts.Time)\n" ++
  "      case string:\n" ++
  "\t\t\treturn ts //just trust the application\n" ++
  "      default:\n" ++
  "         fmt.Sprintf(\"Noncompliant value for %s header: %v\", key, ts)\n" ++
  "\t\t\treturn fmt.Sprint(ts) //rather than fail\n" ++
  "      }\n" ++
  "   }\n" ++
  "   return fmt.Sprint(value)\n" ++
  "}\n" ++
  "\n" ++
  "func intFromString(s string) int64 {\n" ++
  "\tvar n int64 = 0\n" ++
  "\t_, _ = fmt.Sscanf(s, \"%d\", &n)\n" ++
  "\treturn n\n" ++
  "}\n" ++
  "\n" ++
  "func floatFromString(s string) float64 {\n" ++
  "\tvar n float64 = 0\n" ++
  "\t_, _ = fmt.Sscanf(s, \"%g\", &n)\n" ++
  "\treturn n\n" ++
  "}\n" ++
  "\n" ++
  "func timestampRfc3339(ts time.Time) string {\n" ++
  "\tif ts.IsZero() {\n" ++
  "\t\treturn \"\"\n" ++
  "\t}\n" ++
  "\treturn ts.UTC().Format(time.RFC3339Nano)\n" ++
  "}\n" ++
  "\n" ++
  "func timestampRfc2616(ts time.Time) string {\t\n" ++
  "\t//i.e. \n" ++
  "\tif ts.IsZero() {\n" ++
  "\t\treturn \"\"\n" ++
  "\t}\n" ++
  "\treturn ts.UTC().Format(http.TimeFormat)\n" ++
  "}\n" ++
  "\n" ++
  "// FoldHttpHeaderName adapts to the Go misfeature: all headers are\n" ++
  "// canonicalized as Capslike-This (for a header \"CapsLike-this\").\n" ++
  "func FoldHttpHeaderName(name string) string {\n" ++
  "\treturn http.CanonicalHeaderKey(name)\n" ++
  "}\n" ++
  "\n" ++
  "type serverError struct {\n" ++
  "   Error string  `json:\"error\"`\n" ++
  "\tMessage string `json:\"message\"`\n" ++
  "}\n" ++
  "\n" ++
  "func WebLog(h http.Handler) http.Handler {\n" ++
  "\treturn handlers.CombinedLoggingHandler(os.Stdout, h)\n" ++
  "}\n" ++
  "\n" ++
  "func AllowCors(next http.Handler, host string) http.Handler {\n" ++
  "   return handlers.CORS(handlers.AllowedOrigins([]string{\"*\"}), handlers.AllowedHeaders([]string{\"Content-Type\", \"api_key\", \"Authorization\"}), handlers.AllowedMethods([]string{\"GET\",\"PUT\",\"DELETE\",\"POST\",\"OPTIONS\"}))(next)\n" ++
  "}\n"

/-- golang/golang_server.go:224-264 and golang/export_golang.go:85-99 `WriteGoFile`: the text of a server. -/
def GoServer.text (s : GoServer) : String :=
  "//\n// Generated by sadl\n//\n" ++ "package " ++ s.pkg ++ "\n" ++
  "\nimport(\n" ++ String.join (s.imports.map fun p => "\t\"" ++ p ++ "\"\n") ++ ")\n" ++
  "\ntype " ++ s.adaptor ++ " struct {\n\timpl " ++ s.service ++ "\n}\n\n" ++
  String.join (s.handlers.map (GoHandler.text s.adaptor)) ++
  "\n\nfunc InitServer(impl " ++ s.service ++ ", baseURL string) http.Handler {\n" ++
  "\tadaptor := &" ++ s.adaptor ++ "{\n\t\timpl: impl,\n\t}\n" ++
  "   u, err := url.Parse(strings.TrimSuffix(baseURL, \"/\"))\n" ++
  "   if err != nil {\n      log.Fatal(err)\n   }\t\n" ++
  "   b := u.Path\n\tr := mux.NewRouter()\n" ++
  String.join (s.routes.map GoRoute.text) ++
  "\n\tr.NotFoundHandler = http.HandlerFunc(func(w http.ResponseWriter, r *http.Request) {\n" ++
  "\t\tjsonResponse(w, 404, &serverError{Message: fmt.Sprintf(\"Not Found: %s\", r.URL.Path)})\n" ++
  "\t})\n\treturn r\n}\n\n" ++
  goServerTail

end Sadl
