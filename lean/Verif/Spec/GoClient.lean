import Verif.Spec.GoServer
import Verif.Model.GoClient
/-
What a user relies on about the generated Go client: when it can be generated, the rules of Go that it has to respect,
and which requests it sends.
-/
namespace Sadl.Spec
open Sadl

/-! ### When a client can be written -/

/-- The method of the client for the action can be written. -/
structure GoCallable (h : HttpDef) : Prop where
  expected : ∃ e, h.expected = some e ∧ ∀ p ∈ e.outputs, p.field.ts.type ≠ "Array" ∧ p.field.ts.type ≠ "Map"
  exceptions : ∀ x ∈ h.exceptions, x.type ≠ "Array" ∧ x.type ≠ "Map"

/-! ### Rules of Go -/

/-- A value of the type can be compared with the text. -/
inductive ZeroFits (f : GoFile) : String → GoTy → Prop
  | text {n} : GoUnderlying f n ["string"] → ZeroFits f "\"\"" (.ident n)
  | integer {n} : GoUnderlying f n ["int8", "int16", "int32", "int64", "float32", "float64"] → ZeroFits f "0" (.ident n)
  | float {n} : GoUnderlying f n ["int8", "int16", "int32", "int64", "float32", "float64"] → ZeroFits f "0.0" (.ident n)
  | bool {n} : GoUnderlying f n ["bool"] → ZeroFits f "false" (.ident n)
  | pointer {t} : ZeroFits f "nil" (.ptr t)
  | slice {t} : ZeroFits f "nil" (.slice t)
  | map {k t} : ZeroFits f "nil" (.map k t)
  | namedSlice {n t c} : .defn n (.slice t) c ∈ f.decls → ZeroFits f "nil" (.ident n)
  | namedMap {n k t c} : .defn n (.map k t) c ∈ f.decls → ZeroFits f "nil" (.ident n)

/-- The variables of a method of a client.  A type with one of these names is not taken for the type. -/
def GoClientLocals : List String := ["client", "req", "url", "args", "hreq", "err", "res"]

/-- An output is a field of the response, and what is assigned to it has its type; a header is a text, or made into a
timestamp by `TimestampFromString`. -/
def OutputTyped (f : GoFile) (fields : List GoField) : GoOutput → Prop
  | .body n t => (∃ fd ∈ fields, fd.name = n ∧ fd.type = t) ∧ ∀ x ∈ GoTyNames t, x ∉ GoClientLocals ∧ x ≠ "response"
  | .header n _ true => .timestamp ∈ f.decls ∧ ∃ fd ∈ fields, fd.name = n ∧ fd.type = .ptr (.ident "Timestamp")
  | .header n _ false => ∃ fd ∈ fields, fd.name = n ∧ fd.type = .ident "string"

/-- The type is that of an error. -/
inductive GoErrorTy (f : GoFile) : GoTy → Prop
  | pointer {n} : .errorMethod n ∈ f.decls → n ∉ GoClientLocals → GoErrorTy f (.ptr (.ident n))

/-- Rules that the Go compiler checks in a method of a client; `f` is the file with the types. -/
structure GoCallCompiles (f : GoFile) (c : GoCall) : Prop where
  request : ∃ fs, .struct (c.method ++ "Request") fs ∈ f.decls ∧ (∀ a ∈ c.args, ∃ fd ∈ fs, fd.name = a.field ∧ ZeroFits f a.zero fd.type) ∧
    ∀ b, c.body = some b → ∃ fd ∈ fs, fd.name = b
  response : ∃ fs, .struct (c.method ++ "Response") fs ∈ f.decls ∧ ∀ o ∈ c.outputs, OutputTyped f fs o
  entities : (c.outputs.filter fun o => match o with | .body _ _ => true | _ => false).length ≤ 1
  cases : ∀ x ∈ c.cases, GoErrorTy f x.1
  casesOnce : (c.status :: c.cases.map (·.2)).Nodup
  quoted : GoQuotable c.path ∧ GoQuotable c.verb ∧ ∀ a ∈ c.args, GoQuotable a.name

/-- The packages that a method of a client uses. -/
def CallPackages (c : GoCall) : List String :=
  ["fmt", "net/http", "strings"] ++ (if c.body.isSome then ["bytes"] else []) ++
  c.outputs.flatMap (fun o => match o with | .body _ t => "encoding/json" :: GoTyPackages t | _ => []) ++
  c.cases.flatMap (fun x => "encoding/json" :: GoTyPackages x.1)

/-- The packages that clients import, with their names. -/
def GoClientPackages : List (String × String) :=
  [("bytes", "bytes"), ("encoding/json", "json"), ("fmt", "fmt"), ("net/http", "http"), ("strings", "strings"), ("github.com/boynton/sadl", "sadl")]

/-- The predeclared types, and the other predeclared names that clients use. -/
def GoClientPredeclared : List String :=
  ["int8", "int16", "int32", "int64", "float32", "float64", "bool", "string", "byte", "error", "len", "append", "nil", "false"]

/-- Rules that the Go compiler checks in a client, which is in one package with the file `f` of types, and with a server if
`server` says so.  `NewClient` makes a value of the type `CrudlClient`; `Json` is a function of the server. -/
structure GoClientCompiles (f : GoFile) (server : Bool) (cl : GoClient) : Prop where
  name : GoIdent cl.name
  once : (f.decls.flatMap DeclaredNames ++ [cl.name, "NewClient"]).Nodup
  packageNames : ∀ e ∈ GoClientPackages, e.1 ∈ cl.imports → e.2 ∉ f.decls.flatMap DeclaredNames ++ [cl.name, "NewClient"]
  predeclared : ∀ n ∈ f.decls.flatMap DeclaredNames ++ [cl.name, "NewClient"], n ∉ GoClientPredeclared
  packages : ∀ p, p ∈ cl.imports ↔ ∃ c ∈ cl.calls, p ∈ CallPackages c
  newClient : cl.name = "CrudlClient" ∨ ∃ fs, .struct "CrudlClient" fs ∈ f.decls ∧ ∃ fd ∈ fs, fd.name = "Target" ∧ fd.type = .ident "string"
  calls : ∀ c ∈ cl.calls, GoCallCompiles f c
  methods : ("Target" :: cl.calls.map (·.method)).Nodup
  toJson : (∃ c ∈ cl.calls, c.body ≠ none) → server = true

/-! ### The schemas whose client respects the rules -/

/-- The request for the action has a body. -/
def SendsBody (h : HttpDef) : Prop := h.method ∈ ["PUT", "POST", "PATCH"] ∧ ∃ p ∈ h.inputs, BodyInput p = true

/-- The method for an action respects the rules, `e` is what is expected. -/
structure GoCalled (runtime : Bool) (s : Schema) (h : HttpDef) (e : HttpExpectedSpec) : Prop where
  path : ∀ p q, PathAndQuery h.path.toList p q → ∀ c ∈ p, c ≠ '"' ∧ c ≠ '\\' ∧ c ≠ '\n'
  query : ∀ p ∈ h.inputs, p.query ≠ "" → ¬ OfKind s p.field.ts.type ["UUID", "Decimal", "Enum", "Union"]
  headers : ∀ p ∈ e.outputs, p.header ≠ "" → p.field.ts.type = "String" ∨ (p.field.ts.type = "Timestamp" ∧ runtime = false)
  exceptions : ∀ x ∈ h.exceptions, ∃ td ∈ s.types, td.name = x.type ∧ td.ts.type = "Struct"
  hidden : (∀ p ∈ e.outputs, p.header = "" → p.field.ts.type ∉ GoClientLocals ∧ p.field.ts.type ≠ "response") ∧
    ∀ x ∈ h.exceptions, x.type ∉ GoClientLocals
  statuses : (e.status :: h.exceptions.map (·.status)).Nodup

/-- The client of the schema respects the rules of Go: the service is called `Crudl`, or there is a suitable type `CrudlClient`;
something is decoded from the body of some response; and names are not those that clients use. -/
structure GoClientSound (service : String) (runtime server : Bool) (s : Schema) : Prop where
  crudl : service = "Crudl" ∨ ∃ td ∈ s.types, td.name = "CrudlClient" ∧ td.ts.type = "Struct" ∧
    ∃ fd ∈ td.ts.fields, capitalize fd.name = "Target" ∧ fd.ts.type = "String"
  decodes : ∃ h ∈ s.http, h.exceptions ≠ [] ∨ ∃ e, h.expected = some e ∧ ∃ p ∈ e.outputs, p.header = ""
  names : ∀ n ∈ GoNames service s, n ∉ ["json", "fmt", "http", "strings"] ∧ n ∉ GoClientPredeclared ∧ n ≠ service ++ "Client" ∧ n ≠ "NewClient" ∧
    (n = "bytes" → ∀ h ∈ s.http, ¬ SendsBody h) ∧
    (n = "sadl" → runtime = true → ∀ h ∈ s.http, ∀ e, h.expected = some e → ∀ p ∈ e.outputs,
      p.field.ts.type ∉ ["Decimal", "Timestamp", "UnitValue"])
  newService : service ≠ "New"
  noTarget : ∀ h ∈ s.http, capitalize h.name ≠ "Target"
  toJson : (∃ h ∈ s.http, SendsBody h) → server = true
  called : ∀ h ∈ s.http, ∀ e, h.expected = some e → GoCalled runtime s h e

/-! ### What a client sends -/

/-- A request that a client sends: the method, the URL, the field of which the JSON is the body, and whether the type of the
content is declared to be JSON. -/
structure GoSent where
  verb : String
  url : String
  body : Option String
  json : Bool
  deriving Repr, DecidableEq

/-- What a method of a client sends.  `differs` says whether a field of the request differs from the value that a text stands for,
and `sprintf` gives the text of a field in a format. -/
def RunCall (target : String) (differs : String → String → Bool) (sprintf : String → String → String) (c : GoCall) : GoSent :=
  let args := (c.args.filter fun a => differs a.field a.zero).map fun a => a.name ++ "=" ++ sprintf a.format a.field
  ⟨c.verb, target ++ c.path ++ (if args = [] then "" else "?" ++ "&".intercalate args), c.body, c.json⟩

/-- What a method of a client gives back. -/
inductive GoGiven (ρ ε : Type) where
  | response (fields : List (String × ρ))
  | exception (e : ε)
  | unreadable
  | unexpected

/-- What a client relies on to read a response: the decoding of the body as a value of a type, and the text of a header, which may
be made into a timestamp. -/
structure GoReadsBack (ρ : Type) where
  decode : GoTy → Option ρ
  header : String → ρ
  time : String → ρ

variable {ρ : Type}

/-- The fields of the response, set one after the other; `none` if the body cannot be decoded. -/
def ReadOutputs (rd : GoReadsBack ρ) : List GoOutput → Option (List (String × ρ))
  | [] => some []
  | .body f t :: rest =>
    match rd.decode t with
    | some v => (ReadOutputs rd rest).map ((f, v) :: ·)
    | none => none
  | .header f k time :: rest => (ReadOutputs rd rest).map ((f, if time then rd.time k else rd.header k) :: ·)

/-- What a method of a client makes of a response with a status: the expected one becomes a response, and the status of an
exception becomes that exception. -/
def ReadReply (rd : GoReadsBack ρ) (status : Int) (c : GoCall) : GoGiven ρ (GoTy × ρ) :=
  if status = c.status then
    match ReadOutputs rd c.outputs with
    | some fs => .response fs
    | none => .unreadable
  else
    match c.cases.find? fun x => x.2 = status with
    | some x =>
      match rd.decode x.1 with
      | some v => .exception (x.1, v)
      | none => .unreadable
    | none => .unexpected

/-! ### What the schema says is sent -/

/-- The zero value of a type, and the format its values are written in: texts with `%s`, integers with `%d`, and others with `%v`,
but floating-point numbers with `&g`, which is not a format. -/
inductive ArgForm (s : Schema) (type : String) : String → String → Prop
  | text : OfKind s type ["String"] → ArgForm s type "\"\"" "%s"
  | integer : OfKind s type ["Int8", "Int16", "Int32", "Int64"] → ArgForm s type "0" "%d"
  | float : OfKind s type ["Float32", "Float64", "Decimal"] → ArgForm s type "0.0" "&g"
  | bool : OfKind s type ["Bool"] → ArgForm s type "false" "%v"
  | other : ¬ OfKind s type ["String", "Int8", "Int16", "Int32", "Int64", "Float32", "Float64", "Decimal", "Bool"] → ArgForm s type "nil" "%v"

/-- The arguments in the URL: those inputs that are in the query and differ from the zero value, under the name of the input. -/
inductive ArgsSent (s : Schema) (differs : String → String → Bool) (sprintf : String → String → String) : List HttpParamSpec → List String → Prop
  | nil : ArgsSent s differs sprintf [] []
  | sent {p l r z g} : p.query ≠ "" → ArgForm s p.field.ts.type z g → differs (capitalize p.field.name) z = true →
      ArgsSent s differs sprintf l r → ArgsSent s differs sprintf (p :: l) ((p.field.name ++ "=" ++ sprintf g (capitalize p.field.name)) :: r)
  | zero {p l r z g} : p.query ≠ "" → ArgForm s p.field.ts.type z g → differs (capitalize p.field.name) z = false →
      ArgsSent s differs sprintf l r → ArgsSent s differs sprintf (p :: l) r
  | skip {p l r} : p.query = "" → ArgsSent s differs sprintf l r → ArgsSent s differs sprintf (p :: l) r

/-- The request for an action. -/
structure SentFor (s : Schema) (h : HttpDef) (target : String) (differs : String → String → Bool) (sprintf : String → String → String)
    (r : GoSent) : Prop where
  verb : r.verb = h.method
  url : ∃ p q args, PathAndQuery h.path.toList p q ∧ ArgsSent s differs sprintf h.inputs args ∧
    r.url = target ++ String.ofList p ++ (if args = [] then "" else "?" ++ "&".intercalate args)
  body : ∀ f, r.body = some f ↔ h.method ∈ ["PUT", "POST", "PATCH"] ∧ ∃ p, h.inputs.find? BodyInput = some p ∧ f = capitalize p.field.name
  json : r.json = true ↔ h.method ∈ ["PUT", "POST", "PATCH"]

/-- What is made of a response to an action: with the expected status, the response has every output, from the body or from its header;
with the status of an exception, it is that exception; the body of either may be unreadable; no other status is expected. -/
inductive ReadFor (s : Schema) (runtime : Bool) (h : HttpDef) (e : HttpExpectedSpec) (rd : GoReadsBack ρ) : Int → GoGiven ρ (GoTy × ρ) → Prop
  | response {fs} : List.Forall₂ (fun p f => f.1 = capitalize p.field.name ∧
      ((p.header = "" ∧ ∃ t, GoLeafOf s runtime p.field.ts.type t ∧ rd.decode t = some f.2) ∨
       (p.header ≠ "" ∧ p.field.ts.type = "Timestamp" ∧ runtime = false ∧ f.2 = rd.time p.header) ∨
       (p.header ≠ "" ∧ ¬ (p.field.ts.type = "Timestamp" ∧ runtime = false) ∧ f.2 = rd.header p.header))) e.outputs fs →
      ReadFor s runtime h e rd e.status (.response fs)
  | noResponse {p t} : p ∈ e.outputs → p.header = "" → GoLeafOf s runtime p.field.ts.type t → rd.decode t = none →
      ReadFor s runtime h e rd e.status .unreadable
  | exception {x t v} : x ∈ h.exceptions → GoLeafOf s runtime x.type t → rd.decode t = some v →
      ReadFor s runtime h e rd x.status (.exception (t, v))
  | noException {x t} : x ∈ h.exceptions → GoLeafOf s runtime x.type t → rd.decode t = none →
      ReadFor s runtime h e rd x.status .unreadable
  | unexpected {status} : status ≠ e.status → (∀ x ∈ h.exceptions, x.status ≠ status) → ReadFor s runtime h e rd status .unexpected

end Sadl.Spec
