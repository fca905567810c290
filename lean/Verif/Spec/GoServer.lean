import Verif.Spec.Golang
import Verif.Model.GoServer
/-
What a user relies on about the generated Go server: when it can be generated, the rules of Go that
the generated file has to respect, and what its handlers do with a request.  Rules and behaviour are
stated on the generated code; what a schema has to look like is stated on the schema alone.
-/
namespace Sadl.Spec
open Sadl

/-! ### When a server can be written -/

/-- The types that the text of a parameter can be read as. -/
def GoParamKinds : List String := ["String", "UUID", "Timestamp", "Int8", "Int16", "Int32", "Int64"]

/-- The name is that of a type of one of the kinds, or of a type defined from one. -/
def OfKind (s : Schema) (n : String) (kinds : List String) : Prop := ∃ ts, Defines s n ts ∧ ts.type ∈ kinds

/-- The handler of the action can be written. -/
structure GoServable (s : Schema) (h : HttpDef) : Prop where
  name : h.name ≠ ""
  inputs : ∀ p ∈ h.inputs, BodyInput p = false → OfKind s p.field.ts.type GoParamKinds
  expected : ∃ e, h.expected = some e
  exceptions : ∀ x ∈ h.exceptions, x.type ≠ "Array" ∧ x.type ≠ "Map"

/-! ### What the server consists of -/

/-- The handlers and the routes of a server: one of each for every action, in order.  A route leads the requests with
the method and the path of the action to its handler. -/
structure GoServerMirrors (service : String) (s : Schema) (sv : GoServer) : Prop where
  service : sv.service = capitalize service
  handlers : List.Forall₂ (fun h g => g.method = capitalize h.name) s.http sv.handlers
  routes : List.Forall₂ (fun h r => r.handler = capitalize h.name ∧ r.method = h.method ∧
    ∃ q, PathAndQuery h.path.toList r.path.toList q) s.http sv.routes

/-! ### Rules of Go -/

/-- The declaration of variables by `:=`, and the use of a variable. -/
inductive GoUse where
  | declare (vars : List String)
  | use (v : String)

/-- Variables are declared before they are used, and each `:=` declares a new one; `vars` are the
variables there are already. -/
def GoScoped (vars : List String) : List GoUse → Prop
  | [] => True
  | .declare xs :: rest => (∃ x ∈ xs, x ≠ "_" ∧ x ∉ vars) ∧ GoScoped (xs.filter (· ≠ "_") ++ vars) rest
  | .use v :: rest => v ∈ vars ∧ GoScoped vars rest

/-- Every variable declared is used. -/
def GoAllUsed (l : List GoUse) : Prop := ∀ xs, .declare xs ∈ l → ∀ x ∈ xs, x ≠ "_" → .use x ∈ l

/-- The variables of a step of a handler, in the order of its text. -/
def StepUses : GoStep → List GoUse
  | .assign _ _ => [.use "req", .use "r"]
  | .decode _ => [.use "r", .use "req", .declare ["err"], .use "err", .use "w"]

/-- The variables of a handler, in the order of its text. -/
def HandlerUses (h : GoHandler) : List GoUse :=
  [.declare ["req"]] ++ (if h.form then [.use "r", .declare ["err"], .use "err", .use "w"] else []) ++
  h.steps.flatMap StepUses ++ [.use "handler", .use "req", .declare [h.result, "err"], .use "err", .use "w"] ++
  h.headers.flatMap (fun _ => [.use "w", .use "res"]) ++ (if h.entity.isSome then [.use "res"] else [])

/-- The name is that of a type that is one of the given types, or is defined as one of them. -/
def GoUnderlying (f : GoFile) (n : String) (l : List String) : Prop :=
  n ∈ l ∨ ∃ t ∈ l, ∃ c, .defn n (.ident t) c ∈ f.decls

/-- The variables of a handler.  A type with one of these names is not taken for the type in a handler. -/
def GoLocals : List String := ["handler", "w", "r", "req", "res", "err"]

/-- The types of expressions.  The second argument of `timestampParam` is a `*Timestamp`, so it can be `nil`, but not the
text of a timestamp. -/
inductive GoExprType (f : GoFile) : GoExpr → GoTy → Prop
  | str {s d} : GoExprType f (.str s d) (.ident "string")
  | time {s} : GoExprType f (.time s none) (.ptr (.ident "Timestamp"))
  | int {s d} : GoExprType f (.int s d) (.ident "int64")
  | text {e t} : GoExprType f e (.ident "string") → GoUnderlying f t ["string"] → t ∉ GoLocals → GoExprType f (.conv t e) (.ident t)
  | number {e t} : GoExprType f e (.ident "int64") → GoUnderlying f t ["int8", "int16", "int32", "int64"] → t ∉ GoLocals →
      GoExprType f (.conv t e) (.ident t)

/-- A step assigns to a field of the request a value of its type, or decodes into a field. -/
def StepTyped (f : GoFile) (fields : List GoField) : GoStep → Prop
  | .assign n e => ∃ fd ∈ fields, fd.name = n ∧ GoExprType f e fd.type
  | .decode n => ∃ fd ∈ fields, fd.name = n

/-- A case of the switch on the type of an error: a type that has the method of errors, or another interface. -/
inductive GoCaseOk (f : GoFile) : GoTy → Prop
  | pointer {n} : .errorMethod n ∈ f.decls → n ∉ GoLocals → GoCaseOk f (.ptr (.ident n))
  | iface {n ms} : .iface n ms ∈ f.decls → "Error" ∉ ms → n ∉ GoLocals → GoCaseOk f (.ident n)

/-- Rules that the Go compiler checks in a handler; `f` is the file with the types. -/
structure GoHandlerCompiles (f : GoFile) (service : String) (h : GoHandler) : Prop where
  iface : ∃ ms, .iface service ms ∈ f.decls ∧ h.method ∈ ms
  request : ∃ fs, .struct (h.method ++ "Request") fs ∈ f.decls ∧ ∀ s ∈ h.steps, StepTyped f fs s
  response : ∃ fs, .struct (h.method ++ "Response") fs ∈ f.decls ∧
    (∀ e ∈ h.headers, ∃ fd ∈ fs, fd.name = e.2) ∧ ∀ n, h.entity = some n → ∃ fd ∈ fs, fd.name = n
  scopes : GoScoped ["handler", "w", "r"] (HandlerUses h)
  used : GoAllUsed (HandlerUses h)
  cases : ∀ c ∈ h.cases, GoCaseOk f c.1
  casesOnce : (h.cases.map (·.1)).Nodup
  quoted : ∀ e ∈ h.headers, GoQuotable e.1

/-- The names that every server declares, besides the adaptor. -/
def GoServerNames : List String :=
  ["InitServer", "stringParam", "timestampParam", "intParam", "Pretty", "Json", "jsonResponse", "errorResponse", "normalizeHeaderValue",
   "intFromString", "floatFromString", "timestampRfc3339", "timestampRfc2616", "FoldHttpHeaderName", "serverError", "WebLog", "AllowCors"]

/-- The names of the packages that every server imports, and no other name of the program can be one of them. -/
def GoServerPackages : List String :=
  ["bytes", "json", "fmt", "mux", "handlers", "io", "log", "http", "url", "os", "strconv", "strings", "time"]

/-- The predeclared names that servers use. -/
def GoServerPredeclared : List String :=
  ["string", "int", "int8", "int16", "int32", "int64", "float64", "error", "nil", "new", "false"]

/-- The packages used by every server. -/
def GoServerPaths : List String :=
  ["bytes", "encoding/json", "fmt", "github.com/gorilla/mux", "github.com/gorilla/handlers", "io", "log", "net/http", "net/url",
   "os", "strconv", "strings", "time"]

/-- Rules that the Go compiler checks in a server, which is in one package with the file `f` of types.  Every server
uses the type `Timestamp` and the function `ParseTimestamp`; the routes use the variables of `InitServer`. -/
structure GoServerCompiles (f : GoFile) (sv : GoServer) : Prop where
  adaptor : GoIdent sv.adaptor
  once : (f.decls.flatMap DeclaredNames ++ sv.adaptor :: GoServerNames).Nodup
  packageNames : ∀ n ∈ f.decls.flatMap DeclaredNames ++ sv.adaptor :: GoServerNames, n ∉ GoServerPackages
  predeclared : ∀ n ∈ f.decls.flatMap DeclaredNames ++ sv.adaptor :: GoServerNames, n ∉ GoServerPredeclared
  packages : ∀ p, p ∈ sv.imports ↔ p ∈ GoServerPaths
  timestamp : .timestamp ∈ f.decls
  handlers : ∀ h ∈ sv.handlers, GoHandlerCompiles f sv.service h
  handlersOnce : (sv.handlers.map (·.method)).Nodup
  routesUse : sv.routes ≠ []
  routes : ∀ r ∈ sv.routes, GoQuotable r.path ∧ GoQuotable r.method ∧ ∃ h ∈ sv.handlers, h.method = r.handler

/-! ### The schemas whose server respects the rules -/

/-- The handler of an action respects the rules, `e` is what is expected: the results are used exactly when there are
some, and the variable `err` is declared once. -/
structure GoServed (s : Schema) (h : HttpDef) (e : HttpExpectedSpec) : Prop where
  path : ∀ p q, PathAndQuery h.path.toList p q → ∀ c ∈ p, c ≠ '"' ∧ c ≠ '\\' ∧ c ≠ '\n'
  headers : ∀ p ∈ e.outputs, p.header ≠ "" → GoQuotable p.header
  nothing : e.status = 204 ∨ e.status = 304 → e.outputs = [] ∧ ∀ p ∈ h.inputs, p.query = "" ∧ BodyInput p = false
  something : ¬ (e.status = 204 ∨ e.status = 304) → e.outputs ≠ [] ∧
    ((∀ p ∈ h.inputs, p.query = "") ∨ ∀ p ∈ h.inputs, BodyInput p = false)
  exceptions : ∀ x ∈ h.exceptions, ∃ td ∈ s.types, td.name = x.type ∧ td.ts.type = "Struct"
  hidden : (∀ p ∈ h.inputs, BodyInput p = false → p.field.ts.type ∉ GoLocals) ∧ ∀ x ∈ h.exceptions, x.type ∉ GoLocals
  times : ∀ p ∈ h.inputs, BodyInput p = false → p.field.ts.type = "Timestamp" → p.field.default ≠ .tsPtr ∧
    ∀ t, p.field.default = .str t → parseTimestamp t.toList = none

/-- The server of the schema respects the rules of Go: the schema uses timestamps, and not those of the run-time library,
there is an action, and no name is one that servers use. -/
structure GoServerSound (service : String) (runtime : Bool) (s : Schema) : Prop where
  timestamp : WritesTimestamp runtime s
  actions : s.http ≠ []
  names : ∀ n ∈ GoNames service s, n ∉ GoServerNames ∧ n ∉ GoServerPackages ∧ n ∉ GoServerPredeclared ∧ n ≠ uncapitalize service ++ "Adaptor"
  served : ∀ h ∈ s.http, ∀ e, h.expected = some e → GoServed s h e

/-! ### What a handler does -/

/-- A request, as a handler sees it: the first value of each query parameter, of each header and of each variable of the
path, empty if there is none; whether the query is well-formed; and the body. -/
structure GoRequest where
  form : String → String
  header : String → String
  var : String → String
  formOk : Bool
  body : String

/-- What a handler relies on: `ParseTimestamp`, and the decoding of a body into a field of the request. -/
structure GoReads (τ β : Type) where
  time : String → Option τ
  decode : String → String → Option β

/-- The values in the fields of a request. -/
inductive GoVal (τ β : Type) where
  | text (s : String)
  | int (n : Int)
  | time (t : Option τ)
  | body (b : β)

/-- The text of a parameter. -/
def SourceText (rq : GoRequest) : GoSource → String
  | .form k => rq.form k
  | .header k => rq.header k
  | .var n => rq.var n

/-- The number that is left of `n` in a signed integer of so many bits. -/
def GoWrap (bits : Nat) (n : Int) : Int := (n + 2 ^ (bits - 1)) % 2 ^ bits - 2 ^ (bits - 1)

/-- The number of bits of a predeclared integer type. -/
def GoBits : List (String × Nat) := [("int8", 8), ("int16", 16), ("int32", 32), ("int64", 64)]

variable {τ β : Type}

/-- The conversion of a value to a type: only integers change. -/
def GoConvert (type : String) : GoVal τ β → GoVal τ β
  | .int n => .int (match GoBits.lookup type with | some b => GoWrap b n | none => n)
  | v => v

/-- `stringParam`, `timestampParam`, `intParam` and conversions: the default value stands for a text that is empty, and for
one that is not a timestamp or a number. -/
def ExprValue (rd : GoReads τ β) (rq : GoRequest) : GoExpr → GoVal τ β
  | .str s d => .text (if SourceText rq s = "" then d else SourceText rq s)
  | .time s _ => .time (if SourceText rq s = "" then none else rd.time (SourceText rq s))
  | .int s d => .int (if SourceText rq s = "" then d else (parseInt 64 (SourceText rq s)).getD d)
  | .conv t e => GoConvert t (ExprValue rd rq e)

/-- The fields of the request, set one after the other; `none` if the body cannot be decoded. -/
def GoFill (rd : GoReads τ β) (rq : GoRequest) : List GoStep → Option (List (String × GoVal τ β))
  | [] => some []
  | .assign f e :: rest => (GoFill rd rq rest).map ((f, ExprValue rd rq e) :: ·)
  | .decode f :: rest =>
    match rd.decode f rq.body with
    | some b => (GoFill rd rq rest).map ((f, .body b) :: ·)
    | none => none

/-- What the implementation of the service returns: a response, given by its fields, or an error, which has a type. -/
inductive GoAnswer (ρ ε : Type) where
  | ok (field : String → ρ)
  | error (type : GoTy) (e : ε)

/-- What a handler sends: a status, headers, and an entity. -/
inductive GoReply (ρ ε : Type) where
  | refused
  | response (status : Int) (headers : List (String × ρ)) (entity : Option ρ)
  | exception (status : Int) (e : ε)

variable {ρ ε : Type}

/-- What a handler does with a request: a malformed query or body is refused with status 400; else the implementation is
called, and a response or an error is sent, an error of an unknown type with status 500. -/
def RunHandler (rd : GoReads τ β) (impl : List (String × GoVal τ β) → GoAnswer ρ ε) (h : GoHandler) (rq : GoRequest) : GoReply ρ ε :=
  if h.form = true ∧ rq.formOk = false then .refused
  else
    match GoFill rd rq h.steps with
    | none => .refused
    | some fields =>
      match impl fields with
      | .ok res => .response h.status (h.headers.map fun e => (e.1, res e.2)) (h.entity.map res)
      | .error t e => .exception ((h.cases.lookup t).getD 500) e

/-! ### What the schema says a handler does -/

/-- Where the text of an input is. -/
inductive SentAs (rq : GoRequest) (p : HttpParamSpec) : String → Prop
  | query : p.query ≠ "" → SentAs rq p (rq.form p.query)
  | header : p.query = "" → p.header ≠ "" → SentAs rq p (rq.header p.header)
  | path : p.query = "" → p.header = "" → p.path = true → SentAs rq p (rq.var p.field.name)

/-- The text that stands for a parameter that is left out. -/
inductive DefaultText (lib : GoLib) : Value → String → Prop
  | none : DefaultText lib .null ""
  | str {t} : DefaultText lib (.str t) t
  | other {v} : v ≠ .null → (∀ t, v ≠ .str t) → DefaultText lib v (lib.sprint v)

/-- The integer `z` is the number `m * 2 ^ e` without its fraction. -/
def CutOff (m e z : Int) : Prop :=
  if 0 ≤ e then z = m * 2 ^ e.toNat
  else z.natAbs * 2 ^ (-e).toNat ≤ m.natAbs ∧ m.natAbs < (z.natAbs + 1) * 2 ^ (-e).toNat ∧ (0 < z → 0 < m) ∧ (z < 0 → m < 0)

/-- The number that stands for a parameter that is left out or is not a number: the default without its fraction, at most the
greatest and at least the least number of 64 bits; 0 if there is no default. -/
inductive DefaultInt : Value → Int → Prop
  | fin {m e z} : CutOff m e z → DefaultInt (.dec (.fin m e)) (max (-2 ^ 63) (min (2 ^ 63 - 1) z))
  | inf {neg} : DefaultInt (.dec (.inf neg)) (if neg then -2 ^ 63 else 2 ^ 63 - 1)
  | none {v} : (∀ d, v ≠ .dec d) → DefaultInt v 0

/-- The bits of the integer types. -/
def IntKinds : List (String × Nat) := [("Int8", 8), ("Int16", 16), ("Int32", 32), ("Int64", 64)]

/-- The value that the implementation gets for an input, given the request. -/
inductive Delivered (lib : GoLib) (rd : GoReads τ β) (s : Schema) (rq : GoRequest) (p : HttpParamSpec) : GoVal τ β → Prop
  | text {t} : OfKind s p.field.ts.type ["String", "UUID"] → SentAs rq p t → t ≠ "" → Delivered lib rd s rq p (.text t)
  | noText {d} : OfKind s p.field.ts.type ["String", "UUID"] → SentAs rq p "" → DefaultText lib p.field.default d →
      Delivered lib rd s rq p (.text d)
  | time {t} : p.field.ts.type = "Timestamp" → SentAs rq p t → t ≠ "" → Delivered lib rd s rq p (.time (rd.time t))
  | noTime : p.field.ts.type = "Timestamp" → SentAs rq p "" → Delivered lib rd s rq p (.time none)
  | int {t n bits} : (p.field.ts.type, bits) ∈ IntKinds → SentAs rq p t → t ≠ "" → parseInt 64 t = some n →
      Delivered lib rd s rq p (.int (GoWrap bits n))
  | noInt {t d bits} : (p.field.ts.type, bits) ∈ IntKinds → SentAs rq p t → t = "" ∨ parseInt 64 t = none →
      DefaultInt p.field.default d → Delivered lib rd s rq p (.int (GoWrap bits d))
  | body {b} : BodyInput p = true → rd.decode (capitalize p.field.name) rq.body = some b → Delivered lib rd s rq p (.body b)

/-- The body of the request is refused: the query is malformed where there are query parameters, or the body cannot be
decoded where there is one. -/
def Refused (rd : GoReads τ β) (h : HttpDef) (rq : GoRequest) : Prop :=
  ((∃ p ∈ h.inputs, p.query ≠ "") ∧ rq.formOk = false) ∨
  ∃ p ∈ h.inputs, BodyInput p = true ∧ rd.decode (capitalize p.field.name) rq.body = none

/-- What is sent for the answer of the implementation to an action. -/
inductive Answered (h : HttpDef) (e : HttpExpectedSpec) : GoAnswer ρ ε → GoReply ρ ε → Prop
  | ok {res} : Answered h e (.ok res) (.response e.status
      ((e.outputs.filter fun p => p.header ≠ "").map fun p => (p.header, res (capitalize p.field.name)))
      ((e.outputs.find? BodyOutput).map fun p => res (capitalize p.field.name)))
  | known {x err} : x ∈ h.exceptions → Answered h e (.error (.ptr (.ident x.type)) err) (.exception x.status err)
  | unknown {t err} : (∀ x ∈ h.exceptions, t ≠ .ptr (.ident x.type)) → Answered h e (.error t err) (.exception 500 err)

end Sadl.Spec
