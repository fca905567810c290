import Verif.Spec.Java
import Verif.Model.JavaGenerate
/-
What the generated Java server and client are to look like.
-/
namespace Sadl.Spec
open Sadl

/-- The first element with a property. -/
def FirstOf {α : Type} (P : α → Prop) (l : List α) (x : α) : Prop := ∃ before after, l = before ++ x :: after ∧ P x ∧ ∀ y ∈ before, ¬ P y

/-- The Java type of a parameter, output or exception.  An array or map that has no name of its own is not told its items. -/
inductive JavaBare (s : Schema) (instants : Bool) : String → Bool → JTy → Prop
  | named {n r t} : JavaNamed s instants n r t → JavaBare s instants n r t
  | array {r} : JavaBare s instants "Array" r (.name "List")
  | map {r} : JavaBare s instants "Map" r (.name "Map")

/-- The input is the body of the request. -/
def JavaInBody (p : HttpParamSpec) : Prop := p.query = "" ∧ p.header = "" ∧ p.path = false

/-- The output is the body of the response. -/
def JavaOutBody (p : HttpParamSpec) : Prop := p.header = ""

/-- The name and the type of what an action is about: what is sent with POST and PUT, what is received with others. -/
inductive JavaSubject (h : HttpDef) : String → String → Prop
  | input {p} : h.method = "POST" ∨ h.method = "PUT" → FirstOf JavaInBody h.inputs p → JavaSubject h p.field.name p.field.ts.type
  | noInput : h.method = "POST" ∨ h.method = "PUT" → (∀ p ∈ h.inputs, ¬ JavaInBody p) → JavaSubject h "anonymous" "Object"
  | output {e p} : h.method ≠ "POST" → h.method ≠ "PUT" → h.expected = some e → FirstOf JavaOutBody e.outputs p →
      JavaSubject h p.field.name p.field.ts.type
  | noOutput {e} : h.method ≠ "POST" → h.method ≠ "PUT" → h.expected = some e → (∀ p ∈ e.outputs, ¬ JavaOutBody p) →
      JavaSubject h "anonymous" "Object"

/-- The name of the Java method for an action: its own name, or one made of the method and of what the action is about. -/
inductive JavaMethodName (h : HttpDef) : String → Prop
  | named : h.name ≠ "" → JavaMethodName h (uncapitalize h.name)
  | unnamed {n t} : h.name = "" → JavaSubject h n t → JavaMethodName h (lowerAscii h.method ++ t)

/-- The part of a path before the question mark. -/
def BeforeQuery (path p : String) : Prop :=
  '?' ∉ p.toList ∧ ∃ rest, path.toList = p.toList ++ rest ∧ ∀ c, rest.head? = some c → c = '?'

/-- Where the value of an input is taken from. -/
inductive JavaBindFor (p : HttpParamSpec) : JBind → Prop
  | query : p.query ≠ "" → JavaBindFor p (.query p.query)
  | header : p.query = "" → p.header ≠ "" → JavaBindFor p (.header p.header)
  | path : p.query = "" → p.header = "" → p.path = true → JavaBindFor p (.path p.field.name)
  | body : JavaInBody p → JavaBindFor p .entity

/-- The default value of an input; `dec` writes a number.  There is none for arrays and objects. -/
inductive JavaDefaultFor (dec : BigFloat → String) : Value → Option String → Prop
  | none : JavaDefaultFor dec .null none
  | string {t} : JavaDefaultFor dec (.strPtr t) (some t)
  | number {d} : JavaDefaultFor dec (.dec d) (some (dec d))
  | bool {b} : JavaDefaultFor dec (.bool b) (some (if b then "true" else "false"))

/-- A parameter of the method of the server for an input. -/
structure JavaParamFor (s : Schema) (conf : JavaConf) (p : HttpParamSpec) (x : JParam) : Prop where
  name : x.name = p.field.name
  type : JavaBare s conf.instants p.field.ts.type false x.type
  bind : JavaBindFor p x.bind
  default : JavaDefaultFor conf.decText p.field.default x.default

/-- The type and status of an exception. -/
def JavaThrowFor (s : Schema) (instants : Bool) (x : HttpExceptionSpec) (y : String × Int) : Prop :=
  y.2 = x.status ∧ ∃ t, JavaBare s instants x.type true t ∧ y.1 = t.text

/-- The outputs in headers. -/
def headerOutputs (e : HttpExpectedSpec) : List (String × String) :=
  (e.outputs.filter fun p => decide (p.header ≠ "")).map fun p => (p.header, p.field.name)

/-- What the server sends as the body: the first output that is not in a header; an output called `void` is not sent. -/
inductive JavaEntityFor (s : Schema) (instants : Bool) (e : HttpExpectedSpec) : Option (String × Bool) → Prop
  | some {p t} : FirstOf JavaOutBody e.outputs p → p.field.name ≠ "void" → p.field.name ≠ "" → JavaBare s instants p.field.ts.type true t →
      JavaEntityFor s instants e (some (p.field.name, decide (t.text = "String")))
  | void {p t} : FirstOf JavaOutBody e.outputs p → p.field.name = "void" ∨ p.field.name = "" → JavaBare s instants p.field.ts.type true t →
      JavaEntityFor s instants e none
  | none : (∀ p ∈ e.outputs, ¬ JavaOutBody p) → JavaEntityFor s instants e none

/-- The method of the server for an action. -/
structure JavaResourceFor (s : Schema) (conf : JavaConf) (h : HttpDef) (r : JResource) : Prop where
  verb : r.verb = h.method
  path : BeforeQuery h.path r.path
  name : JavaMethodName h r.name
  request : r.request = capitalize r.name ++ "Request"
  response : r.response = capitalize r.name ++ "Response"
  params : List.Forall₂ (JavaParamFor s conf) h.inputs r.params
  expected : ∃ e, h.expected = some e ∧ r.status = e.status ∧ (r.result = true ↔ e.outputs ≠ []) ∧ r.headers = headerOutputs e ∧
    JavaEntityFor s conf.instants e r.entity
  exceptions : List.Forall₂ (JavaThrowFor s conf.instants) h.exceptions r.exceptions

/-- The body of the response, if there is one, has a Java type. -/
def JavaEntityReady (s : Schema) (instants : Bool) (e : HttpExpectedSpec) : Prop :=
  ∀ p, FirstOf JavaOutBody e.outputs p → ∃ t, JavaBare s instants p.field.ts.type true t

/-- A method of the server can be written for the action. -/
structure JavaResourceReady (s : Schema) (conf : JavaConf) (h : HttpDef) : Prop where
  name : ∃ n, JavaMethodName h n ∧ n ≠ ""
  params : ∀ p ∈ h.inputs, (∃ t, JavaBare s conf.instants p.field.ts.type false t) ∧ ∃ d, JavaDefaultFor conf.decText p.field.default d
  expected : ∃ e, h.expected = some e ∧ JavaEntityReady s conf.instants e ∧ ∀ p ∈ e.outputs, p.header ≠ "" → p.field.name ≠ ""
  exceptions : ∀ x ∈ h.exceptions, ∃ t, JavaBare s conf.instants x.type true t

/-! ### The client -/

/-- What the client makes of a response with the expected status.  A body whose Java type is called `void` is not read. -/
inductive JavaReturnFor (s : Schema) (instants : Bool) (e : HttpExpectedSpec) : JReturn → Prop
  | nothing : e.outputs = [] → JavaReturnFor s instants e .nothing
  | value {b hs} : e.outputs ≠ [] →
      (∀ p, FirstOf JavaOutBody e.outputs p → ∃ t, JavaBare s instants p.field.ts.type true t ∧
        b = if t.text = "void" then none else some (p.field.name, t.text)) →
      ((∀ p ∈ e.outputs, ¬ JavaOutBody p) → b = none) →
      List.Forall₂ (fun p x => x.1 = p.header ∧ x.2.1 = p.field.name ∧ ∃ t, JavaBare s instants p.field.ts.type true t ∧ x.2.2 = t.text)
        (e.outputs.filter fun p => decide (p.header ≠ "")) hs →
      JavaReturnFor s instants e (.value b hs)

/-- The method of the client for an action. -/
structure JavaCallFor (s : Schema) (conf : JavaConf) (h : HttpDef) (c : JCall) : Prop where
  verb : c.verb = h.method
  path : BeforeQuery h.path c.path
  name : JavaMethodName h c.name
  request : c.request = capitalize c.name ++ "Request"
  response : c.response = capitalize c.name ++ "Response"
  templates : c.templates = (h.inputs.filter fun p => p.path).map fun p => p.field.name
  queries : c.queries = (h.inputs.filter fun p => decide (p.path = false ∧ p.query ≠ "")).map fun p => (p.query, p.field.name)
  headers : c.headers = (h.inputs.filter fun p => decide (p.header ≠ "")).map fun p => (p.header, p.field.name)
  sends : h.method = "POST" ∨ h.method = "PUT" → ∃ n t, JavaSubject h n t ∧ c.entity = some n
  sendsNone : h.method ≠ "POST" → h.method ≠ "PUT" → c.entity = none
  expected : ∃ e, h.expected = some e ∧ c.status = e.status ∧ JavaReturnFor s conf.instants e c.result
  exceptions : c.exceptions = h.exceptions.map fun x => (x.status, x.type)

/-- A method of the client can be written for the action. -/
structure JavaCallReady (s : Schema) (conf : JavaConf) (h : HttpDef) : Prop where
  method : h.method ∈ ["GET", "PUT", "POST", "DELETE"]
  name : ∃ n, JavaMethodName h n ∧ n ≠ ""
  inputs : ∀ p ∈ h.inputs, p.field.name ≠ ""
  expected : ∃ e, h.expected = some e ∧ (e.outputs ≠ [] → h.name ≠ "" ∧ JavaEntityReady s conf.instants e ∧
    ∀ p ∈ e.outputs, p.header ≠ "" → ∃ t, JavaBare s conf.instants p.field.ts.type true t)

end Sadl.Spec
