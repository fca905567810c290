import Verif.Spec.OpenApiActions
/-
What a user expects of the import of a Swagger 2.0 document, stated on the decoded document (a
JSON value) and on the schema that results.
-/
namespace Sadl.Spec
open Sadl

/-! ### Members of a JSON object -/

/-- The member `k` of the value `v` is `w`, and it is not null. -/
def Member (v : Value) (k : String) (w : Value) : Prop :=
  ∃ kvs, v = .obj kvs ∧ mget kvs k = some w ∧ w ≠ .null

/-- The member `k` of `v` is the text `s` (which Go may hold by a pointer). -/
def Text (v : Value) (k : String) (s : String) : Prop := Member v k (.str s) ∨ Member v k (.strPtr s)

/-- The value has no member `k`, or it is null. -/
def Lacks (v : Value) (k : String) : Prop := ∀ w, ¬ Member v k w

/-- `w` is one of the members of the object that is the member `k` of `v`, under the name `n`. -/
def Entry (v : Value) (k n : String) (w : Value) : Prop := ∃ kvs, Member v k (.obj kvs) ∧ (n, w) ∈ kvs

/-- `w` is one of the elements of the array that is the member `k` of `v`. -/
def Element (v : Value) (k : String) (w : Value) : Prop := ∃ ws, Member v k (.arr ws) ∧ w ∈ ws

/-! ### Schemas -/

/-- The types that a schema can have, besides arrays and objects. -/
def SimpleTypes : List String := ["string", "integer", "number", "boolean"]

/-- The schema is one that the import knows: a simple type, an array of such, an object with such
properties, or else a reference. -/
inductive Supported : Value → Prop
  | simple (v : Value) (t : String) : Text v "type" t → t ∈ SimpleTypes → Supported v
  | array (v w : Value) : Text v "type" "array" → Member v "items" w → Supported w → Supported v
  | object (v : Value) : Text v "type" "object" → (∀ n w, Entry v "properties" n w → Supported w) → Supported v
  | ref (v r : Value) : (∀ t, Text v "type" t → t ∉ "array" :: "object" :: SimpleTypes) → Member v "$ref" r → Supported v
  | text (s : String) : Supported (.str s)

/-! ### Where schemas occur -/

/-- The methods that are converted. -/
def SwaggerMethods : List String := ["get", "delete", "put", "post", "patch", "head"]

/-- `op` is an operation of the document. -/
def OperationOf (doc op : Value) : Prop :=
  ∃ path item k, Entry doc "paths" path item ∧ k ∈ SwaggerMethods ∧ Member item k op

/-- The document needs the schema `w`: it is the schema of a definition, of a body, of a response,
or of a parameter that does not tell its type itself (then `w` is null when there is none). -/
inductive Needs (doc : Value) : Value → Prop
  | definition (n : String) (w : Value) : Entry doc "definitions" n w → Needs doc w
  | body (op p w : Value) : OperationOf doc op → Element op "parameters" p → Text p "in" "body" → Member p "schema" w → Needs doc w
  | param (op p w : Value) : OperationOf doc op → Element op "parameters" p → ¬ Text p "in" "body" →
      (∀ t, Text p "type" t → t = "") → (Member p "schema" w ∨ (Lacks p "schema" ∧ w = .null)) → Needs doc w
  | response (op : Value) (st : String) (r w : Value) : OperationOf doc op → Entry op "responses" st r → Member r "schema" w → Needs doc w

/-! ### The type that a schema denotes -/

/-- The text of the member `k`, empty when there is none. -/
def textAt (v : Value) (k : String) : String :=
  match v with
  | .obj kvs => match mget kvs k with
    | some (.str s) => s
    | some (.strPtr s) => s
    | _ => ""
  | _ => ""

/-- `name` is the last component of a path. -/
def LastComponent (path name : List Char) : Prop := '/' ∉ name ∧ (path = name ∨ ∃ dir, path = dir ++ '/' :: name)

/-- The name for the file with the given path: the last component without its last extension, with underscores for dots and dashes. -/
inductive NameOfFile (path : String) : String → Prop
  | extension {stem ext} : LastComponent path.toList (stem ++ '.' :: ext) → '.' ∉ ext →
      NameOfFile path (String.ofList (stem.map fun c => if c = '.' ∨ c = '-' then '_' else c))
  | plain {base} : LastComponent path.toList base → '.' ∉ base → NameOfFile path (String.ofList (base.map fun c => if c = '-' then '_' else c))

/-- The schema is a reference to the definition `name`. -/
def RefersTo (v : Value) (name : String) : Prop :=
  Lacks v "type" ∧ Text v "$ref" ("#/definitions/" ++ name) ∧ name ≠ "" ∧ '#' ∉ name.toList

/-- The number `f` is the whole number `n`. -/
def IsWhole (f : BigFloat) (n : Nat) : Prop :=
  ∃ m e, f = .fin m e ∧ (if 0 ≤ e then m * 2 ^ e.toNat = n else m = n * 2 ^ (-e).toNat)

/-- The member `k` of `v` is the size `n`, if there is one. -/
def SizeIs (v : Value) (k : String) : Option Nat → Prop
  | none => Lacks v k
  | some n => n < 2 ^ 63 ∧ ∃ f, Member v k (.float64 f) ∧ IsWhole f n

/-- The limits of numbers that Swagger knows. -/
def NoLimits (v : Value) : Prop := ∀ k ∈ ["minimum", "maximum", "exclusiveMinimum", "exclusiveMaximum", "min", "max"], Lacks v k

/-- The property `n` is required. -/
def RequiredIn (v : Value) (n : String) : Prop := ∃ w, Element v "required" w ∧ (w = .str n ∨ w = .strPtr n)

mutual
/-- The schema `v` denotes the type `ts`. -/
inductive Means : Value → TypeSpec → Prop
  | boolean {v} : Text v "type" "boolean" → Means v { type := "Bool" }
  | number {v} : Text v "type" "number" → NoLimits v → Means v { type := "Decimal" }
  | integer {v} {f t : String} : Text v "type" "integer" → NoLimits v → textAt v "format" = f →
      (f, t) ∈ [("int8", "Int8"), ("int16", "Int16"), ("int32", "Int32"), ("int64", "Int64"), ("", "Int64")] → Means v { type := t }
  | format {v} {f t : String} : Text v "type" "string" → Text v "format" f → (f, t) ∈ [("uuid", "UUID"), ("date-time", "Timestamp")] →
      Lacks v "enum" → Means v { type := t }
  | string {v} {f pattern : String} {min max : Option Nat} : Text v "type" "string" → textAt v "format" = f → f ∉ ["uuid", "date-time"] →
      Lacks v "enum" → textAt v "pattern" = pattern → SizeIs v "minLength" min → SizeIs v "maxLength" max →
      Means v { type := "String", pattern := pattern, minSize := (min.filter (· ≠ 0)).map Int.ofNat, maxSize := max.map Int.ofNat }
  | enum {v} {symbols : List String} : Text v "type" "string" → symbols ≠ [] → Member v "enum" (.arr (symbols.map .str)) →
      (∀ s ∈ symbols, Identifier s) → Means v { type := "Enum", elements := symbols.map fun s => { symbol := s } }
  | values {v} {f pattern : String} {min max : Option Nat} {texts : List String} : Text v "type" "string" → textAt v "format" = f →
      f ∉ ["uuid", "date-time"] → Member v "enum" (.arr (texts.map .str)) → (∃ s ∈ texts, ¬ Identifier s) →
      textAt v "pattern" = pattern → SizeIs v "minLength" min → SizeIs v "maxLength" max →
      Means v { type := "String", pattern := pattern, values := some texts
                minSize := (min.filter (· ≠ 0)).map Int.ofNat, maxSize := max.map Int.ofNat }
  | arrayRef {v w} {t : String} : Text v "type" "array" → Member v "items" w → RefersTo w t → Means v { type := "Array", items := t }
  | array {v w} {t : String} : Text v "type" "array" → Member v "items" w → Means w { type := t } → Means v { type := "Array", items := t }
  | object {v fields} : Text v "type" "object" → Lacks v "properties" → fields = [] → Means v { type := "Struct", fields := fields }
  | properties {v ps fields} : Text v "type" "object" → Member v "properties" (.obj ps) → MeansFields v ps fields →
      Means v { type := "Struct", fields := fields }

/-- The properties `ps` of the schema `v` denote the fields. -/
inductive MeansFields : Value → List (String × Value) → List StructFieldDef → Prop
  | nil {v} : MeansFields v [] []
  | cons {v n w ps f fields} : n ≠ "" → f.name = n → textAt w "description" = f.comment → (f.required = true ↔ RequiredIn v n) →
      f.default = .null → f.annotations = [] → MeansField w f.ts → MeansFields v ps fields → MeansFields v ((n, w) :: ps) (f :: fields)

/-- The schema of a property denotes the type of a field. -/
inductive MeansField : Value → TypeSpec → Prop
  | ref {w t} : RefersTo w t → MeansField w { type := t }
  | inline {w ts} : Means w ts → MeansField w ts
end

/-- The type that a schema tells. -/
def schemaType : Value → String
  | .str s => s
  | v => textAt v "type"

/-- The definitions that become types: SADL has a `Timestamp` and a `Decimal` of its own. -/
def KeptDefinition (kv : String × Value) : Prop :=
  kv.1 ≠ "" ∧ kv.1 ≠ "Decimal" ∧ ¬ (kv.1 = "Timestamp" ∧ schemaType kv.2 = "string")

instance (kv : String × Value) : Decidable (KeptDefinition kv) := by unfold KeptDefinition; infer_instance

/-- The definition `kv`, one of `ds`, denotes the type definition. -/
structure TypeFor (ds : List (String × Value)) (kv : String × Value) (td : TypeDef) : Prop where
  name : td.name = kv.1
  annotations : td.annotations = []
  own : ∀ ts, Means kv.2 ts → td.ts = ts ∧ textAt kv.2 "description" = td.comment
  other : ∀ t w ts, RefersTo kv.2 t → mget ds t = some w → Means w ts → td.ts = ts

/-! ### The action that an operation denotes -/

/-- The members of the object that is the member `k` of `v`; none when there is no such object. -/
def Listed (v : Value) (k : String) (kvs : List (String × Value)) : Prop :=
  Member v k (.obj kvs) ∨ (kvs = [] ∧ ∀ kvs', ¬ Member v k (.obj kvs'))

/-- The elements of the array that is the member `k` of `v`; none when there is no such array. -/
def ArrayAt (v : Value) (k : String) (ws : List Value) : Prop :=
  Member v k (.arr ws) ∨ (ws = [] ∧ ∀ ws', ¬ Member v k (.arr ws'))

/-- The methods of a path whose operations are imported. -/
def ImportedMethods : List (String × String) :=
  [("get", "GET"), ("put", "PUT"), ("post", "POST"), ("delete", "DELETE"), ("head", "HEAD")]

/-- The SADL names of the simple types of parameters. -/
def ParamTypes : List (String × String) :=
  [("string", "String"), ("number", "Decimal"), ("integer", "Int32"), ("boolean", "Bool")]

/-- The flag `required` of a parameter. -/
def IsRequired (p : Value) (b : Bool) : Prop := Member p "required" (.bool b) ∨ (Lacks p "required" ∧ b = false)

/-- The parameter `p` denotes the input `i`: at its place, under its name, with its type. -/
structure InputFor (p : Value) (i : HttpParamSpec) : Prop where
  name : i.field.name = Letters (textAt p "name")
  query : i.query = if textAt p "in" = "query" then textAt p "name" else ""
  header : i.header = if textAt p "in" = "header" then textAt p "name" else ""
  path : i.path = decide (textAt p "in" = "path")
  required : ∀ b, IsRequired p b → i.field.required = b
  type : ∀ t t', (t, t') ∈ ParamTypes → textAt p "type" = t → i.field.ts = { type := t' }
  array : textAt p "type" = "array" → i.field.ts = { type := "Array", items := "Any" }
  default : i.field.default = .null

/-- The operation speaks JSON: it lists the media type, or it lists none and the document does. -/
def Speaks (doc op : Value) (k : String) : Prop :=
  Element op k (.str "application/json") ∨ ((∀ w, ¬ Element op k w) ∧ Element doc k (.str "application/json"))

/-- The parameter `p` is the body, of the type `t`. -/
structure BodyFor (p : Value) (t : String) (i : HttpParamSpec) : Prop where
  place : i.path = false ∧ i.query = "" ∧ i.header = ""
  name : i.field.name = "body"
  comment : textAt p "description" = i.field.comment
  required : ∀ b, IsRequired p b → i.field.required = b
  type : i.field.ts = { type := t }

/-- The number of a status that has at most three digits. -/
def IsStatus (st : String) (n : Int) : Prop := ∀ k : Nat, k < 1000 → st = String.ofList (Nat.toDigits 10 k) → n = k

/-- A response that tells of success. -/
def Success (st : String) : Prop := ∃ r, st.toList = '2' :: r ∨ st.toList = '3' :: r

/-- The response `r` under the status `st` denotes the expected response. -/
structure ExpectedFor (doc op : Value) (st : String) (r : Value) (e : HttpExpectedSpec) : Prop where
  status : IsStatus st e.status
  comment : textAt r "description" = e.comment
  headers : ∀ hs, Listed r "headers" hs → ∃ body, e.outputs.map (·.header) = hs.map Prod.fst ++ body ∧ body.length ≤ 1 ∧ ∀ b ∈ body, b = ""
  ref : ∀ w t, Speaks doc op "produces" → Member r "schema" w → RefersTo w t →
    ∃ i ∈ e.outputs, i.field.name = "body" ∧ i.header = "" ∧ i.field.ts = { type := t }
  inline : ∀ w ts, Speaks doc op "produces" → Member r "schema" w → Means w ts →
    ∃ i ∈ e.outputs, i.field.name = "body" ∧ i.header = "" ∧ i.field.ts = ts

/-- The response `r` under the status `st` denotes the exception. -/
structure ExceptionFor (doc op : Value) (st : String) (r : Value) (x : HttpExceptionSpec) : Prop where
  status : IsStatus st x.status
  default : st = "default" → x.status = 0
  comment : textAt r "description" = x.comment
  type : ∀ w t, Speaks doc op "produces" → Member r "schema" w → RefersTo w t → x.type = t

/-- The query part of the path, for the names of the parameters. -/
def QueryFor : List String → String
  | [] => ""
  | n :: ns => "?" ++ n ++ "={" ++ Letters n ++ "}" ++ String.join (ns.map fun n => "&" ++ n ++ "={" ++ Letters n ++ "}")

/-- The operation `op` for the method `verb` under the path `uri` denotes the action. -/
structure ActionFor (doc : Value) (uri verb : String) (op : Value) (h : HttpDef) : Prop where
  name : textAt op "operationId" = h.name
  method : h.method = verb
  comment : textAt op "summary" = h.comment
  path : ∀ ps, ArrayAt op "parameters" ps →
    h.path = uri ++ QueryFor ((ps.filter fun p => textAt p "in" = "query").map fun p => textAt p "name")
  inputs : ∀ ps, ArrayAt op "parameters" ps → ∃ ins body, h.inputs = ins ++ body ∧
    List.Forall₂ InputFor (ps.filter fun p => textAt p "in" ≠ "body") ins ∧
    (∀ p w t, (ps.filter fun p => textAt p "in" = "body").getLast? = some p → verb ∈ ["POST", "PUT"] →
      Speaks doc op "consumes" → Member p "schema" w → RefersTo w t → ∃ i, body = [i] ∧ BodyFor p t i)
  expected : ∀ rs, Listed op "responses" rs → ∃ st r e, (st, r) ∈ rs ∧ h.expected = some e ∧ ExpectedFor doc op st r e ∧
    (Success st ∨ (st = "default" ∧ ∀ x ∈ rs, ¬ Success x.1)) ∧
    List.Forall₂ (fun kr x => ExceptionFor doc op kr.1 kr.2 x) (rs.filter fun kr => kr.1 ≠ st) h.exceptions

end Sadl.Spec
