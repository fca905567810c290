import Verif.Spec.JavaRest
/-
What the generated Java server and client do: the libraries (JAX-RS, Jackson) as the generated code uses them.  Values of type `V`
are anything that is sent and received as text or JSON; that a value is received as it was sent is not modelled.  An object is
given by its members, where `none` stands for null.
-/
namespace Sadl.Spec
open Sadl

variable {V : Type}

/-- A request: the variables of the path, the query parameters and the headers that are sent, and the body. -/
structure JavaSentRequest (V : Type) where
  verb : String
  path : String
  vars : List (String × V)
  query : List (String × V)
  headers : List (String × V)
  body : Option V

/-- A response. -/
structure JavaSentResponse (V : Type) where
  status : Int
  headers : List (String × V)
  entity : Option V

/-- Names of headers are the same up to the case of their letters. -/
def SameHeader (a b : String) : Prop := lowerAscii a = lowerAscii b

instance (a b : String) : Decidable (SameHeader a b) := by unfold SameHeader; infer_instance

/-- The value of a header. -/
def HeaderValue (hs : List (String × V)) (n : String) : Option V := (hs.find? fun h => SameHeader h.1 n).map (·.2)

/-- The value under a name. -/
def ValueOf (hs : List (String × V)) (n : String) : Option V := (hs.find? fun h => h.1 = n).map (·.2)

/-- The members that are not null, under the names they are sent with. -/
def NotNull (obj : String → Option V) (names : List (String × String)) : List (String × V) :=
  names.filterMap fun x => (obj x.2).map fun v => (x.1, v)

/-- What a method of the client sends for a request object.  A variable of the path may not be null: then nothing is sent. -/
def JavaSend (c : JCall) (obj : String → Option V) : Option (JavaSentRequest V) :=
  if ∀ n ∈ c.templates, (obj n).isSome then
    some { verb := c.verb, path := c.path, vars := NotNull obj (c.templates.map fun n => (n, n)), query := NotNull obj c.queries,
           headers := NotNull obj c.headers, body := c.entity.bind obj }
  else none

/-- What a parameter of a method of the server gets; `read` reads the text of a default value, which is used for what is not
sent, but not for the body. -/
def JavaArg (read : String → V) (w : JavaSentRequest V) (p : JParam) : Option V :=
  match p.bind with
  | .query n => (ValueOf w.query n).or (p.default.map read)
  | .header n => (HeaderValue w.headers n).or (p.default.map read)
  | .path n => (ValueOf w.vars n).or (p.default.map read)
  | .entity => w.body

/-- The members of the request object that the implementation of the service gets. -/
def JavaArgs (read : String → V) (r : JResource) (w : JavaSentRequest V) : List (String × Option V) :=
  r.params.map fun p => (p.name, JavaArg read w p)

/-- What the implementation does: it returns a response object, or it throws an exception of the given class (with the setting
`service-exception`, a ServiceException that holds an object of the class), or it fails in another way. -/
inductive JavaOutcome (V : Type) where
  | returns (obj : String → Option V)
  | throws (cls : String) (e : V)
  | fails

/-- What a method of the server sends for an outcome. -/
def JavaReply (conf : JavaConf) (r : JResource) : JavaOutcome V → JavaSentResponse V
  | .returns obj =>
    if r.result then ⟨r.status, NotNull obj r.headers, (r.entity.bind fun n => obj n.1)⟩ else ⟨r.status, [], none⟩
  | .throws cls e =>
    if conf.serviceException then
      match (r.exceptions.filter fun x => x.1 ≠ "ServiceException").find? fun x => x.1 = cls with
      | some x => ⟨x.2, [], if x.2 = 204 ∨ x.2 = 304 then none else some e⟩
      | none => ⟨500, [], some e⟩
    else
      match r.exceptions.find? fun x => x.1 = cls with
      | some x => ⟨x.2, [], some e⟩
      | none => ⟨500, [], none⟩
  | .fails => ⟨500, [], none⟩

/-- What a method of the client gives back: null, a response object, an exception that is declared, or a RuntimeException. -/
inductive JavaResult (V : Type) where
  | null
  | returns (obj : List (String × Option V))
  | throws (type : String) (e : Option V)
  | fails

/-- What a method of the client makes of a response.  An instant that is missing cannot be read. -/
def JavaReceive (c : JCall) (w : JavaSentResponse V) : JavaResult V :=
  if w.status = c.status then
    match c.result with
    | .nothing => .null
    | .value ent hs =>
      if ∀ h ∈ hs, h.2.2 = "Instant" → (HeaderValue w.headers h.1).isSome then
        .returns ((ent.toList.map fun x => (x.1, w.entity)) ++ hs.map fun h => (h.2.1, HeaderValue w.headers h.1))
      else .fails
  else
    match c.exceptions.find? fun x => x.1 = w.status with
    | some x => .throws x.2 w.entity
    | none => .fails

/-! ### What an action says -/

/-- The value that the implementation gets for an input for which the client has `v`: the default, if there is one, for null,
except for the body. -/
inductive JavaGets (dec : BigFloat → String) (read : String → V) (p : HttpParamSpec) : Option V → Option V → Prop
  | value {v} : JavaGets dec read p (some v) (some v)
  | body : JavaInBody p → JavaGets dec read p none none
  | default {t} : ¬ JavaInBody p → JavaDefaultFor dec p.field.default (some t) → JavaGets dec read p none (some (read t))
  | null : ¬ JavaInBody p → JavaDefaultFor dec p.field.default none → JavaGets dec read p none none

/-- The inputs of an action can be told apart. -/
structure JavaInputsDiffer (h : HttpDef) : Prop where
  path : ((h.inputs.filter fun p => p.path).map fun p => p.field.name).Nodup
  query : ((h.inputs.filter fun p => decide (p.query ≠ "")).map fun p => p.query).Nodup
  header : ((h.inputs.filter fun p => decide (p.header ≠ "")).map fun p => lowerAscii p.header).Nodup

/-- The outputs of an action can be told apart, and neither they nor their Java types are called `void`. -/
structure JavaOutputsDiffer (s : Schema) (instants : Bool) (e : HttpExpectedSpec) : Prop where
  header : ((e.outputs.filter fun p => decide (p.header ≠ "")).map fun p => lowerAscii p.header).Nodup
  name : ∀ p ∈ e.outputs, p.field.name ≠ "void"
  type : ∀ p ∈ e.outputs, ∀ t, JavaBare s instants p.field.ts.type true t → t.text ≠ "void"

/-- An instant that is sent in a header is not null. -/
def JavaInstantsSent (s : Schema) (instants : Bool) (e : HttpExpectedSpec) (obj : String → Option V) : Prop :=
  ∀ p ∈ e.outputs, p.header ≠ "" → ∀ t, JavaBare s instants p.field.ts.type true t → t.text = "Instant" → obj p.field.name ≠ none

/-- The outcomes of an action can be told apart: their statuses differ. -/
def JavaStatusesDiffer (h : HttpDef) (e : HttpExpectedSpec) : Prop := (e.status :: h.exceptions.map (·.status)).Nodup

/-- The exceptions of an action have different classes. -/
def JavaClassesDiffer (s : Schema) (instants : Bool) (h : HttpDef) : Prop :=
  ∀ x ∈ h.exceptions, ∀ y ∈ h.exceptions, ∀ t u, JavaBare s instants x.type true t → JavaBare s instants y.type true u → t.text = u.text → x = y

end Sadl.Spec
