import Verif.Spec.GoClient
import Verif.Spec.JavaWire
import Verif.Model.Text
/-
What a user relies on about a generated Go client and the generated Go server for the same actions: what goes in at one end
comes out at the other.
-/
namespace Sadl.Spec
open Sadl

/-! ### Between client and server -/

/-- Characters that mean themselves in the query of a URL. -/
def MeansItself (c : Char) : Prop := c.isAlphanum = true ∨ c ∈ ['-', '_', '.', '~', ':']

/-- A text that means itself in the query of a URL. -/
def TextMeansItself (s : String) : Prop := ∀ c ∈ s.toList, MeansItself c

/-- What is between client and server: the decoding of escapes in a query, the JSON of a body, the text of a timestamp, and the text of other
values. -/
structure GoNet (τ β : Type) where
  unescape : List Char → Option (List Char)
  json : β → String
  stamp : τ → String
  other : String → GoVal τ β → String

variable {τ β : Type}

/-- A plain text has no escapes. -/
def GoNet.Decodes (net : GoNet τ β) : Prop := ∀ s, (∀ c ∈ s, MeansItself c) → net.unescape s = some s

/-- The parameter and its value in a part of a query. -/
def QueryPart (net : GoNet τ β) (part : List Char) : Option (String × String) :=
  match net.unescape (part.takeWhile (· ≠ '=')), net.unescape ((part.dropWhile (· ≠ '=')).drop 1) with
  | some k, some v => some (String.ofList k, String.ofList v)
  | _, _ => none

/-- The parts of the query of a URL: what is between the `&` after the first `?`. -/
def QueryParts (url : String) : List (List Char) := (splitAll '&' ((url.toList.dropWhile (· ≠ '?')).drop 1)).filter (· ≠ [])

/-- `r.Form.Get`: the first value of a parameter in the query of a URL. -/
def QueryValue (net : GoNet τ β) (url : String) (k : String) : String := (((QueryParts url).filterMap (QueryPart net)).lookup k).getD ""

/-- The fields of the request of a client: whether one differs from the zero value that a text stands for. -/
def FieldDiffers (vals : String → GoVal τ β) (f zero : String) : Bool :=
  match zero, vals f with
  | "\"\"", .text t => t ≠ ""
  | "0", .int n => n ≠ 0
  | "nil", .time t => t.isSome
  | _, _ => true

/-- The fields of the request of a client: the text of one in a format. -/
def FieldText (net : GoNet τ β) (vals : String → GoVal τ β) (format f : String) : String :=
  match format, vals f with
  | "%s", .text t => t
  | "%d", .int n => sprintInt n
  | "%v", .time (some t) => net.stamp t
  | _, v => net.other format v

/-- The request that arrives at the server for what a client sends; nothing is said about headers and variables of the path. -/
def ArrivesAs (net : GoNet τ β) (vals : String → GoVal τ β) (sent : GoSent) (header var : String → String) : GoRequest :=
  { form := QueryValue net sent.url, header := header, var := var
    formOk := (QueryParts sent.url).all fun part => (QueryPart net part).isSome
    body := match sent.body.map vals with | some (.body b) => net.json b | _ => "" }

/-- What a method of a client sends for the fields of a request. -/
def SendCall (net : GoNet τ β) (target : String) (vals : String → GoVal τ β) (c : GoCall) : GoSent :=
  RunCall target (FieldDiffers vals) (FieldText net vals) c

/-! ### What can be sent -/

/-- The inputs of the action are in the body, or in the query under their own names; and they have different names. -/
structure GoSendable (h : HttpDef) : Prop where
  places : ∀ p ∈ h.inputs, BodyInput p = true ∨ p.query = p.field.name
  plain : ∀ p ∈ h.inputs, p.query ≠ "" → TextMeansItself p.field.name
  once : ((h.inputs.filter fun p => p.query ≠ "").map (·.field.name)).Nodup

/-- The value of an input arrives: a plain text, a number in the range of the type, a timestamp whose text is read back, a body that is
decoded again; where the value is the zero value there is no default. -/
inductive Sendable (lib : GoLib) (rd : GoReads τ β) (net : GoNet τ β) (s : Schema) (p : HttpParamSpec) : GoVal τ β → Prop
  | text {t} : p.query ≠ "" → OfKind s p.field.ts.type ["String"] → TextMeansItself t → (t = "" → ∀ d, DefaultText lib p.field.default d → d = "") →
      Sendable lib rd net s p (.text t)
  | int {n bits} : p.query ≠ "" → (p.field.ts.type, bits) ∈ IntKinds → -2 ^ (bits - 1) ≤ n → n < 2 ^ (bits - 1) →
      (n = 0 → ∀ d, DefaultInt p.field.default d → d = 0) → Sendable lib rd net s p (.int n)
  | time {t} : p.query ≠ "" → p.field.ts.type = "Timestamp" → TextMeansItself (net.stamp t) → net.stamp t ≠ "" → rd.time (net.stamp t) = some t →
      Sendable lib rd net s p (.time (some t))
  | noTime : p.query ≠ "" → p.field.ts.type = "Timestamp" → Sendable lib rd net s p (.time none)
  | body {b} : BodyInput p = true → rd.decode (capitalize p.field.name) (net.json b) = some b → Sendable lib rd net s p (.body b)

/-! ### What comes back -/

variable {ρ : Type}

/-- What is between server and client: a value that was written as JSON and is decoded as a type, a value that was written in a header and is
read as text or as a timestamp, and what is read from a header that is not there. -/
structure GoNetBack (ρ : Type) where
  decoded : GoTy → ρ → Option ρ
  text : String → ρ → ρ
  time : String → ρ → ρ
  missing : ρ

/-- What a client reads from a reply. -/
def ReadsFrom (back : GoNetBack ρ) : GoReply ρ ρ → GoReadsBack ρ
  | .response _ hs entity => ⟨fun t => entity.bind (back.decoded t), fun k => ((HeaderValue hs k).map (back.text k)).getD back.missing,
      fun k => ((HeaderValue hs k).map (back.time k)).getD back.missing⟩
  | .exception _ e => ⟨fun t => back.decoded t e, fun _ => back.missing, fun _ => back.missing⟩
  | .refused => ⟨fun _ => none, fun _ => back.missing, fun _ => back.missing⟩

/-- The status of a reply. -/
def StatusOf : GoReply ρ ρ → Int
  | .response st _ _ => st
  | .exception st _ => st
  | .refused => 400

/-- A call of a method of a client that reaches the handler, up to what the method gives back. -/
def ExchangeGives (rd : GoReads τ β) (net : GoNet τ β) (back : GoNetBack ρ) (impl : List (String × GoVal τ β) → GoAnswer ρ ρ) (target : String)
    (header var : String → String) (c : GoCall) (g : GoHandler) (vals : String → GoVal τ β) : GoGiven ρ (GoTy × ρ) :=
  let reply := RunHandler rd impl g (ArrivesAs net vals (SendCall net target vals c) header var)
  ReadReply (ReadsFrom back reply) (StatusOf reply) c

/-- The outputs of the action have different headers. -/
def HeadersDiffer (e : HttpExpectedSpec) : Prop := (e.outputs.filter fun p => p.header ≠ "").Pairwise fun p q => ¬ SameHeader p.header q.header

/-- The value of an output arrives: the entity is decoded again, a header is read as what was written. -/
def Returnable (s : Schema) (runtime : Bool) (back : GoNetBack ρ) (p : HttpParamSpec) (v : ρ) : Prop :=
  if p.header = "" then ∀ t, GoLeafOf s runtime p.field.ts.type t → back.decoded t v = some v
  else if p.field.ts.type = "Timestamp" ∧ runtime = false then back.time p.header v = v
  else back.text p.header v = v

end Sadl.Spec
