import Verif.Model.Schema
import Verif.Model.Text
import Verif.Model.Misc
import Verif.Model.Literal
/-
The helpers of HTTP directives: parser.go:609-662, 823-845, 2235-2264.
-/
namespace Sadl

/-- `strings.Index(s, sub) >= 0` -/
def containsSub (sub : List Char) : List Char → Bool
  | [] => sub.isPrefixOf []
  | c :: r => sub.isPrefixOf (c :: r) || containsSub sub r

/-- The part of a path template before the first `?`, parser.go:2236-2239. -/
def pathPart (path : List Char) : List Char :=
  match splitFirst '?' path with
  | some (p, _) => p
  | none => path

/-- parser.go:830-835: the part after the first `?`, or nothing. -/
def queryPart (path : List Char) : List Char :=
  match splitFirst '?' path with
  | some (_, q) => q
  | none => []

/-- parser.go:2241-2260: the loop of `validateHttpPathTemplate`, started in `inParam`. -/
def pathLoop : Bool → List Char → Bool
  | inParam, [] => !inParam
  | inParam, c :: r =>
    if c = '{' then (if inParam then false else pathLoop true r)
    else if c = '}' then (if inParam then pathLoop false r else false)
    else if c = '/' then (if inParam then false else pathLoop inParam r)
    else pathLoop inParam r

/-- parser.go:2235-2264 `validateHttpPathTemplate`: does it return nil? -/
def pathTemplateOk (path : String) : Bool := pathLoop false (pathPart path.toList)

/-- Where an HTTP parameter comes from, the result of `parameterSource`. -/
inductive ParamSource where
  | header (name : String)
  | path
  | query (name : String)
  | body
  deriving Repr, DecidableEq

/-- parser.go:838-843: the loop over the query items; the key of the first item
`key={name}`. -/
def queryKey (want : List Char) : List (List Char) → Option (List Char)
  | [] => none
  | item :: rest =>
    match splitAll '=' item with
    | k :: v :: _ => if v = want then some k else queryKey want rest
    | _ => queryKey want rest

/-- parser.go:823-845 `parameterSource`. -/
def parameterSource (pathTemplate name header : String) : ParamSource :=
  if header ≠ "" then .header header
  else
    let want := '{' :: name.toList ++ ['}']
    if containsSub want (pathPart pathTemplate.toList) then .path
    else match queryKey want (splitAll '&' (queryPart pathTemplate.toList)) with
      | some k => .query (String.ofList k)
      | none => .body

/-- parser.go:639-647 `resourceName`: the last segment without `{`. -/
def resourceNameL : List (List Char) → List Char
  | [] => []
  | seg :: before => if '{' ∈ seg then resourceNameL before else seg

/-- parser.go:639-647 `resourceName`. -/
def resourceName (path : String) : String :=
  String.ofList (resourceNameL (splitAll '/' path.toList).reverse)

/-- parser.go:649-651 `actionName`. -/
def actionName (h : HttpDef) : String := lowerS h.method ++ capitalize h.resource

/-- parser.go:610-618 `ensureResourceName`; the error is dropped by its caller's caller. -/
def ensureResourceName (h : HttpDef) : HttpDef :=
  if h.resource = "" then { h with resource := resourceName h.path } else h

/-- parser.go:653-662 `ensureActionName`; when no resource name is found the error is
dropped by the caller (parser.go:600) and the action keeps its empty name. -/
def ensureActionName (h : HttpDef) : HttpDef :=
  if h.name = "" then
    let h' := ensureResourceName h
    if h'.resource = "" then h' else { h' with name := actionName h' }
  else h

/-- parser.go:620-624 -/
def requireInput (p : HttpParamSpec) : HttpParamSpec :=
  if p.query = "" ∧ p.header ≠ "" then { p with field := { p.field with required := true } } else p

/-- parser.go:630-634 -/
def requireOutput (p : HttpParamSpec) : HttpParamSpec :=
  if p.header = "" then { p with field := { p.field with required := true } } else p

/-- parser.go:620-637 `ensureRequiredParams`. -/
def ensureRequiredParams (h : HttpDef) : HttpDef :=
  { h with
    inputs := h.inputs.map requireInput
    expected := h.expected.map fun e =>
      if e.status ≠ 204 ∧ e.status ≠ 304 then { e with outputs := e.outputs.map requireOutput }
      else e }

end Sadl
