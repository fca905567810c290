import Verif.Model.ParserValidate
/-
`FindExampleType`: model.go:511-593.
-/
namespace Sadl

/-- model.go:575-592: the loop over the rest of the target.  The texts of the errors are shortened. -/
def fieldsAlong (ts : TypeSpec) : List (List Char) → Out TypeSpec
  | [] => .ok ts
  | x :: rest =>
    if ts.type ≠ "Struct" then .err "Cannot dereference a non-struct in example target"
    else match ts.fields.find? (fun f => f.name == String.ofList x) with
      | none => .err "Unknown field when dereferencing example target"
      | some f => fieldsAlong f.ts rest

/-- model.go:525-543, 549-567: the parameter of an action, and the rest of the target; `none` is the nil type specification
returned for the request or response itself. -/
def paramAlong (params : List HttpParamSpec) : List (List Char) → Out (Option TypeSpec)
  | [] => .ok none
  | x :: rest =>
    match params.find? (fun p => p.field.name == String.ofList x) with
    | none => .err "Unknown http input when dereferencing example target"
    | some p => (fieldsAlong p.field.ts rest).bind fun t => .ok (some t)

/-- model.go:511-593 `FindExampleType` for the target of an example.  `strings.Split` always gives at least one part. -/
def findExampleType (m : Model) (target : String) : Out (Option TypeSpec) :=
  match splitAll '.' target.toList with
  | [] => .err "no target"
  | first :: rest =>
    match m.findType (String.ofList first) with
    | some td => (fieldsAlong td.ts rest).bind fun t => .ok (some t)
    | none =>
      match cutSuffixS "Request" (String.ofList first) with
      | some base =>
        match m.findHttp (uncapitalize base) with
        | some h => paramAlong h.inputs rest
        | none => .err "Undefined type in example"
      | none =>
        match cutSuffixS "Response" (String.ofList first) with
        | some base =>
          match m.findHttp (uncapitalize base) with
          | some h =>
            match rest, h.expected with
            | [], _ => .ok none
            | _ :: _, none => .panic "nil Expected dereferenced"
            | x :: r, some e => paramAlong e.outputs (x :: r)
          | none => .err "Undefined type in example"
        | none => .err "Undefined type in example"

end Sadl
