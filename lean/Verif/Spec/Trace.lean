import Verif.Model.HttpTrace
/-
What the trace of an HTTP exchange should say: HTTP messages, request targets, and which examples
of a schema are requests and responses of an action.
-/
namespace Sadl.Spec
open Sadl

/-- An HTTP message: the start line, the header fields and the body. -/
structure HttpMsg where
  start : List Char
  fields : List (List Char × List Char)
  body : List Char

/-- The text is that message: a line, then a line for each field, an empty line and the body.
(Lines end with a newline alone, as in the traces.) -/
structure IsHttp (text : List Char) (m : HttpMsg) : Prop where
  text : text = m.start ++ '\n' :: m.fields.flatMap (fun f => f.1 ++ ": ".toList ++ f.2 ++ ['\n']) ++ '\n' :: m.body
  start : '\n' ∉ m.start
  fields : ∀ f ∈ m.fields, f.1 ≠ [] ∧ ':' ∉ f.1 ∧ '\n' ∉ f.1 ∧ '\n' ∉ f.2

/-- A piece of a template: text, or a variable in braces. -/
inductive Piece where
  | lit (s : List Char)
  | var (name : String)

/-- The piece as written in the template. -/
def Piece.text : Piece → List Char
  | .lit s => s
  | .var n => '{' :: n.toList ++ ['}']

/-- The piece with a value in place of the variable. -/
def Piece.filled (value : String → List Char) : Piece → List Char
  | .lit s => s
  | .var n => value n

/-- The template consists of the pieces and the query parameters, each with its key and the name of
its variable. -/
structure IsTemplate (path : List Char) (ps : List Piece) (qs : List (List Char × String)) : Prop where
  text : path = ps.flatMap Piece.text ++
    (if qs = [] then [] else '?' :: List.intercalate ['&'] (qs.map fun q => q.1 ++ '=' :: (Piece.var q.2).text))
  lits : ∀ s, Piece.lit s ∈ ps → '{' ∉ s ∧ '?' ∉ s
  vars : ∀ n, Piece.var n ∈ ps ∨ (∃ k, (k, n) ∈ qs) → '{' ∉ n.toList ∧ '}' ∉ n.toList
  keys : ∀ q ∈ qs, '{' ∉ q.1 ∧ '&' ∉ q.1

/-- The target of a request: the path with values for its variables, and the query parameters that
have a value. -/
def targetOf (value : String → List Char) (ps : List Piece) (qs : List (List Char × String)) : List Char :=
  ps.flatMap (Piece.filled value) ++
    (if qs.filter (fun q => value q.2 ≠ []) = [] then []
     else '?' :: List.intercalate ['&'] ((qs.filter (fun q => value q.2 ≠ [])).map fun q => q.1 ++ '=' :: value q.2))

/-- Characters that stand for themselves everywhere in a URI (RFC 3986, section 2.3). -/
def Unreserved (c : Char) : Prop := c.isAlphanum ∨ c = '-' ∨ c = '.' ∨ c = '_' ∨ c = '~'

/-- The text of an example that is a string or a number. -/
inductive Says (L : JLib) : Value → List Char → Prop
  | str (s) : Says L (.strPtr s) s.toList
  | num (d) : Says L (.dec d) (L.showDecimal d).toList

/-- The parameter is sent in the path or in the query part. -/
def InUri (p : HttpParamSpec) : Prop := p.path = true ∨ p.query ≠ ""
/-- The parameter is sent in a header. -/
def InHeader (p : HttpParamSpec) : Prop := ¬ InUri p ∧ p.header ≠ ""

instance (p : HttpParamSpec) : Decidable (InUri p) := by unfold InUri; infer_instance
instance (p : HttpParamSpec) : Decidable (InHeader p) := by unfold InHeader; infer_instance

/-- The example is a request of the action. -/
def IsRequest (h : HttpDef) (ex : ExampleDef) : Prop := ex.target = capitalize h.name ++ "Request"
/-- The example is the expected response of the action. -/
def IsExpected (h : HttpDef) (ex : ExampleDef) : Prop := ex.target = capitalize h.name ++ "Response"
/-- The example is an exception of the action. -/
def IsRefusal (h : HttpDef) (ex : ExampleDef) : Prop :=
  ¬ IsRequest h ex ∧ ¬ IsExpected h ex ∧ ∃ x ∈ h.exceptions, x.type = ex.target

instance (h : HttpDef) (ex : ExampleDef) : Decidable (IsRequest h ex) := by unfold IsRequest; infer_instance
instance (h : HttpDef) (ex : ExampleDef) : Decidable (IsExpected h ex) := by unfold IsExpected; infer_instance
instance (h : HttpDef) (ex : ExampleDef) : Decidable (IsRefusal h ex) := by unfold IsRefusal; infer_instance

/-- The last element of the list with the property. -/
def LastWith {α : Type} (p : α → Prop) (l : List α) (x : α) : Prop :=
  ∃ a b, l = a ++ x :: b ∧ p x ∧ ∀ y ∈ b, ¬ p y

end Sadl.Spec
