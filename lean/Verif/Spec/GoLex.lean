import Verif.Spec.JavaLex
import Verif.Spec.Golang
/-
Specification: Go's strings, comments and brackets (The Go Programming Language Specification, "Comments", "Rune literals" and
"String literals").  The digits of numeric escapes are not counted.
-/
namespace Sadl.Spec
open Sadl

/-- Where one is in a Go text. -/
inductive GLex where
  | code
  /-- After a slash, which may begin a comment. -/
  | slash
  /-- In a comment that ends with the line. -/
  | line
  /-- In a comment that ends with a star and a slash. -/
  | block
  /-- In such a comment, after a star. -/
  | star
  /-- In a string in double quotes. -/
  | str
  /-- In such a string, after a backslash. -/
  | esc
  /-- In a character in single quotes. -/
  | chr
  /-- In such a character, after a backslash. -/
  | chrEsc
  /-- In a string in back quotes, in which there are no escapes. -/
  | raw
  deriving Repr, DecidableEq

/-- What may follow a backslash, apart from the quote itself. -/
def GoEscapes : List Char := ['a', 'b', 'f', 'n', 'r', 't', 'v', '\\', '0', '1', '2', '3', '4', '5', '6', '7', 'x', 'u', 'U']

/-- One character outside of strings and comments, when the brackets in `opened` are open. -/
def gcode (opened : List Char) (c : Char) : Option (GLex × List Char) :=
  if c = '{' ∨ c = '(' ∨ c = '[' then some (.code, c :: opened)
  else if c = '}' ∨ c = ')' ∨ c = ']' then
    match opened with
    | o :: os => if (o, c) ∈ [('{', '}'), ('(', ')'), ('[', ']')] then some (.code, os) else none
    | [] => none
  else if c = '"' then some (.str, opened)
  else if c = '\'' then some (.chr, opened)
  else if c = '`' then some (.raw, opened)
  else if c = '/' then some (.slash, opened)
  else some (.code, opened)

/-- One character. -/
def gstep (st : GLex) (opened : List Char) (c : Char) : Option (GLex × List Char) :=
  match st with
  | .code => gcode opened c
  | .slash => if c = '/' then some (.line, opened) else if c = '*' then some (.block, opened) else gcode opened c
  | .line => if c = '\n' then some (.code, opened) else some (.line, opened)
  | .block => if c = '*' then some (.star, opened) else some (.block, opened)
  | .star => if c = '/' then some (.code, opened) else if c = '*' then some (.star, opened) else some (.block, opened)
  | .str => if c = '"' then some (.code, opened) else if c = '\\' then some (.esc, opened)
      else if c = '\n' then none else some (.str, opened)
  | .esc => if c = '"' ∨ c ∈ GoEscapes then some (.str, opened) else none
  | .chr => if c = '\'' then some (.code, opened) else if c = '\\' then some (.chrEsc, opened)
      else if c = '\n' then none else some (.chr, opened)
  | .chrEsc => if c = '\'' ∨ c ∈ GoEscapes then some (.chr, opened) else none
  | .raw => if c = '`' then some (.code, opened) else some (.raw, opened)

/-- All characters of a text: where one is afterwards and which brackets are open, if there is no mistake. -/
def gscan : GLex → List Char → List Char → Option (GLex × List Char)
  | st, opened, [] => some (st, opened)
  | st, opened, c :: cs => (gstep st opened c).bind fun r => gscan r.1 r.2 cs

/-- All strings and comments of a Go text end, all escapes are allowed, and every bracket is closed by its counterpart. -/
def GoLexes (text : String) : Prop := gscan .code [] text.toList = some (.code, [])

/-! ### Which texts of a source go into Go text unharmed -/

/-- A text that can stand in Go outside and inside of strings. -/
def GoName (t : String) : Prop := PlainText t ∧ '`' ∉ t.toList

/-- The names in the type of a field, a parameter or a definition. -/
structure GoNamesRef (ts : TypeSpec) : Prop where
  type : GoName ts.type
  items : GoName ts.items
  keys : GoName ts.keys

/-- The names and texts of the definition of a type. -/
structure GoNamesType (ts : TypeSpec) : Prop extends GoNamesRef ts where
  fields : ∀ f ∈ ts.fields, GoName f.name ∧ GoNamesRef f.ts
  variants : ∀ v ∈ ts.variants, GoName v.name ∧ GoNamesRef v.ts
  elements : ∀ el ∈ ts.elements, GoName el.symbol ∧ ∀ v, mget el.annotations "x_enumValue" = some v → GoQuotable v

/-- The names and texts of an input or output; the name of a query parameter is any text. -/
structure GoNamesParam (p : HttpParamSpec) : Prop where
  name : GoName p.field.name
  type : GoNamesRef p.field.ts
  header : GoQuotable p.header

/-- The names and texts of an action. -/
structure GoNamesAction (h : HttpDef) : Prop where
  name : GoName h.name
  method : GoQuotable h.method
  path : GoQuotable h.path
  inputs : ∀ p ∈ h.inputs, GoNamesParam p
  outputs : ∀ e, h.expected = some e → ∀ p ∈ e.outputs, GoNamesParam p
  exceptions : ∀ x ∈ h.exceptions, GoName x.type

/-- The names and texts of a source. -/
structure GoNamesSource (s : Schema) : Prop where
  types : ∀ td ∈ s.types, GoName td.name ∧ GoNamesType td.ts
  actions : ∀ h ∈ s.http, GoNamesAction h

end Sadl.Spec
