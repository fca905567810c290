import Verif.Spec.JavaExport
/-
Specification: Java's strings, comments and brackets (The Java Language Specification, 3.4, 3.7, 3.10 and 3.11).  Unicode escapes
outside of strings and text blocks are left out.
-/
namespace Sadl.Spec
open Sadl

/-- Where one is in a Java text. -/
inductive JLex where
  | code
  /-- After a slash, which may begin a comment. -/
  | slash
  /-- In a comment that ends with the line. -/
  | line
  /-- In a comment that ends with a star and a slash. -/
  | block
  /-- In such a comment, after a star. -/
  | star
  /-- In a string. -/
  | str
  /-- In a string, after a backslash. -/
  | esc
  /-- In a character literal. -/
  | chr
  /-- In a character literal, after a backslash. -/
  | chrEsc
  deriving Repr, DecidableEq

/-- What may follow a backslash. -/
def JavaEscapes : List Char := ['b', 's', 't', 'n', 'f', 'r', '"', '\'', '\\', '0', '1', '2', '3', '4', '5', '6', '7', 'u']

/-- One character outside of strings and comments, when the brackets in `opened` are open. -/
def jcode (opened : List Char) (c : Char) : Option (JLex × List Char) :=
  if c = '{' ∨ c = '(' ∨ c = '[' then some (.code, c :: opened)
  else if c = '}' ∨ c = ')' ∨ c = ']' then
    match opened with
    | o :: os => if (o, c) ∈ [('{', '}'), ('(', ')'), ('[', ']')] then some (.code, os) else none
    | [] => none
  else if c = '"' then some (.str, opened)
  else if c = '\'' then some (.chr, opened)
  else if c = '/' then some (.slash, opened)
  else some (.code, opened)

/-- One character. -/
def jstep (st : JLex) (opened : List Char) (c : Char) : Option (JLex × List Char) :=
  match st with
  | .code => jcode opened c
  | .slash => if c = '/' then some (.line, opened) else if c = '*' then some (.block, opened) else jcode opened c
  | .line => if c = '\n' ∨ c = '\r' then some (.code, opened) else some (.line, opened)
  | .block => if c = '*' then some (.star, opened) else some (.block, opened)
  | .star => if c = '/' then some (.code, opened) else if c = '*' then some (.star, opened) else some (.block, opened)
  | .str => if c = '"' then some (.code, opened) else if c = '\\' then some (.esc, opened)
      else if c = '\n' ∨ c = '\r' then none else some (.str, opened)
  | .esc => if c ∈ JavaEscapes then some (.str, opened) else none
  | .chr => if c = '\'' then some (.code, opened) else if c = '\\' then some (.chrEsc, opened)
      else if c = '\n' ∨ c = '\r' then none else some (.chr, opened)
  | .chrEsc => if c ∈ JavaEscapes then some (.chr, opened) else none

/-- All characters of a text: where one is afterwards and which brackets are open, if there is no mistake. -/
def jscan : JLex → List Char → List Char → Option (JLex × List Char)
  | st, opened, [] => some (st, opened)
  | st, opened, c :: cs => (jstep st opened c).bind fun r => jscan r.1 r.2 cs

/-- All strings and comments of a Java text end, all escapes are allowed, and every bracket is closed by its counterpart. -/
def JavaLexes (text : String) : Prop := jscan .code [] text.toList = some (.code, [])

/-! ### Which texts of a source go into Java text unharmed -/

/-- A text that can stand in Java outside and inside of strings. -/
def PlainText (t : String) : Prop := ∀ c ∈ t.toList, c ∉ ['{', '}', '(', ')', '[', ']', '"', '\'', '/', '\\', '\n', '\r']

/-- A text that can stand in a string as it is. -/
def RawText (t : String) : Prop := ∀ c ∈ t.toList, c ∉ ['"', '\\', '\n', '\r']

/-- A text whose unprintable characters have an escape in Java. -/
def QuotableText (t : String) : Prop := ∀ c ∈ t.toList, 32 ≤ c.toNat ∧ c.toNat ≠ 127 ∨ c ∈ ['\n', '\r', '\t', '\x08', '\x0c']

/-- A text that can be written in comments. -/
def CommentText (t : String) : Prop := '\r' ∉ t.toList

/-- The type is the given one or one inside it. -/
inductive SpecWithin (sub : TypeSpec) : TypeSpec → Prop
  | here : SpecWithin sub sub
  | field {ts f} : f ∈ ts.fields → SpecWithin sub f.ts → SpecWithin sub ts
  | variant {ts v} : v ∈ ts.variants → SpecWithin sub v.ts → SpecWithin sub ts

/-- The names and texts of one type. -/
structure PlainPart (ts : TypeSpec) : Prop where
  type : PlainText ts.type
  items : PlainText ts.items
  keys : PlainText ts.keys
  value : PlainText ts.value
  unit : PlainText ts.unit
  pattern : QuotableText ts.pattern
  fields : ∀ f ∈ ts.fields, PlainText f.name ∧ CommentText f.comment
  variants : ∀ v ∈ ts.variants, PlainText v.name ∧ CommentText v.comment
  elements : ∀ el ∈ ts.elements, PlainText el.symbol ∧ CommentText el.comment ∧ ∀ v, mget el.annotations "x_enumValue" = some v → RawText v

/-- The names and texts of a type at any depth. -/
def PlainSpec (ts : TypeSpec) : Prop := ∀ sub, SpecWithin sub ts → PlainPart sub

/-- The names and texts of an input or output. -/
structure PlainParam (p : HttpParamSpec) : Prop where
  name : PlainText p.field.name
  comment : CommentText p.field.comment
  type : PlainSpec p.field.ts
  query : RawText p.query
  header : RawText p.header
  default : ∀ t, p.field.default = .strPtr t → QuotableText t

/-- The names and texts of an action. -/
structure PlainAction (h : HttpDef) : Prop where
  name : PlainText h.name
  method : PlainText h.method
  path : RawText h.path
  inputs : ∀ p ∈ h.inputs, PlainParam p
  outputs : ∀ e, h.expected = some e → ∀ p ∈ e.outputs, PlainParam p
  exceptions : ∀ x ∈ h.exceptions, PlainText x.type

/-- The names and texts of a source. -/
structure PlainSource (s : Schema) : Prop where
  name : PlainText s.name
  base : RawText s.base
  types : ∀ td ∈ s.types, PlainText td.name ∧ CommentText td.comment ∧ PlainSpec td.ts
  actions : ∀ h ∈ s.http, PlainAction h

/-- The names and texts of the settings. -/
structure PlainConf (conf : JavaConf) : Prop where
  name : PlainText conf.name
  modelPackage : PlainText conf.modelPackage
  serverPackage : PlainText conf.serverPackage
  clientPackage : PlainText conf.clientPackage
  pkg : PlainText conf.pkg
  header : JavaLexes conf.header
  numbers : ∀ d, PlainText (conf.decText d) ∧ QuotableText (conf.decText d)

end Sadl.Spec
