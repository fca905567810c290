import Verif.Model.GraphQLDoc
import Mathlib.Data.List.Forall2
/-
The grammar of GraphQL type definitions (June 2018 specification, section 3), as far as type,
enum, union and scalar definitions without arguments, directives and descriptions are concerned,
and the rules a document of such definitions has to respect.
-/
namespace Sadl.Spec
open GraphQL

/-- The tokens of GraphQL used in type definitions. -/
inductive GTok where
  | name (s : String)
  | punct (c : Char)
  | other (c : Char)
  deriving Repr, DecidableEq

def gNameStart (c : Char) : Bool := ('a' ≤ c && c ≤ 'z') || ('A' ≤ c && c ≤ 'Z') || c = '_'
def gNameCont (c : Char) : Bool := gNameStart c || ('0' ≤ c && c ≤ '9')
def gIgnored (c : Char) : Bool := c = ' ' || c = '\t' || c = '\n' || c = '\r' || c = ','
def gPunct (c : Char) : Bool := c = '{' || c = '}' || c = ':' || c = '!' || c = '[' || c = ']' || c = '=' || c = '|'

/-- Where the scanner is. -/
inductive GScan where
  | start
  | name (soFar : List Char)
  | comment

/-- One character where a token may begin. -/
def gStep (c : Char) : List GTok × GScan :=
  if gIgnored c then ([], .start)
  else if gNameStart c then ([], .name [c])
  else if c = '#' then ([], .comment)
  else if gPunct c then ([.punct c], .start)
  else ([.other c], .start)

/-- The tokens of a text: names, punctuators; blanks, commas and comments up to the end of the
line are skipped. -/
def gLex : GScan → List Char → List GTok
  | .name acc, [] => [.name (String.ofList acc)]
  | _, [] => []
  | .start, c :: r => (gStep c).1 ++ gLex (gStep c).2 r
  | .comment, c :: r => if c = '\n' ∨ c = '\r' then gLex .start r else gLex .comment r
  | .name acc, c :: r =>
    if gNameCont c then gLex (.name (acc ++ [c])) r
    else .name (String.ofList acc) :: ((gStep c).1 ++ gLex (gStep c).2 r)

/-- A mark of a type that may not be null. -/
def gBang (t : GTyp) : List GTok → GTyp × List GTok
  | .punct c :: r => if c = '!' then (.nonNull t, r) else (t, .punct c :: r)
  | r => (t, r)

/-- A type: `Name`, `[Type]`, either with `!`. -/
def gReadType : Nat → List GTok → Option (GTyp × List GTok)
  | 0, _ => none
  | _ + 1, .name n :: r => some (gBang (.named n) r)
  | k + 1, .punct c :: r =>
    if c = '[' then
      match gReadType k r with
      | some (t, .punct d :: r) => if d = ']' then some (gBang (.list t) r) else none
      | _ => none
    else none
  | _ + 1, _ => none

/-- The fields of a type, at least one, up to the closing brace. -/
def gReadFields : Nat → List GTok → Option (List GFieldDef × List GTok)
  | 0, _ => none
  | k + 1, .name n :: .punct c :: r =>
    if c = ':' then
      match gReadType (k + 1) r with
      | some (t, .punct d :: r') =>
        if d = '}' then some ([{ name := n, type := t }], r')
        else none
      | some (t, r') =>
        match gReadFields k r' with
        | some (fs, r'') => some ({ name := n, type := t } :: fs, r'')
        | none => none
      | none => none
    else none
  | _ + 1, _ => none

/-- The values of an enumeration, at least one, up to the closing brace. -/
def gReadValues : List GTok → Option (List GValueDef × List GTok)
  | .name n :: .punct c :: r => if c = '}' then some ([{ name := n }], r) else none
  | .name n :: r =>
    match gReadValues r with
    | some (vs, r) => some ({ name := n } :: vs, r)
    | none => none
  | _ => none

/-- The members of a union after the first. -/
def gReadMembers : List GTok → Option (List String × List GTok)
  | .punct c :: .name n :: r =>
    if c = '|' then
      match gReadMembers r with
      | some (ns, r) => some (n :: ns, r)
      | none => none
    else none
  | .punct _ :: _ => none
  | r => some ([], r)

/-- One definition. -/
def gReadDef (toks : List GTok) : Option (GDef × List GTok) :=
  match toks with
  | .name k :: .name n :: r =>
    if k = "scalar" then some (.scalar n, r)
    else match r with
      | .punct c :: r =>
        if k = "type" ∧ c = '{' then
          match gReadFields r.length r with
          | some (fs, r) => some (.object n none fs, r)
          | none => none
        else if k = "enum" ∧ c = '{' then
          match gReadValues r with
          | some (vs, r) => some (.enum n none vs, r)
          | none => none
        else if k = "union" ∧ c = '=' then
          match (match r with
            | .punct d :: r => if d = '|' then r else .punct d :: r
            | r => r) with
          | .name t :: r =>
            match gReadMembers r with
            | some (ts, r) => some (.union n none (t :: ts), r)
            | none => none
          | _ => none
        else none
      | _ => none
  | _ => none

/-- A document: definitions up to the end of the text. -/
def gReadDefs : Nat → List GTok → Option (List GDef)
  | _, [] => some []
  | 0, _ => none
  | k + 1, toks =>
    match gReadDef toks with
    | some (d, r) =>
      match gReadDefs k r with
      | some ds => some (d :: ds)
      | none => none
    | none => none

/-- The document written as a text, if it is one. -/
def gqlRead (text : String) : Option (List GDef) :=
  let toks := gLex .start text.toList
  gReadDefs toks.length toks

/-! ### What makes a document valid -/

/-- The scalars every GraphQL schema has. -/
def gqlBuiltin : List String := ["Int", "Float", "String", "Boolean", "ID"]

/-- The name a definition defines. -/
def GDefName : GDef → Option String
  | .object n _ _ | .enum n _ _ | .union n _ _ | .interface n | .inputObject n | .scalar n => some n
  | .schema _ | .other _ => none

/-- The named type a type is built from. -/
def GTyp.base : GTyp → String
  | .named n => n
  | .list t => GTyp.base t
  | .nonNull t => GTyp.base t

/-- A document of type definitions respects the rules of GraphQL: no name is defined twice or
redefines a built-in scalar; types have fields, with distinct names, whose types are defined;
enumerations have values, with distinct names, none of them `true`, `false` or `null`; unions have
members, all different, and all of them object types. -/
structure GqlValid (doc : List GDef) : Prop where
  distinct : (gqlBuiltin ++ doc.filterMap GDefName).Nodup
  fields : ∀ n d fs, GDef.object n d fs ∈ doc → fs ≠ [] ∧ (fs.map GFieldDef.name).Nodup ∧
    ∀ f ∈ fs, GTyp.base f.type ∈ gqlBuiltin ++ doc.filterMap GDefName
  values : ∀ n d vs, GDef.enum n d vs ∈ doc → vs ≠ [] ∧ (vs.map GValueDef.name).Nodup ∧
    ∀ v ∈ vs, v.name ∉ ["true", "false", "null"]
  members : ∀ n d ts, GDef.union n d ts ∈ doc → ts ≠ [] ∧ ts.Nodup ∧
    ∀ t ∈ ts, ∃ d' fs, GDef.object t d' fs ∈ doc

/-! ### The same, said of the SADL schema -/

/-- The base types GraphQL has a scalar for, or is given one. -/
def gqlScalarTypes : List String :=
  ["Bool", "String", "UUID", "Timestamp", "Int8", "Int16", "Int32", "Int64", "Float32", "Float64", "Decimal"]

/-- The type becomes a GraphQL definition. -/
def Emitted (s : Schema) (n : String) : Prop :=
  ∃ td ∈ s.types, td.name = n ∧ td.ts.type ∈ ["Enum", "Struct", "Union"]

/-- A scalar declared because some field of a struct, or the type it names, is a `UUID`,
`Timestamp`, `Int64` or `Decimal`, and the settings give a name for it. -/
def CustomScalar (s : Schema) (custom : String → String) (n : String) : Prop :=
  n ≠ "" ∧ ∃ td ∈ s.types, td.ts.type = "Struct" ∧ ∃ f ∈ td.ts.fields,
    ∃ b ∈ ["UUID", "Timestamp", "Int64", "Decimal"], custom b = n ∧
      (f.ts.type = b ∨ ∃ td' ∈ s.types, td'.name = f.ts.type ∧ td'.ts.type = b)

/-- A name that means something in the exported document. -/
def GqlName (s : Schema) (custom : String → String) (n : String) : Prop :=
  n ∈ gqlBuiltin ∨ Emitted s n ∨ CustomScalar s custom n

/-- The type of a field can be written in GraphQL: a scalar or a name for one, an array whose
items' name means something there, or a name that does. -/
def FieldSayable (s : Schema) (custom : String → String) (ts : TypeSpec) : Prop :=
  ts.type ∈ gqlScalarTypes ∨
  (∃ td ∈ s.types, td.name = ts.type ∧ td.ts.type ∈ gqlScalarTypes) ∨
  (ts.type = "Array" ∧ GqlName s custom ts.items) ∨
  (∃ td ∈ s.types, td.name = ts.type ∧ td.ts.type = "Array" ∧ GqlName s custom td.ts.items) ∨
  (ts.type ≠ "Array" ∧ (¬ ∃ td ∈ s.types, td.name = ts.type ∧ td.ts.type = "Array") ∧ GqlName s custom ts.type)

/-- The schema can be said in GraphQL. -/
structure GqlSayable (s : Schema) (custom : String → String) : Prop where
  names : ∀ n, Emitted s n → n ∉ gqlBuiltin
  scalars : ∀ n, CustomScalar s custom n → n ∉ gqlBuiltin ∧ ¬ Emitted s n
  fields : ∀ td ∈ s.types, td.ts.type = "Struct" → (td.ts.fields.map StructFieldDef.name).Nodup ∧
    ∀ f ∈ td.ts.fields, FieldSayable s custom f.ts
  values : ∀ td ∈ s.types, td.ts.type = "Enum" → (td.ts.elements.map EnumElementDef.symbol).Nodup ∧
    ∀ e ∈ td.ts.elements, e.symbol ∉ ["true", "false", "null"]
  members : ∀ td ∈ s.types, td.ts.type = "Union" →
    (td.ts.variants.map fun v => v.ts.type).Nodup ∧
    ∀ v ∈ td.ts.variants, ∃ td' ∈ s.types, td'.name = v.ts.type ∧ td'.ts.type = "Struct"

/-- A name in GraphQL. -/
def IsGName (n : String) : Prop :=
  ∃ c r, n.toList = c :: r ∧ gNameStart c = true ∧ ∀ d ∈ r, gNameCont d = true

/-- Nothing in the schema breaks the text of the exported document: names are names, comments of
fields are single lines, and structs, enumerations and unions are not empty. -/
structure GqlWritable (s : Schema) (custom : String → String) : Prop where
  names : ∀ td ∈ s.types, IsGName td.name
  fields : ∀ td ∈ s.types, td.ts.type = "Struct" → td.ts.fields ≠ [] ∧ ∀ f ∈ td.ts.fields,
    IsGName f.name ∧ (∀ c ∈ f.comment.toList, c ≠ '\n' ∧ c ≠ '\r') ∧ IsGName f.ts.type ∧
    (f.ts.type = "Array" → IsGName f.ts.items)
  items : ∀ td ∈ s.types, td.ts.type = "Array" → IsGName td.ts.items
  elements : ∀ td ∈ s.types, td.ts.type = "Enum" → td.ts.elements ≠ [] ∧ ∀ e ∈ td.ts.elements, IsGName e.symbol
  variants : ∀ td ∈ s.types, td.ts.type = "Union" → td.ts.variants ≠ [] ∧ ∀ v ∈ td.ts.variants, IsGName v.ts.type
  scalars : ∀ b ∈ ["UUID", "Timestamp", "Int64", "Decimal"], custom b = "" ∨ IsGName (custom b)

/-! ### Importing -/

/-- The definitions an import keeps: enumerations, unions, and the object types that no `schema`
definition before them names as a root. -/
def gqlKept (roots : List String) : List GDef → List GDef
  | [] => []
  | .object n d fs :: r => if n ∈ roots then gqlKept roots r else .object n d fs :: gqlKept roots r
  | .enum n d vs :: r => .enum n d vs :: gqlKept roots r
  | .union n d ts :: r => .union n d ts :: gqlKept roots r
  | .schema ts :: r => gqlKept (ts ++ roots) r
  | _ :: r => gqlKept roots r

/-- The type with the given name in GraphQL, in SADL. -/
def sadlName (n : String) : String :=
  ((([("Int", "Int32"), ("Float", "Float64"), ("Boolean", "Bool")] : List (String × String)).lookup n).getD n)

/-- A type that is not a list, or is a list of types that are not lists. -/
inductive OneLevel : GTyp → Prop
  | named {n} : OneLevel (.named n)
  | list {n} : OneLevel (.list (.named n))
  | listNonNull {n} : OneLevel (.list (.nonNull (.named n)))
  | nonNull {n} : OneLevel (.nonNull (.named n))
  | nonNullList {n} : OneLevel (.nonNull (.list (.named n)))
  | nonNullListNonNull {n} : OneLevel (.nonNull (.list (.nonNull (.named n))))

/-- The import can show the type of a field.  (In `[[X]!]!` the inner list is forgotten.) -/
def Showable (t : GTyp) : Prop := OneLevel t ∨ ∃ i, t = .nonNull (.list (.nonNull (.list i)))

/-- The comment is the description, on one line: newlines become spaces.  Without description it is empty. -/
def OneLine (description : Option String) (comment : String) : Prop :=
  List.Forall₂ (fun a b => (a ≠ '\n' ∧ b = a) ∨ (a = '\n' ∧ b = ' ')) (description.getD "").toList comment.toList

/-- A SADL field shows a GraphQL field. -/
structure FieldShows (f : GFieldDef) (fd : StructFieldDef) : Prop where
  name : fd.name = f.name
  required : fd.required = true ↔ ∃ t, f.type = .nonNull t
  named : ∀ n, f.type = .named n ∨ f.type = .nonNull (.named n) → fd.ts = { type := sadlName n }
  list : ∀ n i, f.type = .list i ∨ f.type = .nonNull (.list i) → i = .named n ∨ i = .nonNull (.named n) →
    fd.ts = { type := "Array", items := sadlName n }
  comment : OneLine f.description fd.comment

/-- A SADL element shows a GraphQL value. -/
structure ValueShows (v : GValueDef) (e : EnumElementDef) : Prop where
  symbol : e.symbol = v.name
  comment : OneLine v.description e.comment

/-- A SADL type shows a GraphQL definition. -/
inductive DefShows : GDef → TypeDef → Prop
  | object {n d fs td} : td.name = n → td.ts = { type := "Struct", fields := td.ts.fields } →
      List.Forall₂ FieldShows fs td.ts.fields → OneLine d td.comment → DefShows (.object n d fs) td
  | enum {n d vs td} : td.name = n → td.ts = { type := "Enum", elements := td.ts.elements } →
      List.Forall₂ ValueShows vs td.ts.elements → OneLine d td.comment → DefShows (.enum n d vs) td
  | union {n d ts td} : td.name = n →
      td.ts = { type := "Union", variants := ts.map fun t => { name := t, ts := { type := t } } } → OneLine d td.comment →
      DefShows (.union n d ts) td

/-- Everything in the document is something the importer knows, no list is nested, and the names
of the types are new. -/
structure GqlImportable (doc : List GDef) : Prop where
  known : ∀ k, GDef.other k ∉ doc
  scalars : ∀ n, GDef.scalar n ∈ doc → n = "Timestamp" ∨ n = "UUID"
  names : ((gqlKept [] doc).filterMap GDefName).Nodup
  fresh : ∀ n ∈ (gqlKept [] doc).filterMap GDefName, n ≠ "ID" ∧ n ∉ BaseTypes

/-! ### There and back -/

/-- Comments and annotations left out. -/
def plainField (f : StructFieldDef) : StructFieldDef := { f with comment := "", annotations := [] }
def plainElement (e : EnumElementDef) : EnumElementDef := { e with comment := "", annotations := [] }
def plainVariant (v : UnionVariantDef) : UnionVariantDef := { v with comment := "", annotations := [] }
def plainType (td : TypeDef) : TypeDef :=
  { name := td.name
    ts := { td.ts with fields := td.ts.fields.map plainField, elements := td.ts.elements.map plainElement,
                       variants := td.ts.variants.map plainVariant } }

/-- The type of a field survives: it is a plain name, not of a number type that GraphQL has not
(and, for a `UUID` or a `Timestamp`, declared as a scalar under its own name), or an array. -/
def FieldComesBack (custom : String → String) (f : StructFieldDef) : Prop :=
  f.default = .null ∧
  ((∃ t, f.ts = { type := t } ∧
      t ∉ ["Int8", "Int16", "Int64", "Float32", "Decimal", "Int", "Float", "Boolean"] ∧
      (t ∈ ["UUID", "Timestamp"] → custom t = t)) ∨
   ∃ i, f.ts = { type := "Array", items := i } ∧ i ∉ ["Int", "Float", "Boolean"])

/-- Everything in the schema but comments and annotations survives. -/
structure GqlKeeps (s : Schema) (custom : String → String) : Prop where
  noId : ∀ td ∈ s.types, td.name ≠ "ID"
  scalars : ∀ n, CustomScalar s custom n → n = "Timestamp" ∨ n = "UUID"
  types : ∀ td ∈ s.types,
    (td.ts = { type := "Enum", elements := td.ts.elements }) ∨
    (td.ts = { type := "Struct", fields := td.ts.fields } ∧ ∀ f ∈ td.ts.fields, FieldComesBack custom f) ∨
    (td.ts = { type := "Union", variants := td.ts.variants } ∧ ∀ v ∈ td.ts.variants, v.ts = { type := v.name })

end Sadl.Spec
