import Verif.Spec.Literals
/-
The notation of option lists: `( opt, opt = arg, ... )`.

`OptArg lib L name args o o'`: the option `name` with the argument tokens `args` turns the
options `o` into `o'`; `L` is the notation of literals, used by `default`: `Lit lib`, or
`AnyLit lib` for everything the parser accepts.
`OptItems lib L acc ts o o'`: the tokens `ts` are a sequence of options and commas, where
every option is an annotation (its name begins with `x_`) or has one of the names `acc`,
in any case, with its proper argument.
-/
namespace Sadl.Spec

/-- Tokens between an equals sign and the end of an array of strings. -/
inductive StrItems : List Token → List String → Prop
  | close {x} : StrItems [⟨.closeBracket, x⟩] []
  | sep {t ts vs} : t.type = .comma ∨ t.type = .newline → StrItems ts vs → StrItems (t :: ts) vs
  | item {v ts vs} : StrItems ts vs → StrItems (⟨.string, v⟩ :: ts) (v :: vs)

inductive OptArg (lib : PLib) (L : List Token → Value → Prop) : String → List Token → Options → Options → Prop
  | min {x t d o} : lib.parseDecimal t = some d → OptArg lib L "min" [⟨.equals, x⟩, ⟨.number, t⟩] o { o with min := some d }
  | max {x t d o} : lib.parseDecimal t = some d → OptArg lib L "max" [⟨.equals, x⟩, ⟨.number, t⟩] o { o with max := some d }
  | minsize {x t n o} : parseInt 64 t = some n → OptArg lib L "minsize" [⟨.equals, x⟩, ⟨.number, t⟩] o { o with minSize := some n }
  | maxsize {x t n o} : parseInt 64 t = some n → OptArg lib L "maxsize" [⟨.equals, x⟩, ⟨.number, t⟩] o { o with maxSize := some n }
  | pattern {x t o} : OptArg lib L "pattern" [⟨.equals, x⟩, ⟨.string, t⟩] o { o with pattern := t }
  | values {x y ts vs o} : StrItems ts vs →
      OptArg lib L "values" (⟨.equals, x⟩ :: ⟨.openBracket, y⟩ :: ts) o { o with values := if vs = [] then none else some vs }
  | required {o} : OptArg lib L "required" [] o { o with required := true }
  | default {x ts v o} : L ts v → OptArg lib L "default" (⟨.equals, x⟩ :: ts) o { o with default := v }
  | action {x t o} : OptArg lib L "action" [⟨.equals, x⟩, ⟨.symbol, t⟩] o { o with action := t }
  | operation {x t o} : OptArg lib L "operation" [⟨.equals, x⟩, ⟨.symbol, t⟩] o { o with action := t }
  | resource {x t o} : OptArg lib L "resource" [⟨.equals, x⟩, ⟨.symbol, t⟩] o { o with resource := t }
  | reference {x t o} : OptArg lib L "reference" [⟨.equals, x⟩, ⟨.symbol, t⟩] o { o with reference := t }
  | header {x t o} : OptArg lib L "header" [⟨.equals, x⟩, ⟨.string, t⟩] o { o with header := t }
  | name {x t o} : OptArg lib L "name" [⟨.equals, x⟩, ⟨.symbol, t⟩] o { o with name := t }

inductive OptItems (lib : PLib) (L : List Token → Value → Prop) (acc : List String) :
    List Token → Options → Options → Prop
  | nil {o} : OptItems lib L acc [] o o
  | comma {x ts o o'} : OptItems lib L acc ts o o' → OptItems lib L acc (⟨.comma, x⟩ :: ts) o o'
  /-- an annotation without value (no sequence of options begins with an equals sign) -/
  | flag {name ts o o'} : hasPrefix (lowerS name) "x_" = true →
      OptItems lib L acc ts { o with annotations := mset o.annotations name "" } o' →
      OptItems lib L acc (⟨.symbol, name⟩ :: ts) o o'
  /-- an annotation with a value -/
  | anno {name x v ts o o'} : hasPrefix (lowerS name) "x_" = true →
      OptItems lib L acc ts { o with annotations := mset o.annotations name v } o' →
      OptItems lib L acc (⟨.symbol, name⟩ :: ⟨.equals, x⟩ :: ⟨.string, v⟩ :: ts) o o'
  | opt {name args ts o o1 o'} : hasPrefix (lowerS name) "x_" = false → lowerS name ∈ acc →
      OptArg lib L (lowerS name) args o o1 → OptItems lib L acc ts o1 o' →
      OptItems lib L acc (⟨.symbol, name⟩ :: args ++ ts) o o'

/-- A complete option list: nothing at all, or items in parentheses. -/
def OptList (lib : PLib) (L : List Token → Value → Prop) (acc : List String) (ts : List Token) (o : Options) : Prop :=
  (ts = [] ∧ o = {}) ∨
  ∃ x y items, ts = ⟨.openParen, x⟩ :: items ++ [⟨.closeParen, y⟩] ∧ OptItems lib L acc items {} o

/-- The types whose values are numbers. -/
def numericTypes : List String := ["Int8", "Int16", "Int32", "Int64", "Float32", "Float64", "Decimal"]

/-- The types whose values have a size.  (A String type with the UUID pattern becomes a UUID
type and keeps its sizes and values.) -/
def sizedTypes : List String := ["String", "UUID", "Bytes", "Array", "List", "Map"]

/-- The constraints of a type suit its kind. -/
structure Suits (ts : TypeSpec) : Prop where
  bounds : ts.min ≠ none ∨ ts.max ≠ none → ts.type ∈ numericTypes
  sizes : ts.minSize ≠ none ∨ ts.maxSize ≠ none → ts.type ∈ sizedTypes
  pattern : ts.pattern ≠ "" → ts.type = "String"
  values : ts.values ≠ none → ts.type = "String" ∨ ts.type = "UUID"
  reference : ts.reference ≠ "" → ts.type = "String" ∨ ts.type = "UUID"

/-- The same for the fields, at any depth. -/
inductive SuitsAll : TypeSpec → Prop
  | mk {ts} : Suits ts → (∀ f ∈ ts.fields, SuitsAll f.ts) → SuitsAll ts

end Sadl.Spec
