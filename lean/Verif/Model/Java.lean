import Verif.Model.Unparser
import Verif.Model.Model
/-
java/export_java.go: the generation of Java classes from types.

The generator writes text into a buffer.  The model keeps what it writes as data, `JavaClass` and the like, with a function
`text` that gives the exact text; the field `imports` of the generator and its flags `NeedUtil`, `NeedInstant` and
`NeedTimestamp`, which are only ever added to, are a list of notes taken along the way.
-/
namespace Sadl

/-- A Java type, as `TypeName` writes it. -/
inductive JTy where
  | name (n : String)
  | list (t : JTy)
  | map (k t : JTy)
  deriving Repr, DecidableEq

/-- The text of a type (java/export_java.go:652-798). -/
def JTy.text : JTy → String
  | .name n => n
  | .list t => "List<" ++ t.text ++ ">"
  | .map k t => "Map<" ++ k.text ++ "," ++ t.text ++ ">"

/-- The annotations that `TypeName` attaches to a member. -/
inductive JAnno where
  | notNull
  | pattern (re : String)
  | size (min max : Option Int)
  | min (d : String)
  | max (d : String)
  | decimalMin (d : String)
  | decimalMax (d : String)
  | serialize
  | deserialize
  deriving Repr, DecidableEq

/-- java/export_java.go:660, 675-692, 699-702, 710-713, 722, 775-787. -/
def JAnno.text : JAnno → String
  | .notNull => "@NotNull"
  | .pattern re => "@Pattern(regexp=\"" ++ goQuote re ++ "\")"
  | .size lo hi =>
    let smin := match lo with
      | some n => "min=" ++ toString n
      | none => ""
    let smax := match hi with
      | some n => if smin ≠ "" then ", max=" ++ toString n else "max=" ++ toString n
      | none => ""
    "@Size(" ++ smin ++ smax ++ ")"
  | .min d => "@Min(" ++ d ++ ")"
  | .max d => "@Max(" ++ d ++ ")"
  | .decimalMin d => "@DecimalMin(\"" ++ goQuote d ++ "\")"
  | .decimalMax d => "@DecimalMax(\"" ++ goQuote d ++ "\")"
  | .serialize => "@JsonSerialize(using = Util.InstantSerializer.class)"
  | .deserialize => "@JsonDeserialize(using = Util.InstantDeserializer.class)"

/-- What the generator remembers while it writes classes (java/export_java.go:37-40). -/
inductive JNote where
  | pack (path : String)
  | util
  | instant
  | timestamp
  deriving Repr, DecidableEq

/-- java/export_java.go:14-43 `Generator`: the settings that the text depends on.  `decText` is the text of a decimal number
(`(*Decimal).String`); `order` is the order in which the runtime enumerates a map with these keys. -/
structure JavaConf where
  name : String := ""
  domain : String := ""
  pkg : String := ""
  modelPackage : String := ""
  serverPackage : String := ""
  clientPackage : String := ""
  header : String := ""
  lombok : Bool := false
  immutable : Bool := true
  instants : Bool := true
  pretty : Bool := false
  serviceException : Bool := false
  decText : BigFloat → String := fun _ => ""
  order : List String → List String := id

/-- A Go stack overflow: it ends the program, and cannot be recovered from. -/
def stackOverflow : String := "stack overflow"
/-- The panic of a nil pointer. -/
def nilDeref : String := "invalid memory address or nil pointer dereference"

/-- java/export_java.go:804-823 `primitiveType`. -/
def javaPrimitive (name : String) : Option String :=
  if name = "Bool" then some "boolean"
  else if name = "Int8" then some "byte"
  else if name = "Int16" then some "short"
  else if name = "Int32" then some "int"
  else if name = "Int64" then some "long"
  else if name = "Float32" then some "float"
  else if name = "Float64" then some "double"
  else none

/-- The result of `TypeName`: the type, the annotations, the specification of an anonymous struct, and the notes. -/
structure JType where
  type : JTy
  annos : List JAnno := []
  anon : Option TypeSpec := none
  notes : List JNote := []

/-- java/export_java.go:671-695: the annotations of a string. -/
def javaStringAnnos (ts : TypeSpec) : List JAnno :=
  (if ts.pattern ≠ "" then [.pattern ts.pattern] else []) ++
  (if ts.minSize.isSome ∨ ts.maxSize.isSome then [.size ts.minSize ts.maxSize] else [])

/-- java/export_java.go:673-680: the imports of a string. -/
def javaStringNotes (ts : TypeSpec) : List JNote :=
  (if ts.pattern ≠ "" then [.pack "javax.validation.constraints.Pattern"] else []) ++
  (if ts.minSize.isSome ∨ ts.maxSize.isSome then [.pack "javax.validation.constraints.Size"] else [])

/-- java/export_java.go:697-704: the annotations of a number. -/
def javaNumberAnnos (conf : JavaConf) (ts : TypeSpec) : List JAnno :=
  (ts.min.toList.map fun d => .min (conf.decText d)) ++ (ts.max.toList.map fun d => .max (conf.decText d))

/-- java/export_java.go:708-715, 774-779: the annotations of a decimal number. -/
def javaDecimalAnnos (conf : JavaConf) (ts : TypeSpec) : List JAnno :=
  (ts.min.toList.map fun d => .decimalMin (conf.decText d)) ++ (ts.max.toList.map fun d => .decimalMax (conf.decText d))

/-- java/export_java.go:719-724, 783-789: the notes for an instant. -/
def javaInstantNotes : List JNote :=
  [.pack "java.time.Instant", .pack "com.fasterxml.jackson.databind.annotation.JsonSerialize",
   .pack "com.fasterxml.jackson.databind.annotation.JsonDeserialize", .util, .instant]

/-- The notes taken before a result. -/
def JType.noted (notes : List JNote) (r : JType) : JType := { r with notes := notes ++ r.notes }

/-- java/export_java.go:652-798 `TypeName`, with `rec` for its recursive calls. -/
def javaTypeStep (m : Model) (conf : JavaConf) (rec : Option TypeSpec → String → Bool → Out JType)
    (ts : Option TypeSpec) (name0 : String) (required : Bool) : Out JType :=
  if required = true ∧ (javaPrimitive name0).isSome then .ok { type := .name ((javaPrimitive name0).getD "") }
  else
    let annos : List JAnno := if required then [.notNull] else []
    let notes : List JNote := if required then [.pack "javax.validation.constraints.NotNull"] else []
    let name := match javaPrimitive name0 with
      | some p => if p = "int" then "Integer" else capitalize p
      | none => name0
    if name = "String" then
      .ok { type := .name "String", annos := annos ++ (ts.map javaStringAnnos).getD [],
            notes := notes ++ (ts.map javaStringNotes).getD [] }
    else if name ∈ ["Byte", "Short", "Integer", "Long", "Float", "Double"] then
      .ok { type := .name name, annos := annos ++ (ts.map (javaNumberAnnos conf)).getD [], notes := notes }
    else if name = "Decimal" then
      .ok { type := .name "BigDecimal", annos := annos ++ (ts.map (javaDecimalAnnos conf)).getD [],
            notes := notes ++ [.pack "java.math.BigDecimal"] }
    else if name = "Timestamp" then
      if conf.instants then
        .ok { type := .name "Instant", annos := annos ++ [.serialize], notes := notes ++ javaInstantNotes }
      else .ok { type := .name "Timestamp", annos := annos, notes := notes ++ [.timestamp] }
    else if name = "Array" then
      let notes := notes ++ [.pack "java.util.List"]
      match ts with
      | none => .ok { type := .name "List", annos := annos, notes := notes }
      | some ts =>
        match m.findType ts.items with
        | none => .panic nilDeref
        | some td => (rec (some td.ts) ts.items false).bind fun i =>
          .ok { type := .list i.type, annos := annos, notes := notes ++ i.notes }
    else if name = "Map" then
      let notes := notes ++ [.pack "java.util.Map"]
      match ts with
      | none => .ok { type := .name "Map", annos := annos, notes := notes }
      | some ts =>
        match m.findType ts.keys with
        | none => .panic nilDeref
        | some ktd => (rec (some ktd.ts) ts.keys false).bind fun k =>
          match m.findType ts.items with
          | none => .panic nilDeref
          | some itd => (rec (some itd.ts) ts.items false).bind fun i =>
            .ok { type := .map k.type i.type, annos := annos, notes := notes ++ k.notes ++ i.notes }
    else if name = "UUID" then
      .ok { type := .name "UUID", annos := annos, notes := notes ++ [.pack "java.util.UUID"] }
    else if name = "Any" then .ok { type := .name "Object", annos := annos, notes := notes }
    else
      match m.findType name with
      | none => .ok { type := .name name, annos := annos, notes := notes }
      | some td =>
        if td.ts.type ∈ ["Int8", "Int16", "Int32", "Int64", "Float32", "Float64", "Boolean", "String"] then
          (rec (some td.ts) td.ts.type required).bind fun r => .ok (r.noted notes)
        else if td.ts.type = "Array" ∨ td.ts.type = "Map" then
          (rec (some td.ts) td.ts.type false).bind fun r => .ok (r.noted notes)
        else if td.ts.type = "Struct" ∧ name = "Struct" then
          .ok { type := .name name, annos := annos, anon := ts, notes := notes }
        else if td.ts.type = "UUID" then
          .ok { type := .name "UUID", annos := annos, notes := notes ++ [.pack "java.util.UUID"] }
        else if td.ts.type = "Decimal" then
          .ok { type := .name "BigDecimal", annos := annos ++ javaDecimalAnnos conf td.ts,
                notes := notes ++ [.pack "java.math.BigDecimal"] }
        else if td.ts.type = "Timestamp" then
          if conf.instants then
            .ok { type := .name "Instant", annos := annos ++ [.deserialize, .serialize], notes := notes ++ javaInstantNotes }
          else .ok { type := .name "Timestamp", annos := annos, notes := notes ++ [.timestamp] }
        else .ok { type := .name name, annos := annos, notes := notes }

/-- java/export_java.go:652-798 `TypeName`.  The first argument bounds the depth of the recursion; beyond it the stack
overflows. -/
def javaTypeN (m : Model) (conf : JavaConf) : Nat → Option TypeSpec → String → Bool → Out JType
  | 0 => fun _ _ _ => .panic stackOverflow
  | k + 1 => javaTypeStep m conf (javaTypeN m conf k)

/-- java/export_java.go:652-798 `TypeName`.  A recursion deeper than this goes on for ever (`javaTypeN_fuel`), and ends with
an overflow of the stack. -/
def javaType (m : Model) (conf : JavaConf) (ts : Option TypeSpec) (name : String) (required : Bool) : Out JType :=
  javaTypeN m conf (2 * m.schema.types.length + 4) ts name required

/-- A member of a class.  `decl` is the type of the member (java/export_java.go:304-322); `used` is its type elsewhere, in the
constructor, the getter and the builder (java/export_java.go:356, 367, 384, 397). -/
structure JField where
  name : String
  comment : String := ""
  required : Bool := false
  stamp : Bool := false
  decl : JTy
  used : JTy
  annos : List JAnno := []
  deriving Repr, DecidableEq

/-- A class generated from a struct (java/export_java.go:235-351). -/
inductive JavaClass where
  | mk (name : String) (fields : List JField) (throwable lombok : Bool) (nested : List JavaClass)

def JavaClass.name : JavaClass → String | .mk n _ _ _ _ => n
def JavaClass.fields : JavaClass → List JField | .mk _ fs _ _ _ => fs
def JavaClass.throwable : JavaClass → Bool | .mk _ _ t _ _ => t
def JavaClass.lombok : JavaClass → Bool | .mk _ _ _ l _ => l
def JavaClass.nested : JavaClass → List JavaClass | .mk _ _ _ _ ns => ns

/-- generator.go:102-104 `Capitalize`: it does not bear the empty string. -/
def javaCapitalize (s : String) : Out String :=
  if s = "" then .panic "slice bounds out of range" else .ok (capitalize s)

/-- A member of a class, and whether it is of an anonymous struct type. -/
structure JMember where
  field : JField
  anon : Bool
  notes : List JNote

/-- java/export_java.go:293-323: a member of a class. -/
def javaMember (m : Model) (conf : JavaConf) (className : String) (f : StructFieldDef) : Out JMember :=
  if f.name = "package" then .panic ("bad field name, clashes with a keyword: " ++ f.name)
  else
    (javaType m conf (some f.ts) f.ts.type f.required).bind fun t =>
    let field : JField :=
      { name := f.name, comment := f.comment, required := f.required, stamp := f.ts.type = "Timestamp",
        decl := t.type, used := t.type, annos := t.annos }
    if t.anon.isSome then
      (javaCapitalize f.name).bind fun tn =>
      if tn = className then
        .err ("Cannot have identically named inner class with same name as containing class: " ++ tn)
      else .ok { field := { field with decl := .name tn }, anon := true, notes := t.notes }
    else .ok { field := field, anon := false, notes := t.notes }

/-- java/export_java.go:293-323: the members of a class. -/
def javaMembers (m : Model) (conf : JavaConf) (className : String) : List StructFieldDef → Out (List JMember)
  | [] => .ok []
  | f :: fs =>
    (javaMember m conf className f).bind fun x =>
    (javaMembers m conf className fs).bind fun xs => .ok (x :: xs)

/-- java/export_java.go:344-348: the classes written one after another.  An error does not keep the others from being looked
at, but a panic ends everything.  (If one overflows the stack and another panics, either may come first.) -/
def javaAll {α : Type} : List (Out α) → Out (List α)
  | [] => .ok []
  | x :: xs =>
    match x, javaAll xs with
    | .panic e, _ => .panic e
    | _, .panic e => .panic e
    | .err e, _ => .err e
    | _, .err e => .err e
    | .ok a, .ok as => .ok (a :: as)

/-- java/export_java.go:311, 345: the classes for the anonymous structs, by name; of two with the same name the later one is kept,
and they come in the order of the map. -/
def javaNested (conf : JavaConf) (ms : List JMember) (inner : List (Out (JavaClass × List JNote))) :
    List (Out (JavaClass × List JNote)) :=
  let idx : GoMap (Out (JavaClass × List JNote)) :=
    ((ms.zip inner).filter (·.1.anon)).foldl (fun idx x => mset idx (capitalize x.1.field.name) x.2) []
  (conf.order (idx.map Prod.fst)).filterMap (mget idx)

/-- java/export_java.go:246-286: the imports of a class. -/
def javaClassNotes (conf : JavaConf) (fields : List StructFieldDef) (throwable lombok top : Bool) : List JNote :=
  (if fields.any (fun f => !f.required) then [.pack "com.fasterxml.jackson.annotation.JsonInclude"]
   else [.pack "javax.validation.constraints.NotNull"]) ++
  (if conf.immutable then
    [.pack "com.fasterxml.jackson.databind.annotation.JsonDeserialize",
     .pack "com.fasterxml.jackson.databind.annotation.JsonPOJOBuilder"] else []) ++
  (if throwable then [.pack "com.fasterxml.jackson.annotation.JsonIgnoreProperties"] else []) ++
  (if top ∧ lombok then
    [.pack "lombok.Data"] ++ (if fields ≠ [] then [.pack "lombok.AllArgsConstructor"] else []) ++
    [.pack "lombok.Builder", .pack "lombok.NoArgsConstructor"] else [])

/-- java/export_java.go:235-351 `CreateStructPojo`, given the classes that the fields would have if they are anonymous structs. -/
def javaClassOf (m : Model) (conf : JavaConf) (exceptions : List String) (top : Bool) (className : String)
    (fields : List StructFieldDef) (inner : List (Out (JavaClass × List JNote))) : Out (JavaClass × List JNote) :=
  let throwable : Bool := className ∈ exceptions
  let lombok : Bool := !throwable && conf.lombok
  (javaMembers m conf className fields).bind fun ms =>
  let notes := javaClassNotes conf fields throwable lombok top ++ ms.flatMap (·.notes)
  let fs := ms.map (·.field)
  if lombok then .ok (.mk className fs throwable lombok [], notes)
  -- lines 366-371, 373-414: a getter needs a name
  else if conf.immutable ∧ fields.any (·.name = "") then .panic "slice bounds out of range"
  else
    (javaAll (javaNested conf ms inner)).bind fun ns =>
    .ok (.mk className fs throwable lombok (ns.map Prod.fst),
      notes ++ (if conf.pretty then [.util] else []) ++ ns.flatMap Prod.snd)

mutual
/-- java/export_java.go:344-348: the class for an anonymous struct. -/
def javaInner (m : Model) (conf : JavaConf) (className : String) : TypeSpec → Out (JavaClass × List JNote)
  | .mk _ _ _ _ _ fields _ _ _ _ _ _ _ _ _ => javaClassOf m conf [] false className fields (javaInners m conf fields)
/-- The classes that the fields would have if they are anonymous structs. -/
def javaInners (m : Model) (conf : JavaConf) : List StructFieldDef → List (Out (JavaClass × List JNote))
  | [] => []
  | .mk name _ _ _ _ ts :: fs => javaInner m conf (capitalize name) ts :: javaInners m conf fs
end

/-- java/export_java.go:235-351 `CreateStructPojo` for a class that is not inside another. -/
def javaStruct (m : Model) (conf : JavaConf) (exceptions : List String) (className : String) (fields : List StructFieldDef) :
    Out (JavaClass × List JNote) :=
  javaClassOf m conf exceptions true className fields (javaInners m conf fields)

end Sadl
