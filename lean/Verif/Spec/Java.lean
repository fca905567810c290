import Verif.Spec.Valid
import Verif.Model.JavaClass
/-
What the generated Java is to look like.
-/
namespace Sadl.Spec
open Sadl

/-- The Java types of the numbers and booleans: the primitive type, and the type of an object that holds one. -/
inductive JavaPrimitive : String → String → String → Prop
  | bool : JavaPrimitive "Bool" "boolean" "Boolean"
  | int8 : JavaPrimitive "Int8" "byte" "Byte"
  | int16 : JavaPrimitive "Int16" "short" "Short"
  | int32 : JavaPrimitive "Int32" "int" "Integer"
  | int64 : JavaPrimitive "Int64" "long" "Long"
  | float32 : JavaPrimitive "Float32" "float" "Float"
  | float64 : JavaPrimitive "Float64" "double" "Double"

/-- The names of Java's own classes for numbers and booleans, which the generator does not expect as names of types. -/
def JavaBoxes : List String := ["Boolean", "Byte", "Short", "Integer", "Long", "Float", "Double"]

/-- No type is called like one of Java's classes for numbers and booleans. -/
def NoBoxes (s : Schema) : Prop := ∀ td ∈ s.types, td.name ∉ JavaBoxes

/-- The Java classes of other built-in types.  `instants` is the setting of that name. -/
inductive JavaBuiltin (instants : Bool) : String → String → Prop
  | string : JavaBuiltin instants "String" "String"
  | decimal : JavaBuiltin instants "Decimal" "BigDecimal"
  | uuid : JavaBuiltin instants "UUID" "UUID"
  | any : JavaBuiltin instants "Any" "Object"
  | instant : instants = true → JavaBuiltin instants "Timestamp" "Instant"
  | timestamp : instants = false → JavaBuiltin instants "Timestamp" "Timestamp"
  /-- There is no such class in Java. -/
  | other {n} : n ∈ ["Bytes", "Struct", "Enum", "Union", "UnitValue"] → JavaBuiltin instants n n

/-- The supertypes for which no class is generated: the Java type is that of the supertype. -/
def JavaTransparent : List String :=
  ["Int8", "Int16", "Int32", "Int64", "Float32", "Float64", "String", "UUID", "Decimal", "Timestamp"]

/-- The Java type of a type, given by its name; `required` says that there must be a value. -/
inductive JavaNamed (s : Schema) (instants : Bool) : String → Bool → JTy → Prop
  | primitive {n p b} : JavaPrimitive n p b → JavaNamed s instants n true (.name p)
  | boxed {n p b} : JavaPrimitive n p b → JavaNamed s instants n false (.name b)
  | builtin {n c r} : JavaBuiltin instants n c → JavaNamed s instants n r (.name c)
  | transparent {td r t} : td ∈ s.types → td.ts.type ∈ JavaTransparent → JavaNamed s instants td.ts.type r t →
      JavaNamed s instants td.name r t
  | array {td r t} : td ∈ s.types → td.ts.type = "Array" → Known s td.ts.items → JavaNamed s instants td.ts.items false t →
      JavaNamed s instants td.name r (.list t)
  | map {td r k t} : td ∈ s.types → td.ts.type = "Map" → Known s td.ts.keys → JavaNamed s instants td.ts.keys false k →
      Known s td.ts.items → JavaNamed s instants td.ts.items false t → JavaNamed s instants td.name r (.map k t)
  | own {td r} : td ∈ s.types → td.ts.type ∉ JavaTransparent → td.ts.type ≠ "Array" → td.ts.type ≠ "Map" →
      JavaNamed s instants td.name r (.name td.name)
  | unknown {n r} : ¬ Known s n → JavaNamed s instants n r (.name n)

/-- The Java type of a field, variant, input or output with the given type. -/
inductive JavaUse (s : Schema) (instants : Bool) (ts : TypeSpec) : Bool → JTy → Prop
  | named {r t} : ts.type ≠ "Array" → ts.type ≠ "Map" → JavaNamed s instants ts.type r t → JavaUse s instants ts r t
  | array {r t} : ts.type = "Array" → Known s ts.items → JavaNamed s instants ts.items false t → JavaUse s instants ts r (.list t)
  | map {r k t} : ts.type = "Map" → Known s ts.keys → JavaNamed s instants ts.keys false k →
      Known s ts.items → JavaNamed s instants ts.items false t → JavaUse s instants ts r (.map k t)

/-! ### Members -/

/-- `@NotNull`, if there must be a value. -/
def JavaRequired (required : Bool) : List JAnno := if required then [.notNull] else []

/-- The bounds of a number; `dec` writes a number. -/
def JavaBounds (dec : BigFloat → String) (ts : TypeSpec) : List JAnno :=
  (match ts.min with | some d => [.min (dec d)] | none => []) ++ (match ts.max with | some d => [.max (dec d)] | none => [])

/-- The bounds of a decimal number. -/
def JavaDecimalBounds (dec : BigFloat → String) (ts : TypeSpec) : List JAnno :=
  (match ts.min with | some d => [.decimalMin (dec d)] | none => []) ++ (match ts.max with | some d => [.decimalMax (dec d)] | none => [])

/-- The pattern and the size of a string. -/
def JavaStringChecks (ts : TypeSpec) : List JAnno :=
  (if ts.pattern = "" then [] else [.pattern ts.pattern]) ++
  (if ts.minSize = none ∧ ts.maxSize = none then [] else [.size ts.minSize ts.maxSize])

/-- The annotations of a member of the given type. -/
inductive JavaAnnos (s : Schema) (instants : Bool) (dec : BigFloat → String) : TypeSpec → Bool → List JAnno → Prop
  /-- A number that is required has none, not even its bounds. -/
  | primitive {ts p b} : JavaPrimitive ts.type p b → JavaAnnos s instants dec ts true []
  | bool {ts} : ts.type = "Bool" → JavaAnnos s instants dec ts false []
  | number {ts p b} : JavaPrimitive ts.type p b → ts.type ≠ "Bool" → JavaAnnos s instants dec ts false (JavaBounds dec ts)
  | string {ts r} : ts.type = "String" → JavaAnnos s instants dec ts r (JavaRequired r ++ JavaStringChecks ts)
  | decimal {ts r} : ts.type = "Decimal" → JavaAnnos s instants dec ts r (JavaRequired r ++ JavaDecimalBounds dec ts)
  | instant {ts r} : ts.type = "Timestamp" → instants = true → JavaAnnos s instants dec ts r (JavaRequired r ++ [.serialize])
  | timestamp {ts r} : ts.type = "Timestamp" → instants = false → JavaAnnos s instants dec ts r (JavaRequired r)
  | plain {ts r} : ts.type ∈ ["UUID", "Any", "Bytes", "Struct", "Enum", "Union", "UnitValue", "Array", "Map"] →
      JavaAnnos s instants dec ts r (JavaRequired r)
  /-- A type for which there is no class has the annotations of its definition. -/
  | transparent {ts td r a} : td ∈ s.types → td.name = ts.type → td.ts.type ∈ JavaTransparent → td.ts.type ≠ "Timestamp" →
      JavaAnnos s instants dec td.ts r a → JavaAnnos s instants dec ts r a
  | namedInstant {ts td r} : td ∈ s.types → td.name = ts.type → td.ts.type = "Timestamp" → instants = true →
      JavaAnnos s instants dec ts r (JavaRequired r ++ [.deserialize, .serialize])
  | namedTimestamp {ts td r} : td ∈ s.types → td.name = ts.type → td.ts.type = "Timestamp" → instants = false →
      JavaAnnos s instants dec ts r (JavaRequired r)
  /-- That a named array or map is required is not said. -/
  | container {ts td r} : td ∈ s.types → td.name = ts.type → td.ts.type = "Array" ∨ td.ts.type = "Map" → JavaAnnos s instants dec ts r []
  | own {ts td r} : td ∈ s.types → td.name = ts.type → td.ts.type ∉ JavaTransparent → td.ts.type ≠ "Array" → td.ts.type ≠ "Map" →
      JavaAnnos s instants dec ts r (JavaRequired r)
  | unknown {ts r} : ¬ Known s ts.type → ts.type ∉ JavaBoxes → JavaAnnos s instants dec ts r (JavaRequired r)
  | unknownBool {ts r} : ¬ Known s ts.type → ts.type = "Boolean" → JavaAnnos s instants dec ts r (JavaRequired r)
  | unknownBox {ts r} : ¬ Known s ts.type → ts.type ∈ JavaBoxes → ts.type ≠ "Boolean" →
      JavaAnnos s instants dec ts r (JavaRequired r ++ JavaBounds dec ts)

/-- The member of a class for a field: a field that is a struct with fields of its own is declared with the class inside
this class that is called after it; elsewhere its type is `Struct`, which does not exist. -/
structure JavaMemberOf (s : Schema) (instants : Bool) (dec : BigFloat → String) (f : StructFieldDef) (x : JField) : Prop where
  name : x.name = f.name
  comment : x.comment = f.comment
  required : x.required = f.required
  annos : JavaAnnos s instants dec f.ts f.required x.annos
  used : JavaUse s instants f.ts f.required x.used
  decl : x.decl = if f.ts.type = "Struct" then .name (capitalize f.name) else x.used
  /-- A field that is a timestamp itself, not one of a named type of timestamps, is read specially. -/
  stamp : x.stamp = decide (f.ts.type = "Timestamp")

/-! ### Classes -/

/-- The field is the last one among those that are structs with fields of their own and whose classes have the same name. -/
def JavaInnerField (fields : List StructFieldDef) (f : StructFieldDef) : Prop :=
  ∃ before after, fields = before ++ f :: after ∧ f.ts.type = "Struct" ∧
    ∀ g ∈ after, g.ts.type = "Struct" → capitalize g.name ≠ capitalize f.name

mutual
/-- The class for a struct with the given fields.  `lombok` is the setting of that name, which does not apply to exceptions. -/
inductive JavaClassFor (s : Schema) (instants lombok : Bool) (dec : BigFloat → String) : (throwable : Bool) → String →
    List StructFieldDef → JavaClass → Prop
  /-- With `lombok`, there are no classes for the fields that are structs. -/
  | lombok {throwable cls fields members} : lombok = true → throwable = false →
      List.Forall₂ (JavaMemberOf s instants dec) fields members →
      JavaClassFor s instants lombok dec throwable cls fields (.mk cls members throwable true [])
  | plain {throwable cls fields members inner nested} : lombok = false ∨ throwable = true →
      List.Forall₂ (JavaMemberOf s instants dec) fields members →
      (∀ f, f ∈ inner ↔ JavaInnerField fields f) → (inner.map fun f => capitalize f.name).Nodup →
      JavaClassesFor s instants lombok dec inner nested →
      JavaClassFor s instants lombok dec throwable cls fields (.mk cls members throwable false nested)
/-- The classes for fields that are structs. -/
inductive JavaClassesFor (s : Schema) (instants lombok : Bool) (dec : BigFloat → String) : List StructFieldDef → List JavaClass → Prop
  | nil : JavaClassesFor s instants lombok dec [] []
  | cons {f fs c cs} : JavaClassFor s instants lombok dec false (capitalize f.name) f.ts.fields c →
      JavaClassesFor s instants lombok dec fs cs → JavaClassesFor s instants lombok dec (f :: fs) (c :: cs)
end

/-- A field for which a member can be written in a class of the given name. -/
def JavaFieldReady (s : Schema) (instants : Bool) (cls : String) (f : StructFieldDef) : Prop :=
  f.name ≠ "package" ∧ (∃ t, JavaUse s instants f.ts f.required t) ∧
  (f.ts.type = "Struct" → f.name ≠ "" ∧ capitalize f.name ≠ cls)

/-- A struct for which a class of the given name can be written. -/
inductive JavaStructReady (s : Schema) (instants lombok immutable : Bool) : (throwable : Bool) → String → List StructFieldDef → Prop
  | lombok {throwable cls fields} : lombok = true → throwable = false → (∀ f ∈ fields, JavaFieldReady s instants cls f) →
      JavaStructReady s instants lombok immutable throwable cls fields
  | plain {throwable cls fields} : lombok = false ∨ throwable = true → (∀ f ∈ fields, JavaFieldReady s instants cls f) →
      (immutable = true → ∀ f ∈ fields, f.name ≠ "") →
      (∀ f, JavaInnerField fields f → JavaStructReady s instants lombok immutable false (capitalize f.name) f.ts.fields) →
      JavaStructReady s instants lombok immutable throwable cls fields

/-! ### Files -/

/-- A variant of a union, as an optional field. -/
def JavaVariantField (v : UnionVariantDef) : StructFieldDef := { name := v.name, comment := v.comment, ts := v.ts }

/-- The text of an element of an enum in JSON: its annotation `x_enumValue`, or its symbol.  An annotation without a value
counts as `true`. -/
def JavaEnumText (el : EnumElementDef) : String :=
  match mget el.annotations "x_enumValue" with
  | some v => if v = "" then "true" else v
  | none => el.symbol

/-- The constant of an element of an enum. -/
structure JavaConstFor (el : EnumElementDef) (c : JConst) : Prop where
  name : c.name = el.symbol
  repr : c.repr = JavaEnumText el
  comment : c.comment = el.comment

/-- How a number is read from text. -/
def JavaParsers : List (String × String) :=
  [("byte", "Byte.parseByte(tmp[0])"), ("short", "Short.parseShort(tmp[0])"), ("int", "Integer.parseInt(tmp[0])"),
   ("long", "Long.parseLong(tmp[0])"), ("float", "Float.parseFloat(tmp[0])"), ("double", "Double.parseDouble(tmp[0])"),
   ("BigDecimal", "new BigDecimal(tmp[0])")]

/-- The expression that reads the value of a unit value. -/
inductive JavaReadValue (t : JTy) : String → Prop
  | number {e} : (t.text, e) ∈ JavaParsers → JavaReadValue t e
  | bad : (∀ e, (t.text, e) ∉ JavaParsers) → JavaReadValue t "<bad value type, must be numeric>"

/-- A type of the name is of the given kind. -/
def JavaKind (s : Schema) (n kind : String) : Prop := (n ∈ BaseTypes ∧ n = kind) ∨ ∃ td ∈ s.types, td.name = n ∧ td.ts.type = kind

/-- The expression that reads the unit of a unit value; the type with the name of the Java type decides about it. -/
inductive JavaReadUnit (s : Schema) (t : JTy) : String → Prop
  | string : JavaKind s t.text "String" → JavaReadUnit s t "tmp[1]"
  | enum : JavaKind s t.text "Enum" → JavaReadUnit s t (t.text ++ ".fromString(tmp[1])")
  | bad : Known s t.text → ¬ JavaKind s t.text "String" → ¬ JavaKind s t.text "Enum" →
      JavaReadUnit s t "<bad unit type, must be enum or string>"

/-- The class or enum for a type. -/
inductive JavaBodyFor (s : Schema) (instants lombok : Bool) (dec : BigFloat → String) (throwable : Bool) (cls : String) (ts : TypeSpec) :
    JavaBody → Prop
  | struct {c} : ts.type = "Struct" → JavaClassFor s instants lombok dec throwable cls ts.fields c →
      JavaBodyFor s instants lombok dec throwable cls ts (.struct c)
  | enum {cs} : ts.type = "Enum" → List.Forall₂ JavaConstFor ts.elements cs →
      JavaBodyFor s instants lombok dec throwable cls ts (.enum cls cs)
  | union {vs inner nested} : ts.type = "Union" →
      List.Forall₂ (JavaMemberOf s instants dec) (ts.variants.map JavaVariantField) vs →
      (∀ f, f ∈ inner ↔ JavaInnerField (ts.variants.map JavaVariantField) f) → (inner.map fun f => capitalize f.name).Nodup →
      JavaClassesFor s instants lombok dec inner nested →
      JavaBodyFor s instants lombok dec throwable cls ts (.union cls vs nested)
  | unit {u} : ts.type = "UnitValue" → JavaUse s instants { ts with type := ts.value } true u.value →
      JavaUse s instants { ts with type := ts.unit } true u.unit → JavaReadValue u.value u.readValue →
      JavaReadUnit s u.unit u.readUnit → JavaBodyFor s instants lombok dec throwable cls ts (.unit cls u)

/-- A type for which a class or enum can be written. -/
inductive JavaReady (s : Schema) (instants lombok immutable throwable : Bool) (cls : String) (ts : TypeSpec) : Prop
  | struct : ts.type = "Struct" → JavaStructReady s instants lombok immutable throwable cls ts.fields →
      JavaReady s instants lombok immutable throwable cls ts
  | enum : ts.type = "Enum" → JavaReady s instants lombok immutable throwable cls ts
  | union : ts.type = "Union" → (∀ v ∈ ts.variants, v.name ≠ "" ∧ (∃ t, JavaUse s instants v.ts false t) ∧
        (v.ts.type = "Struct" → capitalize v.name ≠ cls)) →
      (∀ f, JavaInnerField (ts.variants.map JavaVariantField) f →
        JavaStructReady s instants lombok immutable false (capitalize f.name) f.ts.fields) →
      JavaReady s instants lombok immutable throwable cls ts
  | unit {v u} : ts.type = "UnitValue" → JavaUse s instants { ts with type := ts.value } true v →
      JavaUse s instants { ts with type := ts.unit } true u → Known s u.text → JavaReady s instants lombok immutable throwable cls ts

end Sadl.Spec
