import Verif.Model.Java
import Verif.Model.JavaText
import Verif.Model.GraphQL
/-
java/export_java.go: the Java classes of all kinds of types, and their text.
-/
namespace Sadl

/-- A constant of an enum: its name and its text in JSON. -/
structure JConst where
  name : String
  repr : String
  comment : String := ""
  deriving Repr, DecidableEq

/-- The class of a unit value: the types of the value and the unit, and the expressions that read them
(java/export_java.go:583-620). -/
structure JavaUnitClass where
  value : JTy
  unit : JTy
  readValue : String
  readUnit : String
  deriving Repr, DecidableEq

/-- What a generated file declares. -/
inductive JavaBody where
  | struct (c : JavaClass)
  | enum (name : String) (consts : List JConst)
  /-- The fields are the variants. -/
  | union (name : String) (variants : List JField) (nested : List JavaClass)
  | unit (name : String) (u : JavaUnitClass)

/-- java/export_java.go:420-438: the constants of an enum. -/
def javaConsts (els : List EnumElementDef) : List JConst :=
  els.map fun el =>
    let val := getAnnotation (some el.annotations) "x_enumValue"
    { name := el.symbol, repr := if val = "" then el.symbol else val, comment := el.comment }

/-- java/export_java.go:506-521: a variant of a union. -/
def javaVariant (m : Model) (conf : JavaConf) (className : String) (v : UnionVariantDef) : Out JMember :=
  (javaType m conf (some v.ts) v.ts.type false).bind fun t =>
  let field : JField :=
    { name := v.name, comment := v.comment, stamp := v.ts.type = "Timestamp", decl := t.type, used := t.type, annos := t.annos }
  if t.anon.isSome then
    (javaCapitalize v.name).bind fun tn =>
    if tn = className then
      .err ("Cannot have identically named inner class with same name as containing class: " ++ tn)
    else .ok { field := { field with decl := .name tn }, anon := true, notes := t.notes }
  else .ok { field := field, anon := false, notes := t.notes }

/-- java/export_java.go:500-522: the variants of a union. -/
def javaVariants (m : Model) (conf : JavaConf) (className : String) : List UnionVariantDef → Out (List JMember)
  | [] => .ok []
  | v :: vs =>
    (javaVariant m conf className v).bind fun x =>
    (javaVariants m conf className vs).bind fun xs => .ok (x :: xs)

/-- java/export_java.go:463-478: the imports of a union. -/
def javaUnionNotes (conf : JavaConf) : List JNote :=
  [.pack "com.fasterxml.jackson.annotation.JsonInclude", .pack "com.fasterxml.jackson.annotation.JsonIgnore",
   .pack "com.fasterxml.jackson.annotation.JsonCreator", .pack "com.fasterxml.jackson.annotation.JsonProperty"] ++
  (if conf.lombok then
    [.pack "lombok.Data", .pack "lombok.AllArgsConstructor", .pack "lombok.Builder", .pack "lombok.NoArgsConstructor"] else [])

/-- java/export_java.go:458-576 `CreateUnionPojo`. -/
def javaUnion (m : Model) (conf : JavaConf) (className : String) (vs : List UnionVariantDef) : Out (JavaBody × List JNote) :=
  (javaVariants m conf className vs).bind fun ms =>
  -- line 545
  if vs.any (·.name = "") then .panic "slice bounds out of range"
  else
    (javaAll (javaNested conf ms (vs.map fun v => javaInner m conf (capitalize v.name) v.ts))).bind fun ns =>
    .ok (.union className (ms.map (·.field)) (ns.map Prod.fst),
      javaUnionNotes conf ++ ms.flatMap (·.notes) ++ (if conf.pretty then [.util] else []) ++ ns.flatMap Prod.snd)

/-- java/export_java.go:596-612: how a value is read. -/
def javaReadValue (valueType : String) : String :=
  if valueType = "double" then "Double.parseDouble(tmp[0])"
  else if valueType = "float" then "Float.parseFloat(tmp[0])"
  else if valueType = "long" then "Long.parseLong(tmp[0])"
  else if valueType = "int" then "Integer.parseInt(tmp[0])"
  else if valueType = "short" then "Short.parseShort(tmp[0])"
  else if valueType = "byte" then "Byte.parseByte(tmp[0])"
  else if valueType = "BigDecimal" then "new BigDecimal(tmp[0])"
  else "<bad value type, must be numeric>"

/-- java/export_java.go:578-635 `CreateUnitValuePojo`.  The type of the unit is looked up by its Java name. -/
def javaUnit (m : Model) (conf : JavaConf) (className : String) (ts : TypeSpec) : Out (JavaBody × List JNote) :=
  (javaType m conf (some ts) ts.value true).bind fun v =>
  (javaType m conf (some ts) ts.unit true).bind fun u =>
  match m.findType u.type.text with
  | none => .panic nilDeref
  | some ut =>
    .ok (.unit className
      { value := v.type, unit := u.type, readValue := javaReadValue v.type.text
        readUnit := if ut.ts.type = "String" then "tmp[1]"
          else if ut.ts.type = "Enum" then u.type.text ++ ".fromString(tmp[1])"
          else "<bad unit type, must be enum or string>" },
      [.pack "javax.validation.constraints.NotNull", .pack "com.fasterxml.jackson.annotation.JsonValue"] ++ v.notes ++ u.notes)

/-- java/export_java.go:416-456 `CreateEnumPojo`. -/
def javaEnum (className : String) (els : List EnumElementDef) : JavaBody × List JNote :=
  (.enum className (javaConsts els),
    [.pack "com.fasterxml.jackson.annotation.JsonValue", .pack "com.fasterxml.jackson.annotation.JsonCreator"])

/-- java/export_java.go:198-210 `CreatePojo`: the class of a type, if it has one. -/
def javaBody (m : Model) (conf : JavaConf) (exceptions : List String) (className : String) (ts : TypeSpec) :
    Option (Out (JavaBody × List JNote)) :=
  if ts.type = "Struct" then
    some ((javaStruct m conf exceptions className ts.fields).bind fun c => .ok (.struct c.1, c.2))
  else if ts.type = "UnitValue" then some (javaUnit m conf className ts)
  else if ts.type = "Enum" then some (.ok (javaEnum className ts.elements))
  else if ts.type = "Union" then some (javaUnion m conf className ts.variants)
  else none

/-! ### The text -/

/-- generator.go:117-119 `FormatComment`. -/
def javaComment (indent comment : String) (maxcol : Int) : String :=
  String.ofList (formatComment indent.toList "// ".toList comment.toList maxcol false)

/-- The concatenation of texts. -/
def catAll (xs : List String) : String := xs.foldl (· ++ ·) ""

/-- java/export_java.go:298-322: a member of a class. -/
def JField.text (conf : JavaConf) (indent : String) (f : JField) : String :=
  (if f.comment ≠ "" then javaComment (indent ++ "    ") f.comment 100 else "") ++
  (if f.required then "" else indent ++ "    @JsonInclude(JsonInclude.Include.NON_EMPTY) /* Optional field */\n") ++
  catAll (f.annos.map fun a => indent ++ "    " ++ a.text ++ "\n") ++
  indent ++ (if conf.immutable then "    private final " else "    public ") ++ f.decl.text ++ " " ++ f.name ++ ";\n\n"

/-- java/export_java.go:353-364 `EmitAllFieldsConstructor`. -/
def javaConstructorText (className : String) (fs : List JField) (indent : String) : String :=
  indent ++ "    public " ++ className ++ "(" ++ String.intercalate ", " (fs.map fun f => f.used.text ++ " " ++ f.name) ++ ") {\n" ++
  catAll (fs.map fun f => indent ++ "        this." ++ f.name ++ " = " ++ f.name ++ ";\n") ++
  indent ++ "    }\n\n"

/-- java/export_java.go:366-371 `EmitGetter`. -/
def javaGetterText (indent : String) (f : JField) : String :=
  indent ++ "    public " ++ f.used.text ++ " get" ++ capitalize f.name ++ "() {\n" ++
  indent ++ "        return " ++ f.name ++ ";\n" ++
  indent ++ "    }\n\n"

/-- java/export_java.go:373-414 `EmitBuilder`. -/
def javaBuilderText (conf : JavaConf) (className : String) (fs : List JField) (indent : String) : String :=
  let b := className ++ "Builder"
  indent ++ "public " ++ b ++ " toBuilder() {\n" ++
  indent ++ "    return new " ++ b ++ "(this);\n" ++
  indent ++ "}\n\n" ++
  indent ++ "public static " ++ b ++ " builder() {\n" ++
  indent ++ "    return new " ++ b ++ "();\n" ++
  indent ++ "}\n\n" ++
  indent ++ "@JsonPOJOBuilder(withPrefix=\"\")\n" ++
  indent ++ "public static class " ++ b ++ " {\n" ++
  catAll (fs.map fun f => indent ++ "    private " ++ f.used.text ++ " " ++ f.name ++ ";\n") ++
  "\n" ++
  indent ++ "    public " ++ b ++ "() {\n" ++
  indent ++ "    }\n\n" ++
  indent ++ "    public " ++ b ++ "(" ++ className ++ " copy) {\n" ++
  catAll (fs.map fun f => indent ++ "        this." ++ f.name ++ " = copy.get" ++ capitalize f.name ++ "();\n") ++
  indent ++ "    }\n\n" ++
  catAll (fs.map fun f =>
    (if f.stamp ∧ conf.instants then indent ++ "    @JsonDeserialize(using = Util.InstantDeserializer.class)\n" else "") ++
    indent ++ "    public " ++ b ++ " " ++ f.name ++ "(" ++ f.used.text ++ " " ++ f.name ++ ") {\n" ++
    indent ++ "        this." ++ f.name ++ " = " ++ f.name ++ ";\n" ++
    indent ++ "        return this;\n" ++
    indent ++ "    }\n\n") ++
  indent ++ "    public " ++ className ++ " build() {\n" ++
  indent ++ "        return new " ++ className ++ "(" ++ String.intercalate ", " (fs.map (·.name)) ++ ");\n" ++
  indent ++ "    }\n" ++
  indent ++ "}\n"

/-- java/export_java.go:637-650 `EmitFluidSetter`. -/
def javaSetterText (className indent : String) (f : JField) : String :=
  indent ++ "    public " ++ className ++ " " ++ f.name ++ "(" ++ f.decl.text ++ " val) {\n" ++
  indent ++ "        this." ++ f.name ++ " = val;\n" ++
  indent ++ "        return this;\n" ++
  indent ++ "    }\n\n"

/-- java/export_java.go:264-271: the properties that are left out of the JSON of an exception. -/
def javaIgnored (fs : List JField) : List String :=
  ["message", "stackTrace", "cause", "localizedMessage", "suppressed"].flatMap fun f =>
    (fs.filter fun fd => fd.name ≠ f).map fun _ => f

/-- java/export_java.go:338-342, 564-568. -/
def javaToString : String :=
  "    @Override\n" ++ "    public String toString() {\n" ++ "        return Util.pretty(this);\n" ++ "    }\n"

/-- java/export_java.go:258-343, 350: a class without the classes inside it. -/
def javaClassHead (conf : JavaConf) (indent : String) (top : Bool) (name : String) (fs : List JField) (throwable lombok : Bool) :
    String :=
  let extend := if throwable then " extends RuntimeException" else ""
  (if conf.immutable then indent ++ "@JsonDeserialize(builder = " ++ name ++ "." ++ name ++ "Builder.class)\n" else "") ++
  (if throwable then
    indent ++ "@JsonIgnoreProperties({" ++ String.intercalate ", " ((javaIgnored fs).map fun f => "\"" ++ goQuote f ++ "\"") ++ "})\n"
   else "") ++
  (if top then
    (if lombok then
      indent ++ "@Data\n" ++ (if fs ≠ [] then indent ++ "@AllArgsConstructor\n" else "") ++
      indent ++ "@Builder\n" ++ indent ++ "@NoArgsConstructor(force=true)\n" else "") ++
    indent ++ "public class " ++ name ++ extend ++ " {\n"
   else indent ++ "public static class " ++ name ++ extend ++ " {\n") ++
  catAll (fs.map (JField.text conf indent)) ++
  (if lombok then ""
   else
    (if conf.immutable then
      javaConstructorText name fs indent ++ catAll (fs.map (javaGetterText indent)) ++
      javaBuilderText conf name fs (indent ++ "    ")
     else catAll (fs.map (javaSetterText name indent))) ++
    (if conf.pretty then javaToString else ""))

mutual
/-- java/export_java.go:235-351 `CreateStructPojo`: the text of a class. -/
def JavaClass.text (conf : JavaConf) (indent : String) (top : Bool) : JavaClass → String
  | .mk name fs throwable lombok nested =>
    javaClassHead conf indent top name fs throwable lombok ++ javaClassTexts conf (indent ++ "    ") nested ++ "}\n"
/-- java/export_java.go:344-348: the classes inside a class. -/
def javaClassTexts (conf : JavaConf) (indent : String) : List JavaClass → String
  | [] => ""
  | c :: cs => c.text conf indent false ++ javaClassTexts conf indent cs
end

/-- java/export_java.go:421-438: the constants of an enum; the last one ends with a semicolon. -/
def javaConstTexts : List JConst → String
  | [] => ""
  | c :: cs =>
    "    " ++ c.name ++ "(\"" ++ c.repr ++ "\")" ++ (if cs = [] then ";" else ",") ++
    (if c.comment ≠ "" then javaComment " " c.comment 0 else "\n") ++ javaConstTexts cs

/-- java/export_java.go:416-456 `CreateEnumPojo`: the text of an enum. -/
def javaEnumText (name : String) (cs : List JConst) : String :=
  "public enum " ++ name ++ "{\n" ++ javaConstTexts cs ++
  "\n" ++
  "    private String repr;\n\n" ++
  "    private " ++ name ++ "(String repr) {\n        this.repr = repr;\n    }\n\n" ++
  "    @JsonValue\n    @Override\n" ++
  "    public String toString() {\n        return repr;\n    }\n\n" ++
  "    @JsonCreator\n" ++
  "    public static " ++ name ++ " fromString(String repr) {\n" ++
  "        for (" ++ name ++ " e : values()) {\n" ++
  "            if (e.repr.equals(repr)) {\n" ++
  "                return e;\n" ++
  "            }\n" ++
  "        }\n" ++
  "        throw new IllegalArgumentException(\"Invalid string representation for " ++ name ++ ": \" + repr);\n" ++
  "    }\n\n" ++
  "}\n"

/-- java/export_java.go:458-576 `CreateUnionPojo`: the text of a union. -/
def javaUnionText (conf : JavaConf) (name : String) (vs : List JField) (nested : List JavaClass) : String :=
  (if conf.lombok then "@Data\n@AllArgsConstructor\n@Builder\n@NoArgsConstructor\n" else "") ++
  "public class " ++ name ++ " {\n" ++
  "    public enum Variant {\n" ++
  (if vs = [] then "" else String.intercalate ",\n" (vs.map fun v => "        " ++ v.name) ++ "\n") ++
  "    }\n\n" ++
  "    @JsonIgnore\n" ++
  "    public Variant variant;\n\n" ++
  catAll (vs.map fun v =>
    "    @JsonInclude(JsonInclude.Include.NON_EMPTY)\n" ++
    (if v.comment ≠ "" then javaComment "    " v.comment 100 else "") ++
    catAll (v.annos.map fun a => "    " ++ a.text ++ "\n") ++
    "    public final " ++ v.decl.text ++ " " ++ v.name ++ ";\n") ++
  "\n    @JsonCreator\n" ++
  "    private " ++ name ++ "(" ++
  String.intercalate ", " (vs.map fun v => "@JsonProperty(\"" ++ v.name ++ "\") " ++ v.used.text ++ " " ++ v.name) ++
  ") {\n" ++
  catAll (vs.map fun v =>
    "        this." ++ v.name ++ " = " ++ v.name ++ ";\n" ++
    "        if (" ++ v.name ++ " != null) {\n" ++
    "            this.variant = Variant." ++ v.name ++ ";\n" ++
    "        }\n") ++
  "    }\n\n" ++
  catAll (vs.map fun v =>
    "\n    public static " ++ name ++ " of" ++ capitalize v.name ++ "(" ++ v.used.text ++ " v) {\n" ++
    "        return new " ++ name ++ "(" ++
    String.intercalate ", " (vs.map fun w => if v.name = w.name then "v" else "null") ++ ");\n" ++
    "    }\n") ++
  "\n" ++
  (if conf.pretty then javaToString else "") ++
  javaClassTexts conf "    " nested ++
  "}\n"

/-- java/export_java.go:578-635 `CreateUnitValuePojo`: the text of a unit value. -/
def javaUnitText (name : String) (u : JavaUnitClass) : String :=
  "public class " ++ name ++ " {\n\n" ++
  "    public final " ++ u.value.text ++ " value;\n" ++
  "    public final " ++ u.unit.text ++ " unit;\n\n" ++
  "    public " ++ name ++ "(" ++ u.value.text ++ " value, @NotNull " ++ u.unit.text ++ " unit) {\n" ++
  "        this.value = value;\n" ++
  "        this.unit = unit;\n" ++
  "    }\n\n" ++
  "    @JsonCreator\n" ++
  "    public " ++ name ++ "(@NotNull String repr) {\n" ++
  "        String[] tmp = repr.split(\" \");\n" ++
  "        this.value = " ++ u.readValue ++ ";\n" ++
  "        this.unit = " ++ u.readUnit ++ ";\n" ++
  "    }\n\n" ++
  "    @JsonValue\n" ++ "    @Override\n" ++ "    public String toString() {\n" ++
  "        return value + \" \" + unit;\n" ++ "    }\n" ++ "}\n"

/-- The text of a class of any kind. -/
def JavaBody.text (conf : JavaConf) : JavaBody → String
  | .struct c => c.text conf "" true
  | .enum n cs => javaEnumText n cs
  | .union n vs ns => javaUnionText conf n vs ns
  | .unit n u => javaUnitText n u

end Sadl
