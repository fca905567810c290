import Verif.Lemmas.JavaLex
/-
How the pieces of generated Java text are scanned.  Generated by tools/javalits.py from the model.
-/
namespace Sadl.JavaLits
open Sadl Sadl.Spec

set_option maxRecDepth 4000

theorem lit1 (s : List Char) : jrun (.code, s) "List<" = some (.code, s) :=
  jrun_list (o := []) (o' := []) (t := "List<") rfl (by decide +kernel) s
theorem lit2 (s : List Char) : jrun (.code, s) ">" = some (.code, s) :=
  jrun_list (o := []) (o' := []) (t := ">") rfl (by decide +kernel) s
theorem lit3 (s : List Char) : jrun (.code, s) "Map<" = some (.code, s) :=
  jrun_list (o := []) (o' := []) (t := "Map<") rfl (by decide +kernel) s
theorem lit4 (s : List Char) : jrun (.code, s) "," = some (.code, s) :=
  jrun_list (o := []) (o' := []) (t := ",") rfl (by decide +kernel) s
theorem lit5 (s : List Char) : jrun (.code, s) "@NotNull" = some (.code, s) :=
  jrun_list (o := []) (o' := []) (t := "@NotNull") rfl (by decide +kernel) s
theorem lit6 (s : List Char) : jrun (.code, s) "@Pattern(regexp=\"" = some (.str, '(' :: s) :=
  jrun_list (o := []) (o' := ['(']) (t := "@Pattern(regexp=\"") rfl (by decide +kernel) s
theorem lit7 (s : List Char) : jrun (.str, s) "@Pattern(regexp=\"" = some (.code, s) :=
  jrun_list (o := []) (o' := []) (t := "@Pattern(regexp=\"") rfl (by decide +kernel) s
theorem lit8 (s : List Char) : jrun (.code, s) "\")" = some (.str, s) :=
  jrun_list (o := []) (o' := []) (t := "\")") rfl (by decide +kernel) s
theorem lit9 (s : List Char) : jrun (.str, '(' :: s) "\")" = some (.code, s) :=
  jrun_list (o := ['(']) (o' := []) (t := "\")") rfl (by decide +kernel) s
theorem lit10 (s : List Char) : jrun (.code, s) "min=" = some (.code, s) :=
  jrun_list (o := []) (o' := []) (t := "min=") rfl (by decide +kernel) s
theorem lit11 (s : List Char) : jrun (.code, s) ", max=" = some (.code, s) :=
  jrun_list (o := []) (o' := []) (t := ", max=") rfl (by decide +kernel) s
theorem lit12 (s : List Char) : jrun (.code, s) "max=" = some (.code, s) :=
  jrun_list (o := []) (o' := []) (t := "max=") rfl (by decide +kernel) s
theorem lit13 (s : List Char) : jrun (.code, s) "@Size(" = some (.code, '(' :: s) :=
  jrun_list (o := []) (o' := ['(']) (t := "@Size(") rfl (by decide +kernel) s
theorem lit14 (s : List Char) : jrun (.code, '(' :: s) ")" = some (.code, s) :=
  jrun_list (o := ['(']) (o' := []) (t := ")") rfl (by decide +kernel) s
theorem lit15 (s : List Char) : jrun (.code, s) "@Min(" = some (.code, '(' :: s) :=
  jrun_list (o := []) (o' := ['(']) (t := "@Min(") rfl (by decide +kernel) s
theorem lit16 (s : List Char) : jrun (.code, s) "@Max(" = some (.code, '(' :: s) :=
  jrun_list (o := []) (o' := ['(']) (t := "@Max(") rfl (by decide +kernel) s
theorem lit17 (s : List Char) : jrun (.code, s) "@DecimalMin(\"" = some (.str, '(' :: s) :=
  jrun_list (o := []) (o' := ['(']) (t := "@DecimalMin(\"") rfl (by decide +kernel) s
theorem lit18 (s : List Char) : jrun (.str, s) "@DecimalMin(\"" = some (.code, s) :=
  jrun_list (o := []) (o' := []) (t := "@DecimalMin(\"") rfl (by decide +kernel) s
theorem lit19 (s : List Char) : jrun (.code, s) "@DecimalMax(\"" = some (.str, '(' :: s) :=
  jrun_list (o := []) (o' := ['(']) (t := "@DecimalMax(\"") rfl (by decide +kernel) s
theorem lit20 (s : List Char) : jrun (.str, s) "@DecimalMax(\"" = some (.code, s) :=
  jrun_list (o := []) (o' := []) (t := "@DecimalMax(\"") rfl (by decide +kernel) s
theorem lit21 (s : List Char) : jrun (.code, s) "@JsonSerialize(using = Util.InstantSerializer.class)" = some (.code, s) :=
  jrun_list (o := []) (o' := []) (t := "@JsonSerialize(using = Util.InstantSerializer.class)") rfl (by decide +kernel) s
theorem lit22 (s : List Char) : jrun (.code, s) "@JsonDeserialize(using = Util.InstantDeserializer.class)" = some (.code, s) :=
  jrun_list (o := []) (o' := []) (t := "@JsonDeserialize(using = Util.InstantDeserializer.class)") rfl (by decide +kernel) s
theorem lit23 (s : List Char) : jrun (.code, s) "double" = some (.code, s) :=
  jrun_list (o := []) (o' := []) (t := "double") rfl (by decide +kernel) s
theorem lit24 (s : List Char) : jrun (.code, s) "Double.parseDouble(tmp[0])" = some (.code, s) :=
  jrun_list (o := []) (o' := []) (t := "Double.parseDouble(tmp[0])") rfl (by decide +kernel) s
theorem lit25 (s : List Char) : jrun (.code, s) "float" = some (.code, s) :=
  jrun_list (o := []) (o' := []) (t := "float") rfl (by decide +kernel) s
theorem lit26 (s : List Char) : jrun (.code, s) "Float.parseFloat(tmp[0])" = some (.code, s) :=
  jrun_list (o := []) (o' := []) (t := "Float.parseFloat(tmp[0])") rfl (by decide +kernel) s
theorem lit27 (s : List Char) : jrun (.code, s) "long" = some (.code, s) :=
  jrun_list (o := []) (o' := []) (t := "long") rfl (by decide +kernel) s
theorem lit28 (s : List Char) : jrun (.code, s) "Long.parseLong(tmp[0])" = some (.code, s) :=
  jrun_list (o := []) (o' := []) (t := "Long.parseLong(tmp[0])") rfl (by decide +kernel) s
theorem lit29 (s : List Char) : jrun (.code, s) "int" = some (.code, s) :=
  jrun_list (o := []) (o' := []) (t := "int") rfl (by decide +kernel) s
theorem lit30 (s : List Char) : jrun (.code, s) "Integer.parseInt(tmp[0])" = some (.code, s) :=
  jrun_list (o := []) (o' := []) (t := "Integer.parseInt(tmp[0])") rfl (by decide +kernel) s
theorem lit31 (s : List Char) : jrun (.code, s) "short" = some (.code, s) :=
  jrun_list (o := []) (o' := []) (t := "short") rfl (by decide +kernel) s
theorem lit32 (s : List Char) : jrun (.code, s) "Short.parseShort(tmp[0])" = some (.code, s) :=
  jrun_list (o := []) (o' := []) (t := "Short.parseShort(tmp[0])") rfl (by decide +kernel) s
theorem lit33 (s : List Char) : jrun (.code, s) "byte" = some (.code, s) :=
  jrun_list (o := []) (o' := []) (t := "byte") rfl (by decide +kernel) s
theorem lit34 (s : List Char) : jrun (.code, s) "Byte.parseByte(tmp[0])" = some (.code, s) :=
  jrun_list (o := []) (o' := []) (t := "Byte.parseByte(tmp[0])") rfl (by decide +kernel) s
theorem lit35 (s : List Char) : jrun (.code, s) "BigDecimal" = some (.code, s) :=
  jrun_list (o := []) (o' := []) (t := "BigDecimal") rfl (by decide +kernel) s
theorem lit36 (s : List Char) : jrun (.code, s) "new BigDecimal(tmp[0])" = some (.code, s) :=
  jrun_list (o := []) (o' := []) (t := "new BigDecimal(tmp[0])") rfl (by decide +kernel) s
theorem lit37 (s : List Char) : jrun (.code, s) "<bad value type, must be numeric>" = some (.code, s) :=
  jrun_list (o := []) (o' := []) (t := "<bad value type, must be numeric>") rfl (by decide +kernel) s
theorem lit38 (s : List Char) : jrun (.code, s) "String" = some (.code, s) :=
  jrun_list (o := []) (o' := []) (t := "String") rfl (by decide +kernel) s
theorem lit39 (s : List Char) : jrun (.code, s) "tmp[1]" = some (.code, s) :=
  jrun_list (o := []) (o' := []) (t := "tmp[1]") rfl (by decide +kernel) s
theorem lit40 (s : List Char) : jrun (.code, s) "Enum" = some (.code, s) :=
  jrun_list (o := []) (o' := []) (t := "Enum") rfl (by decide +kernel) s
theorem lit41 (s : List Char) : jrun (.code, s) ".fromString(tmp[1])" = some (.code, s) :=
  jrun_list (o := []) (o' := []) (t := ".fromString(tmp[1])") rfl (by decide +kernel) s
theorem lit42 (s : List Char) : jrun (.code, s) "<bad unit type, must be enum or string>" = some (.code, s) :=
  jrun_list (o := []) (o' := []) (t := "<bad unit type, must be enum or string>") rfl (by decide +kernel) s
theorem lit43 (s : List Char) : jrun (.code, s) "javax.validation.constraints.NotNull" = some (.code, s) :=
  jrun_list (o := []) (o' := []) (t := "javax.validation.constraints.NotNull") rfl (by decide +kernel) s
theorem lit44 (s : List Char) : jrun (.code, s) "com.fasterxml.jackson.annotation.JsonValue" = some (.code, s) :=
  jrun_list (o := []) (o' := []) (t := "com.fasterxml.jackson.annotation.JsonValue") rfl (by decide +kernel) s
theorem lit45 (s : List Char) : jrun (.code, s) "// " = some (.line, s) :=
  jrun_list (o := []) (o' := []) (t := "// ") rfl (by decide +kernel) s
theorem lit46 (s : List Char) : jrun (.code, s) "    " = some (.code, s) :=
  jrun_list (o := []) (o' := []) (t := "    ") rfl (by decide +kernel) s
theorem lit47 (s : List Char) : jrun (.code, s) "    @JsonInclude(JsonInclude.Include.NON_EMPTY) /* Optional field */\n" = some (.code, s) :=
  jrun_list (o := []) (o' := []) (t := "    @JsonInclude(JsonInclude.Include.NON_EMPTY) /* Optional field */\n") rfl (by decide +kernel) s
theorem lit48 (s : List Char) : jrun (.code, s) "\n" = some (.code, s) :=
  jrun_list (o := []) (o' := []) (t := "\n") rfl (by decide +kernel) s
theorem lit49 (s : List Char) : jrun (.code, s) "    private final " = some (.code, s) :=
  jrun_list (o := []) (o' := []) (t := "    private final ") rfl (by decide +kernel) s
theorem lit50 (s : List Char) : jrun (.code, s) "    public " = some (.code, s) :=
  jrun_list (o := []) (o' := []) (t := "    public ") rfl (by decide +kernel) s
theorem lit51 (s : List Char) : jrun (.code, s) " " = some (.code, s) :=
  jrun_list (o := []) (o' := []) (t := " ") rfl (by decide +kernel) s
theorem lit52 (s : List Char) : jrun (.code, s) ";\n\n" = some (.code, s) :=
  jrun_list (o := []) (o' := []) (t := ";\n\n") rfl (by decide +kernel) s
theorem lit53 (s : List Char) : jrun (.code, s) "(" = some (.code, '(' :: s) :=
  jrun_list (o := []) (o' := ['(']) (t := "(") rfl (by decide +kernel) s
theorem lit54 (s : List Char) : jrun (.code, s) ", " = some (.code, s) :=
  jrun_list (o := []) (o' := []) (t := ", ") rfl (by decide +kernel) s
theorem lit55 (s : List Char) : jrun (.code, '(' :: s) ") {\n" = some (.code, '{' :: s) :=
  jrun_list (o := ['(']) (o' := ['{']) (t := ") {\n") rfl (by decide +kernel) s
theorem lit56 (s : List Char) : jrun (.code, s) "        this." = some (.code, s) :=
  jrun_list (o := []) (o' := []) (t := "        this.") rfl (by decide +kernel) s
theorem lit57 (s : List Char) : jrun (.code, s) " = " = some (.code, s) :=
  jrun_list (o := []) (o' := []) (t := " = ") rfl (by decide +kernel) s
theorem lit58 (s : List Char) : jrun (.code, s) ";\n" = some (.code, s) :=
  jrun_list (o := []) (o' := []) (t := ";\n") rfl (by decide +kernel) s
theorem lit59 (s : List Char) : jrun (.code, '{' :: s) "    }\n\n" = some (.code, s) :=
  jrun_list (o := ['{']) (o' := []) (t := "    }\n\n") rfl (by decide +kernel) s
theorem lit60 (s : List Char) : jrun (.code, s) " get" = some (.code, s) :=
  jrun_list (o := []) (o' := []) (t := " get") rfl (by decide +kernel) s
theorem lit61 (s : List Char) : jrun (.code, s) "() {\n" = some (.code, '{' :: s) :=
  jrun_list (o := []) (o' := ['{']) (t := "() {\n") rfl (by decide +kernel) s
theorem lit62 (s : List Char) : jrun (.code, s) "        return " = some (.code, s) :=
  jrun_list (o := []) (o' := []) (t := "        return ") rfl (by decide +kernel) s
theorem lit63 (s : List Char) : jrun (.code, s) "Builder" = some (.code, s) :=
  jrun_list (o := []) (o' := []) (t := "Builder") rfl (by decide +kernel) s
theorem lit64 (s : List Char) : jrun (.code, s) "public " = some (.code, s) :=
  jrun_list (o := []) (o' := []) (t := "public ") rfl (by decide +kernel) s
theorem lit65 (s : List Char) : jrun (.code, s) " toBuilder() {\n" = some (.code, '{' :: s) :=
  jrun_list (o := []) (o' := ['{']) (t := " toBuilder() {\n") rfl (by decide +kernel) s
theorem lit66 (s : List Char) : jrun (.code, s) "    return new " = some (.code, s) :=
  jrun_list (o := []) (o' := []) (t := "    return new ") rfl (by decide +kernel) s
theorem lit67 (s : List Char) : jrun (.code, s) "(this);\n" = some (.code, s) :=
  jrun_list (o := []) (o' := []) (t := "(this);\n") rfl (by decide +kernel) s
theorem lit68 (s : List Char) : jrun (.code, '{' :: s) "}\n\n" = some (.code, s) :=
  jrun_list (o := ['{']) (o' := []) (t := "}\n\n") rfl (by decide +kernel) s
theorem lit69 (s : List Char) : jrun (.code, s) "public static " = some (.code, s) :=
  jrun_list (o := []) (o' := []) (t := "public static ") rfl (by decide +kernel) s
theorem lit70 (s : List Char) : jrun (.code, s) " builder() {\n" = some (.code, '{' :: s) :=
  jrun_list (o := []) (o' := ['{']) (t := " builder() {\n") rfl (by decide +kernel) s
theorem lit71 (s : List Char) : jrun (.code, s) "();\n" = some (.code, s) :=
  jrun_list (o := []) (o' := []) (t := "();\n") rfl (by decide +kernel) s
theorem lit72 (s : List Char) : jrun (.code, s) "@JsonPOJOBuilder(withPrefix=\"\")\n" = some (.code, s) :=
  jrun_list (o := []) (o' := []) (t := "@JsonPOJOBuilder(withPrefix=\"\")\n") rfl (by decide +kernel) s
theorem lit73 (s : List Char) : jrun (.code, s) "public static class " = some (.code, s) :=
  jrun_list (o := []) (o' := []) (t := "public static class ") rfl (by decide +kernel) s
theorem lit74 (s : List Char) : jrun (.code, s) " {\n" = some (.code, '{' :: s) :=
  jrun_list (o := []) (o' := ['{']) (t := " {\n") rfl (by decide +kernel) s
theorem lit75 (s : List Char) : jrun (.code, s) "    private " = some (.code, s) :=
  jrun_list (o := []) (o' := []) (t := "    private ") rfl (by decide +kernel) s
theorem lit76 (s : List Char) : jrun (.code, '(' :: s) " copy) {\n" = some (.code, '{' :: s) :=
  jrun_list (o := ['(']) (o' := ['{']) (t := " copy) {\n") rfl (by decide +kernel) s
theorem lit77 (s : List Char) : jrun (.code, s) " = copy.get" = some (.code, s) :=
  jrun_list (o := []) (o' := []) (t := " = copy.get") rfl (by decide +kernel) s
theorem lit78 (s : List Char) : jrun (.code, s) "    @JsonDeserialize(using = Util.InstantDeserializer.class)\n" = some (.code, s) :=
  jrun_list (o := []) (o' := []) (t := "    @JsonDeserialize(using = Util.InstantDeserializer.class)\n") rfl (by decide +kernel) s
theorem lit79 (s : List Char) : jrun (.code, s) "        return this;\n" = some (.code, s) :=
  jrun_list (o := []) (o' := []) (t := "        return this;\n") rfl (by decide +kernel) s
theorem lit80 (s : List Char) : jrun (.code, s) " build() {\n" = some (.code, '{' :: s) :=
  jrun_list (o := []) (o' := ['{']) (t := " build() {\n") rfl (by decide +kernel) s
theorem lit81 (s : List Char) : jrun (.code, s) "        return new " = some (.code, s) :=
  jrun_list (o := []) (o' := []) (t := "        return new ") rfl (by decide +kernel) s
theorem lit82 (s : List Char) : jrun (.code, '(' :: s) ");\n" = some (.code, s) :=
  jrun_list (o := ['(']) (o' := []) (t := ");\n") rfl (by decide +kernel) s
theorem lit83 (s : List Char) : jrun (.code, '{' :: s) "    }\n" = some (.code, s) :=
  jrun_list (o := ['{']) (o' := []) (t := "    }\n") rfl (by decide +kernel) s
theorem lit84 (s : List Char) : jrun (.code, '{' :: s) "}\n" = some (.code, s) :=
  jrun_list (o := ['{']) (o' := []) (t := "}\n") rfl (by decide +kernel) s
theorem lit85 (s : List Char) : jrun (.code, '(' :: s) " val) {\n" = some (.code, '{' :: s) :=
  jrun_list (o := ['(']) (o' := ['{']) (t := " val) {\n") rfl (by decide +kernel) s
theorem lit86 (s : List Char) : jrun (.code, s) " = val;\n" = some (.code, s) :=
  jrun_list (o := []) (o' := []) (t := " = val;\n") rfl (by decide +kernel) s
theorem lit87 (s : List Char) : jrun (.code, s) "message" = some (.code, s) :=
  jrun_list (o := []) (o' := []) (t := "message") rfl (by decide +kernel) s
theorem lit88 (s : List Char) : jrun (.code, s) "stackTrace" = some (.code, s) :=
  jrun_list (o := []) (o' := []) (t := "stackTrace") rfl (by decide +kernel) s
theorem lit89 (s : List Char) : jrun (.code, s) "cause" = some (.code, s) :=
  jrun_list (o := []) (o' := []) (t := "cause") rfl (by decide +kernel) s
theorem lit90 (s : List Char) : jrun (.code, s) "localizedMessage" = some (.code, s) :=
  jrun_list (o := []) (o' := []) (t := "localizedMessage") rfl (by decide +kernel) s
theorem lit91 (s : List Char) : jrun (.code, s) "suppressed" = some (.code, s) :=
  jrun_list (o := []) (o' := []) (t := "suppressed") rfl (by decide +kernel) s
theorem lit92 (s : List Char) : jrun (.code, s) "    @Override\n" = some (.code, s) :=
  jrun_list (o := []) (o' := []) (t := "    @Override\n") rfl (by decide +kernel) s
theorem lit93 (s : List Char) : jrun (.code, s) "    public String toString() {\n" = some (.code, '{' :: s) :=
  jrun_list (o := []) (o' := ['{']) (t := "    public String toString() {\n") rfl (by decide +kernel) s
theorem lit94 (s : List Char) : jrun (.code, s) "        return Util.pretty(this);\n" = some (.code, s) :=
  jrun_list (o := []) (o' := []) (t := "        return Util.pretty(this);\n") rfl (by decide +kernel) s
theorem lit95 (s : List Char) : jrun (.code, s) " extends RuntimeException" = some (.code, s) :=
  jrun_list (o := []) (o' := []) (t := " extends RuntimeException") rfl (by decide +kernel) s
theorem lit96 (s : List Char) : jrun (.code, s) "@JsonDeserialize(builder = " = some (.code, '(' :: s) :=
  jrun_list (o := []) (o' := ['(']) (t := "@JsonDeserialize(builder = ") rfl (by decide +kernel) s
theorem lit97 (s : List Char) : jrun (.code, s) "." = some (.code, s) :=
  jrun_list (o := []) (o' := []) (t := ".") rfl (by decide +kernel) s
theorem lit98 (s : List Char) : jrun (.code, '(' :: s) "Builder.class)\n" = some (.code, s) :=
  jrun_list (o := ['(']) (o' := []) (t := "Builder.class)\n") rfl (by decide +kernel) s
theorem lit99 (s : List Char) : jrun (.code, s) "@JsonIgnoreProperties({" = some (.code, '{' :: '(' :: s) :=
  jrun_list (o := []) (o' := ['{', '(']) (t := "@JsonIgnoreProperties({") rfl (by decide +kernel) s
theorem lit100 (s : List Char) : jrun (.code, s) "\"" = some (.str, s) :=
  jrun_list (o := []) (o' := []) (t := "\"") rfl (by decide +kernel) s
theorem lit101 (s : List Char) : jrun (.str, s) "\"" = some (.code, s) :=
  jrun_list (o := []) (o' := []) (t := "\"") rfl (by decide +kernel) s
theorem lit102 (s : List Char) : jrun (.code, '{' :: '(' :: s) "})\n" = some (.code, s) :=
  jrun_list (o := ['{', '(']) (o' := []) (t := "})\n") rfl (by decide +kernel) s
theorem lit103 (s : List Char) : jrun (.code, s) "@Data\n" = some (.code, s) :=
  jrun_list (o := []) (o' := []) (t := "@Data\n") rfl (by decide +kernel) s
theorem lit104 (s : List Char) : jrun (.code, s) "@AllArgsConstructor\n" = some (.code, s) :=
  jrun_list (o := []) (o' := []) (t := "@AllArgsConstructor\n") rfl (by decide +kernel) s
theorem lit105 (s : List Char) : jrun (.code, s) "@Builder\n" = some (.code, s) :=
  jrun_list (o := []) (o' := []) (t := "@Builder\n") rfl (by decide +kernel) s
theorem lit106 (s : List Char) : jrun (.code, s) "@NoArgsConstructor(force=true)\n" = some (.code, s) :=
  jrun_list (o := []) (o' := []) (t := "@NoArgsConstructor(force=true)\n") rfl (by decide +kernel) s
theorem lit107 (s : List Char) : jrun (.code, s) "public class " = some (.code, s) :=
  jrun_list (o := []) (o' := []) (t := "public class ") rfl (by decide +kernel) s
theorem lit108 (s : List Char) : jrun (.code, s) "(\"" = some (.str, '(' :: s) :=
  jrun_list (o := []) (o' := ['(']) (t := "(\"") rfl (by decide +kernel) s
theorem lit109 (s : List Char) : jrun (.str, s) "(\"" = some (.code, s) :=
  jrun_list (o := []) (o' := []) (t := "(\"") rfl (by decide +kernel) s
theorem lit110 (s : List Char) : jrun (.code, s) ";" = some (.code, s) :=
  jrun_list (o := []) (o' := []) (t := ";") rfl (by decide +kernel) s
theorem lit111 (s : List Char) : jrun (.code, s) "public enum " = some (.code, s) :=
  jrun_list (o := []) (o' := []) (t := "public enum ") rfl (by decide +kernel) s
theorem lit112 (s : List Char) : jrun (.code, s) "{\n" = some (.code, '{' :: s) :=
  jrun_list (o := []) (o' := ['{']) (t := "{\n") rfl (by decide +kernel) s
theorem lit113 (s : List Char) : jrun (.code, s) "    private String repr;\n\n" = some (.code, s) :=
  jrun_list (o := []) (o' := []) (t := "    private String repr;\n\n") rfl (by decide +kernel) s
theorem lit114 (s : List Char) : jrun (.code, s) "(String repr) {\n        this.repr = repr;\n    }\n\n" = some (.code, s) :=
  jrun_list (o := []) (o' := []) (t := "(String repr) {\n        this.repr = repr;\n    }\n\n") rfl (by decide +kernel) s
theorem lit115 (s : List Char) : jrun (.code, s) "    @JsonValue\n    @Override\n" = some (.code, s) :=
  jrun_list (o := []) (o' := []) (t := "    @JsonValue\n    @Override\n") rfl (by decide +kernel) s
theorem lit116 (s : List Char) : jrun (.code, s) "    public String toString() {\n        return repr;\n    }\n\n" = some (.code, s) :=
  jrun_list (o := []) (o' := []) (t := "    public String toString() {\n        return repr;\n    }\n\n") rfl (by decide +kernel) s
theorem lit117 (s : List Char) : jrun (.code, s) "    @JsonCreator\n" = some (.code, s) :=
  jrun_list (o := []) (o' := []) (t := "    @JsonCreator\n") rfl (by decide +kernel) s
theorem lit118 (s : List Char) : jrun (.code, s) "    public static " = some (.code, s) :=
  jrun_list (o := []) (o' := []) (t := "    public static ") rfl (by decide +kernel) s
theorem lit119 (s : List Char) : jrun (.code, s) " fromString(String repr) {\n" = some (.code, '{' :: s) :=
  jrun_list (o := []) (o' := ['{']) (t := " fromString(String repr) {\n") rfl (by decide +kernel) s
theorem lit120 (s : List Char) : jrun (.code, s) "        for (" = some (.code, '(' :: s) :=
  jrun_list (o := []) (o' := ['(']) (t := "        for (") rfl (by decide +kernel) s
theorem lit121 (s : List Char) : jrun (.code, '(' :: s) " e : values()) {\n" = some (.code, '{' :: s) :=
  jrun_list (o := ['(']) (o' := ['{']) (t := " e : values()) {\n") rfl (by decide +kernel) s
theorem lit122 (s : List Char) : jrun (.code, s) "            if (e.repr.equals(repr)) {\n" = some (.code, '{' :: s) :=
  jrun_list (o := []) (o' := ['{']) (t := "            if (e.repr.equals(repr)) {\n") rfl (by decide +kernel) s
theorem lit123 (s : List Char) : jrun (.code, s) "                return e;\n" = some (.code, s) :=
  jrun_list (o := []) (o' := []) (t := "                return e;\n") rfl (by decide +kernel) s
theorem lit124 (s : List Char) : jrun (.code, '{' :: s) "            }\n" = some (.code, s) :=
  jrun_list (o := ['{']) (o' := []) (t := "            }\n") rfl (by decide +kernel) s
theorem lit125 (s : List Char) : jrun (.code, '{' :: s) "        }\n" = some (.code, s) :=
  jrun_list (o := ['{']) (o' := []) (t := "        }\n") rfl (by decide +kernel) s
theorem lit126 (s : List Char) : jrun (.code, s) "        throw new IllegalArgumentException(\"Invalid string representation for " = some (.str, '(' :: s) :=
  jrun_list (o := []) (o' := ['(']) (t := "        throw new IllegalArgumentException(\"Invalid string representation for ") rfl (by decide +kernel) s
theorem lit127 (s : List Char) : jrun (.str, s) "        throw new IllegalArgumentException(\"Invalid string representation for " = some (.code, s) :=
  jrun_list (o := []) (o' := []) (t := "        throw new IllegalArgumentException(\"Invalid string representation for ") rfl (by decide +kernel) s
theorem lit128 (s : List Char) : jrun (.str, '(' :: s) ": \" + repr);\n" = some (.code, s) :=
  jrun_list (o := ['(']) (o' := []) (t := ": \" + repr);\n") rfl (by decide +kernel) s
theorem lit129 (s : List Char) : jrun (.code, s) "@Data\n@AllArgsConstructor\n@Builder\n@NoArgsConstructor\n" = some (.code, s) :=
  jrun_list (o := []) (o' := []) (t := "@Data\n@AllArgsConstructor\n@Builder\n@NoArgsConstructor\n") rfl (by decide +kernel) s
theorem lit130 (s : List Char) : jrun (.code, s) "    public enum Variant {\n" = some (.code, '{' :: s) :=
  jrun_list (o := []) (o' := ['{']) (t := "    public enum Variant {\n") rfl (by decide +kernel) s
theorem lit131 (s : List Char) : jrun (.code, s) ",\n" = some (.code, s) :=
  jrun_list (o := []) (o' := []) (t := ",\n") rfl (by decide +kernel) s
theorem lit132 (s : List Char) : jrun (.code, s) "        " = some (.code, s) :=
  jrun_list (o := []) (o' := []) (t := "        ") rfl (by decide +kernel) s
theorem lit133 (s : List Char) : jrun (.code, s) "    @JsonIgnore\n" = some (.code, s) :=
  jrun_list (o := []) (o' := []) (t := "    @JsonIgnore\n") rfl (by decide +kernel) s
theorem lit134 (s : List Char) : jrun (.code, s) "    public Variant variant;\n\n" = some (.code, s) :=
  jrun_list (o := []) (o' := []) (t := "    public Variant variant;\n\n") rfl (by decide +kernel) s
theorem lit135 (s : List Char) : jrun (.code, s) "    @JsonInclude(JsonInclude.Include.NON_EMPTY)\n" = some (.code, s) :=
  jrun_list (o := []) (o' := []) (t := "    @JsonInclude(JsonInclude.Include.NON_EMPTY)\n") rfl (by decide +kernel) s
theorem lit136 (s : List Char) : jrun (.code, s) "    public final " = some (.code, s) :=
  jrun_list (o := []) (o' := []) (t := "    public final ") rfl (by decide +kernel) s
theorem lit137 (s : List Char) : jrun (.code, s) "\n    @JsonCreator\n" = some (.code, s) :=
  jrun_list (o := []) (o' := []) (t := "\n    @JsonCreator\n") rfl (by decide +kernel) s
theorem lit138 (s : List Char) : jrun (.code, s) "@JsonProperty(\"" = some (.str, '(' :: s) :=
  jrun_list (o := []) (o' := ['(']) (t := "@JsonProperty(\"") rfl (by decide +kernel) s
theorem lit139 (s : List Char) : jrun (.str, s) "@JsonProperty(\"" = some (.code, s) :=
  jrun_list (o := []) (o' := []) (t := "@JsonProperty(\"") rfl (by decide +kernel) s
theorem lit140 (s : List Char) : jrun (.code, s) "\") " = some (.str, s) :=
  jrun_list (o := []) (o' := []) (t := "\") ") rfl (by decide +kernel) s
theorem lit141 (s : List Char) : jrun (.str, '(' :: s) "\") " = some (.code, s) :=
  jrun_list (o := ['(']) (o' := []) (t := "\") ") rfl (by decide +kernel) s
theorem lit142 (s : List Char) : jrun (.code, s) "        if (" = some (.code, '(' :: s) :=
  jrun_list (o := []) (o' := ['(']) (t := "        if (") rfl (by decide +kernel) s
theorem lit143 (s : List Char) : jrun (.code, '(' :: s) " != null) {\n" = some (.code, '{' :: s) :=
  jrun_list (o := ['(']) (o' := ['{']) (t := " != null) {\n") rfl (by decide +kernel) s
theorem lit144 (s : List Char) : jrun (.code, s) "            this.variant = Variant." = some (.code, s) :=
  jrun_list (o := []) (o' := []) (t := "            this.variant = Variant.") rfl (by decide +kernel) s
theorem lit145 (s : List Char) : jrun (.code, s) "\n    public static " = some (.code, s) :=
  jrun_list (o := []) (o' := []) (t := "\n    public static ") rfl (by decide +kernel) s
theorem lit146 (s : List Char) : jrun (.code, s) " of" = some (.code, s) :=
  jrun_list (o := []) (o' := []) (t := " of") rfl (by decide +kernel) s
theorem lit147 (s : List Char) : jrun (.code, '(' :: s) " v) {\n" = some (.code, '{' :: s) :=
  jrun_list (o := ['(']) (o' := ['{']) (t := " v) {\n") rfl (by decide +kernel) s
theorem lit148 (s : List Char) : jrun (.code, s) "v" = some (.code, s) :=
  jrun_list (o := []) (o' := []) (t := "v") rfl (by decide +kernel) s
theorem lit149 (s : List Char) : jrun (.code, s) "null" = some (.code, s) :=
  jrun_list (o := []) (o' := []) (t := "null") rfl (by decide +kernel) s
theorem lit150 (s : List Char) : jrun (.code, s) " {\n\n" = some (.code, '{' :: s) :=
  jrun_list (o := []) (o' := ['{']) (t := " {\n\n") rfl (by decide +kernel) s
theorem lit151 (s : List Char) : jrun (.code, s) " value;\n" = some (.code, s) :=
  jrun_list (o := []) (o' := []) (t := " value;\n") rfl (by decide +kernel) s
theorem lit152 (s : List Char) : jrun (.code, s) " unit;\n\n" = some (.code, s) :=
  jrun_list (o := []) (o' := []) (t := " unit;\n\n") rfl (by decide +kernel) s
theorem lit153 (s : List Char) : jrun (.code, s) " value, @NotNull " = some (.code, s) :=
  jrun_list (o := []) (o' := []) (t := " value, @NotNull ") rfl (by decide +kernel) s
theorem lit154 (s : List Char) : jrun (.code, '(' :: s) " unit) {\n" = some (.code, '{' :: s) :=
  jrun_list (o := ['(']) (o' := ['{']) (t := " unit) {\n") rfl (by decide +kernel) s
theorem lit155 (s : List Char) : jrun (.code, s) "        this.value = value;\n" = some (.code, s) :=
  jrun_list (o := []) (o' := []) (t := "        this.value = value;\n") rfl (by decide +kernel) s
theorem lit156 (s : List Char) : jrun (.code, s) "        this.unit = unit;\n" = some (.code, s) :=
  jrun_list (o := []) (o' := []) (t := "        this.unit = unit;\n") rfl (by decide +kernel) s
theorem lit157 (s : List Char) : jrun (.code, s) "(@NotNull String repr) {\n" = some (.code, '{' :: s) :=
  jrun_list (o := []) (o' := ['{']) (t := "(@NotNull String repr) {\n") rfl (by decide +kernel) s
theorem lit158 (s : List Char) : jrun (.code, s) "        String[] tmp = repr.split(\" \");\n" = some (.code, s) :=
  jrun_list (o := []) (o' := []) (t := "        String[] tmp = repr.split(\" \");\n") rfl (by decide +kernel) s
theorem lit159 (s : List Char) : jrun (.code, s) "        this.value = " = some (.code, s) :=
  jrun_list (o := []) (o' := []) (t := "        this.value = ") rfl (by decide +kernel) s
theorem lit160 (s : List Char) : jrun (.code, s) "        this.unit = " = some (.code, s) :=
  jrun_list (o := []) (o' := []) (t := "        this.unit = ") rfl (by decide +kernel) s
theorem lit161 (s : List Char) : jrun (.code, s) "    @JsonValue\n" = some (.code, s) :=
  jrun_list (o := []) (o' := []) (t := "    @JsonValue\n") rfl (by decide +kernel) s
theorem lit162 (s : List Char) : jrun (.code, s) "        return value + \" \" + unit;\n" = some (.code, s) :=
  jrun_list (o := []) (o' := []) (t := "        return value + \" \" + unit;\n") rfl (by decide +kernel) s
theorem lit163 (s : List Char) : jrun (.code, s) "@DefaultValue(\"" = some (.str, '(' :: s) :=
  jrun_list (o := []) (o' := ['(']) (t := "@DefaultValue(\"") rfl (by decide +kernel) s
theorem lit164 (s : List Char) : jrun (.str, s) "@DefaultValue(\"" = some (.code, s) :=
  jrun_list (o := []) (o' := []) (t := "@DefaultValue(\"") rfl (by decide +kernel) s
theorem lit165 (s : List Char) : jrun (.code, s) "@QueryParam(\"" = some (.str, '(' :: s) :=
  jrun_list (o := []) (o' := ['(']) (t := "@QueryParam(\"") rfl (by decide +kernel) s
theorem lit166 (s : List Char) : jrun (.str, s) "@QueryParam(\"" = some (.code, s) :=
  jrun_list (o := []) (o' := []) (t := "@QueryParam(\"") rfl (by decide +kernel) s
theorem lit167 (s : List Char) : jrun (.code, s) "@HeaderParam(\"" = some (.str, '(' :: s) :=
  jrun_list (o := []) (o' := ['(']) (t := "@HeaderParam(\"") rfl (by decide +kernel) s
theorem lit168 (s : List Char) : jrun (.str, s) "@HeaderParam(\"" = some (.code, s) :=
  jrun_list (o := []) (o' := []) (t := "@HeaderParam(\"") rfl (by decide +kernel) s
theorem lit169 (s : List Char) : jrun (.code, s) "@PathParam(\"" = some (.str, '(' :: s) :=
  jrun_list (o := []) (o' := ['(']) (t := "@PathParam(\"") rfl (by decide +kernel) s
theorem lit170 (s : List Char) : jrun (.str, s) "@PathParam(\"" = some (.code, s) :=
  jrun_list (o := []) (o' := []) (t := "@PathParam(\"") rfl (by decide +kernel) s
theorem lit171 (s : List Char) : jrun (.code, s) "ServiceException" = some (.code, s) :=
  jrun_list (o := []) (o' := []) (t := "ServiceException") rfl (by decide +kernel) s
theorem lit172 (s : List Char) : jrun (.code, '{' :: s) "        } catch (ServiceException se) {\n" = some (.code, '{' :: s) :=
  jrun_list (o := ['{']) (o' := ['{']) (t := "        } catch (ServiceException se) {\n") rfl (by decide +kernel) s
theorem lit173 (s : List Char) : jrun (.code, s) "            Object entity = se.entity == null? se : se.entity;\n" = some (.code, s) :=
  jrun_list (o := []) (o' := []) (t := "            Object entity = se.entity == null? se : se.entity;\n") rfl (by decide +kernel) s
theorem lit174 (s : List Char) : jrun (.code, s) "            int status = 500;\n" = some (.code, s) :=
  jrun_list (o := []) (o' := []) (t := "            int status = 500;\n") rfl (by decide +kernel) s
theorem lit175 (s : List Char) : jrun (.code, s) "            if (entity instanceof " = some (.code, '(' :: s) :=
  jrun_list (o := []) (o' := ['(']) (t := "            if (entity instanceof ") rfl (by decide +kernel) s
theorem lit176 (s : List Char) : jrun (.code, '{' :: s) "            } else if (entity instanceof " = some (.code, '(' :: s) :=
  jrun_list (o := ['{']) (o' := ['(']) (t := "            } else if (entity instanceof ") rfl (by decide +kernel) s
theorem lit177 (s : List Char) : jrun (.code, s) "                status = " = some (.code, s) :=
  jrun_list (o := []) (o' := []) (t := "                status = ") rfl (by decide +kernel) s
theorem lit178 (s : List Char) : jrun (.code, s) "                entity = null;\n" = some (.code, s) :=
  jrun_list (o := []) (o' := []) (t := "                entity = null;\n") rfl (by decide +kernel) s
theorem lit179 (s : List Char) : jrun (.code, s) "            if (entity == null) {\n" = some (.code, '{' :: s) :=
  jrun_list (o := []) (o' := ['{']) (t := "            if (entity == null) {\n") rfl (by decide +kernel) s
theorem lit180 (s : List Char) : jrun (.code, s) "                throw new WebApplicationException(status);\n" = some (.code, s) :=
  jrun_list (o := []) (o' := []) (t := "                throw new WebApplicationException(status);\n") rfl (by decide +kernel) s
theorem lit181 (s : List Char) : jrun (.code, s) "            throw new WebApplicationException(Response.status(status).entity(entity).build());\n" = some (.code, s) :=
  jrun_list (o := []) (o' := []) (t := "            throw new WebApplicationException(Response.status(status).entity(entity).build());\n") rfl (by decide +kernel) s
theorem lit182 (s : List Char) : jrun (.code, s) "Controller" = some (.code, s) :=
  jrun_list (o := []) (o' := []) (t := "Controller") rfl (by decide +kernel) s
theorem lit183 (s : List Char) : jrun (.code, s) " req = " = some (.code, s) :=
  jrun_list (o := []) (o' := []) (t := " req = ") rfl (by decide +kernel) s
theorem lit184 (s : List Char) : jrun (.code, s) ".builder()" = some (.code, s) :=
  jrun_list (o := []) (o' := []) (t := ".builder()") rfl (by decide +kernel) s
theorem lit185 (s : List Char) : jrun (.code, s) "new " = some (.code, s) :=
  jrun_list (o := []) (o' := []) (t := "new ") rfl (by decide +kernel) s
theorem lit186 (s : List Char) : jrun (.code, s) "()" = some (.code, s) :=
  jrun_list (o := []) (o' := []) (t := "()") rfl (by decide +kernel) s
theorem lit187 (s : List Char) : jrun (.code, s) ".build()" = some (.code, s) :=
  jrun_list (o := []) (o' := []) (t := ".build()") rfl (by decide +kernel) s
theorem lit188 (s : List Char) : jrun (.code, s) "        try {\n" = some (.code, '{' :: s) :=
  jrun_list (o := []) (o' := ['{']) (t := "        try {\n") rfl (by decide +kernel) s
theorem lit189 (s : List Char) : jrun (.code, s) "            " = some (.code, s) :=
  jrun_list (o := []) (o' := []) (t := "            ") rfl (by decide +kernel) s
theorem lit190 (s : List Char) : jrun (.code, s) " res = " = some (.code, s) :=
  jrun_list (o := []) (o' := []) (t := " res = ") rfl (by decide +kernel) s
theorem lit191 (s : List Char) : jrun (.code, s) "(req);\n" = some (.code, s) :=
  jrun_list (o := []) (o' := []) (t := "(req);\n") rfl (by decide +kernel) s
theorem lit192 (s : List Char) : jrun (.code, s) "            return Response.status(" = some (.code, '(' :: s) :=
  jrun_list (o := []) (o' := ['(']) (t := "            return Response.status(") rfl (by decide +kernel) s
theorem lit193 (s : List Char) : jrun (.code, s) ".header(\"" = some (.str, '(' :: s) :=
  jrun_list (o := []) (o' := ['(']) (t := ".header(\"") rfl (by decide +kernel) s
theorem lit194 (s : List Char) : jrun (.str, s) ".header(\"" = some (.code, s) :=
  jrun_list (o := []) (o' := []) (t := ".header(\"") rfl (by decide +kernel) s
theorem lit195 (s : List Char) : jrun (.code, s) "\", res.get" = some (.str, s) :=
  jrun_list (o := []) (o' := []) (t := "\", res.get") rfl (by decide +kernel) s
theorem lit196 (s : List Char) : jrun (.str, s) "\", res.get" = some (.code, s) :=
  jrun_list (o := []) (o' := []) (t := "\", res.get") rfl (by decide +kernel) s
theorem lit197 (s : List Char) : jrun (.code, '(' :: s) "())" = some (.code, s) :=
  jrun_list (o := ['(']) (o' := []) (t := "())") rfl (by decide +kernel) s
theorem lit198 (s : List Char) : jrun (.code, s) "res.get" = some (.code, s) :=
  jrun_list (o := []) (o' := []) (t := "res.get") rfl (by decide +kernel) s
theorem lit199 (s : List Char) : jrun (.code, s) "res." = some (.code, s) :=
  jrun_list (o := []) (o' := []) (t := "res.") rfl (by decide +kernel) s
theorem lit200 (s : List Char) : jrun (.code, s) ".entity(" = some (.code, '(' :: s) :=
  jrun_list (o := []) (o' := ['(']) (t := ".entity(") rfl (by decide +kernel) s
theorem lit201 (s : List Char) : jrun (.code, s) "Util.toJson(" = some (.code, '(' :: s) :=
  jrun_list (o := []) (o' := ['(']) (t := "Util.toJson(") rfl (by decide +kernel) s
theorem lit202 (s : List Char) : jrun (.code, s) ".build();\n" = some (.code, s) :=
  jrun_list (o := []) (o' := []) (t := ".build();\n") rfl (by decide +kernel) s
theorem lit203 (s : List Char) : jrun (.code, '(' :: s) ").build();\n" = some (.code, s) :=
  jrun_list (o := ['(']) (o' := []) (t := ").build();\n") rfl (by decide +kernel) s
theorem lit204 (s : List Char) : jrun (.code, '{' :: s) "        } catch (" = some (.code, '(' :: s) :=
  jrun_list (o := ['{']) (o' := ['(']) (t := "        } catch (") rfl (by decide +kernel) s
theorem lit205 (s : List Char) : jrun (.code, '(' :: s) " e) {\n" = some (.code, '{' :: s) :=
  jrun_list (o := ['(']) (o' := ['{']) (t := " e) {\n") rfl (by decide +kernel) s
theorem lit206 (s : List Char) : jrun (.code, s) "                throw new WebApplicationException(Response.status(" = some (.code, '(' :: '(' :: s) :=
  jrun_list (o := []) (o' := ['(', '(']) (t := "                throw new WebApplicationException(Response.status(") rfl (by decide +kernel) s
theorem lit207 (s : List Char) : jrun (.code, '(' :: '(' :: s) ").entity(e).build());\n" = some (.code, s) :=
  jrun_list (o := ['(', '(']) (o' := []) (t := ").entity(e).build());\n") rfl (by decide +kernel) s
theorem lit208 (s : List Char) : jrun (.code, '{' :: s) "        } catch (Throwable th) {\n" = some (.code, '{' :: s) :=
  jrun_list (o := ['{']) (o' := ['{']) (t := "        } catch (Throwable th) {\n") rfl (by decide +kernel) s
theorem lit209 (s : List Char) : jrun (.code, s) "            return Response.status(500).build();\n" = some (.code, s) :=
  jrun_list (o := []) (o' := []) (t := "            return Response.status(500).build();\n") rfl (by decide +kernel) s
theorem lit210 (s : List Char) : jrun (.code, s) "import " = some (.code, s) :=
  jrun_list (o := []) (o' := []) (t := "import ") rfl (by decide +kernel) s
theorem lit211 (s : List Char) : jrun (.code, s) ".*;" = some (.code, s) :=
  jrun_list (o := []) (o' := []) (t := ".*;") rfl (by decide +kernel) s
theorem lit212 (s : List Char) : jrun (.code, s) "import java.util.*;\n" = some (.code, s) :=
  jrun_list (o := []) (o' := []) (t := "import java.util.*;\n") rfl (by decide +kernel) s
theorem lit213 (s : List Char) : jrun (.code, s) "import java.time.Instant;\n" = some (.code, s) :=
  jrun_list (o := []) (o' := []) (t := "import java.time.Instant;\n") rfl (by decide +kernel) s
theorem lit214 (s : List Char) : jrun (.code, s) "import javax.inject.Inject;\n" = some (.code, s) :=
  jrun_list (o := []) (o' := []) (t := "import javax.inject.Inject;\n") rfl (by decide +kernel) s
theorem lit215 (s : List Char) : jrun (.code, s) "import javax.ws.rs.*;\n" = some (.code, s) :=
  jrun_list (o := []) (o' := []) (t := "import javax.ws.rs.*;\n") rfl (by decide +kernel) s
theorem lit216 (s : List Char) : jrun (.code, s) "import javax.ws.rs.core.*;\n" = some (.code, s) :=
  jrun_list (o := []) (o' := []) (t := "import javax.ws.rs.core.*;\n") rfl (by decide +kernel) s
theorem lit217 (s : List Char) : jrun (.code, s) "import static javax.ws.rs.core.Response.Status;\n" = some (.code, s) :=
  jrun_list (o := []) (o' := []) (t := "import static javax.ws.rs.core.Response.Status;\n") rfl (by decide +kernel) s
theorem lit218 (s : List Char) : jrun (.code, s) "import com.fasterxml.jackson.annotation.JsonInclude;\n" = some (.code, s) :=
  jrun_list (o := []) (o' := []) (t := "import com.fasterxml.jackson.annotation.JsonInclude;\n") rfl (by decide +kernel) s
theorem lit219 (s : List Char) : jrun (.code, s) "import com.fasterxml.jackson.annotation.JsonInclude.Include;\n" = some (.code, s) :=
  jrun_list (o := []) (o' := []) (t := "import com.fasterxml.jackson.annotation.JsonInclude.Include;\n") rfl (by decide +kernel) s
theorem lit220 (s : List Char) : jrun (.code, s) "import com.fasterxml.jackson.databind.ObjectMapper;\n" = some (.code, s) :=
  jrun_list (o := []) (o' := []) (t := "import com.fasterxml.jackson.databind.ObjectMapper;\n") rfl (by decide +kernel) s
theorem lit221 (s : List Char) : jrun (.code, s) "import com.fasterxml.jackson.databind.SerializationFeature;\n" = some (.code, s) :=
  jrun_list (o := []) (o' := []) (t := "import com.fasterxml.jackson.databind.SerializationFeature;\n") rfl (by decide +kernel) s
theorem lit222 (s : List Char) : jrun (.code, s) "import com.fasterxml.jackson.databind.DeserializationFeature;\n\n" = some (.code, s) :=
  jrun_list (o := []) (o' := []) (t := "import com.fasterxml.jackson.databind.DeserializationFeature;\n\n") rfl (by decide +kernel) s
theorem lit223 (s : List Char) : jrun (.code, s) "@Path(\"" = some (.str, '(' :: s) :=
  jrun_list (o := []) (o' := ['(']) (t := "@Path(\"") rfl (by decide +kernel) s
theorem lit224 (s : List Char) : jrun (.str, s) "@Path(\"" = some (.code, s) :=
  jrun_list (o := []) (o' := []) (t := "@Path(\"") rfl (by decide +kernel) s
theorem lit225 (s : List Char) : jrun (.str, '(' :: s) "\")\n" = some (.code, s) :=
  jrun_list (o := ['(']) (o' := []) (t := "\")\n") rfl (by decide +kernel) s
theorem lit226 (s : List Char) : jrun (.code, s) "Resources {\n" = some (.code, '{' :: s) :=
  jrun_list (o := []) (o' := ['{']) (t := "Resources {\n") rfl (by decide +kernel) s
theorem lit227 (s : List Char) : jrun (.code, s) "    @Inject\n" = some (.code, s) :=
  jrun_list (o := []) (o' := []) (t := "    @Inject\n") rfl (by decide +kernel) s
theorem lit228 (s : List Char) : jrun (.code, s) "Controller;\n" = some (.code, s) :=
  jrun_list (o := []) (o' := []) (t := "Controller;\n") rfl (by decide +kernel) s
theorem lit229 (s : List Char) : jrun (.code, s) "\n    \n    @" = some (.code, s) :=
  jrun_list (o := []) (o' := []) (t := "\n    \n    @") rfl (by decide +kernel) s
theorem lit230 (s : List Char) : jrun (.code, s) "\n    @Path(\"" = some (.str, '(' :: s) :=
  jrun_list (o := []) (o' := ['(']) (t := "\n    @Path(\"") rfl (by decide +kernel) s
theorem lit231 (s : List Char) : jrun (.str, '(' :: s) "\")\n    @Produces(MediaType.APPLICATION_JSON)\n" = some (.code, s) :=
  jrun_list (o := ['(']) (o' := []) (t := "\")\n    @Produces(MediaType.APPLICATION_JSON)\n") rfl (by decide +kernel) s
theorem lit232 (s : List Char) : jrun (.code, s) "    public Response " = some (.code, s) :=
  jrun_list (o := []) (o' := []) (t := "    public Response ") rfl (by decide +kernel) s
theorem lit233 (s : List Char) : jrun (.code, '{' :: s) "\n\n}\n" = some (.code, s) :=
  jrun_list (o := ['{']) (o' := []) (t := "\n\n}\n") rfl (by decide +kernel) s
theorem lit234 (s : List Char) : jrun (.code, s) "\nimport org.eclipse.jetty.server.Server;\n" = some (.code, s) :=
  jrun_list (o := []) (o' := []) (t := "\nimport org.eclipse.jetty.server.Server;\n") rfl (by decide +kernel) s
theorem lit235 (s : List Char) : jrun (.code, s) "import org.glassfish.jersey.jetty.JettyHttpContainerFactory;\n" = some (.code, s) :=
  jrun_list (o := []) (o' := []) (t := "import org.glassfish.jersey.jetty.JettyHttpContainerFactory;\n") rfl (by decide +kernel) s
theorem lit236 (s : List Char) : jrun (.code, s) "import org.glassfish.jersey.server.ResourceConfig;\n" = some (.code, s) :=
  jrun_list (o := []) (o' := []) (t := "import org.glassfish.jersey.server.ResourceConfig;\n") rfl (by decide +kernel) s
theorem lit237 (s : List Char) : jrun (.code, s) "import org.glassfish.jersey.logging.LoggingFeature;\n" = some (.code, s) :=
  jrun_list (o := []) (o' := []) (t := "import org.glassfish.jersey.logging.LoggingFeature;\n") rfl (by decide +kernel) s
theorem lit238 (s : List Char) : jrun (.code, s) "import org.glassfish.hk2.utilities.binding.AbstractBinder;\n" = some (.code, s) :=
  jrun_list (o := []) (o' := []) (t := "import org.glassfish.hk2.utilities.binding.AbstractBinder;\n") rfl (by decide +kernel) s
theorem lit239 (s : List Char) : jrun (.code, s) "import org.glassfish.jersey.jackson.JacksonFeature;\n" = some (.code, s) :=
  jrun_list (o := []) (o' := []) (t := "import org.glassfish.jersey.jackson.JacksonFeature;\n") rfl (by decide +kernel) s
theorem lit240 (s : List Char) : jrun (.code, s) "import javax.ws.rs.core.UriBuilder;\n" = some (.code, s) :=
  jrun_list (o := []) (o' := []) (t := "import javax.ws.rs.core.UriBuilder;\n") rfl (by decide +kernel) s
theorem lit241 (s : List Char) : jrun (.code, s) "import java.io.IOException;\n" = some (.code, s) :=
  jrun_list (o := []) (o' := []) (t := "import java.io.IOException;\n") rfl (by decide +kernel) s
theorem lit242 (s : List Char) : jrun (.code, s) "import java.net.URI;\n" = some (.code, s) :=
  jrun_list (o := []) (o' := []) (t := "import java.net.URI;\n") rfl (by decide +kernel) s
theorem lit243 (s : List Char) : jrun (.code, s) "import java.util.logging.Logger;\n" = some (.code, s) :=
  jrun_list (o := []) (o' := []) (t := "import java.util.logging.Logger;\n") rfl (by decide +kernel) s
theorem lit244 (s : List Char) : jrun (.code, s) "import java.util.logging.Level;\n" = some (.code, s) :=
  jrun_list (o := []) (o' := []) (t := "import java.util.logging.Level;\n") rfl (by decide +kernel) s
theorem lit245 (s : List Char) : jrun (.code, s) "\n\n" = some (.code, s) :=
  jrun_list (o := []) (o' := []) (t := "\n\n") rfl (by decide +kernel) s
theorem lit246 (s : List Char) : jrun (.code, s) "// A placeholder implementation and launcher for the service\n" = some (.code, s) :=
  jrun_list (o := []) (o' := []) (t := "// A placeholder implementation and launcher for the service\n") rfl (by decide +kernel) s
theorem lit247 (s : List Char) : jrun (.code, s) "public class Main {\n" = some (.code, '{' :: s) :=
  jrun_list (o := []) (o' := ['{']) (t := "public class Main {\n") rfl (by decide +kernel) s
theorem lit248 (s : List Char) : jrun (.code, s) "    public static String BASE_URI = \"http://localhost:8000/\";\n" = some (.code, s) :=
  jrun_list (o := []) (o' := []) (t := "    public static String BASE_URI = \"http://localhost:8000/\";\n") rfl (by decide +kernel) s
theorem lit249 (s : List Char) : jrun (.code, s) "    public static void main(String[] args) {\n" = some (.code, '{' :: s) :=
  jrun_list (o := []) (o' := ['{']) (t := "    public static void main(String[] args) {\n") rfl (by decide +kernel) s
theorem lit250 (s : List Char) : jrun (.code, s) "            Server server = startServer();\n" = some (.code, s) :=
  jrun_list (o := []) (o' := []) (t := "            Server server = startServer();\n") rfl (by decide +kernel) s
theorem lit251 (s : List Char) : jrun (.code, s) "            server.join();\n" = some (.code, s) :=
  jrun_list (o := []) (o' := []) (t := "            server.join();\n") rfl (by decide +kernel) s
theorem lit252 (s : List Char) : jrun (.code, '{' :: s) "        } catch (Exception e) {\n" = some (.code, '{' :: s) :=
  jrun_list (o := ['{']) (o' := ['{']) (t := "        } catch (Exception e) {\n") rfl (by decide +kernel) s
theorem lit253 (s : List Char) : jrun (.code, s) "            System.err.println(\"*** \" + e);\n" = some (.code, s) :=
  jrun_list (o := []) (o' := []) (t := "            System.err.println(\"*** \" + e);\n") rfl (by decide +kernel) s
theorem lit254 (s : List Char) : jrun (.code, s) "    public static Server startServer() throws Exception {\n" = some (.code, '{' :: s) :=
  jrun_list (o := []) (o' := ['{']) (t := "    public static Server startServer() throws Exception {\n") rfl (by decide +kernel) s
theorem lit255 (s : List Char) : jrun (.code, s) "        URI baseUri = UriBuilder.fromUri(BASE_URI).build();\n" = some (.code, s) :=
  jrun_list (o := []) (o' := []) (t := "        URI baseUri = UriBuilder.fromUri(BASE_URI).build();\n") rfl (by decide +kernel) s
theorem lit256 (s : List Char) : jrun (.code, s) "        ResourceConfig config = new ResourceConfig(" = some (.code, '(' :: s) :=
  jrun_list (o := []) (o' := ['(']) (t := "        ResourceConfig config = new ResourceConfig(") rfl (by decide +kernel) s
theorem lit257 (s : List Char) : jrun (.code, '(' :: s) "Resources.class);\n" = some (.code, s) :=
  jrun_list (o := ['(']) (o' := []) (t := "Resources.class);\n") rfl (by decide +kernel) s
theorem lit258 (s : List Char) : jrun (.code, s) "        config.register(new LoggingFeature(Logger.getLogger(LoggingFeature.DEFAULT_LOGGER_NAME),\n" = some (.code, '(' :: '(' :: s) :=
  jrun_list (o := []) (o' := ['(', '(']) (t := "        config.register(new LoggingFeature(Logger.getLogger(LoggingFeature.DEFAULT_LOGGER_NAME),\n") rfl (by decide +kernel) s
theorem lit259 (s : List Char) : jrun (.code, '(' :: '(' :: s) "                                           Level.INFO, LoggingFeature.Verbosity.PAYLOAD_ANY, 10000));\n" = some (.code, s) :=
  jrun_list (o := ['(', '(']) (o' := []) (t := "                                           Level.INFO, LoggingFeature.Verbosity.PAYLOAD_ANY, 10000));\n") rfl (by decide +kernel) s
theorem lit260 (s : List Char) : jrun (.code, s) "config.register(Util.InstantConverterProvider.class);\n        " = some (.code, s) :=
  jrun_list (o := []) (o' := []) (t := "config.register(Util.InstantConverterProvider.class);\n        ") rfl (by decide +kernel) s
theorem lit261 (s : List Char) : jrun (.code, s) "config.registerInstances(new AbstractBinder() {\n" = some (.code, '{' :: '(' :: s) :=
  jrun_list (o := []) (o' := ['{', '(']) (t := "config.registerInstances(new AbstractBinder() {\n") rfl (by decide +kernel) s
theorem lit262 (s : List Char) : jrun (.code, s) "                @Override\n" = some (.code, s) :=
  jrun_list (o := []) (o' := []) (t := "                @Override\n") rfl (by decide +kernel) s
theorem lit263 (s : List Char) : jrun (.code, s) "                protected void configure() {\n" = some (.code, '{' :: s) :=
  jrun_list (o := []) (o' := ['{']) (t := "                protected void configure() {\n") rfl (by decide +kernel) s
theorem lit264 (s : List Char) : jrun (.code, s) "                    bind(" = some (.code, '(' :: s) :=
  jrun_list (o := []) (o' := ['(']) (t := "                    bind(") rfl (by decide +kernel) s
theorem lit265 (s : List Char) : jrun (.code, '(' :: s) "Controller.class).to(" = some (.code, '(' :: s) :=
  jrun_list (o := ['(']) (o' := ['(']) (t := "Controller.class).to(") rfl (by decide +kernel) s
theorem lit266 (s : List Char) : jrun (.code, '(' :: s) ".class);\n" = some (.code, s) :=
  jrun_list (o := ['(']) (o' := []) (t := ".class);\n") rfl (by decide +kernel) s
theorem lit267 (s : List Char) : jrun (.code, '{' :: s) "                }\n" = some (.code, s) :=
  jrun_list (o := ['{']) (o' := []) (t := "                }\n") rfl (by decide +kernel) s
theorem lit268 (s : List Char) : jrun (.code, '{' :: '(' :: s) "            });\n" = some (.code, s) :=
  jrun_list (o := ['{', '(']) (o' := []) (t := "            });\n") rfl (by decide +kernel) s
theorem lit269 (s : List Char) : jrun (.code, s) "        Server server = JettyHttpContainerFactory.createServer(baseUri, config);\n" = some (.code, s) :=
  jrun_list (o := []) (o' := []) (t := "        Server server = JettyHttpContainerFactory.createServer(baseUri, config);\n") rfl (by decide +kernel) s
theorem lit270 (s : List Char) : jrun (.code, s) "        server.start();\n" = some (.code, s) :=
  jrun_list (o := []) (o' := []) (t := "        server.start();\n") rfl (by decide +kernel) s
theorem lit271 (s : List Char) : jrun (.code, s) "        System.out.println(String.format(\"Service started at %s\", BASE_URI));\n" = some (.code, s) :=
  jrun_list (o := []) (o' := []) (t := "        System.out.println(String.format(\"Service started at %s\", BASE_URI));\n") rfl (by decide +kernel) s
theorem lit272 (s : List Char) : jrun (.code, s) "        return server;\n" = some (.code, s) :=
  jrun_list (o := []) (o' := []) (t := "        return server;\n") rfl (by decide +kernel) s
theorem lit273 (s : List Char) : jrun (.code, s) "\n// Stubs for an implementation of the service follow\n" = some (.code, s) :=
  jrun_list (o := []) (o' := []) (t := "\n// Stubs for an implementation of the service follow\n") rfl (by decide +kernel) s
theorem lit274 (s : List Char) : jrun (.code, s) "Controller implements " = some (.code, s) :=
  jrun_list (o := []) (o' := []) (t := "Controller implements ") rfl (by decide +kernel) s
theorem lit275 (s : List Char) : jrun (.code, s) "\n    public " = some (.code, s) :=
  jrun_list (o := []) (o' := []) (t := "\n    public ") rfl (by decide +kernel) s
theorem lit276 (s : List Char) : jrun (.code, '(' :: s) " req) {\n" = some (.code, '{' :: s) :=
  jrun_list (o := ['(']) (o' := ['{']) (t := " req) {\n") rfl (by decide +kernel) s
theorem lit277 (s : List Char) : jrun (.code, s) ".builder().build()" = some (.code, s) :=
  jrun_list (o := []) (o' := []) (t := ".builder().build()") rfl (by decide +kernel) s
theorem lit278 (s : List Char) : jrun (.code, s) "; //implement me!\n" = some (.code, s) :=
  jrun_list (o := []) (o' := []) (t := "; //implement me!\n") rfl (by decide +kernel) s
theorem lit279 (s : List Char) : jrun (.code, '{' :: s) "\n}\n" = some (.code, s) :=
  jrun_list (o := ['{']) (o' := []) (t := "\n}\n") rfl (by decide +kernel) s
theorem lit280 (s : List Char) : jrun (.code, s) "Instant" = some (.code, s) :=
  jrun_list (o := []) (o' := []) (t := "Instant") rfl (by decide +kernel) s
theorem lit281 (s : List Char) : jrun (.code, s) "Instant.parse(" = some (.code, '(' :: s) :=
  jrun_list (o := []) (o' := ['(']) (t := "Instant.parse(") rfl (by decide +kernel) s
theorem lit282 (s : List Char) : jrun (.code, s) "req.get" = some (.code, s) :=
  jrun_list (o := []) (o' := []) (t := "req.get") rfl (by decide +kernel) s
theorem lit283 (s : List Char) : jrun (.code, s) "        WebTarget target = client.target(config.getTarget()).path(\"" = some (.str, '(' :: s) :=
  jrun_list (o := []) (o' := ['(']) (t := "        WebTarget target = client.target(config.getTarget()).path(\"") rfl (by decide +kernel) s
theorem lit284 (s : List Char) : jrun (.str, s) "        WebTarget target = client.target(config.getTarget()).path(\"" = some (.code, s) :=
  jrun_list (o := []) (o' := []) (t := "        WebTarget target = client.target(config.getTarget()).path(\"") rfl (by decide +kernel) s
theorem lit285 (s : List Char) : jrun (.code, s) "\n            .resolveTemplate(\"" = some (.str, '(' :: s) :=
  jrun_list (o := []) (o' := ['(']) (t := "\n            .resolveTemplate(\"") rfl (by decide +kernel) s
theorem lit286 (s : List Char) : jrun (.code, s) "\", " = some (.str, s) :=
  jrun_list (o := []) (o' := []) (t := "\", ") rfl (by decide +kernel) s
theorem lit287 (s : List Char) : jrun (.str, s) "\", " = some (.code, s) :=
  jrun_list (o := []) (o' := []) (t := "\", ") rfl (by decide +kernel) s
theorem lit288 (s : List Char) : jrun (.code, '(' :: s) ", true)" = some (.code, s) :=
  jrun_list (o := ['(']) (o' := []) (t := ", true)") rfl (by decide +kernel) s
theorem lit289 (s : List Char) : jrun (.code, s) "\n            .queryParam(\"" = some (.str, '(' :: s) :=
  jrun_list (o := []) (o' := ['(']) (t := "\n            .queryParam(\"") rfl (by decide +kernel) s
theorem lit290 (s : List Char) : jrun (.code, s) ";\n        Invocation.Builder inv = target.request(MediaType.APPLICATION_JSON)" = some (.code, s) :=
  jrun_list (o := []) (o' := []) (t := ";\n        Invocation.Builder inv = target.request(MediaType.APPLICATION_JSON)") rfl (by decide +kernel) s
theorem lit291 (s : List Char) : jrun (.code, s) "\n            .header(\"" = some (.str, '(' :: s) :=
  jrun_list (o := []) (o' := ['(']) (t := "\n            .header(\"") rfl (by decide +kernel) s
theorem lit292 (s : List Char) : jrun (.code, s) ";\n        Response response = inv." = some (.code, s) :=
  jrun_list (o := []) (o' := []) (t := ";\n        Response response = inv.") rfl (by decide +kernel) s
theorem lit293 (s : List Char) : jrun (.code, s) "Entity.entity(" = some (.code, '(' :: s) :=
  jrun_list (o := []) (o' := ['(']) (t := "Entity.entity(") rfl (by decide +kernel) s
theorem lit294 (s : List Char) : jrun (.code, '(' :: s) ", MediaType.APPLICATION_JSON)" = some (.code, s) :=
  jrun_list (o := ['(']) (o' := []) (t := ", MediaType.APPLICATION_JSON)") rfl (by decide +kernel) s
theorem lit295 (s : List Char) : jrun (.code, s) "        switch (response.getStatus()) {\n" = some (.code, '{' :: s) :=
  jrun_list (o := []) (o' := ['{']) (t := "        switch (response.getStatus()) {\n") rfl (by decide +kernel) s
theorem lit296 (s : List Char) : jrun (.code, s) "        case " = some (.code, s) :=
  jrun_list (o := []) (o' := []) (t := "        case ") rfl (by decide +kernel) s
theorem lit297 (s : List Char) : jrun (.code, s) ":\n" = some (.code, s) :=
  jrun_list (o := []) (o' := []) (t := ":\n") rfl (by decide +kernel) s
theorem lit298 (s : List Char) : jrun (.code, s) "            return null; //shoudn't this be void?!\n" = some (.code, s) :=
  jrun_list (o := []) (o' := []) (t := "            return null; //shoudn't this be void?!\n") rfl (by decide +kernel) s
theorem lit299 (s : List Char) : jrun (.code, s) " = response.readEntity(" = some (.code, '(' :: s) :=
  jrun_list (o := []) (o' := ['(']) (t := " = response.readEntity(") rfl (by decide +kernel) s
theorem lit300 (s : List Char) : jrun (.code, s) "response.getHeaderString(\"" = some (.str, '(' :: s) :=
  jrun_list (o := []) (o' := ['(']) (t := "response.getHeaderString(\"") rfl (by decide +kernel) s
theorem lit301 (s : List Char) : jrun (.str, s) "response.getHeaderString(\"" = some (.code, s) :=
  jrun_list (o := []) (o' := []) (t := "response.getHeaderString(\"") rfl (by decide +kernel) s
theorem lit302 (s : List Char) : jrun (.code, s) "            return " = some (.code, s) :=
  jrun_list (o := []) (o' := []) (t := "            return ") rfl (by decide +kernel) s
theorem lit303 (s : List Char) : jrun (.code, s) ".builder()\n" = some (.code, s) :=
  jrun_list (o := []) (o' := []) (t := ".builder()\n") rfl (by decide +kernel) s
theorem lit304 (s : List Char) : jrun (.code, s) "                ." = some (.code, s) :=
  jrun_list (o := []) (o' := []) (t := "                .") rfl (by decide +kernel) s
theorem lit305 (s : List Char) : jrun (.code, '(' :: s) ")\n" = some (.code, s) :=
  jrun_list (o := ['(']) (o' := []) (t := ")\n") rfl (by decide +kernel) s
theorem lit306 (s : List Char) : jrun (.code, s) "                .build();\n" = some (.code, s) :=
  jrun_list (o := []) (o' := []) (t := "                .build();\n") rfl (by decide +kernel) s
theorem lit307 (s : List Char) : jrun (.code, s) "            throw response.readEntity(" = some (.code, '(' :: s) :=
  jrun_list (o := []) (o' := ['(']) (t := "            throw response.readEntity(") rfl (by decide +kernel) s
theorem lit308 (s : List Char) : jrun (.code, s) "        default:\n" = some (.code, s) :=
  jrun_list (o := []) (o' := []) (t := "        default:\n") rfl (by decide +kernel) s
theorem lit309 (s : List Char) : jrun (.code, s) "            throw new RuntimeException(\"Unexpected service response status: \" + response.getStatus());\n" = some (.code, s) :=
  jrun_list (o := []) (o' := []) (t := "            throw new RuntimeException(\"Unexpected service response status: \" + response.getStatus());\n") rfl (by decide +kernel) s
theorem lit310 (s : List Char) : jrun (.code, s) "import javax.ws.rs.client.Client;\n" = some (.code, s) :=
  jrun_list (o := []) (o' := []) (t := "import javax.ws.rs.client.Client;\n") rfl (by decide +kernel) s
theorem lit311 (s : List Char) : jrun (.code, s) "import javax.ws.rs.client.ClientBuilder;\n" = some (.code, s) :=
  jrun_list (o := []) (o' := []) (t := "import javax.ws.rs.client.ClientBuilder;\n") rfl (by decide +kernel) s
theorem lit312 (s : List Char) : jrun (.code, s) "import javax.ws.rs.client.Entity;\n" = some (.code, s) :=
  jrun_list (o := []) (o' := []) (t := "import javax.ws.rs.client.Entity;\n") rfl (by decide +kernel) s
theorem lit313 (s : List Char) : jrun (.code, s) "import javax.ws.rs.client.WebTarget;\n" = some (.code, s) :=
  jrun_list (o := []) (o' := []) (t := "import javax.ws.rs.client.WebTarget;\n") rfl (by decide +kernel) s
theorem lit314 (s : List Char) : jrun (.code, s) "import javax.ws.rs.client.Invocation;\n" = some (.code, s) :=
  jrun_list (o := []) (o' := []) (t := "import javax.ws.rs.client.Invocation;\n") rfl (by decide +kernel) s
theorem lit315 (s : List Char) : jrun (.code, s) "import javax.ws.rs.core.MediaType;\n" = some (.code, s) :=
  jrun_list (o := []) (o' := []) (t := "import javax.ws.rs.core.MediaType;\n") rfl (by decide +kernel) s
theorem lit316 (s : List Char) : jrun (.code, s) "import javax.ws.rs.core.Response;\n" = some (.code, s) :=
  jrun_list (o := []) (o' := []) (t := "import javax.ws.rs.core.Response;\n") rfl (by decide +kernel) s
theorem lit317 (s : List Char) : jrun (.code, s) "import javax.ws.rs.WebApplicationException;\n\n" = some (.code, s) :=
  jrun_list (o := []) (o' := []) (t := "import javax.ws.rs.WebApplicationException;\n\n") rfl (by decide +kernel) s
theorem lit318 (s : List Char) : jrun (.code, s) "Client implements " = some (.code, s) :=
  jrun_list (o := []) (o' := []) (t := "Client implements ") rfl (by decide +kernel) s
theorem lit319 (s : List Char) : jrun (.code, s) "    private static Client client = ClientBuilder.newClient();\n" = some (.code, s) :=
  jrun_list (o := []) (o' := []) (t := "    private static Client client = ClientBuilder.newClient();\n") rfl (by decide +kernel) s
theorem lit320 (s : List Char) : jrun (.code, s) "    private static final String base = \"" = some (.str, s) :=
  jrun_list (o := []) (o' := []) (t := "    private static final String base = \"") rfl (by decide +kernel) s
theorem lit321 (s : List Char) : jrun (.str, s) "    private static final String base = \"" = some (.code, s) :=
  jrun_list (o := []) (o' := []) (t := "    private static final String base = \"") rfl (by decide +kernel) s
theorem lit322 (s : List Char) : jrun (.str, s) "\";\n" = some (.code, s) :=
  jrun_list (o := []) (o' := []) (t := "\";\n") rfl (by decide +kernel) s
theorem lit323 (s : List Char) : jrun (.code, s) "    private ClientConfig config;\n\n" = some (.code, s) :=
  jrun_list (o := []) (o' := []) (t := "    private ClientConfig config;\n\n") rfl (by decide +kernel) s
theorem lit324 (s : List Char) : jrun (.code, s) "Client(ClientConfig conf) {\n" = some (.code, '{' :: s) :=
  jrun_list (o := []) (o' := ['{']) (t := "Client(ClientConfig conf) {\n") rfl (by decide +kernel) s
theorem lit325 (s : List Char) : jrun (.code, s) "        config = conf;\n" = some (.code, s) :=
  jrun_list (o := []) (o' := []) (t := "        config = conf;\n") rfl (by decide +kernel) s
theorem lit326 (s : List Char) : jrun (.code, s) "\npublic interface " = some (.code, s) :=
  jrun_list (o := []) (o' := []) (t := "\npublic interface ") rfl (by decide +kernel) s
theorem lit327 (s : List Char) : jrun (.code, '(' :: s) " req);\n" = some (.code, s) :=
  jrun_list (o := ['(']) (o' := []) (t := " req);\n") rfl (by decide +kernel) s
theorem lit328 (s : List Char) : jrun (.code, s) "package " = some (.code, s) :=
  jrun_list (o := []) (o' := []) (t := "package ") rfl (by decide +kernel) s

set_option maxRecDepth 10000 in
/-- Scans a text that is put together of these pieces. -/
macro "jlex" "[" ts:Lean.Parser.Tactic.simpLemma,* "]" : tactic => `(tactic| simp only [jrun_append, jrun_some,
    lit1, lit2, lit3, lit4, lit5, lit6, lit7, lit8, lit9, lit10, lit11, lit12, lit13, lit14, lit15, lit16, lit17, lit18, lit19, lit20, lit21,
    lit22, lit23, lit24, lit25, lit26, lit27, lit28, lit29, lit30, lit31, lit32, lit33, lit34, lit35, lit36, lit37, lit38, lit39, lit40,
    lit41, lit42, lit43, lit44, lit45, lit46, lit47, lit48, lit49, lit50, lit51, lit52, lit53, lit54, lit55, lit56, lit57, lit58, lit59,
    lit60, lit61, lit62, lit63, lit64, lit65, lit66, lit67, lit68, lit69, lit70, lit71, lit72, lit73, lit74, lit75, lit76, lit77, lit78,
    lit79, lit80, lit81, lit82, lit83, lit84, lit85, lit86, lit87, lit88, lit89, lit90, lit91, lit92, lit93, lit94, lit95, lit96, lit97,
    lit98, lit99, lit100, lit101, lit102, lit103, lit104, lit105, lit106, lit107, lit108, lit109, lit110, lit111, lit112, lit113, lit114,
    lit115, lit116, lit117, lit118, lit119, lit120, lit121, lit122, lit123, lit124, lit125, lit126, lit127, lit128, lit129, lit130, lit131,
    lit132, lit133, lit134, lit135, lit136, lit137, lit138, lit139, lit140, lit141, lit142, lit143, lit144, lit145, lit146, lit147, lit148,
    lit149, lit150, lit151, lit152, lit153, lit154, lit155, lit156, lit157, lit158, lit159, lit160, lit161, lit162, lit163, lit164, lit165,
    lit166, lit167, lit168, lit169, lit170, lit171, lit172, lit173, lit174, lit175, lit176, lit177, lit178, lit179, lit180, lit181, lit182,
    lit183, lit184, lit185, lit186, lit187, lit188, lit189, lit190, lit191, lit192, lit193, lit194, lit195, lit196, lit197, lit198, lit199,
    lit200, lit201, lit202, lit203, lit204, lit205, lit206, lit207, lit208, lit209, lit210, lit211, lit212, lit213, lit214, lit215, lit216,
    lit217, lit218, lit219, lit220, lit221, lit222, lit223, lit224, lit225, lit226, lit227, lit228, lit229, lit230, lit231, lit232, lit233,
    lit234, lit235, lit236, lit237, lit238, lit239, lit240, lit241, lit242, lit243, lit244, lit245, lit246, lit247, lit248, lit249, lit250,
    lit251, lit252, lit253, lit254, lit255, lit256, lit257, lit258, lit259, lit260, lit261, lit262, lit263, lit264, lit265, lit266, lit267,
    lit268, lit269, lit270, lit271, lit272, lit273, lit274, lit275, lit276, lit277, lit278, lit279, lit280, lit281, lit282, lit283, lit284,
    lit285, lit286, lit287, lit288, lit289, lit290, lit291, lit292, lit293, lit294, lit295, lit296, lit297, lit298, lit299, lit300, lit301,
    lit302, lit303, lit304, lit305, lit306, lit307, lit308, lit309, lit310, lit311, lit312, lit313, lit314, lit315, lit316, lit317, lit318,
    lit319, lit320, lit321, lit322, lit323, lit324, lit325, lit326, lit327, lit328
    , $ts,*])

theorem lit329 (s : List Char) : jrun (.code, s) "import com.fasterxml.jackson.databind.DeserializationContext;\n" = some (.code, s) :=
  jrun_list (o := []) (o' := []) (t := "import com.fasterxml.jackson.databind.DeserializationContext;\n") rfl (by decide +kernel) s
theorem lit330 (s : List Char) : jrun (.code, s) "import com.fasterxml.jackson.databind.DeserializationFeature;\n" = some (.code, s) :=
  jrun_list (o := []) (o' := []) (t := "import com.fasterxml.jackson.databind.DeserializationFeature;\n") rfl (by decide +kernel) s
theorem lit331 (s : List Char) : jrun (.code, s) "import com.fasterxml.jackson.databind.JsonSerializer;\n" = some (.code, s) :=
  jrun_list (o := []) (o' := []) (t := "import com.fasterxml.jackson.databind.JsonSerializer;\n") rfl (by decide +kernel) s
theorem lit332 (s : List Char) : jrun (.code, s) "import com.fasterxml.jackson.databind.JsonDeserializer;\n" = some (.code, s) :=
  jrun_list (o := []) (o' := []) (t := "import com.fasterxml.jackson.databind.JsonDeserializer;\n") rfl (by decide +kernel) s
theorem lit333 (s : List Char) : jrun (.code, s) "import com.fasterxml.jackson.core.JsonParser;\n" = some (.code, s) :=
  jrun_list (o := []) (o' := []) (t := "import com.fasterxml.jackson.core.JsonParser;\n") rfl (by decide +kernel) s
theorem lit334 (s : List Char) : jrun (.code, s) "import com.fasterxml.jackson.core.JsonGenerator;\n" = some (.code, s) :=
  jrun_list (o := []) (o' := []) (t := "import com.fasterxml.jackson.core.JsonGenerator;\n") rfl (by decide +kernel) s
theorem lit335 (s : List Char) : jrun (.code, s) "import com.fasterxml.jackson.core.JsonProcessingException;\n" = some (.code, s) :=
  jrun_list (o := []) (o' := []) (t := "import com.fasterxml.jackson.core.JsonProcessingException;\n") rfl (by decide +kernel) s
theorem lit336 (s : List Char) : jrun (.code, s) "import com.fasterxml.jackson.databind.SerializerProvider;\n" = some (.code, s) :=
  jrun_list (o := []) (o' := []) (t := "import com.fasterxml.jackson.databind.SerializerProvider;\n") rfl (by decide +kernel) s
theorem lit337 (s : List Char) : jrun (.code, s) "import javax.ws.rs.ext.ParamConverter;\n" = some (.code, s) :=
  jrun_list (o := []) (o' := []) (t := "import javax.ws.rs.ext.ParamConverter;\n") rfl (by decide +kernel) s
theorem lit338 (s : List Char) : jrun (.code, s) "import javax.ws.rs.ext.ParamConverterProvider;\n" = some (.code, s) :=
  jrun_list (o := []) (o' := []) (t := "import javax.ws.rs.ext.ParamConverterProvider;\n") rfl (by decide +kernel) s
theorem lit339 (s : List Char) : jrun (.code, s) "import javax.ws.rs.ext.Provider;\n" = some (.code, s) :=
  jrun_list (o := []) (o' := []) (t := "import javax.ws.rs.ext.Provider;\n") rfl (by decide +kernel) s
theorem lit340 (s : List Char) : jrun (.code, s) "import java.lang.annotation.Annotation;\n" = some (.code, s) :=
  jrun_list (o := []) (o' := []) (t := "import java.lang.annotation.Annotation;\n") rfl (by decide +kernel) s
theorem lit341 (s : List Char) : jrun (.code, s) "import java.lang.reflect.Type;\n" = some (.code, s) :=
  jrun_list (o := []) (o' := []) (t := "import java.lang.reflect.Type;\n") rfl (by decide +kernel) s
theorem lit342 (s : List Char) : jrun (.code, s) "import java.util.UUID;\n" = some (.code, s) :=
  jrun_list (o := []) (o' := []) (t := "import java.util.UUID;\n") rfl (by decide +kernel) s
theorem lit343 (s : List Char) : jrun (.code, s) "public class Util {\n" = some (.code, '{' :: s) :=
  jrun_list (o := []) (o' := ['{']) (t := "public class Util {\n") rfl (by decide +kernel) s
theorem lit344 (s : List Char) : jrun (.code, s) "    static final ObjectMapper om = initMapper();\n" = some (.code, s) :=
  jrun_list (o := []) (o' := []) (t := "    static final ObjectMapper om = initMapper();\n") rfl (by decide +kernel) s
theorem lit345 (s : List Char) : jrun (.code, s) "    static ObjectMapper initMapper() {\n" = some (.code, '{' :: s) :=
  jrun_list (o := []) (o' := ['{']) (t := "    static ObjectMapper initMapper() {\n") rfl (by decide +kernel) s
theorem lit346 (s : List Char) : jrun (.code, s) "        ObjectMapper om = new ObjectMapper();\n" = some (.code, s) :=
  jrun_list (o := []) (o' := []) (t := "        ObjectMapper om = new ObjectMapper();\n") rfl (by decide +kernel) s
theorem lit347 (s : List Char) : jrun (.code, s) "        om.setDefaultPropertyInclusion(JsonInclude.Value.construct(Include.ALWAYS, Include.NON_NULL));\n" = some (.code, s) :=
  jrun_list (o := []) (o' := []) (t := "        om.setDefaultPropertyInclusion(JsonInclude.Value.construct(Include.ALWAYS, Include.NON_NULL));\n") rfl (by decide +kernel) s
theorem lit348 (s : List Char) : jrun (.code, s) "        om.configure(DeserializationFeature.FAIL_ON_UNKNOWN_PROPERTIES, false);\n" = some (.code, s) :=
  jrun_list (o := []) (o' := []) (t := "        om.configure(DeserializationFeature.FAIL_ON_UNKNOWN_PROPERTIES, false);\n") rfl (by decide +kernel) s
theorem lit349 (s : List Char) : jrun (.code, s) "        return om;\n" = some (.code, s) :=
  jrun_list (o := []) (o' := []) (t := "        return om;\n") rfl (by decide +kernel) s
theorem lit350 (s : List Char) : jrun (.code, s) "    public static <T> T fromJson(String jsonData, Class<T> dataType) {\n" = some (.code, '{' :: s) :=
  jrun_list (o := []) (o' := ['{']) (t := "    public static <T> T fromJson(String jsonData, Class<T> dataType) {\n") rfl (by decide +kernel) s
theorem lit351 (s : List Char) : jrun (.code, s) "            return om.readerFor(dataType).readValue(jsonData);\n" = some (.code, s) :=
  jrun_list (o := []) (o' := []) (t := "            return om.readerFor(dataType).readValue(jsonData);\n") rfl (by decide +kernel) s
theorem lit352 (s : List Char) : jrun (.code, s) "            e.printStackTrace();\n" = some (.code, s) :=
  jrun_list (o := []) (o' := []) (t := "            e.printStackTrace();\n") rfl (by decide +kernel) s
theorem lit353 (s : List Char) : jrun (.code, s) "            return null;\n" = some (.code, s) :=
  jrun_list (o := []) (o' := []) (t := "            return null;\n") rfl (by decide +kernel) s
theorem lit354 (s : List Char) : jrun (.code, s) "    public static String toJson(Object o) {\n" = some (.code, '{' :: s) :=
  jrun_list (o := []) (o' := ['{']) (t := "    public static String toJson(Object o) {\n") rfl (by decide +kernel) s
theorem lit355 (s : List Char) : jrun (.code, s) "            Class<?> cls = (o == null)? Object.class : o.getClass();\n" = some (.code, s) :=
  jrun_list (o := []) (o' := []) (t := "            Class<?> cls = (o == null)? Object.class : o.getClass();\n") rfl (by decide +kernel) s
theorem lit356 (s : List Char) : jrun (.code, s) "            return om.writerWithView(cls).writeValueAsString(o);\n" = some (.code, s) :=
  jrun_list (o := []) (o' := []) (t := "            return om.writerWithView(cls).writeValueAsString(o);\n") rfl (by decide +kernel) s
theorem lit357 (s : List Char) : jrun (.code, s) "            return \"?\";\n" = some (.code, s) :=
  jrun_list (o := []) (o' := []) (t := "            return \"?\";\n") rfl (by decide +kernel) s
theorem lit358 (s : List Char) : jrun (.code, s) "    public static String pretty(Object o) {\n" = some (.code, '{' :: s) :=
  jrun_list (o := []) (o' := ['{']) (t := "    public static String pretty(Object o) {\n") rfl (by decide +kernel) s
theorem lit359 (s : List Char) : jrun (.code, s) "            return om.writerWithView(cls).with(SerializationFeature.INDENT_OUTPUT).writeValueAsString(o);\n" = some (.code, s) :=
  jrun_list (o := []) (o' := []) (t := "            return om.writerWithView(cls).with(SerializationFeature.INDENT_OUTPUT).writeValueAsString(o);\n") rfl (by decide +kernel) s
theorem lit360 (s : List Char) : jrun (.code, s) "    public static class InstantSerializer extends JsonSerializer<Instant> {\n" = some (.code, '{' :: s) :=
  jrun_list (o := []) (o' := ['{']) (t := "    public static class InstantSerializer extends JsonSerializer<Instant> {\n") rfl (by decide +kernel) s
theorem lit361 (s : List Char) : jrun (.code, s) "        @Override\n" = some (.code, s) :=
  jrun_list (o := []) (o' := []) (t := "        @Override\n") rfl (by decide +kernel) s
theorem lit362 (s : List Char) : jrun (.code, s) "        public void serialize(Instant value, JsonGenerator jgen, SerializerProvider provider) throws IOException, JsonProcessingException {\n" = some (.code, '{' :: s) :=
  jrun_list (o := []) (o' := ['{']) (t := "        public void serialize(Instant value, JsonGenerator jgen, SerializerProvider provider) throws IOException, JsonProcessingException {\n") rfl (by decide +kernel) s
theorem lit363 (s : List Char) : jrun (.code, s) "            jgen.writeString(value.toString());\n" = some (.code, s) :=
  jrun_list (o := []) (o' := []) (t := "            jgen.writeString(value.toString());\n") rfl (by decide +kernel) s
theorem lit364 (s : List Char) : jrun (.code, s) "    public static class InstantDeserializer extends JsonDeserializer<Instant> {\n" = some (.code, '{' :: s) :=
  jrun_list (o := []) (o' := ['{']) (t := "    public static class InstantDeserializer extends JsonDeserializer<Instant> {\n") rfl (by decide +kernel) s
theorem lit365 (s : List Char) : jrun (.code, s) "        public Instant deserialize(JsonParser jp, DeserializationContext ctxt) throws IOException, JsonProcessingException {\n" = some (.code, '{' :: s) :=
  jrun_list (o := []) (o' := ['{']) (t := "        public Instant deserialize(JsonParser jp, DeserializationContext ctxt) throws IOException, JsonProcessingException {\n") rfl (by decide +kernel) s
theorem lit366 (s : List Char) : jrun (.code, s) "            String s = jp.getText();\n" = some (.code, s) :=
  jrun_list (o := []) (o' := []) (t := "            String s = jp.getText();\n") rfl (by decide +kernel) s
theorem lit367 (s : List Char) : jrun (.code, s) "            return Instant.parse(s);\n" = some (.code, s) :=
  jrun_list (o := []) (o' := []) (t := "            return Instant.parse(s);\n") rfl (by decide +kernel) s
theorem lit368 (s : List Char) : jrun (.code, s) "    @Provider\n" = some (.code, s) :=
  jrun_list (o := []) (o' := []) (t := "    @Provider\n") rfl (by decide +kernel) s
theorem lit369 (s : List Char) : jrun (.code, s) "    public static class InstantConverterProvider implements ParamConverterProvider {\n" = some (.code, '{' :: s) :=
  jrun_list (o := []) (o' := ['{']) (t := "    public static class InstantConverterProvider implements ParamConverterProvider {\n") rfl (by decide +kernel) s
theorem lit370 (s : List Char) : jrun (.code, s) "        @SuppressWarnings(\"unchecked\")\n" = some (.code, s) :=
  jrun_list (o := []) (o' := []) (t := "        @SuppressWarnings(\"unchecked\")\n") rfl (by decide +kernel) s
theorem lit371 (s : List Char) : jrun (.code, s) "        public <T> ParamConverter<T> getConverter(Class<T> rawType, Type genericType, Annotation[] annotations) {\n" = some (.code, '{' :: s) :=
  jrun_list (o := []) (o' := ['{']) (t := "        public <T> ParamConverter<T> getConverter(Class<T> rawType, Type genericType, Annotation[] annotations) {\n") rfl (by decide +kernel) s
theorem lit372 (s : List Char) : jrun (.code, s) "            if (rawType.equals(Instant.class))\n" = some (.code, s) :=
  jrun_list (o := []) (o' := []) (t := "            if (rawType.equals(Instant.class))\n") rfl (by decide +kernel) s
theorem lit373 (s : List Char) : jrun (.code, s) "                return (ParamConverter<T>) new InstantConverter();\n" = some (.code, s) :=
  jrun_list (o := []) (o' := []) (t := "                return (ParamConverter<T>) new InstantConverter();\n") rfl (by decide +kernel) s
theorem lit374 (s : List Char) : jrun (.code, s) "    public static class InstantConverter implements ParamConverter<Instant> {\n" = some (.code, '{' :: s) :=
  jrun_list (o := []) (o' := ['{']) (t := "    public static class InstantConverter implements ParamConverter<Instant> {\n") rfl (by decide +kernel) s
theorem lit375 (s : List Char) : jrun (.code, s) "        public Instant fromString(String value) {\n" = some (.code, '{' :: s) :=
  jrun_list (o := []) (o' := ['{']) (t := "        public Instant fromString(String value) {\n") rfl (by decide +kernel) s
theorem lit376 (s : List Char) : jrun (.code, s) "            if (value != null) {\n" = some (.code, '{' :: s) :=
  jrun_list (o := []) (o' := ['{']) (t := "            if (value != null) {\n") rfl (by decide +kernel) s
theorem lit377 (s : List Char) : jrun (.code, s) "                return Instant.parse(value);\n" = some (.code, s) :=
  jrun_list (o := []) (o' := []) (t := "                return Instant.parse(value);\n") rfl (by decide +kernel) s
theorem lit378 (s : List Char) : jrun (.code, s) "        public String toString(Instant value) {\n" = some (.code, '{' :: s) :=
  jrun_list (o := []) (o' := ['{']) (t := "        public String toString(Instant value) {\n") rfl (by decide +kernel) s
theorem lit379 (s : List Char) : jrun (.code, s) "            return value.toString();\n" = some (.code, s) :=
  jrun_list (o := []) (o' := []) (t := "            return value.toString();\n") rfl (by decide +kernel) s
theorem lit380 (s : List Char) : jrun (.code, s) "    public static <T> String[] validate(T t) {\n" = some (.code, '{' :: s) :=
  jrun_list (o := []) (o' := ['{']) (t := "    public static <T> String[] validate(T t) {\n") rfl (by decide +kernel) s
theorem lit381 (s : List Char) : jrun (.code, s) "        return new String[0]; //TO DO\n" = some (.code, s) :=
  jrun_list (o := []) (o' := []) (t := "        return new String[0]; //TO DO\n") rfl (by decide +kernel) s
theorem javaUtilText_run (s : List Char) : jrun (.code, s) javaUtilText = some (.code, s) := by
  unfold javaUtilText
  simp only [jrun_append, jrun_some,
    lit48, lit218, lit219, lit329, lit220, lit221, lit330, lit331, lit332, lit333, lit334, lit335, lit336, lit337, lit338, lit339, lit340,
    lit341, lit213, lit342, lit241, lit343, lit344, lit345, lit346, lit347, lit348, lit349, lit83, lit350, lit188, lit351, lit252, lit352,
    lit353, lit125, lit354, lit355, lit356, lit357, lit358, lit359, lit360, lit361, lit362, lit363, lit364, lit365, lit366, lit367, lit368,
    lit369, lit370, lit371, lit372, lit373, lit374, lit375, lit376, lit377, lit124, lit378, lit379, lit380, lit381, lit84
    ]

theorem lit382 (s : List Char) : jrun (.code, s) "import com.fasterxml.jackson.databind.annotation.JsonSerialize;\n" = some (.code, s) :=
  jrun_list (o := []) (o' := []) (t := "import com.fasterxml.jackson.databind.annotation.JsonSerialize;\n") rfl (by decide +kernel) s
theorem lit383 (s : List Char) : jrun (.code, s) "import com.fasterxml.jackson.databind.annotation.JsonDeserialize;\n" = some (.code, s) :=
  jrun_list (o := []) (o' := []) (t := "import com.fasterxml.jackson.databind.annotation.JsonDeserialize;\n") rfl (by decide +kernel) s
theorem lit384 (s : List Char) : jrun (.code, s) "@JsonSerialize(using = Timestamp.Serializer.class)\n" = some (.code, s) :=
  jrun_list (o := []) (o' := []) (t := "@JsonSerialize(using = Timestamp.Serializer.class)\n") rfl (by decide +kernel) s
theorem lit385 (s : List Char) : jrun (.code, s) "@JsonDeserialize(using = Timestamp.Deserializer.class)\n" = some (.code, s) :=
  jrun_list (o := []) (o' := []) (t := "@JsonDeserialize(using = Timestamp.Deserializer.class)\n") rfl (by decide +kernel) s
theorem lit386 (s : List Char) : jrun (.code, s) "public class Timestamp implements Comparable<Timestamp> {\n" = some (.code, '{' :: s) :=
  jrun_list (o := []) (o' := ['{']) (t := "public class Timestamp implements Comparable<Timestamp> {\n") rfl (by decide +kernel) s
theorem lit387 (s : List Char) : jrun (.code, s) "    private String repr;\n" = some (.code, s) :=
  jrun_list (o := []) (o' := []) (t := "    private String repr;\n") rfl (by decide +kernel) s
theorem lit388 (s : List Char) : jrun (.code, s) "    public static Timestamp now() {\n" = some (.code, '{' :: s) :=
  jrun_list (o := []) (o' := ['{']) (t := "    public static Timestamp now() {\n") rfl (by decide +kernel) s
theorem lit389 (s : List Char) : jrun (.code, s) "        return new Timestamp(Instant.now());\n" = some (.code, s) :=
  jrun_list (o := []) (o' := []) (t := "        return new Timestamp(Instant.now());\n") rfl (by decide +kernel) s
theorem lit390 (s : List Char) : jrun (.code, s) "    public Timestamp(String repr) {\n" = some (.code, '{' :: s) :=
  jrun_list (o := []) (o' := ['{']) (t := "    public Timestamp(String repr) {\n") rfl (by decide +kernel) s
theorem lit391 (s : List Char) : jrun (.code, s) "        this.repr = repr;\n" = some (.code, s) :=
  jrun_list (o := []) (o' := []) (t := "        this.repr = repr;\n") rfl (by decide +kernel) s
theorem lit392 (s : List Char) : jrun (.code, s) "    public Timestamp(Instant instant) {\n" = some (.code, '{' :: s) :=
  jrun_list (o := []) (o' := ['{']) (t := "    public Timestamp(Instant instant) {\n") rfl (by decide +kernel) s
theorem lit393 (s : List Char) : jrun (.code, s) "        this.repr = instant.toString();\n" = some (.code, s) :=
  jrun_list (o := []) (o' := []) (t := "        this.repr = instant.toString();\n") rfl (by decide +kernel) s
theorem lit394 (s : List Char) : jrun (.code, s) "    \n" = some (.code, s) :=
  jrun_list (o := []) (o' := []) (t := "    \n") rfl (by decide +kernel) s
theorem lit395 (s : List Char) : jrun (.code, s) "        return repr;\n" = some (.code, s) :=
  jrun_list (o := []) (o' := []) (t := "        return repr;\n") rfl (by decide +kernel) s
theorem lit396 (s : List Char) : jrun (.code, s) "    public int compareTo(Timestamp another) {\n" = some (.code, '{' :: s) :=
  jrun_list (o := []) (o' := ['{']) (t := "    public int compareTo(Timestamp another) {\n") rfl (by decide +kernel) s
theorem lit397 (s : List Char) : jrun (.code, s) "        if (another == null) {\n" = some (.code, '{' :: s) :=
  jrun_list (o := []) (o' := ['{']) (t := "        if (another == null) {\n") rfl (by decide +kernel) s
theorem lit398 (s : List Char) : jrun (.code, s) "            return 1;\n" = some (.code, s) :=
  jrun_list (o := []) (o' := []) (t := "            return 1;\n") rfl (by decide +kernel) s
theorem lit399 (s : List Char) : jrun (.code, s) "        return this.asInstant().compareTo(another.asInstant());\n" = some (.code, s) :=
  jrun_list (o := []) (o' := []) (t := "        return this.asInstant().compareTo(another.asInstant());\n") rfl (by decide +kernel) s
theorem lit400 (s : List Char) : jrun (.code, s) "    public Instant asInstant() {\n" = some (.code, '{' :: s) :=
  jrun_list (o := []) (o' := ['{']) (t := "    public Instant asInstant() {\n") rfl (by decide +kernel) s
theorem lit401 (s : List Char) : jrun (.code, s) "        return Instant.parse(repr);\n" = some (.code, s) :=
  jrun_list (o := []) (o' := []) (t := "        return Instant.parse(repr);\n") rfl (by decide +kernel) s
theorem lit402 (s : List Char) : jrun (.code, s) "    public static class Serializer extends JsonSerializer<Timestamp> {\n" = some (.code, '{' :: s) :=
  jrun_list (o := []) (o' := ['{']) (t := "    public static class Serializer extends JsonSerializer<Timestamp> {\n") rfl (by decide +kernel) s
theorem lit403 (s : List Char) : jrun (.code, s) "        public void serialize(Timestamp value, JsonGenerator jgen, SerializerProvider provider) throws IOException, JsonProcessingException {\n" = some (.code, '{' :: s) :=
  jrun_list (o := []) (o' := ['{']) (t := "        public void serialize(Timestamp value, JsonGenerator jgen, SerializerProvider provider) throws IOException, JsonProcessingException {\n") rfl (by decide +kernel) s
theorem lit404 (s : List Char) : jrun (.code, s) "            jgen.writeString(value.repr);\n" = some (.code, s) :=
  jrun_list (o := []) (o' := []) (t := "            jgen.writeString(value.repr);\n") rfl (by decide +kernel) s
theorem lit405 (s : List Char) : jrun (.code, s) "    public static class Deserializer extends JsonDeserializer<Timestamp> {\n" = some (.code, '{' :: s) :=
  jrun_list (o := []) (o' := ['{']) (t := "    public static class Deserializer extends JsonDeserializer<Timestamp> {\n") rfl (by decide +kernel) s
theorem lit406 (s : List Char) : jrun (.code, s) "        public Timestamp deserialize(JsonParser jp, DeserializationContext ctxt) throws IOException, JsonProcessingException {\n" = some (.code, '{' :: s) :=
  jrun_list (o := []) (o' := ['{']) (t := "        public Timestamp deserialize(JsonParser jp, DeserializationContext ctxt) throws IOException, JsonProcessingException {\n") rfl (by decide +kernel) s
theorem lit407 (s : List Char) : jrun (.code, s) "            return new Timestamp(s);\n" = some (.code, s) :=
  jrun_list (o := []) (o' := []) (t := "            return new Timestamp(s);\n") rfl (by decide +kernel) s
theorem javaTimestampText_run (s : List Char) : jrun (.code, s) javaTimestampText = some (.code, s) := by
  unfold javaTimestampText
  simp only [jrun_append, jrun_some,
    lit48, lit213, lit333, lit331, lit382, lit329, lit332, lit383, lit334, lit336, lit335, lit241, lit384, lit385, lit386, lit387, lit388,
    lit389, lit83, lit390, lit391, lit392, lit393, lit394, lit93, lit395, lit396, lit397, lit398, lit125, lit399, lit400, lit401, lit402,
    lit361, lit403, lit404, lit405, lit406, lit366, lit407, lit360, lit362, lit363, lit364, lit365, lit367, lit84
    ]

theorem lit408 (s : List Char) : jrun (.code, s) "@JsonSerialize(using = ServiceException.JSONSerializer.class)\n" = some (.code, s) :=
  jrun_list (o := []) (o' := []) (t := "@JsonSerialize(using = ServiceException.JSONSerializer.class)\n") rfl (by decide +kernel) s
theorem lit409 (s : List Char) : jrun (.code, s) "@JsonDeserialize(using = ServiceException.JSONDeserializer.class)\n" = some (.code, s) :=
  jrun_list (o := []) (o' := []) (t := "@JsonDeserialize(using = ServiceException.JSONDeserializer.class)\n") rfl (by decide +kernel) s
theorem lit410 (s : List Char) : jrun (.code, s) "public class ServiceException extends RuntimeException {\n" = some (.code, '{' :: s) :=
  jrun_list (o := []) (o' := ['{']) (t := "public class ServiceException extends RuntimeException {\n") rfl (by decide +kernel) s
theorem lit411 (s : List Char) : jrun (.code, s) "    public Object entity;\n" = some (.code, s) :=
  jrun_list (o := []) (o' := []) (t := "    public Object entity;\n") rfl (by decide +kernel) s
theorem lit412 (s : List Char) : jrun (.code, s) "    public ServiceException() { super(); }\n" = some (.code, s) :=
  jrun_list (o := []) (o' := []) (t := "    public ServiceException() { super(); }\n") rfl (by decide +kernel) s
theorem lit413 (s : List Char) : jrun (.code, s) "    public ServiceException(String message) { super(message); }\n" = some (.code, s) :=
  jrun_list (o := []) (o' := []) (t := "    public ServiceException(String message) { super(message); }\n") rfl (by decide +kernel) s
theorem lit414 (s : List Char) : jrun (.code, s) "    public ServiceException(String message, Throwable cause) { super(message, cause); }\n" = some (.code, s) :=
  jrun_list (o := []) (o' := []) (t := "    public ServiceException(String message, Throwable cause) { super(message, cause); }\n") rfl (by decide +kernel) s
theorem lit415 (s : List Char) : jrun (.code, s) "    public ServiceException(Throwable cause) { super(cause); }\n" = some (.code, s) :=
  jrun_list (o := []) (o' := []) (t := "    public ServiceException(Throwable cause) { super(cause); }\n") rfl (by decide +kernel) s
theorem lit416 (s : List Char) : jrun (.code, s) "    public ServiceException entity(Object entity) { this.entity = entity; return this; }\n" = some (.code, s) :=
  jrun_list (o := []) (o' := []) (t := "    public ServiceException entity(Object entity) { this.entity = entity; return this; }\n") rfl (by decide +kernel) s
theorem lit417 (s : List Char) : jrun (.code, s) "    public static class ErrorObject {\n" = some (.code, '{' :: s) :=
  jrun_list (o := []) (o' := ['{']) (t := "    public static class ErrorObject {\n") rfl (by decide +kernel) s
theorem lit418 (s : List Char) : jrun (.code, s) "        public String error;\n" = some (.code, s) :=
  jrun_list (o := []) (o' := []) (t := "        public String error;\n") rfl (by decide +kernel) s
theorem lit419 (s : List Char) : jrun (.code, s) "        public ErrorObject(String error) { this.error = error; }\n" = some (.code, s) :=
  jrun_list (o := []) (o' := []) (t := "        public ErrorObject(String error) { this.error = error; }\n") rfl (by decide +kernel) s
theorem lit420 (s : List Char) : jrun (.code, s) "    public static class JSONSerializer extends JsonSerializer<ServiceException> {\n" = some (.code, '{' :: s) :=
  jrun_list (o := []) (o' := ['{']) (t := "    public static class JSONSerializer extends JsonSerializer<ServiceException> {\n") rfl (by decide +kernel) s
theorem lit421 (s : List Char) : jrun (.code, s) "        public void serialize(ServiceException value, JsonGenerator jgen, SerializerProvider provider) throws IOException, JsonProcessingException {\n" = some (.code, '{' :: s) :=
  jrun_list (o := []) (o' := ['{']) (t := "        public void serialize(ServiceException value, JsonGenerator jgen, SerializerProvider provider) throws IOException, JsonProcessingException {\n") rfl (by decide +kernel) s
theorem lit422 (s : List Char) : jrun (.code, s) "            Object tmp = value.entity;\n" = some (.code, s) :=
  jrun_list (o := []) (o' := []) (t := "            Object tmp = value.entity;\n") rfl (by decide +kernel) s
theorem lit423 (s : List Char) : jrun (.code, s) "            if (tmp == null) {\n" = some (.code, '{' :: s) :=
  jrun_list (o := []) (o' := ['{']) (t := "            if (tmp == null) {\n") rfl (by decide +kernel) s
theorem lit424 (s : List Char) : jrun (.code, s) "                tmp = new ErrorObject(value.getMessage());\n" = some (.code, s) :=
  jrun_list (o := []) (o' := []) (t := "                tmp = new ErrorObject(value.getMessage());\n") rfl (by decide +kernel) s
theorem lit425 (s : List Char) : jrun (.code, s) "            jgen.writeObject(tmp);\n" = some (.code, s) :=
  jrun_list (o := []) (o' := []) (t := "            jgen.writeObject(tmp);\n") rfl (by decide +kernel) s
theorem lit426 (s : List Char) : jrun (.code, s) "    public static class JSONDeserializer extends JsonDeserializer<ServiceException> {\n" = some (.code, '{' :: s) :=
  jrun_list (o := []) (o' := ['{']) (t := "    public static class JSONDeserializer extends JsonDeserializer<ServiceException> {\n") rfl (by decide +kernel) s
theorem lit427 (s : List Char) : jrun (.code, s) "        public ServiceException deserialize(JsonParser jp, DeserializationContext ctxt) throws IOException, JsonProcessingException {\n" = some (.code, '{' :: s) :=
  jrun_list (o := []) (o' := ['{']) (t := "        public ServiceException deserialize(JsonParser jp, DeserializationContext ctxt) throws IOException, JsonProcessingException {\n") rfl (by decide +kernel) s
theorem lit428 (s : List Char) : jrun (.code, s) "            ErrorObject tmp = jp.readValueAs(ErrorObject.class);\n" = some (.code, s) :=
  jrun_list (o := []) (o' := []) (t := "            ErrorObject tmp = jp.readValueAs(ErrorObject.class);\n") rfl (by decide +kernel) s
theorem lit429 (s : List Char) : jrun (.code, s) "            return new ServiceException(tmp.error);\n" = some (.code, s) :=
  jrun_list (o := []) (o' := []) (t := "            return new ServiceException(tmp.error);\n") rfl (by decide +kernel) s
theorem javaExceptionText_run (s : List Char) : jrun (.code, s) javaExceptionText = some (.code, s) := by
  unfold javaExceptionText
  simp only [jrun_append, jrun_some,
    lit48, lit382, lit383, lit333, lit329, lit331, lit332, lit334, lit336, lit335, lit241, lit408, lit409, lit410, lit411, lit412, lit413,
    lit414, lit415, lit416, lit417, lit418, lit419, lit83, lit420, lit361, lit421, lit422, lit423, lit424, lit124, lit425, lit125, lit426,
    lit427, lit428, lit429, lit84
    ]

theorem lit430 (s : List Char) : jrun (.code, s) "public interface ClientConfig {\n" = some (.code, '{' :: s) :=
  jrun_list (o := []) (o' := ['{']) (t := "public interface ClientConfig {\n") rfl (by decide +kernel) s
theorem lit431 (s : List Char) : jrun (.code, s) "    public String getTarget();\n" = some (.code, s) :=
  jrun_list (o := []) (o' := []) (t := "    public String getTarget();\n") rfl (by decide +kernel) s
theorem javaClientConfigText_run (s : List Char) : jrun (.code, s) javaClientConfigText = some (.code, s) := by
  unfold javaClientConfigText
  simp only [jrun_append, jrun_some,
    lit48, lit430, lit431, lit84
    ]

end Sadl.JavaLits
