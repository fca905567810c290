import Verif.Model.Text
/-
The name conversions of the Smithy exporter and importer: smithy/export_smithy.go,
smithy/import_smithy.go.
-/
namespace Sadl
namespace Smithy

/-- smithy/export_smithy.go:370-405 `typeReferenceByName`. -/
def typeReferenceByName (ns name : String) : String :=
  match name with
  | "Bool" => "smithy.api#Boolean"
  | "Int8" => "smithy.api#Byte"
  | "Int16" => "smithy.api#Short"
  | "Int32" => "smithy.api#Integer"
  | "Int64" => "smithy.api#Long"
  | "Float32" => "smithy.api#Float"
  | "Float64" => "smithy.api#Double"
  | "Decimal" => "smithy.api#BigDecimal"
  | "Timestamp" => "smithy.api#Timestamp"
  | "UUID" => "smithy.api#String"
  | "Bytes" => "smithy.api#Blob"
  | "String" => "smithy.api#String"
  | "Array" => "smithy.api#List"
  | "Map" => "smithy.api#Map"
  | "Struct" => "smithy.api#Document"
  | _ => ns ++ "#" ++ name

/-- smithy/import_smithy.go:929-935 `stripNamespace`. -/
def stripNamespace (s : String) : String :=
  match splitFirst '#' s.toList with
  | some (_, r) => String.ofList r
  | none => s

/-- smithy/import_smithy.go:661-703 `shapeRefToTypeRef`. -/
def shapeRefToTypeRef (ref : String) : String :=
  match ref with
  | "smithy.api#Blob" | "Blob" => "Bytes"
  | "smithy.api#Boolean" | "Boolean" => "Bool"
  | "smithy.api#String" | "String" => "String"
  | "smithy.api#Byte" | "Byte" => "Int8"
  | "smithy.api#Short" | "Short" => "Int16"
  | "smithy.api#Integer" | "Integer" => "Int32"
  | "smithy.api#Long" | "Long" => "Int64"
  | "smithy.api#Float" | "Float" => "Float32"
  | "smithy.api#Double" | "Double" => "Float64"
  | "smithy.api#BigInteger" | "BigInteger" => "Decimal"
  | "smithy.api#BigDecimal" | "BigDecimal" => "Decimal"
  | "smithy.api#Timestamp" | "Timestamp" => "Timestamp"
  | "smithy.api#Document" | "Document" => "Struct"
  | _ => stripNamespace ref

/-- smithy/export_smithy.go:778-793 `httpErrorCategory`. -/
def httpErrorCategory (status : Int) : String :=
  if status < 200 then "informational"
  else if status < 300 then "success"
  else if status < 400 then "redirect"
  else if status ≥ 500 then "server"
  else "client"

end Smithy
end Sadl
