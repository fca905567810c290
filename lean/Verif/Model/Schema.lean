import Verif.Model.Basic
/-
The data model: schema.go, plus the dynamic values (`interface{}`) that the code
inspects.
-/
namespace Sadl

/-- Value of a Go `*big.Float` (the representation of `sadl.Decimal`, decimal.go:12-15):
`fin m e` is `m * 2^e`; `inf true` is minus infinity.  The precision attribute and the
sign of zero are not modelled (they do not influence `Cmp`). -/
inductive BigFloat where
  | fin (m : Int) (e : Int)
  | inf (neg : Bool)
  deriving Repr, DecidableEq

/-- Dynamic Go values (`interface{}`), one constructor per dynamic type that some
`switch v.(type)` of the repository distinguishes; `other` is any further type.
`null` is the nil interface.  Pointers are never nil inside an interface here. -/
inductive Value where
  | null
  | bool (b : Bool)
  | boolPtr (b : Bool)
  | str (s : String)
  | strPtr (s : String)
  | dec (d : BigFloat)            -- *Decimal
  | uuid (s : String)             -- sadl.UUID
  | tsPtr                         -- *Timestamp
  | int (n : Int)
  | int64 (n : Int)
  | float64 (d : BigFloat)
  | arr (xs : List Value)         -- []interface{}
  | strArr (xs : List String)     -- []string
  | obj (kvs : List (String × Value)) -- map[string]interface{}
  | other (kind : String)
  deriving Repr

/-- schema.go:64-68 `EnumElementDef`. -/
structure EnumElementDef where
  symbol : String
  comment : String := ""
  annotations : GoMap String := []
  deriving Repr, DecidableEq

mutual
/-- schema.go:39-55 `TypeSpec`.  `values = none` is the nil slice. -/
structure TypeSpec where
  type : String := ""
  pattern : String := ""
  values : Option (List String) := none
  minSize : Option Int := none
  maxSize : Option Int := none
  fields : List StructFieldDef := []
  elements : List EnumElementDef := []
  min : Option BigFloat := none
  max : Option BigFloat := none
  items : String := ""
  keys : String := ""
  variants : List UnionVariantDef := []
  unit : String := ""
  value : String := ""
  reference : String := ""

/-- schema.go:70-77 `StructFieldDef`; the embedded `TypeSpec` is the field `ts`;
`default = null` means no default (nil interface). -/
structure StructFieldDef where
  name : String
  comment : String := ""
  annotations : GoMap String := []
  required : Bool := false
  default : Value := .null
  ts : TypeSpec

/-- schema.go:79-84 `UnionVariantDef`. -/
structure UnionVariantDef where
  name : String
  comment : String := ""
  annotations : GoMap String := []
  ts : TypeSpec
end

instance : Inhabited TypeSpec := ⟨{}⟩

/-- schema.go:57-62 `TypeDef`. -/
structure TypeDef where
  name : String
  comment : String := ""
  annotations : GoMap String := []
  ts : TypeSpec := {}

/-- schema.go:86-92 `ExampleDef`. -/
structure ExampleDef where
  target : String
  name : String := ""
  «example» : Value := .null
  comment : String := ""
  annotations : GoMap String := []

/-- schema.go:107-112 `OperationOutput`. -/
structure OperationOutput where
  name : String
  comment : String := ""
  annotations : GoMap String := []
  ts : TypeSpec := {}

/-- schema.go:94-101 `OperationDef`; an `OperationInput` is just an embedded
`StructFieldDef` (schema.go:103-105). -/
structure OperationDef where
  name : String
  comment : String := ""
  annotations : GoMap String := []
  inputs : List StructFieldDef := []
  outputs : List OperationOutput := []
  exceptions : List String := []

/-- schema.go:126-131 `HttpParamSpec`; the embedded `StructFieldDef` is `field`. -/
structure HttpParamSpec where
  header : String := ""
  query : String := ""
  path : Bool := false
  field : StructFieldDef

/-- schema.go:133-138 `HttpExpectedSpec`. -/
structure HttpExpectedSpec where
  outputs : List HttpParamSpec := []
  status : Int := 0
  comment : String := ""
  annotations : GoMap String := []

/-- schema.go:140-145 `HttpExceptionSpec`. -/
structure HttpExceptionSpec where
  type : String
  status : Int := 0
  comment : String := ""
  annotations : GoMap String := []
  deriving DecidableEq

/-- schema.go:114-124 `HttpDef`. -/
structure HttpDef where
  name : String := ""
  resource : String := ""
  comment : String := ""
  annotations : GoMap String := []
  method : String := ""
  path : String := ""
  inputs : List HttpParamSpec := []
  expected : Option HttpExpectedSpec := none
  exceptions : List HttpExceptionSpec := []

/-- schema.go:25-37 `Schema`. -/
structure Schema where
  sadl : String := ""
  name : String := ""
  «namespace» : String := ""
  version : String := ""
  comment : String := ""
  types : List TypeDef := []
  examples : List ExampleDef := []
  operations : List OperationDef := []
  http : List HttpDef := []
  base : String := ""
  annotations : GoMap String := []

end Sadl
