import Verif.Model.Swagger
/-
data.go and struct_helpers.go: the accessors of configuration data by kind.
-/
namespace Sadl

/-- data.go:138-140 `Data.GetInt64`. -/
def dataGetInt64 (wild : Int) (data : Value) (keys : List String) : Int := asInt64 wild (dataGet data keys)
/-- data.go:142-144 `Data.GetFloat64`. -/
def dataGetFloat64 (data : Value) (keys : List String) : BigFloat := asFloat64 (dataGet data keys)
/-- data.go:146-148 `Data.GetArray`; the nil slice is `none`. -/
def dataGetArray (data : Value) (keys : List String) : Option (List Value) := asArray (dataGet data keys)
/-- data.go:159-161 `Data.GetMap`; the nil map is `none`. -/
def dataGetMap (data : Value) (keys : List String) : Option (GoMap Value) := asMap (dataGet data keys)
/-- data.go:163-165 `Data.GetData`: a `Data` object with the value. -/
def dataGetData (data : Value) (keys : List String) : Value := dataGet data keys
/-- data.go:167-169 `Data.GetDecimal`; the nil pointer is `none`. -/
def dataGetDecimal (data : Value) (keys : List String) : Option BigFloat := asDecimal (dataGet data keys)
/-- data.go:78-80 `IsNil`. -/
def dataIsNil : Value → Bool
  | .null => true
  | _ => false

/-- struct_helpers.go:119-126 `Get`; the nil map is `none`. -/
def mapGet (m : Option (GoMap Value)) (key : String) : Value :=
  match m with
  | some kvs => (mget kvs key).getD .null
  | none => .null
/-- struct_helpers.go:128-130 `GetString`. -/
def mapGetString (m : Option (GoMap Value)) (key : String) : String := asString (mapGet m key)
/-- struct_helpers.go:131-133 `GetStringArray`. -/
def mapGetStringArray (m : Option (GoMap Value)) (key : String) : List String := asStringArray (mapGet m key)
/-- struct_helpers.go:134-136 `GetBool`. -/
def mapGetBool (m : Option (GoMap Value)) (key : String) : Bool := asBool (mapGet m key)
/-- struct_helpers.go:137-139 `GetInt`. -/
def mapGetInt (wild : Int) (m : Option (GoMap Value)) (key : String) : Int := asInt wild (mapGet m key)
/-- struct_helpers.go:140-142 `GetInt64`. -/
def mapGetInt64 (wild : Int) (m : Option (GoMap Value)) (key : String) : Int := asInt64 wild (mapGet m key)
/-- struct_helpers.go:143-145 `GetArray`. -/
def mapGetArray (m : Option (GoMap Value)) (key : String) : Option (List Value) := asArray (mapGet m key)
/-- struct_helpers.go:146-148 `GetMap`. -/
def mapGetMap (m : Option (GoMap Value)) (key : String) : Option (GoMap Value) := asMap (mapGet m key)
/-- struct_helpers.go:149-151 `GetDecimal`. -/
def mapGetDecimal (m : Option (GoMap Value)) (key : String) : Option BigFloat := asDecimal (mapGet m key)

end Sadl
