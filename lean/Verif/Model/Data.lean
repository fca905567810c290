import Verif.Model.Schema
/-
data.go and struct_helpers.go: dynamically typed configuration data.
A Go map shared between two `Data` objects is updated through both; the model has value
semantics, so it speaks about one `Data` object that nobody else writes to.
-/
namespace Sadl

/-- data.go:82-89 `Data.AsMap`, struct_helpers.go:22-29 `AsMap`: `none` is the nil map. -/
def asMap : Value → Option (GoMap Value)
  | .obj kvs => some kvs
  | _ => none

/-- data.go:68-76 `Put`: new contents of the `Data` object. -/
def dataPut (data : Value) (key : String) (value : Value) : Value :=
  let data := match data with
    | .null => .obj []
    | d => d
  match asMap data with
  | some m => .obj (mset m key value)
  | none => data

/-- data.go:104-116: the loop over several keys.  A key that is missing in the current map
is skipped. -/
def getLoop (m : GoMap Value) : List String → Value
  | [] => .null
  | key :: rest =>
    match mget m key with
    | some v =>
      if rest = [] then v
      else match v with
        | .obj mm => getLoop mm rest
        | _ => .null
    | none => getLoop m rest

/-- data.go:95-120 `get` (and 91-93 `Get`).  `null` is Go's nil. -/
def dataGet (data : Value) (keys : List String) : Value :=
  match asMap data with
  | none => .null
  | some m =>
    match keys with
    | [key] => match mget m key with
      | some v => v
      | none => .null
    | _ => getLoop m keys

/-- data.go:122-124 `Has`. -/
def dataHas (data : Value) (keys : List String) : Bool :=
  match dataGet data keys with
  | .null => false
  | _ => true

/-- struct_helpers.go:31-38 `AsArray`; the nil slice is `none`. -/
def asArray : Value → Option (List Value)
  | .arr xs => some xs
  | _ => none

/-- struct_helpers.go:58-68 `AsString`. -/
def asString : Value → String
  | .str s => s
  | .strPtr s => s
  | _ => ""

/-- struct_helpers.go:40-56 `AsStringArray`: `[]` stands for the nil slice as well, which
Go programs cannot tell from an empty one by `len` or `range`. -/
def asStringArrayLoop : List Value → Option (List String)
  | [] => some []
  | .str s :: r => (asStringArrayLoop r).map (s :: ·)
  | .strPtr s :: r => (asStringArrayLoop r).map (s :: ·)
  | _ :: _ => none

/-- struct_helpers.go:40-56 `AsStringArray`. -/
def asStringArray (v : Value) : List String :=
  match asArray v with
  | some xs => (asStringArrayLoop xs).getD []
  | none => []

/-- data.go:150-157 `Data.GetStringArray`. -/
def dataGetStringArray (data : Value) (keys : List String) : List String :=
  ((asArray (dataGet data keys)).getD []).map asString

/-- struct_helpers.go:70-80 `AsBool`. -/
def asBool : Value → Bool
  | .null => false
  | .bool b => b
  | .str s => s ≠ "false"
  | _ => true

/-- `int(f)` for a float64 `f` within the range of `int`: truncation towards zero.
Outside that range (and for infinities) Go leaves the result to the implementation,
represented by `wild`. -/
def truncInt (wild : Int) : BigFloat → Int
  | .fin m e =>
    let n := if 0 ≤ e then m * 2 ^ e.toNat else m.tdiv (2 ^ (-e).toNat)
    if -(2 : Int) ^ 63 ≤ n ∧ n < 2 ^ 63 then n else wild
  | .inf _ => wild

/-- struct_helpers.go:82-92 `AsInt` (`int32` values are represented as `other`-free: the
model's values have no int32, so that case is left out). -/
def asInt (wild : Int) : Value → Int
  | .float64 f => truncInt wild f
  | .int n => n
  | _ => 0

/-- struct_helpers.go:94-99 `AsInt64`. -/
def asInt64 (wild : Int) : Value → Int
  | .float64 f => truncInt wild f
  | _ => 0

/-- struct_helpers.go:108-117 `AsDecimal`. -/
def asDecimal : Value → Option BigFloat
  | .dec d => some d
  | _ => none

end Sadl
