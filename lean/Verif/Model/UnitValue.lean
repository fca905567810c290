import Verif.Model.Validate
/-
unitvalue.go
-/
namespace Sadl

/-- unitvalue.go:18-33 `ParseUnitValue`; `none` on error. -/
def parseUnitValue (lib : Lib) (repr : String) : Option (BigFloat × String) :=
  match splitFirst ' ' repr.toList with
  | some (val, unit) =>
    if byteLen val > 0 then
      match lib.parseDecimal (String.ofList val) with
      | some d => if byteLen unit > 0 then some (d, String.ofList unit) else none
      | none => none
    else none
  | none => none

/-- unitvalue.go:14-16 `(*UnitValue).String`; `showDecimal` is the `%v` formatting of the
decimal (math/big). -/
def unitValueString (showDecimal : BigFloat → String) (d : BigFloat) (unit : String) : String :=
  showDecimal d ++ " " ++ unit

end Sadl
