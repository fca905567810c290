import Verif.Model.Model
import Verif.Model.Decimal
import Verif.Model.Uuid
/-
model.go:159-469: validation of values against types.

Error texts are abbreviated; the `context` argument only occurs in error texts and is
dropped.
-/
namespace Sadl

/-- Behaviour of library code that validation calls (regexp, math/big, time).  The
theorems hold for every such behaviour. -/
structure Lib where
  /-- `regexp.Compile(pat)` and `MatchString(s)`; `none` when the pattern is malformed. -/
  regexMatch : String → String → Option Bool
  /-- decimal.go:32-38 `ParseDecimal`; `none` on error. -/
  parseDecimal : String → Option BigFloat
  /-- timestamp.go:40-55 `ParseTimestamp` returns no error. -/
  timestampOk : String → Bool

/-- Result of a validation: `none` is "still running when the fuel ran out". -/
abbrev VRes := Option (Except String Unit)

/-- no error -/
def vok : VRes := some (.ok ())
/-- an error -/
def verr (msg : String) : VRes := some (.error msg)

/-- Go's `if err != nil { return err }; k`. -/
def VRes.andThen (r : VRes) (k : VRes) : VRes :=
  match r with
  | none => none
  | some (.error e) => some (.error e)
  | some (.ok _) => k

/-- A Go loop returning the first error of its body. -/
def forEach {α : Type} (f : α → VRes) : List α → VRes
  | [] => vok
  | x :: xs => (f x).andThen (forEach f xs)

/-- model.go:210-216 `ValidateBool`. -/
def validateBool (v : Value) : VRes :=
  match v with
  | .bool _ => vok
  | .boolPtr _ => vok
  | _ => verr "Not a valid Bool"

/-- model.go:218-235 `ValidateUUID`. -/
def validateUUID (v : Value) : VRes :=
  match v with
  | .uuid _ => vok
  | .strPtr s => if s ≠ "" ∧ parseUUID s ≠ "" then vok else verr "Not a valid UUID"
  | .str s => if s ≠ "" ∧ parseUUID s ≠ "" then vok else verr "Not a valid UUID"
  | _ => verr "Not a valid UUID"

/-- model.go:258-274 `ValidateEnum`. -/
def validateEnum (td : TypeSpec) (v : Value) : VRes :=
  let s := match v with
    | .strPtr s => s
    | .str s => s
    | _ => ""
  if s ≠ "" ∧ td.elements.any (fun el => el.symbol == s) then vok
  else verr "Not a valid Enum"

/-- model.go:283-300: the limits used by `ValidateNumber`.  `math.MinInt8` etc. are
untyped constants, so they arrive in `DecimalValue` as `int`. -/
def numberLimits (td : TypeSpec) : Option BigFloat × Option BigFloat :=
  match td.type with
  | "Decimal" | "Float64" | "Float32" => (decimalValue td.min .none, decimalValue td.max .none)
  | "Int64" => (decimalValue td.min (.int (-9223372036854775808)), decimalValue td.max (.int 9223372036854775807))
  | "Int32" => (decimalValue td.min (.int (-2147483648)), decimalValue td.max (.int 2147483647))
  | "Int16" => (decimalValue td.min (.int (-32768)), decimalValue td.max (.int 32767))
  | "Int8" => (decimalValue td.min (.int (-128)), decimalValue td.max (.int 127))
  | _ => (none, none)

/-- model.go:302-307: `minval != nil && nval.Cmp(nmin) < 0`. -/
def numBelow (minval : Option BigFloat) (n : BigFloat) : Bool :=
  match minval with
  | some lo => n.lt lo
  | none => false

/-- model.go:308-313: `maxval != nil && nval.Cmp(nmax) > 0`. -/
def numAbove (maxval : Option BigFloat) (n : BigFloat) : Bool :=
  match maxval with
  | some hi => hi.lt n
  | none => false

/-- model.go:276-319 `ValidateNumber`. -/
def validateNumber (td : TypeSpec) (v : Value) : VRes :=
  match v with
  | .dec n =>
    let (minval, maxval) := numberLimits td
    if numBelow minval n then verr "Numeric value less than the minimum allowed"
    else if numAbove maxval n then verr "Numeric value greater than the maximum allowed"
    else vok
  | _ => verr "Not a number"

/-- model.go:378-380, 409-411, 427-429: `td.MinSize != nil && n < int(*td.MinSize)`. -/
def belowMin (minSize : Option Int) (n : Int) : Bool :=
  match minSize with
  | some k => decide (n < k)
  | none => false

/-- model.go:373-375, 404-406, 432-434: `td.MaxSize != nil && n > int(*td.MaxSize)`. -/
def aboveMax (maxSize : Option Int) (n : Int) : Bool :=
  match maxSize with
  | some k => decide (n > k)
  | none => false

/-- model.go:418-456 `ValidateString`. -/
def validateString (lib : Lib) (td : TypeSpec) (v : Value) : VRes :=
  let s? := match v with
    | .strPtr s => some s
    | .str s => some s
    | _ => none
  match s? with
  | none => verr "not a valid String"
  | some s =>
    let n : Int := byteLen s.toList
    if belowMin td.minSize n then
      verr "'minsize' constraint failed"
    else if aboveMax td.maxSize n then
      verr "'maxsize' constraint failed"
    else match td.values with
      | some vals => if vals.any (fun x => s == x) then vok else verr "'values' constraint failed"
      | none =>
        if td.pattern ≠ "" then
          match lib.regexMatch td.pattern s with
          | none => verr "Bad pattern specified in String type definition"
          | some true => vok
          | some false => verr "'pattern' constraint failed"
        else vok

/-- model.go:458-469 `ValidateTimestamp`. -/
def validateTimestamp (lib : Lib) (v : Value) : VRes :=
  match v with
  | .tsPtr => vok
  | .strPtr s => if lib.timestampOk s then vok else verr "format invalid"
  | _ => verr "format invalid"

/-- model.go:321-328 `IsStructField`. -/
def isStructField (ts : TypeSpec) (name : String) : Bool :=
  ts.fields.any (fun f => name == f.name)

/-- model.go:373-382, 404-413: the size checks shared by arrays and maps. -/
def validateSize (td : TypeSpec) (n : Nat) : VRes :=
  if aboveMax td.maxSize n then
    verr "too large"
  else if belowMin td.minSize n then
    verr "too small"
  else vok

section
variable (lib : Lib) (m : Model) (recur : TypeSpec → Value → VRes)

/-- model.go:159-168 `Validate`, with the recursive call abstracted. -/
def validateNamed (name : String) (v : Value) : VRes :=
  match m.findType name with
  | none => verr ("Undefined type: " ++ name)
  | some td => recur td.ts v

/-- model.go:237-256 `ValidateUnitValue`. -/
def validateUnitValue (td : TypeSpec) (v : Value) : VRes :=
  match v with
  | .strPtr s =>
    match splitFirst ' ' s.toList with
    | some (val, unit) =>
      if byteLen val ≥ 3 then
        match lib.parseDecimal (String.ofList val) with
        | none => verr "Bad Decimal number"
        | some d =>
          (validateNamed m recur td.value (.dec d)).andThen
            (validateNamed m recur td.unit (.str (String.ofList unit)))
      else verr "Not a valid UnitValue"
    | none => verr "Not a valid UnitValue"
  | _ => verr "Not a valid UnitValue"

/-- model.go:330-354 `ValidateStruct`. -/
def validateStruct (td : TypeSpec) (v : Value) : VRes :=
  match v with
  | .obj kvs =>
    (forEach (fun kv => if isStructField td kv.1 then vok else verr "Undefined field") kvs).andThen
      (forEach (fun f =>
        match mget kvs f.name with
        | some fv => recur f.ts fv
        | none => if f.required then verr "missing required field" else vok) td.fields)
  | _ => verr "Not a Struct"

/-- model.go:356-385 `ValidateArray`. -/
def validateArray (td : TypeSpec) (v : Value) : VRes :=
  match v with
  | .arr xs =>
    (if td.items ≠ "Any" then
      match m.findType td.items with
      | none => verr ("Undefined type: " ++ td.items)
      | some tdi => forEach (fun x => recur tdi.ts x) xs
    else vok).andThen (validateSize td xs.length)
  | _ => verr "Not an Array"

/-- model.go:387-416 `ValidateMap`. -/
def validateMap (td : TypeSpec) (v : Value) : VRes :=
  match v with
  | .obj kvs =>
    (if td.items ≠ "Any" then
      match m.findType td.items with
      | none => verr ("Undefined type: " ++ td.items)
      | some tdi => forEach (fun kv => recur tdi.ts kv.2) kvs
    else vok).andThen (validateSize td kvs.length)
  | _ => verr "Not an Array"

/-- One unfolding of model.go:170-208 `ValidateAgainstTypeSpec`. -/
def validateStep (td : TypeSpec) (v : Value) : VRes :=
  match td.type with
  | "Timestamp" => validateTimestamp lib v
  | "String" => validateString lib td v
  | "Struct" => validateStruct recur td v
  | "Array" => validateArray m recur td v
  | "Map" => validateMap m recur td v
  | "Int8" | "Int16" | "Int32" | "Int64" | "Float32" | "Float64" | "Decimal" => validateNumber td v
  | "Bool" => validateBool v
  | "Enum" => validateEnum td v
  | "UnitValue" => validateUnitValue lib m recur td v
  | "UUID" => validateUUID v
  | "Bytes" => vok
  | "Any" => vok
  | other => match m.findType other with
    | none => verr ("no such type " ++ other)
    | some t => recur t.ts v
end

/-- model.go:170-208 `ValidateAgainstTypeSpec`, running at most `fuel` nested calls. -/
def validateSpec (lib : Lib) (m : Model) : Nat → TypeSpec → Value → VRes
  | 0, _, _ => none
  | fuel + 1, td, v => validateStep lib m (validateSpec lib m fuel) td v

/-- model.go:159-168 `Validate`. -/
def validate (lib : Lib) (m : Model) (fuel : Nat) (name : String) (v : Value) : VRes :=
  validateNamed m (validateSpec lib m fuel) name v

/-- A call `Validate(_, name, v)` (model.go:159) returns nil. -/
def Accepts (lib : Lib) (m : Model) (name : String) (v : Value) : Prop :=
  ∃ fuel, validate lib m fuel name v = some (.ok ())

/-- A call `Validate(_, name, v)` (model.go:159) returns an error. -/
def Rejects (lib : Lib) (m : Model) (name : String) (v : Value) : Prop :=
  ∃ fuel e, validate lib m fuel name v = some (.error e)

/-- A call `Validate(_, name, v)` (model.go:159) never returns. -/
def RunsForever (lib : Lib) (m : Model) (name : String) (v : Value) : Prop :=
  ∀ fuel, validate lib m fuel name v = none

end Sadl
