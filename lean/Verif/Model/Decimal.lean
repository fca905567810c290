import Verif.Model.Schema
/-
decimal.go: the parts that influence validation.
-/
namespace Sadl

/-- `(*big.Float).Cmp(y) < 0` (math/big, called at model.go:304,310): numeric order. -/
def BigFloat.lt : BigFloat → BigFloat → Bool
  | .inf true, .inf true => false
  | .inf true, _ => true
  | .inf false, _ => false
  | .fin _ _, .inf neg => !neg
  | .fin m e, .fin m' e' =>
    -- compare m*2^e with m'*2^e' after bringing both to the smaller exponent
    if e ≤ e' then decide (m < m' * 2 ^ (e' - e).toNat)
    else decide (m * 2 ^ (e - e').toNat < m')

/-- The dynamic type and value of the `defval interface{}` argument of `DecimalValue`.
`int` is what an untyped integer constant becomes when passed as an interface. -/
inductive DefVal where
  | none
  | dec (d : BigFloat)
  | int (n : Int)
  | int64 (n : Int)
  | int32 (n : Int)
  | int16 (n : Int)
  | int8 (n : Int)
  | float (d : BigFloat)          -- float32, float64
  deriving Repr, DecidableEq

/-- decimal.go:67-91 `DecimalValue`.  The switch has no case for `int`.
All integers of the listed types are exactly representable in a `Decimal`. -/
def decimalValue (val : Option BigFloat) (defval : DefVal) : Option BigFloat :=
  match val with
  | some d => some d
  | none =>
    match defval with
    | .none => none
    | .dec d => some d
    | .int64 n => some (.fin n 0)
    | .int32 n => some (.fin n 0)
    | .int16 n => some (.fin n 0)
    | .int8 n => some (.fin n 0)
    | .float d => some d
    | .int _ => none

end Sadl
