import Verif.Model.Json
import Verif.Spec.Conforms
/-
Specification vocabulary for JSON texts.
-/
namespace Sadl.Spec

/-- Digits only. -/
def Digits (ds : List Char) : Prop := ∀ c ∈ ds, '0' ≤ c ∧ c ≤ '9'

/-- RFC 8259, section 6: an optional minus sign, an integer without leading zeros, an optional
fraction, an optional exponent. -/
def JsonNumber (t : List Char) : Prop := ∃ m i f e : List Char, t = m ++ i ++ f ++ e ∧
  (m = [] ∨ m = ['-']) ∧
  (i = ['0'] ∨ ∃ c ds, i = c :: ds ∧ c ≠ '0' ∧ Digits i) ∧
  (f = [] ∨ ∃ ds, f = '.' :: ds ∧ ds ≠ [] ∧ Digits ds) ∧
  (e = [] ∨ ∃ x s ds, e = x :: s ++ ds ∧ (x = 'e' ∨ x = 'E') ∧ (s = [] ∨ s = ['+'] ∨ s = ['-']) ∧ ds ≠ [] ∧ Digits ds)

/-- The Go library prints the number `f` as a JSON number and parses that text to `f`. -/
def PrintsBack (L : JLib) (f : BigFloat) : Prop :=
  (∀ neg, f ≠ .inf neg) ∧ JsonNumber (L.showFloat f) ∧ L.parseFloat (L.showFloat f) = some f

/-- The values that JSON texts decode to: null, booleans, strings, float64 numbers, and
arrays and objects of such values, where no object has a key twice. -/
inductive JsonShaped (L : JLib) : Value → Prop
  | null : JsonShaped L .null
  | bool (b) : JsonShaped L (.bool b)
  | str (s) : JsonShaped L (.str s)
  | num {f} : PrintsBack L f → JsonShaped L (.float64 f)
  | arr {xs} : (∀ x ∈ xs, JsonShaped L x) → JsonShaped L (.arr xs)
  | obj {kvs : List (String × Value)} : (kvs.map Prod.fst).Nodup → (∀ kv ∈ kvs, JsonShaped L kv.2) → JsonShaped L (.obj kvs)

/-- Arrays and objects are nested at most `n` deep. -/
inductive NestedAtMost : Nat → Value → Prop
  | leaf {n v} : (∀ xs, v ≠ .arr xs) → (∀ kvs, v ≠ .obj kvs) → NestedAtMost n v
  | arr {n xs} : (∀ x ∈ xs, NestedAtMost n x) → NestedAtMost (n + 1) (.arr xs)
  | obj {n} {kvs : List (String × Value)} : (∀ kv ∈ kvs, NestedAtMost n kv.2) → NestedAtMost (n + 1) (.obj kvs)

/-- A character that stands for itself inside a JSON string literal. -/
def PlainChar (c : Char) : Prop := c ≠ '"' ∧ c ≠ '\\' ∧ ' ' ≤ c

end Sadl.Spec

namespace Sadl

mutual
/-- The value with the keys of all objects sorted. -/
def canon : Value → Value
  | .arr xs => .arr (canonItems xs)
  | .obj kvs => .obj (jSort (canonMembers kvs))
  | v => v
def canonItems : List Value → List Value
  | [] => []
  | x :: r => canon x :: canonItems r
def canonMembers : List (String × Value) → List (String × Value)
  | [] => []
  | (k, x) :: r => (k, canon x) :: canonMembers r
end

end Sadl
