/-
What an HTTP path template is, and where a parameter of an HTTP action comes from; stated
on the characters of the template only.
-/
namespace Sadl.Spec

/-- A well-formed path: characters other than braces, and variables `{...}` whose text has
neither braces nor a slash. -/
inductive Template : List Char → Prop
  | nil : Template []
  | char {c r} : c ≠ '{' → c ≠ '}' → Template r → Template (c :: r)
  | var {w r} : (∀ c ∈ w, c ≠ '{' ∧ c ≠ '}' ∧ c ≠ '/') → Template r → Template ('{' :: w ++ '}' :: r)

/-- `p` is the part of the template before its query part, `q` is the query part. -/
def PathAndQuery (template p q : List Char) : Prop :=
  '?' ∉ p ∧ (template = p ++ '?' :: q ∨ (template = p ∧ q = []))

/-- `ws` are the pieces of `s` between the occurrences of `c`. -/
def Pieces (c : Char) (s : List Char) (ws : List (List Char)) : Prop :=
  ws ≠ [] ∧ (∀ w ∈ ws, c ∉ w) ∧ List.intercalate [c] ws = s

/-- The variable of a parameter: its name in braces. -/
def braced (name : String) : List Char := '{' :: name.toList ++ ['}']

/-- `sub` occurs in `s`. -/
def Occurs (sub s : List Char) : Prop := ∃ a b, s = a ++ sub ++ b

end Sadl.Spec
