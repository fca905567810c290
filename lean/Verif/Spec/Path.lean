import Verif.Model.Text
/-
What a path means: where one ends up by following it.
-/
namespace Sadl.Spec
open Sadl

/-- Following the elements of a path from a place, which is given by the names of the directories above it, the innermost first.
(Symbolic links are not followed.) -/
def walk : List (List Char) → List (List Char) → List (List Char)
  | place, [] => place
  | place, p :: rest =>
    if p = [] ∨ p = ['.'] then walk place rest
    else if p = ['.', '.'] then walk place.tail rest
    else walk (p :: place) rest

/-- The place that a path means in the working directory `cwd`. -/
def Denotes (cwd : List (List Char)) (path : String) : List (List Char) :=
  walk (if path.toList.head? = some '/' then [] else cwd) (splitAll '/' path.toList)

end Sadl.Spec
