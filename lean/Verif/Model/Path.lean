import Verif.Model.Text
/-
Paths of files: the functions of Go's package path/filepath (Go 1.18, on Unix) that the generators use.
-/
namespace Sadl

/-- `filepath.Clean`: the loop over the elements of a path, from the elements kept so far, the last one first. -/
def cleanParts (rooted : Bool) : List (List Char) → List (List Char) → List (List Char)
  | kept, [] => kept.reverse
  | kept, p :: rest =>
    if p = [] ∨ p = ['.'] then cleanParts rooted kept rest
    else if p = ['.', '.'] then
      match kept with
      | [] => cleanParts rooted (if rooted then [] else [p]) rest
      | k :: kept' => if k = ['.', '.'] then cleanParts rooted (p :: k :: kept') rest else cleanParts rooted kept' rest
    else cleanParts rooted (p :: kept) rest

/-- `filepath.Clean`. -/
def cleanPath (s : String) : String :=
  let cs := s.toList
  if cs = [] then "."
  else
    let rooted := cs.head? = some '/'
    let parts := cleanParts rooted [] (splitAll '/' cs)
    if rooted then String.ofList ('/' :: joinWith '/' parts)
    else if parts = [] then "."
    else String.ofList (joinWith '/' parts)

/-- `filepath.Join` of two elements: elements at the front that are empty are ignored. -/
def joinPath (dir name : String) : String :=
  if dir ≠ "" then cleanPath (dir ++ "/" ++ name)
  else if name ≠ "" then cleanPath name
  else ""

end Sadl
