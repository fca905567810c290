import Verif.Model.Basic
/-
Go library functions on strings used all over the repository (package `strings`),
on lists of characters.  Go indexes bytes; the separators used are ASCII, so for valid
UTF-8 the results agree.
-/
namespace Sadl

/-- `strings.Index(s, string(c))` as split position: the part before the first `c` and
the part after it; `none` when `c` does not occur. -/
def splitFirst (c : Char) : List Char → Option (List Char × List Char)
  | [] => none
  | x :: r =>
    if x = c then some ([], r)
    else match splitFirst c r with
      | some (a, b) => some (x :: a, b)
      | none => none

/-- The bytes of a Go string holding the given characters (its UTF-8 encoding). -/
def bytesOf (s : List Char) : List UInt8 := s.flatMap String.utf8EncodeChar

/-- `len(s)`: the number of bytes. -/
def byteLen (s : List Char) : Nat := (bytesOf s).length

/-- `strings.Split(s, string(c))`. -/
def splitAll (c : Char) : List Char → List (List Char)
  | [] => [[]]
  | x :: r =>
    if x = c then [] :: splitAll c r
    else match splitAll c r with
      | [] => [[x]]
      | w :: ws => (x :: w) :: ws

/-- `strings.Join(parts, string(c))`. -/
def joinWith (c : Char) : List (List Char) → List Char
  | [] => []
  | [w] => w
  | w :: ws => w ++ c :: joinWith c ws

/-- `strings.HasSuffix(s, string(c))`. -/
def endsWith (c : Char) (s : List Char) : Bool := s.getLast? == some c

end Sadl
