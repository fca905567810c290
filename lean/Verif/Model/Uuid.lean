import Verif.Model.Text
/-
uuid.go
-/
namespace Sadl

/-- uuid.go:25-33 `ParseUUID`; the empty string is the "not a UUID" answer.  Indexing is
by byte, as in Go. -/
def parseUUID (text : String) : String :=
  let b := bytesOf text.toList
  if b.length ≠ 36 then ""
  else if b[8]? ≠ some 45 ∨ b[13]? ≠ some 45 ∨ b[18]? ≠ some 45 ∨ b[23]? ≠ some 45 then ""
  else text

end Sadl
